import Verif.Model.Key
import Verif.Model.MapApi
import Verif.Model.SetApi

/-!
# `len` on machine words

`Model/Map*.lean` and `Model/SetStorage.lean` add up `len` in natural numbers. Here the same functions are written on
`usize` values of `w` bits, in the order of evaluation of the source: `0 + a + b + c` is `((0 + a) + b) + c`. The
parameter `checked` says whether the crate is compiled with overflow checks (the default of debug builds: `+` panics) or
without (release builds: `+` wraps around).
-/

set_option autoImplicit false

namespace FixedMap

/-- `a + b` on `usize`. -/
def addWord {w : Nat} (checked : Bool) (a b : BitVec w) : Res (BitVec w) :=
  if checked && decide (2 ^ w ≤ a.toNat + b.toNat) then .panic else .ok (a + b)

/-- `usize::saturating_add` -/
def saturatingAdd {w : Nat} (a b : BitVec w) : BitVec w :=
  if 2 ^ w ≤ a.toNat + b.toNat then BitVec.allOnes w else a + b

/-- `usize::from(b)` -/
def wordOfBool (w : Nat) (b : Bool) : BitVec w := BitVec.ofNat w b.toNat

/-- `acc + usize::from(a) + usize::from(b) + …` -/
def addFlags {w : Nat} (checked : Bool) : List Bool → BitVec w → Res (BitVec w)
  | [], acc => .ok acc
  | b :: bs, acc => (addWord checked acc (wordOfBool w b)).bind (addFlags checked bs)

mutual
/-- `MapStorage::len`. hashbrown's `len` is the field `items: usize` of the table (trusted). -/
def mapLenWord (H : HashbrownApi) (V : Type) (checked : Bool) (w : Nat) :
    (κ : KeyTy) → (mapStorage H V κ).S → Res (BitVec w)
  -- map/storage/boolean.rs 234-236
  | .bool, s => .ok (saturatingAdd (wordOfBool w s.t.isSome) (wordOfBool w s.f.isSome))
  -- map/storage/singleton.rs 65-67
  | .unit, s => .ok (wordOfBool w s.isSome)
  -- map/storage/option.rs 263-265
  | .opt κ, s => (mapLenWord H V checked w κ s.some).bind fun n => addWord checked n (wordOfBool w s.none.isSome)
  -- map/storage/hashbrown.rs 174-176
  | .prim p, s => .ok (BitVec.ofNat w ((H p.Key V).len s))
  -- unit_variants.rs 257-260
  | .units _, s => addFlags checked (s.toList.map Option.isSome) 0
  | .bitset _ _ _, s => addFlags checked (s.toList.map Option.isSome) 0
  -- any_variants.rs 256-258
  | .enum fs, s => mapFieldsLenWord H V checked w fs s 0
/-- `acc + len₀ + len₁ + …`, any_variants.rs 247-258: a unit variant adds `usize::from(is_some)`, a tuple variant the
`len` of its storage. -/
def mapFieldsLenWord (H : HashbrownApi) (V : Type) (checked : Bool) (w : Nat) :
    (fs : Fields) → (mapFields H V fs).S → BitVec w → Res (BitVec w)
  | .nil, _, acc => .ok acc
  | .simple fs, s, acc =>
    (addWord checked acc (wordOfBool w s.1.isSome)).bind (mapFieldsLenWord H V checked w fs s.2)
  | .complex κ fs, s, acc =>
    (mapLenWord H V checked w κ s.1).bind fun n =>
      (addWord checked acc n).bind (mapFieldsLenWord H V checked w fs s.2)
end

mutual
/-- `SetStorage::len`. -/
def setLenWord (H : HashbrownApi) (checked : Bool) (w : Nat) : (κ : KeyTy) → (setStorage H κ).S → Res (BitVec w)
  -- set/storage/boolean.rs 128-131
  | .bool, (s : BitVec 8) =>
    .ok (saturatingAdd (wordOfBool w (s &&& TRUE_BIT != 0)) (wordOfBool w (s &&& FALSE_BIT != 0)))
  -- set/storage/singleton.rs 25-27
  | .unit, s => .ok (wordOfBool w s)
  -- set/storage/option.rs 115-117
  | .opt κ, s => (setLenWord H checked w κ s.some).bind fun n => addWord checked n (wordOfBool w s.none)
  -- set/storage/hashbrown.rs 75-77
  | .prim p, s => .ok (BitVec.ofNat w ((H p.Key Unit).len s))
  -- unit_variants.rs 623-626
  | .units _, s => addFlags checked s.toList 0
  -- unit_variants.rs 456-458: `count_ones` is an `u32`, `as usize` keeps its lower bits
  | .bitset _ b _, s => .ok ((BitVec.ofNat 32 (countOnes (w := b) s)).setWidth w)
  -- any_variants.rs 539-541
  | .enum fs, s => setFieldsLenWord H checked w fs s 0
/-- any_variants.rs 530-541. -/
def setFieldsLenWord (H : HashbrownApi) (checked : Bool) (w : Nat) :
    (fs : Fields) → (setFields H fs).S → BitVec w → Res (BitVec w)
  | .nil, _, acc => .ok acc
  | .simple fs, s, acc => (addWord checked acc (wordOfBool w s.1)).bind (setFieldsLenWord H checked w fs s.2)
  | .complex κ fs, s, acc =>
    (setLenWord H checked w κ s.1).bind fun n =>
      (addWord checked acc n).bind (setFieldsLenWord H checked w fs s.2)
end

/-- `Set::intersection`, set.rs 432-444, with its `self.len() <= other.len()` on words. -/
def Intersection.newWord (H : HashbrownApi) (checked : Bool) (w : Nat) (κ : KeyTy) (a b : (setStorage H κ).S) :
    Res (Intersection (setStorage H κ)) :=
  (setLenWord H checked w κ a).bind fun x => (setLenWord H checked w κ b).bind fun y =>
    .ok (if x ≤ y then ⟨(FSet.iter (setStorage H κ)).init a, b⟩ else ⟨(FSet.iter (setStorage H κ)).init b, a⟩)

end FixedMap
