import Verif.Model.MapEnum

/-!
# The `SetStorage` trait (src/set/storage.rs) and its implementations

`boolean.rs`, `singleton.rs`, `option.rs`, `hashbrown.rs` of src/set/storage, and the three derived
storages: `impl_set` and `impl_bitset` of unit_variants.rs, `impl_set_storage` of any_variants.rs.
-/

set_option autoImplicit false

namespace FixedMap

/-- Outcome of a set's `retain`: storage, final closure state, whether the closure panicked. -/
structure SetRetainOut (S σ : Type) where
  s : S
  st : σ
  panicked : Bool

/-- Continue with a second part of the storage unless the closure panicked. -/
def SetRetainOut.andThen {S T σ : Type} (a : SetRetainOut S σ) (rest : T) (b : σ → SetRetainOut T σ) :
    SetRetainOut (S × T) σ :=
  if a.panicked then ⟨(a.s, rest), a.st, true⟩
  else
    let r := b a.st
    ⟨(a.s, r.s), r.st, r.panicked⟩

def SetRetainOut.mapS {S T σ : Type} (g : S → T) (a : SetRetainOut S σ) : SetRetainOut T σ :=
  ⟨g a.s, a.st, a.panicked⟩

/-- `if flag { flag = func(value); }` (set option.rs 155-157, unit_variants.rs 668-670, any_variants.rs
610-612). A panic leaves the flag as it was. -/
def retainFlag {T σ : Type} (f : σ → T → σ × Option Bool) (v : T) (flag : Bool) (st : σ) :
    SetRetainOut Bool σ :=
  if flag then
    match f st v with
    | (st', none) => ⟨flag, st', true⟩
    | (st', some b) => ⟨b, st', false⟩
  else ⟨flag, st, false⟩

/-- `SetStorage<T>` (src/set/storage.rs 23-63) without its iterators, plus `PartialEq` and `Clone` of the
storage. `retain`'s closure is stateful and may panic (`none`). -/
structure SetCore (T : Type) : Type 1 where
  S : Type
  empty : S
  len : S → Nat
  isEmpty : S → Bool
  insert : S → T → Bool × S
  contains : S → T → Bool
  remove : S → T → Bool × S
  retain : {σ : Type} → (σ → T → σ × Option Bool) → S → σ → SetRetainOut S σ
  clear : S → S
  eq : S → S → Bool
  clone : S → S

/-- The full trait. -/
structure SetStorage (T : Type) : Type 1 extends SetCore T where
  iter : IterOf S T
  intoIter : IterOf S T

/-! ## boolean.rs -/

/-- `to_bits`, set/storage/boolean.rs 192-198. -/
def boolToBits (value : Bool) : BitVec 8 := if value then TRUE_BIT else FALSE_BIT

/-- `test`, set/storage/boolean.rs 187-189. -/
def boolTest (bits : BitVec 8) (value : Bool) : Bool := bits &&& boolToBits value != 0

/-- One `if test(self.bits, value) && !f(value) { self.bits &= !mask; }` of `retain`, boolean.rs 161-167. -/
def boolRetainStep {σ : Type} (f : σ → Bool → σ × Option Bool) (value : Bool) (mask : BitVec 8)
    (bits : BitVec 8) (st : σ) : SetRetainOut (BitVec 8) σ :=
  if boolTest bits value then
    match f st value with
    | (st', none) => ⟨bits, st', true⟩
    | (st', some true) => ⟨bits, st', false⟩
    | (st', some false) => ⟨bits &&& ~~~mask, st', false⟩
  else ⟨bits, st, false⟩

/-- `impl SetStorage<bool> for BooleanSetStorage`, set/storage/boolean.rs 118-184; struct
`{ bits: u8 }` 52-55 with derived `Clone`, `PartialEq`. `saturating_add` on numbers ≤ 1 is `+`. -/
@[reducible] def boolSet : SetStorage Bool where
  S := BitVec 8
  -- 123-125
  empty := 0
  -- 128-131
  len s := (s &&& TRUE_BIT != 0).toNat + (s &&& FALSE_BIT != 0).toNat
  -- 134-136
  isEmpty s := s == 0
  -- 139-142: returns `test(old, value)`
  insert s v := (boolTest s v, s ||| boolToBits v)
  -- 145-147
  contains s v := boolTest s v
  -- 150-154: returns `old != 0`
  remove s v := (s != 0, s &&& ~~~boolToBits v)
  -- 157-168
  retain f s st :=
    let r := boolRetainStep f true TRUE_BIT s st
    if r.panicked then r else boolRetainStep f false FALSE_BIT r.s r.st
  -- 171-173
  clear _ := 0
  eq s t := s == t
  clone s := s
  -- 176-178
  iter := ⟨boolBitsIter, fun s => s⟩
  -- 181-183
  intoIter := ⟨boolBitsIter, fun s => s⟩

/-! ## singleton.rs -/

/-- `impl SetStorage<T> for SingletonSetStorage`, set/storage/singleton.rs 12-71 at `T = ()` (key.rs 182);
struct `{ is_set: bool }` 6-10. -/
@[reducible] def unitSet : SetStorage Unit where
  S := Bool
  -- 20-22
  empty := false
  -- 25-27
  len s := s.toNat
  -- 30-32
  isEmpty s := !s
  -- 35-37
  insert s _ := (!s, true)
  -- 40-42
  contains s _ := s
  -- 45-47
  remove s _ := (s, false)
  -- 50-55: `self.is_set = func(T::default())`, without looking at `is_set`
  retain f s st :=
    match f st () with
    | (st', none) => ⟨s, st', true⟩
    | (st', some b) => ⟨b, st', false⟩
  -- 58-60
  clear _ := false
  eq s t := s == t
  clone s := s
  -- 63-65
  iter := IterOf.option fun s : Bool => if s then some () else none
  -- 68-70
  intoIter := IterOf.option fun s : Bool => if s then some () else none

/-! ## option.rs -/

/-- `OptionSetStorage<T>`, set/storage/option.rs 49-55. -/
structure OptSetSt (S : Type) where
  some : S
  none : Bool

/-- `impl SetStorage<Option<T>> for OptionSetStorage<T>`, set/storage/option.rs 96-183. -/
@[reducible] def optSet {T : Type} (M : SetStorage T) : SetStorage (Option T) where
  S := OptSetSt M.S
  -- 107-112
  empty := ⟨M.empty, false⟩
  -- 115-117
  len s := M.len s.some + s.none.toNat
  -- 120-122: `self.some.is_empty() && self.none`
  isEmpty s := M.isEmpty s.some && s.none
  -- 125-130: the `None` arm returns the old flag, not its negation
  insert s k :=
    match k with
    | .some k => ((M.insert s.some k).1, { s with some := (M.insert s.some k).2 })
    | .none => (s.none, { s with none := true })
  -- 133-138
  contains s
    | .some k => M.contains s.some k
    | .none => s.none
  -- 141-146
  remove s
    | .some k => ((M.remove s.some k).1, { s with some := (M.remove s.some k).2 })
    | .none => (s.none, { s with none := false })
  -- 149-158
  retain f s st :=
    ((M.retain (fun st v => f st (.some v)) s.some st).andThen s.none
      fun st => retainFlag f .none s.none st).mapS fun p => ⟨p.1, p.2⟩
  -- 161-164
  clear s := ⟨M.clear s.some, false⟩
  -- 84-86
  eq s t := s.none == t.none && M.eq s.some t.some
  -- 63-68
  clone s := ⟨M.clone s.some, s.none⟩
  -- 167-173
  iter := ((M.iter.comap OptSetSt.some).map some).chain
    (IterOf.option fun s => if s.none then .some .none else .none)
  -- 176-182
  intoIter := ((M.intoIter.comap OptSetSt.some).map some).chain
    (IterOf.option fun s => if s.none then .some .none else .none)

/-! ## hashbrown.rs -/

/-- `HashbrownSetStorage<T>`, set/storage/hashbrown.rs 57-121: one-to-one delegation to
`hashbrown::HashSet<T>`. That external type is in turn a thin wrapper over `HashMap<T, ()>`
(hashbrown set.rs): `insert` is `map.insert(v, ()).is_none()`, `remove` is `map.remove(v).is_some()`,
`retain` is `map.retain(|k, _| f(k))`, `iter` is `map.keys()`, `into_iter` is the keys of
`map.into_iter()`, `eq` is "same length and every element of `self` is in `other`". -/
@[reducible] def hashSet {T : Type} (A : HashMapApi T Unit) : SetStorage T where
  S := A.Table
  -- 68-72
  empty := A.new
  -- 75-77
  len := A.len
  -- 80-82
  isEmpty := A.is_empty
  -- 85-87
  insert s v := ((A.insert s v ()).1.isNone, (A.insert s v ()).2)
  -- 90-92
  contains := A.contains_key
  -- 95-97
  remove s v := ((A.remove s v).1.isSome, (A.remove s v).2)
  -- 100-105
  retain f s st :=
    let r := A.retain (fun st k v => let p := f st k; (p.1, v, p.2)) s st
    ⟨r.s, r.st, r.panicked⟩
  -- 108-110
  clear s := (A.clear s).1
  -- 50-52
  eq s t :=
    if A.len s ≠ A.len t then false
    else (A.keys.I.collect (A.len s) (A.keys.init s)).all fun k => A.contains_key t k
  -- 38-42
  clone s := A.clone id s
  -- 113-115
  iter := A.keys.map fun k => k
  -- 118-120
  intoIter := A.into_iter.map fun p => p.1

/-! ## Derived storage of unit enums: `impl_set`, unit_variants.rs 551-691 -/

/-- `struct __SetStorage { data: [bool; count] }`, unit_variants.rs 588-592. -/
abbrev UnitsSetSt (n : Nat) : Type := Vector Bool n

/-- `retain`, unit_variants.rs 662-671: the unrolled `if *_i { *_i = f(Ident::Vi); }`. -/
def unitsSetRetain {n : Nat} {σ : Type} (f : σ → Fin n → σ × Option Bool) :
    List (Fin n) → UnitsSetSt n → σ → SetRetainOut (UnitsSetSt n) σ
  | [], s, st => ⟨s, st, false⟩
  | i :: is, s, st =>
    let r := retainFlag f i s[i] st
    if r.panicked then ⟨s.set i r.s, r.st, true⟩
    else unitsSetRetain f is (s.set i r.s) r.st

/-- `impl SetStorage<Ident> for __SetStorage`, unit_variants.rs 611-689; derives 587. -/
@[reducible] def unitsSet (n : Nat) : SetStorage (Fin n) where
  S := UnitsSetSt n
  -- 616-620
  empty := Vector.replicate n false
  -- 623-626
  len s := s.toList.foldl (fun acc b => acc + b.toNat) 0
  -- 629-632
  isEmpty s := s.toList.foldl (fun acc b => acc && !b) true
  -- 635-641
  insert s k := (!s[k], s.set k true)
  -- 644-650
  contains s k := s[k]
  -- 653-659
  remove s k := (s[k], s.set k false)
  -- 662-671
  retain f s st := unitsSetRetain f (List.finRange n) s st
  -- 674-676
  clear _ := Vector.replicate n false
  eq s t := (List.finRange n).all fun i => s[i] == t[i]
  clone s := s
  -- 679-682
  iter := IterOf.flat id fun s : UnitsSetSt n =>
    (List.finRange n).map fun i => if s[i] then some i else none
  -- 685-688
  intoIter := IterOf.flat id fun s : UnitsSetSt n =>
    (List.finRange n).map fun i => if s[i] then some i else none

/-! ## Derived storage of unit enums with `#[key(bitset)]`: `impl_bitset`, unit_variants.rs 379-531 -/

/-- `determine_bits`, unit_variants.rs 533-548: the width of the unsigned integer, `none` for the error. -/
def determineBits (count : Nat) : Option Nat :=
  if count ≤ 8 then some 8
  else if count ≤ 16 then some 16
  else if count ≤ 32 then some 32
  else if count ≤ 64 then some 64
  else if count ≤ 128 then some 128
  else none

/-- The literal `1u128 << n` of unit_variants.rs 406-411 at the integer type of width `w`;
`to_bits`, 415-419. -/
def bitsetMask {n : Nat} (w : Nat) (i : Fin n) : BitVec w := BitVec.ofNat w (1 <<< i.val)

/-- `retain`, unit_variants.rs 485-498: the closure results are collected in the local `update`, which is
assigned to `self.data` at the end, so that a panic leaves `self.data` unchanged. -/
def bitsetRetain {n w : Nat} {σ : Type} (f : σ → Fin n → σ × Option Bool) (data : BitVec w) :
    List (Fin n) → BitVec w → σ → SetRetainOut (BitVec w) σ
  | [], update, st => ⟨update, st, false⟩
  | i :: is, update, st =>
    if data &&& bitsetMask w i != 0 then
      match f st i with
      | (st', none) => ⟨data, st', true⟩
      | (st', some true) => bitsetRetain f data is (update ||| bitsetMask w i) st'
      | (st', some false) => bitsetRetain f data is update st'
    else bitsetRetain f data is update st

/-- `impl SetStorage<Ident> for __SetStorage` of a bitset, unit_variants.rs 443-515; derives 422. -/
@[reducible] def bitsetSet (n w : Nat) : SetStorage (Fin n) where
  S := BitVec w
  -- 449-453
  empty := 0
  -- 456-458
  len s := countOnes s
  -- 461-463
  isEmpty s := s == 0
  -- 466-470
  insert s k := (s &&& bitsetMask w k == 0, s ||| bitsetMask w k)
  -- 473-475
  contains s k := s &&& bitsetMask w k != 0
  -- 478-482
  remove s k := (s &&& bitsetMask w k != 0, s &&& ~~~bitsetMask w k)
  -- 485-498
  retain f s st := bitsetRetain f s (List.finRange n) 0 st
  -- 501-503
  clear _ := 0
  eq s t := s == t
  clone s := s
  -- 506-508
  iter := IterOf.flat id fun s : BitVec w =>
    (List.finRange n).map fun i => if s &&& bitsetMask w i != 0 then some i else none
  -- 511-513
  intoIter := IterOf.flat id fun s : BitVec w =>
    (List.finRange n).map fun i => if s &&& bitsetMask w i != 0 then some i else none

/-- `RawStorage::as_raw`, unit_variants.rs 521-523. -/
def bitsetAsRaw {w : Nat} (s : BitVec w) : BitVec w := s
/-- `RawStorage::from_raw`, unit_variants.rs 526-528. -/
def bitsetFromRaw {w : Nat} (data : BitVec w) : BitVec w := data

/-! ## Derived storage of enums with some non-unit variant: any_variants.rs 429-668, 1494-1793 -/

/-- The generated struct with the fields of its two iterators. -/
structure SetFields (T : Type) : Type 1 extends SetCore T where
  iter : StepOf S T
  intoIter : StepOf S T

@[reducible] def setFieldsNil : SetFields Empty where
  S := Unit
  empty := ()
  len _ := 0
  isEmpty _ := true
  insert _ k := k.elim
  contains _ k := k.elim
  remove _ k := k.elim
  retain _ s st := ⟨s, st, false⟩
  clear s := s
  eq _ _ := true
  clone s := s
  iter := StepOf.nil _ _
  intoIter := StepOf.nil _ _

/-- Add a unit variant in front: field `_i: bool` (any_variants.rs 648). -/
@[reducible] def setFieldsSimple {T : Type} (F : SetFields T) : SetFields (Unit ⊕ T) where
  S := Bool × F.S
  -- 492-506
  empty := (false, F.empty)
  -- 530-542
  len s := s.1.toNat + F.len s.2
  -- 546-558
  isEmpty s := !s.1 && F.isEmpty s.2
  -- 512-526
  insert s k :=
    match k with
    | .inl _ => (!s.1, (true, s.2))
    | .inr k => ((F.insert s.2 k).1, (s.1, (F.insert s.2 k).2))
  -- 564-578
  contains s
    | .inl _ => s.1
    | .inr k => F.contains s.2 k
  -- 582-598
  remove s
    | .inl _ => (s.1, (false, s.2))
    | .inr k => ((F.remove s.2 k).1, (s.1, (F.remove s.2 k).2))
  -- 609-613
  retain f s st :=
    (retainFlag f (.inl ()) s.1 st).andThen s.2 fun st =>
      F.retain (fun st k => f st (.inr k)) s.2 st
  -- 629-643
  clear s := (false, F.clear s.2)
  -- 452-458
  eq s t := if s.1 != t.1 then false else F.eq s.2 t.2
  -- 479-483
  clone s := (s.1, F.clone s.2)
  -- 1530-1549
  iter := StepOf.cons
    ((⟨takeBoolIter, fun s : Bool × F.S => s.1⟩ : IterOf _ _).map fun _ => .inl ())
    ((F.iter.comap Prod.snd).map .inr)
  -- 1674-1693
  intoIter := StepOf.cons
    ((⟨takeBoolIter, fun s : Bool × F.S => s.1⟩ : IterOf _ _).map fun _ => .inl ())
    ((F.intoIter.comap Prod.snd).map .inr)

/-- Add a tuple variant with element storage `M` in front (any_variants.rs 647). -/
@[reducible] def setFieldsComplex {E T : Type} (M : SetStorage E) (F : SetFields T) : SetFields (E ⊕ T) where
  S := M.S × F.S
  -- 492-506
  empty := (M.empty, F.empty)
  -- 530-542
  len s := M.len s.1 + F.len s.2
  -- 546-558
  isEmpty s := M.isEmpty s.1 && F.isEmpty s.2
  -- 512-526
  insert s k :=
    match k with
    | .inl k => ((M.insert s.1 k).1, ((M.insert s.1 k).2, s.2))
    | .inr k => ((F.insert s.2 k).1, (s.1, (F.insert s.2 k).2))
  -- 564-578
  contains s
    | .inl k => M.contains s.1 k
    | .inr k => F.contains s.2 k
  -- 582-598
  remove s
    | .inl k => ((M.remove s.1 k).1, ((M.remove s.1 k).2, s.2))
    | .inr k => ((F.remove s.2 k).1, (s.1, (F.remove s.2 k).2))
  -- 606-608
  retain f s st :=
    (M.retain (fun st k => f st (.inl k)) s.1 st).andThen s.2 fun st =>
      F.retain (fun st k => f st (.inr k)) s.2 st
  -- 629-643
  clear s := (M.clear s.1, F.clear s.2)
  -- 452-458
  eq s t := if !(M.eq s.1 t.1) then false else F.eq s.2 t.2
  -- 479-483
  clone s := (M.clone s.1, F.clone s.2)
  -- 1550-1577
  iter := StepOf.cons
    ((M.iter.comap Prod.fst).map .inl)
    ((F.iter.comap Prod.snd).map .inr)
  -- 1694-1721
  intoIter := StepOf.cons
    ((M.intoIter.comap Prod.fst).map .inl)
    ((F.intoIter.comap Prod.snd).map .inr)

/-- `impl SetStorage<Ident> for __SetStorage`, any_variants.rs 429-668, from the assembled fields. -/
@[reducible] def enumSet {T : Type} (F : SetFields T) : SetStorage T where
  toSetCore := F.toSetCore
  iter := F.iter.toIter
  intoIter := F.intoIter.toIter

end FixedMap
