import Verif.Model.Key
import Verif.Model.Std

/-! # What a count of entries is on machine words, and how much memory a storage needs at least -/

set_option autoImplicit false

namespace FixedMap

/-- The number `n` as a `usize` of `w` bits: exact if it fits; otherwise a panic with overflow checks, and the remainder
without. -/
def countedOn (checked : Bool) (w n : Nat) : Res (BitVec w) :=
  if n < 2 ^ w then .ok (BitVec.ofNat w n)
  else if checked then .panic
  else .ok (BitVec.ofNat w (n % 2 ^ w))

mutual
/-- Each hash table counts its own entries in a `usize` (`items: usize` of hashbrown's `RawTable`). -/
def mapTablesFit (H : HashbrownApi) (V : Type) (w : Nat) : (κ : KeyTy) → (mapStorage H V κ).S → Prop
  | .opt κ, s => mapTablesFit H V w κ s.some
  | .prim p, s => (H p.Key V).len s < 2 ^ w
  | .enum fs, s => mapFieldsTablesFit H V w fs s
  | .bool, _ | .unit, _ | .units _, _ | .bitset _ _ _, _ => True
def mapFieldsTablesFit (H : HashbrownApi) (V : Type) (w : Nat) : (fs : Fields) → (mapFields H V fs).S → Prop
  | .nil, _ => True
  | .simple fs, s => mapFieldsTablesFit H V w fs s.2
  | .complex κ fs, s => mapTablesFit H V w κ s.1 ∧ mapFieldsTablesFit H V w fs s.2
end

mutual
/-- The same for sets. -/
def setTablesFit (H : HashbrownApi) (w : Nat) : (κ : KeyTy) → (setStorage H κ).S → Prop
  | .opt κ, s => setTablesFit H w κ s.some
  | .prim p, s => (H p.Key Unit).len s < 2 ^ w
  | .enum fs, s => setFieldsTablesFit H w fs s
  | .bool, _ | .unit, _ | .units _, _ | .bitset _ _ _, _ => True
def setFieldsTablesFit (H : HashbrownApi) (w : Nat) : (fs : Fields) → (setFields H fs).S → Prop
  | .nil, _ => True
  | .simple fs, s => setFieldsTablesFit H w fs s.2
  | .complex κ fs, s => setTablesFit H w κ s.1 ∧ setFieldsTablesFit H w fs s.2
end

mutual
/-- A lower bound for the bytes of memory that a map occupies if its values exist at all: an `Option<V>` takes at least one
byte unless `V` has no values, and a hash table has one control byte per entry. -/
def mapBytes (H : HashbrownApi) (V : Type) : (κ : KeyTy) → (mapStorage H V κ).S → Nat
  | .bool, _ => 2
  | .unit, _ => 1
  | .opt κ, s => mapBytes H V κ s.some + 1
  | .prim p, s => (H p.Key V).len s
  | .units n, _ => n
  | .bitset n _ _, _ => n
  | .enum fs, s => mapFieldsBytes H V fs s
def mapFieldsBytes (H : HashbrownApi) (V : Type) : (fs : Fields) → (mapFields H V fs).S → Nat
  | .nil, _ => 0
  | .simple fs, s => 1 + mapFieldsBytes H V fs s.2
  | .complex κ fs, s => mapBytes H V κ s.1 + mapFieldsBytes H V fs s.2
end

mutual
/-- The same for sets: a `bool` and the bits of a set of `bool` take a byte, a bitset of `w` bits takes `w / 8` bytes. -/
def setBytes (H : HashbrownApi) : (κ : KeyTy) → (setStorage H κ).S → Nat
  | .bool, _ => 1
  | .unit, _ => 1
  | .opt κ, s => setBytes H κ s.some + 1
  | .prim p, s => (H p.Key Unit).len s
  | .units n, _ => n
  | .bitset _ w _, _ => w / 8
  | .enum fs, s => setFieldsBytes H fs s
def setFieldsBytes (H : HashbrownApi) : (fs : Fields) → (setFields H fs).S → Nat
  | .nil, _ => 0
  | .simple fs, s => 1 + setFieldsBytes H fs s.2
  | .complex κ fs, s => setBytes H κ s.1 + setFieldsBytes H fs s.2
end

/-- An enum of `n` tuple variants, each holding an enum of 128 variants with `#[key(bitset)]`. -/
def manyBitsets : Nat → Fields
  | 0 => .nil
  | n + 1 => .complex (.bitset 128 128 rfl) (manyBitsets n)

end FixedMap
