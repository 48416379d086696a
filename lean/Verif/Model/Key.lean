import Verif.Model.SetStorage

/-!
# Key types (src/key.rs and the derive macro): which storage belongs to which key type
-/

set_option autoImplicit false

namespace FixedMap

/-- The key types of `map_key!` (key.rs 169-181), stored in hash tables. -/
inductive Prim where
  | char | u8 | u32 | u64 | u128 | usize | i8 | i32 | i64 | i128 | isize | str | bytes
deriving DecidableEq, Repr

/-- Values of the primitive key types. Signed and 128-bit integers are kept as their bit patterns;
`usize`/`isize` are 64 bits wide. Only the equality of keys matters to a hash table. -/
def Prim.Key : Prim → Type
  | .char => Char
  | .u8 | .i8 => BitVec 8
  | .u32 | .i32 => BitVec 32
  | .u64 | .i64 | .usize | .isize => BitVec 64
  | .u128 | .i128 => BitVec 128
  | .str => String
  | .bytes => List (BitVec 8)

instance Prim.decEq : (p : Prim) → DecidableEq p.Key
  | .char => inferInstanceAs (DecidableEq Char)
  | .u8 | .i8 => inferInstanceAs (DecidableEq (BitVec 8))
  | .u32 | .i32 => inferInstanceAs (DecidableEq (BitVec 32))
  | .u64 | .i64 | .usize | .isize => inferInstanceAs (DecidableEq (BitVec 64))
  | .u128 | .i128 => inferInstanceAs (DecidableEq (BitVec 128))
  | .str => inferInstanceAs (DecidableEq String)
  | .bytes => inferInstanceAs (DecidableEq (List (BitVec 8)))

mutual
/-- Syntax of key types: `bool` (key.rs 137), `Option<K>` (142), the hash table keys (150-181), `()`
(160-167, 182) and the derived enums: `units n` has `n` unit variants, `bitset n w` the same with
`#[key(bitset)]` at integer width `w` (the `determine_bits` call must have succeeded), `enum fs` has at
least one tuple variant. -/
inductive KeyTy where
  | bool
  | unit
  | opt (κ : KeyTy)
  | prim (p : Prim)
  | units (n : Nat)
  | bitset (n w : Nat) (h : determineBits n = some w)
  | enum (fs : Fields)
/-- The variants of an enum in declaration order: unit variants and one-element tuple variants. -/
inductive Fields where
  | nil
  | simple (fs : Fields)
  | complex (κ : KeyTy) (fs : Fields)
end

mutual
/-- Values of a key type. -/
def KeyTy.Key : KeyTy → Type
  | .bool => Bool
  | .unit => Unit
  | .opt κ => Option κ.Key
  | .prim p => p.Key
  | .units n => Fin n
  | .bitset n _ _ => Fin n
  | .enum fs => fs.Key
/-- Values of an enum: which variant, and its payload. -/
def Fields.Key : Fields → Type
  | .nil => Empty
  | .simple fs => Unit ⊕ fs.Key
  | .complex κ fs => κ.Key ⊕ fs.Key
end

mutual
def KeyTy.decEq : (κ : KeyTy) → DecidableEq κ.Key
  | .bool => inferInstanceAs (DecidableEq Bool)
  | .unit => inferInstanceAs (DecidableEq Unit)
  | .opt κ => have := κ.decEq; inferInstanceAs (DecidableEq (Option κ.Key))
  | .prim p => Prim.decEq p
  | .units n => inferInstanceAs (DecidableEq (Fin n))
  | .bitset n _ _ => inferInstanceAs (DecidableEq (Fin n))
  | .enum fs => fs.decEq
def Fields.decEq : (fs : Fields) → DecidableEq fs.Key
  | .nil => inferInstanceAs (DecidableEq Empty)
  | .simple fs => have := fs.decEq; inferInstanceAs (DecidableEq (Unit ⊕ fs.Key))
  | .complex κ fs => have := κ.decEq; have := fs.decEq; inferInstanceAs (DecidableEq (κ.Key ⊕ fs.Key))
end

instance (κ : KeyTy) : DecidableEq κ.Key := κ.decEq
instance (fs : Fields) : DecidableEq fs.Key := fs.decEq

/-- hashbrown: a table type with its operations, for every key type with equality (and `Hash`). -/
def HashbrownApi : Type 1 := (K V : Type) → [DecidableEq K] → HashMapApi K V

mutual
/-- `<K as Key>::MapStorage<V>`: key.rs 137-182; for enums the `Key` impl generated by unit_variants.rs
20-44 and any_variants.rs 76-89. A bitset enum uses the ordinary unit-variant map storage
(unit_variants.rs 21-29). -/
def mapStorage (H : HashbrownApi) (V : Type) : (κ : KeyTy) → MapStorage κ.Key V
  | .bool => boolMap V
  | .unit => unitMap V
  | .opt κ => optMap (mapStorage H V κ)
  | .prim p => hashMap (H p.Key V)
  | .units n => unitsMap n V
  | .bitset n _ _ => unitsMap n V
  | .enum fs => enumMap (mapFields H V fs)
/-- The fields of the storage struct of a derived enum. -/
def mapFields (H : HashbrownApi) (V : Type) : (fs : Fields) → MapFields fs.Key V
  | .nil => fieldsNil V
  | .simple fs => fieldsSimple (mapFields H V fs)
  | .complex κ fs => fieldsComplex (mapStorage H V κ) (mapFields H V fs)
end

mutual
/-- `<K as Key>::SetStorage`, same places. -/
def setStorage (H : HashbrownApi) : (κ : KeyTy) → SetStorage κ.Key
  | .bool => boolSet
  | .unit => unitSet
  | .opt κ => optSet (setStorage H κ)
  | .prim p => hashSet (H p.Key Unit)
  | .units n => unitsSet n
  | .bitset n w _ => bitsetSet n w
  | .enum fs => enumSet (setFields H fs)
def setFields (H : HashbrownApi) : (fs : Fields) → SetFields fs.Key
  | .nil => setFieldsNil
  | .simple fs => setFieldsSimple (setFields H fs)
  | .complex κ fs => setFieldsComplex (setStorage H κ) (setFields H fs)
end

end FixedMap
