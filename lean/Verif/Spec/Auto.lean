import Verif.Model.Auto

/-!
# Which accesses to values a type grants

An independent account of `Send` and `Sync`. Whoever has an `x : T` can reach some values of type `V`: values they own, values they may
change, or values they may only look at. Moving `x` to another thread moves or lends those values: owned and changeable ones
need `V: Send`, the others `V: Sync`. Whoever has a `&x` may only look, so sharing `x` needs `V: Sync`.
-/

set_option autoImplicit false

namespace FixedMap

inductive Access where
  | own | change | look
deriving DecidableEq, Repr

/-- Through a `&mut`. -/
def Access.mutably : Access → Access
  | .own => .change
  | a => a

def HashTy.access : HashTy → List Access
  | .table | .intoIter => [.own]
  | .iter => [.look]
  | .iterMut | .entry => [.change]

/-- The accesses to values of type `V` that a value of this type grants. -/
def RTy.access : RTy → List Access
  | .plain => []
  | .value => [.own]
  | .ref t => t.access.map fun _ => .look
  | .mutRef t => t.access.map Access.mutably
  | .opt t | .array t => t.access
  | .pair t u => t.access ++ u.access
  | .hash h => h.access

/-- `T: Send` is justified. -/
def RTy.maySend (v : Auto) (t : RTy) : Prop :=
  (∀ a ∈ t.access, a ≠ .look → v.send = true) ∧ (∀ a ∈ t.access, a = .look → v.sync = true)

/-- `T: Sync` is justified. -/
def RTy.mayShare (v : Auto) (t : RTy) : Prop := (RTy.ref t).maySend v

/-- All accesses are of this kind, and there is one. -/
def RTy.grants (t : RTy) (a : Access) : Prop := t.access ≠ [] ∧ ∀ b ∈ t.access, b = a

/-- No variant. -/
def Fields.isNil : Fields → Bool
  | .nil => true
  | _ => false

mutual
/-- Every enum in the key type has a variant. (Enums without payloads, even without variants, are `units n` and `bitset n`.) -/
def KeyTy.noEmpty : KeyTy → Bool
  | .opt κ => κ.noEmpty
  | .enum fs => !fs.isNil && fs.noEmpty
  | _ => true
def Fields.noEmpty : Fields → Bool
  | .nil => true
  | .simple fs => fs.noEmpty
  | .complex κ fs => κ.noEmpty && fs.noEmpty
end

/-- What the iterators of a map grant. -/
def Gen.MapIt.grant : Gen.MapIt → Access
  | .iter | .keys | .values => .look
  | .iterMut | .valuesMut => .change
  | .intoIter => .own

end FixedMap
