import Verif.Model.Traits
import Verif.Spec.Order

/-! # What one expects of the traits -/

set_option autoImplicit false

namespace FixedMap

/-- Supertraits: whatever implements `t` implements these. -/
def Tr.supers : Tr → List Tr
  | .clone | .partialEq | .hash => []
  | .copy => [.clone]
  | .eq => [.partialEq]
  | .partialOrd => [.partialEq]
  | .ord => [.eq, .partialOrd]

/-- A set of implemented traits that contains the supertraits. -/
def Lawful (v : Tr → Bool) : Prop := ∀ t u, u ∈ t.supers → v t = true → v u = true

/-- A derived enum with unit variants only. -/
def KeyTy.unitEnum : KeyTy → Bool
  | .units _ | .bitset _ _ _ => true
  | _ => false

/-- Key types whose sets can be ordered and hashed: derived enums of unit variants, and `()`. -/
def KeyTy.orderedSet : KeyTy → Bool
  | .unit => true
  | κ => κ.unitEnum

/-- hashbrown's iterators are not double-ended. -/
def HashbrownApi.oneWay (H : HashbrownApi) : Prop :=
  ∀ (K V : Type) [DecidableEq K], (H K V).iter.I.nextBack? = none ∧ (H K V).keys.I.nextBack? = none ∧
    (H K V).values.I.nextBack? = none ∧ (H K V).iter_mut.I.nextBack? = none ∧ (H K V).values_mut.I.nextBack? = none ∧
    (H K V).into_iter.I.nextBack? = none

end FixedMap
