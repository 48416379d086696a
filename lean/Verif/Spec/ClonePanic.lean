import Verif.Model.ClonePanic
import Verif.Spec.DropPanic
import Verif.Spec.Hashbrown

/-! # `Clone` with a `V::clone` that has effects or panics: specification -/

set_option autoImplicit false

namespace FixedMap

/-- Cloning a list of entries, in order, up to the first panic. -/
structure ClonedList (σ K V : Type) where
  st : σ
  made : List (K × V)
  panicked : Bool

/-- Clone the values one after the other. -/
def cloneRef {σ K V : Type} (c : Cloner σ V) : List (K × V) → σ → ClonedList σ K V
  | [], st => ⟨st, [], false⟩
  | (k, v) :: l, st =>
    match c st v with
    | (st', none) => ⟨st', [], true⟩
    | (st', some w) =>
      let r := cloneRef c l st'
      ⟨r.st, (k, w) :: r.made, r.panicked⟩

/-- Assumed law of hashbrown's `clone`: it clones the values in the order of `iter()`, and the new table has the same keys with the
clones; nothing is assumed about its order. -/
def TableCloneLaw (H : Hashbrown) (V : Type) (hc : TableCloneApi H.api V) : Prop :=
  ∀ (K : Type) [DecidableEq K] (σ : Type) (c : Cloner σ V) (t : (H.api K V).Table) (st : σ),
    let r := cloneRef c ((H.laws K V).entries t) st
    (hc K c t st).1 = r.st ∧ (hc K c t st).2.1 = r.made.map Prod.snd ∧ ((hc K c t st).2.2 = none ↔ r.panicked = true) ∧
      ∀ t', (hc K c t st).2.2 = some t' → ((H.laws K V).entries t').Perm r.made

end FixedMap
