import Verif.Model.MapApi
import Verif.Spec.Iter

/-! # Iterator methods: running to the end, and any schedule -/

set_option autoImplicit false

namespace FixedMap

/-- A `for` loop over the iterator ends and its items are `l`, in this order. -/
def IterOf.runsTo {S α : Type} (it : IterOf S α) (s : S) (l : List α) : Prop :=
  ∃ n, ∀ fuel, n ≤ fuel → it.I.drain fuel (it.init s) = some l

/-- Any schedule of `next`/`next_back` calls that the iterator supports returns what a deque over `l` returns. -/
def IterOf.actsAs {S α : Type} (it : IterOf S α) (s : S) (l : List α) : Prop :=
  ∀ ds outs st, it.I.run ds (it.init s) = some (outs, st) → outs = (dequeRun ds l).1

/-- After any such schedule `size_hint` is right for the items remaining in the deque. -/
def IterOf.hintsAs {S α : Type} (it : IterOf S α) (s : S) (l : List α) : Prop :=
  ∀ ds outs st, it.I.run ds (it.init s) = some (outs, st) →
    HintOk (it.I.sizeHint st) (dequeRun ds l).2.length

/-- The iterator can run any schedule of `next` and `next_back` calls. -/
def IterOf.doubleEnded {S α : Type} (it : IterOf S α) : Prop :=
  ∀ ds st, (it.I.run ds st).isSome

/-- The iterator can run any number of `next` calls. -/
def IterOf.forward {S α : Type} (it : IterOf S α) : Prop :=
  ∀ n st, (it.I.run (List.replicate n .front) st).isSome

end FixedMap
