import Verif.Model.Fold
import Verif.Spec.Exhaust

/-! # What `fold` has to do: the same as the loop over `next` -/

set_option autoImplicit false

namespace FixedMap

/-- The items of a `while let Some(x) = step()` loop. -/
def drainBy {St α : Type} (step : St → Option α × St) : Nat → St → Option (List α)
  | 0, _ => none
  | n + 1, st =>
    match step st with
    | (none, _) => some []
    | (some a, st') => (drainBy step n st').map (a :: ·)

/-- In every state in which the loop ends, the fold calls the closure on the same items in the same order, up to its first panic. -/
def FoldsLike {St α : Type} (step : St → Option α × St) (F : FoldFn St α) : Prop :=
  ∀ st l, (∃ n, drainBy step n st = some l) →
    ∃ n, ∀ fuel, n ≤ fuel → ∀ (B E : Type) (f : B → α → Except E B) (acc : B), F B E fuel f acc st = some (l.foldlM f acc)

/-- `fold` against `next`, and `rfold` against `next_back` for an iterator that has it. -/
def Folds.agrees {α : Type} {I : IterImpl α} (F : Folds I) : Prop :=
  FoldsLike I.next F.fold ∧ ∀ nb, I.nextBack? = some nb → FoldsLike nb F.rfold

/-- After any schedule of calls from both ends, `fold` goes through what remains of `l`, and `rfold` through its reverse. -/
def IterOf.foldsTo {S α : Type} (it : IterOf S α) (F : Folds it.I) (s : S) (l : List α) : Prop :=
  ∀ ds outs st, it.I.run ds (it.init s) = some (outs, st) →
    ∃ n, ∀ fuel, n ≤ fuel → ∀ (B E : Type) (f : B → α → Except E B) (acc : B),
      F.fold B E fuel f acc st = some ((dequeRun ds l).2.foldlM f acc) ∧
        (it.I.nextBack?.isSome → F.rfold B E fuel f acc st = some ((dequeRun ds l).2.reverse.foldlM f acc))

end FixedMap
