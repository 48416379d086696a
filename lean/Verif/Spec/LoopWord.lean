import Verif.Model.LoopWord
import Verif.Spec.Exhaust

/-! # Running a schedule of calls on a generated iterator with machine words -/

set_option autoImplicit false

namespace FixedMap

/-- Outputs of a schedule of `next`/`next_back` calls; every call may run `fuel` rounds of its loop. `none`: a loop did not
end, or the iterator has no `next_back`. -/
def StepOf.wordRun {S α : Type} (w : Nat) (F : StepOf S α) (fuel : Nat) : List Dir → WordSt w F.St → Option (List (Option α))
  | [], _ => some []
  | .front :: ds, st =>
    match F.wordNext w fuel st with
    | none => none
    | some (o, st') => (StepOf.wordRun w F fuel ds st').map (o :: ·)
  | .back :: ds, st =>
    match F.nextBack? with
    | none => none
    | some nb =>
      match wordNextBack w nb fuel st with
      | none => none
      | some (o, st') => (StepOf.wordRun w F fuel ds st').map (o :: ·)

/-- On words of `w` bits every call of every schedule ends and returns what a deque over the items of the `for` loop
returns (schedules with `next_back` only if the iterator has it). -/
def StepOf.wordsOk {S α : Type} (w : Nat) (F : StepOf S α) (s : S) (l : List α) : Prop :=
  ∀ ds, (.back ∈ ds → F.nextBack?.isSome) →
    ∃ n, ∀ fuel, n ≤ fuel → F.wordRun w fuel ds (F.wordInit w s) = some (dequeRun ds l).1

/-- Number of variants. -/
def Fields.count : Fields → Nat
  | .nil => 0
  | .simple fs => fs.count + 1
  | .complex _ fs => fs.count + 1

end FixedMap
