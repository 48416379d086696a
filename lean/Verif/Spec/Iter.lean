import Verif.Model.Std

/-!
# Specification of iterators: a double-ended queue

Independent of how an iterator is implemented: an iterator stands for a finite list, `next` pops its
front, `next_back` its back, and `size_hint` bounds its length.
-/

set_option autoImplicit false

namespace FixedMap

/-- A call in a schedule: `next()` or `next_back()`. -/
inductive Dir where
  | front
  | back
deriving DecidableEq, Repr

/-- Pop a list at one end. -/
def dequeStep {α : Type} : Dir → List α → Option α × List α
  | .front, l => (l.head?, l.tail)
  | .back, l => (l.getLast?, l.dropLast)

/-- Outputs of a schedule on a list, and what remains. -/
def dequeRun {α : Type} : List Dir → List α → List (Option α) × List α
  | [], l => ([], l)
  | d :: ds, l =>
    let r := dequeRun ds (dequeStep d l).2
    ((dequeStep d l).1 :: r.1, r.2)

/-- One call on an iterator; `none` if the iterator has no `next_back`. -/
def IterImpl.step {α : Type} (I : IterImpl α) : Dir → I.St → Option (Option α × I.St)
  | .front, st => some (I.next st)
  | .back, st => I.nextBack?.map fun nb => nb st

/-- A schedule of calls on an iterator: outputs and final state; `none` if it contains a `next_back` call the
iterator does not have. -/
def IterImpl.run {α : Type} (I : IterImpl α) : List Dir → I.St → Option (List (Option α) × I.St)
  | [], st => some ([], st)
  | d :: ds, st =>
    match I.step d st with
    | none => none
    | some (o, st') => (IterImpl.run I ds st').map fun r => (o :: r.1, r.2)

/-- `size_hint()` is right for `n` remaining items. -/
def HintOk (h : Nat × Option Nat) (n : Nat) : Prop := h.1 ≤ n ∧ ∀ hi, h.2 = some hi → n ≤ hi

/-- The iterator state `st` behaves like a deque holding `l`: for every schedule it supports, the outputs are
those of the deque and the size hint afterwards is right for the remaining items. -/
def BehavesLike {α : Type} (I : IterImpl α) (st : I.St) (l : List α) : Prop :=
  ∀ ds outs st', I.run ds st = some (outs, st') →
    outs = (dequeRun ds l).1 ∧ HintOk (I.sizeHint st') (dequeRun ds l).2.length

end FixedMap
