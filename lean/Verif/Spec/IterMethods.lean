import Verif.Model.IterMethods
import Verif.Spec.Fold

/-! # What any sequence of iterator method calls has to return: what the calls mean on a list -/

set_option autoImplicit false

namespace FixedMap

/-- A call on `&mut iterator`. Closures return `Err` to stop (`?`); their state is of type `σ`. -/
inductive Call (σ α : Type) where
  | next
  | nextBack
  | advanceBy (n : Nat)
  | advanceBackBy (n : Nat)
  | nth (n : Nat)
  | nthBack (n : Nat)
  | tryFold (f : σ → α → Except σ σ) (init : σ)
  | tryRfold (f : σ → α → Except σ σ) (init : σ)
  | find (p : σ → α → σ × Bool) (s : σ)
  | rfind (p : σ → α → σ × Bool) (s : σ)

/-- Calls that need only `Iterator`. -/
def Call.isFront {σ α : Type} : Call σ α → Bool
  | .next | .advanceBy _ | .nth _ | .tryFold _ _ | .find _ _ => true
  | _ => false

/-- What a call returns. -/
inductive Answer (σ α : Type) where
  | item (o : Option α)
  /-- The number of steps that could not be made. -/
  | missing (n : Nat)
  | folded (r : Except σ σ)
  /-- The item, and the state of the predicate. -/
  | found (o : Option α) (s : σ)

/-- The call on the iterator; `none` = out of fuel. -/
def Methods.call {σ α : Type} {I : IterImpl α} (X : Methods I) (fuel : Nat) : Call σ α → I.St → Option (Answer σ α × I.St)
  | .next, st => some (.item (I.next st).1, (I.next st).2)
  | .nextBack, st => some (.item (I.backStep st).1, (I.backStep st).2)
  | .advanceBy n, st => (X.advanceBy n st).map fun r => (.missing r.1, r.2)
  | .advanceBackBy n, st => (X.advanceBackBy n st).map fun r => (.missing r.1, r.2)
  | .nth n, st => (X.nth n st).map fun r => (.item r.1, r.2)
  | .nthBack n, st => (X.nthBack n st).map fun r => (.item r.1, r.2)
  | .tryFold f init, st => (X.tryFold σ σ fuel f init st).map fun r => (.folded r.1, r.2)
  | .tryRfold f init, st => (X.tryRfold σ σ fuel f init st).map fun r => (.folded r.1, r.2)
  | .find p s, st => (X.find σ fuel p s st).map fun r => (.found r.1.1 r.1.2, r.2)
  | .rfind p s, st => (X.rfind σ fuel p s st).map fun r => (.found r.1.1 r.1.2, r.2)

def Methods.calls {σ α : Type} {I : IterImpl α} (X : Methods I) (fuel : Nat) : List (Call σ α) → I.St → Option (List (Answer σ α) × I.St)
  | [], st => some ([], st)
  | c :: cs, st =>
    match X.call fuel c st with
    | none => none
    | some (a, st') => (Methods.calls X fuel cs st').map fun r => (a :: r.1, r.2)

/-! ## On lists -/

/-- Fold up to the first item at which the closure stops; what is left starts after this item. -/
def tryItems {σ E α : Type} (f : σ → α → Except E σ) : σ → List α → Except E σ × List α
  | acc, [] => (.ok acc, [])
  | acc, x :: l =>
    match f acc x with
    | .error e => (.error e, l)
    | .ok acc' => tryItems f acc' l

/-- The first item which the predicate accepts; what is left starts after this item. -/
def findItem {σ α : Type} (p : σ → α → σ × Bool) : σ → List α → (Option α × σ) × List α
  | s, [] => ((none, s), [])
  | s, x :: l => if (p s x).2 then ((some x, (p s x).1), l) else findItem p (p s x).1 l

/-- The answer, and the items that are left. -/
def dequeCall {σ α : Type} : Call σ α → List α → Answer σ α × List α
  | .next, l => (.item l.head?, l.tail)
  | .nextBack, l => (.item l.getLast?, l.dropLast)
  | .advanceBy n, l => (.missing (n - l.length), l.drop n)
  | .advanceBackBy n, l => (.missing (n - l.length), l.take (l.length - n))
  | .nth n, l => (.item l[n]?, l.drop (n + 1))
  | .nthBack n, l => (.item l.reverse[n]?, l.take (l.length - (n + 1)))
  | .tryFold f init, l => (.folded (tryItems f init l).1, (tryItems f init l).2)
  | .tryRfold f init, l => (.folded (tryItems f init l.reverse).1, (tryItems f init l.reverse).2.reverse)
  | .find p s, l => (.found (findItem p s l).1.1 (findItem p s l).1.2, (findItem p s l).2)
  | .rfind p s, l => (.found (findItem p s l.reverse).1.1 (findItem p s l.reverse).1.2, (findItem p s l.reverse).2.reverse)

def dequeCalls {σ α : Type} : List (Call σ α) → List α → List (Answer σ α) × List α
  | [], l => ([], l)
  | c :: cs, l => ((dequeCall c l).1 :: (dequeCalls cs (dequeCall c l).2).1, (dequeCalls cs (dequeCall c l).2).2)

/-- Every sequence of calls which the iterator supports returns what it returns on the list `l`; after it `size_hint` is right for the items that
are left, `count` and `last` are those of these items, and `fold` and `rfold` go through them. -/
def IterOf.answersAs {S α : Type} (it : IterOf S α) (F : Folds it.I) (X : Methods it.I) (s : S) (l : List α) : Prop :=
  ∀ (σ : Type) (cs : List (Call σ α)), (it.I.nextBack?.isSome ∨ ∀ c ∈ cs, c.isFront) →
    ∃ N, ∀ fuel, N ≤ fuel → ∃ st, X.calls fuel cs (it.init s) = some ((dequeCalls cs l).1, st) ∧
      HintOk (it.I.sizeHint st) (dequeCalls cs l).2.length ∧
      ∃ M, ∀ fuel, M ≤ fuel →
        X.count fuel st = some (dequeCalls cs l).2.length ∧ X.last fuel st = some (dequeCalls cs l).2.getLast? ∧
        ∀ (B E : Type) (f : B → α → Except E B) (acc : B),
          F.fold B E fuel f acc st = some ((dequeCalls cs l).2.foldlM f acc) ∧
            (it.I.nextBack?.isSome → F.rfold B E fuel f acc st = some ((dequeCalls cs l).2.reverse.foldlM f acc))

/-- `any`, `all` and `position` on a fresh iterator say what they say on the list. -/
def IterOf.queriesAs {S α : Type} (it : IterOf S α) (X : Methods it.I) (s : S) (l : List α) : Prop :=
  ∃ N, ∀ fuel, N ≤ fuel → ∀ f : α → Bool,
    (anyVia X.tryFold fuel f (it.init s)).map Prod.fst = some (l.any f) ∧ (allVia X.tryFold fuel f (it.init s)).map Prod.fst = some (l.all f) ∧
      (positionVia X.tryFold fuel f (it.init s)).map Prod.fst = some (l.findIdx? f)

end FixedMap
