import Verif.Spec.SetSpec

/-! # Specification of set histories: an ordinary set -/

set_option autoImplicit false

namespace FixedMap

/-- Operations that change a set. The closure of `retain` is stateful and may panic (`none`). -/
inductive SetOp (T : Type) : Type 1 where
  | insert (x : T)
  | remove (x : T)
  | clear
  | retain {σ : Type} (f : σ → T → σ × Option Bool) (st : σ)

/-- Is not a `retain`. -/
def SetOp.notRetain {T : Type} : SetOp T → Prop
  | .retain _ _ => False
  | _ => True

/-- What may be in an ordinary set `P` after the closure calls `q`: the accepted elements. After a panic: nothing new, and
everything except possibly rejected elements. -/
def Retained {T σ : Type} (q : Visited T σ) (P P' : T → Prop) : Prop :=
  (q.panicked = false → ∀ x, P' x ↔ x ∈ q.kept) ∧
  (q.panicked = true → (∀ x, P' x → P x) ∧ (∀ x, P x → x ∉ q.rejected → P' x))

/-- One operation on an ordinary set. `retain` visits the elements, each once, in some order allowed by `R`. -/
def SetStep {T : Type} (R : T → T → Prop) : SetOp T → (T → Prop) → (T → Prop) → Prop
  | .insert x, P, P' => ∀ y, P' y ↔ y = x ∨ P y
  | .remove x, P, P' => ∀ y, P' y ↔ y ≠ x ∧ P y
  | .clear, _, P' => ∀ y, ¬P' y
  | .retain f st, P, P' => ∃ l : List T, l.Nodup ∧ l.Pairwise R ∧ (∀ x, x ∈ l ↔ P x) ∧ Retained (visit f l st) P P'

/-- A sequence of operations on an ordinary set. -/
def SetRun {T : Type} (R : T → T → Prop) : List (SetOp T) → (T → Prop) → (T → Prop) → Prop
  | [], P, P' => ∀ y, P' y ↔ P y
  | op :: ops, P, P' => ∃ Q, SetStep R op P Q ∧ SetRun R ops Q P'

/-- One operation on a `Set`. -/
def FSet.step {T : Type} (M : SetStorage T) (s : M.S) : SetOp T → M.S
  | .insert x => (FSet.insert M s x).2
  | .remove x => (FSet.remove M s x).2
  | .clear => FSet.clear M s
  | .retain f st => (FSet.retain M f s st).s

/-- A sequence of operations on a `Set`. -/
def FSet.run {T : Type} (M : SetStorage T) (ops : List (SetOp T)) (s : M.S) : M.S := ops.foldl (FSet.step M) s

/-- What the caller sees of one operation: the returned `bool`, or the closure's final state and whether it panicked. -/
def SetOp.Out {T : Type} : SetOp T → Type
  | .insert _ => Bool
  | .remove _ => Bool
  | .clear => Unit
  | .retain (σ := σ) _ _ => σ × Bool

/-- The result of one operation on a `Set`. -/
def FSet.out {T : Type} (M : SetStorage T) (s : M.S) : (op : SetOp T) → op.Out
  | .insert x => (FSet.insert M s x).1
  | .remove x => (FSet.remove M s x).1
  | .clear => ()
  | .retain f st => ((FSet.retain M f s st).st, (FSet.retain M f s st).panicked)

/-- The closure, if any, never panics. -/
def SetOp.total {T : Type} : SetOp T → Prop
  | .retain f _ => ∀ st x, (f st x).2.isSome = true
  | _ => True

end FixedMap
