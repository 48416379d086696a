import Verif.Spec.History
import Verif.Spec.SetExact

/-! # Answers that do not depend on the order of iteration -/

set_option autoImplicit false

namespace FixedMap

variable {σ K V : Type}

/-- Calls whose effect does not depend on the order in which entries are visited: all, except that a closure called for each entry must
neither keep state nor panic. -/
def Op.orderBlind : Op σ K V → Prop
  | .retain f _ => ∃ g : K → V → V × Bool, ∀ st k v, f st k v = (st, (g k v).1, some (g k v).2)
  | .updateAll f _ => ∃ g : K → V → V, ∀ st k v, f st k v = (st, g k v)
  | _ => True

/-- The same answer; lists of entries in any order. -/
def Out.same : Out σ K V → Out σ K V → Prop
  | .list l, .list l' => l.Perm l'
  | a, b => a = b

/-- The same answer, and the same values moved and dropped. -/
structure StepOut.same {S S' : Type} (r : StepOut σ K V S) (r' : StepOut σ K V S') : Prop where
  out : r.out.same r'.out
  puts : r.puts.Perm r'.puts
  moved : r.moved.Perm r'.moved
  dropped : r.dropped.Perm r'.dropped

/-- Step by step the same. -/
def sameSteps {S S' : Type} : List (StepOut σ K V S) → List (StepOut σ K V S') → Prop
  | [], [] => True
  | r :: rs, r' :: rs' => r.same r' ∧ sameSteps rs rs'
  | _, _ => False

/-! ## Sets -/

/-- The same for the calls of a set. -/
def SetCall.orderBlind {T : Type} : SetCall T → Prop
  | .retain f _ => ∃ p : T → Bool, ∀ st x, f st x = (st, some (p x))
  | _ => True

/-- The same answer; lists of elements in any order. -/
def SetCall.sameOut {T : Type} : (c : SetCall T) → c.Out → c.Out → Prop
  | .iter, l, l' => List.Perm l l'
  | _, a, b => a = b

/-- The same calls with the same answers. -/
inductive SetCall.Same {T : Type} : List (Sigma fun c : SetCall T => c.Out) → List (Sigma fun c : SetCall T => c.Out) → Prop where
  | nil : Same [] []
  | cons (c : SetCall T) (o o' : c.Out) {l l' : List (Sigma fun c : SetCall T => c.Out)} :
      c.sameOut o o' → Same l l' → Same (⟨c, o⟩ :: l) (⟨c, o'⟩ :: l')

end FixedMap
