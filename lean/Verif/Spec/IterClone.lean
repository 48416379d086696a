import Verif.Model.IterClone
import Verif.Spec.GenIter

/-! # What is expected of a cloned iterator -/

set_option autoImplicit false

namespace FixedMap

/-- For every schedule of calls, the clone yields clones (`item`) of what the original would yield, with the same size hint
afterwards; the clone has the methods the original has. -/
def ClonesTo {α : Type} (I : IterImpl α) (clone : I.St → I.St) (item : α → α) : Prop :=
  ∀ st ds, (I.run ds (clone st)).map (fun r => (r.1, I.sizeHint r.2)) =
    (I.run ds st).map fun r => (r.1.map (Option.map item), I.sizeHint r.2)

namespace Gen

variable {H : HashbrownApi} {V : Type}

/-- The item with its value cloned. -/
def Out.cloned (c : V → V) : Out H V → Out H V
  | .value (.val v) => .value (.val (c v))
  | .entry k (.val v) => .entry k (.val (c v))
  | o => o

/-- A schedule of calls: outputs and the iterator afterwards. -/
def IterCode.runSt (C : IterCode) (fuel : Nat) : List Dir → IterVal H V → Option (List (Option (Out H V)) × IterVal H V)
  | [], it => some ([], it)
  | d :: ds, it => (C.step fuel d it).bind fun p => (IterCode.runSt C fuel ds p.2).map fun r => (p.1 :: r.1, r.2)

/-- `it` is what remains of the iterator of `S` after some calls. -/
def IterCode.Reaches (C : IterCode) (S : Struct H V) (it : IterVal H V) : Prop :=
  ∃ fuel ds outs, (C.make S).bind (C.runSt fuel ds) = some (outs, it)

/-- The item with its value cloned, or the end. -/
def clonedOuts (c : V → V) (l : List (Option (Out H V))) : List (Option (Out H V)) := l.map (Option.map (Out.cloned c))

end Gen

end FixedMap
