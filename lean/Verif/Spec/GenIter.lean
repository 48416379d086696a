import Verif.Model.GenIter
import Verif.Spec.Iter

/-! # Running a schedule of calls on a generated iterator -/

set_option autoImplicit false

namespace FixedMap.Gen

variable {H : HashbrownApi} {V : Type}

/-- The generated iterator implements `DoubleEndedIterator`: all types in the `where` clause do. -/
def IterCode.doubleEnded (H : HashbrownApi) (V : Type) (C : IterCode) : Bool := C.bounds.all (IterTy.doubleEnded H V)

/-- One call; `none`: no such method, stuck, or the loop did not end. -/
def IterCode.step (C : IterCode) (fuel : Nat) : Dir → IterVal H V → Option (Option (Out H V) × IterVal H V)
  | .front, it => runNext C.next fuel it
  | .back, it => if C.doubleEnded H V then runNextBack C.nextBack fuel it else none

/-- Outputs of a schedule of calls. -/
def IterCode.run (C : IterCode) (fuel : Nat) : List Dir → IterVal H V → Option (List (Option (Out H V)))
  | [], _ => some []
  | d :: ds, it => (C.step fuel d it).bind fun p => (IterCode.run C fuel ds p.2).map (p.1 :: ·)

/-- Construct the iterator of a storage struct, then run a schedule of calls. -/
def IterCode.drive (C : IterCode) (fuel : Nat) (S : Struct H V) (ds : List Dir) : Option (List (Option (Out H V))) :=
  (C.make S).bind (C.run fuel ds)

/-- The generated iterator `C` on the struct `S` does what the iterator `it` does: for every schedule of calls the same
outputs (shown by `out`), or the same lack of `next_back`. Every call ends. -/
def IterCode.Does {α : Type} (C : IterCode) (S : Struct H V) (I : IterImpl α) (st : I.St) (out : α → Out H V) : Prop :=
  ∃ n, ∀ fuel, n ≤ fuel → ∀ ds, C.drive fuel S ds = (I.run ds st).map fun r => r.1.map (Option.map out)

/-- The iterator fields `_i, _{i+1}, …`. -/
def inamed : Nat → List (ICell H V) → IStruct H V
  | _, [] => []
  | i, c :: cs => (fieldName i, c) :: inamed (i + 1) cs

end FixedMap.Gen
