import Verif.Model.SetApi

/-! # Any number of `next` calls on an intersection -/

set_option autoImplicit false

namespace FixedMap

/-- `n` calls of `next`: their results and the state afterwards; `none` if `fuel` rounds are not enough for a call. -/
def Intersection.calls {T : Type} (M : SetStorage T) (fuel : Nat) :
    Nat → Intersection M → Option (List (Option T) × Intersection M)
  | 0, st => some ([], st)
  | n + 1, st =>
    match Intersection.next M fuel st with
    | none => none
    | some (o, st') => (Intersection.calls M fuel n st').map fun r => (o :: r.1, r.2)

end FixedMap
