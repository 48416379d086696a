import Verif.Spec.Retain

/-!
# Specification: ordinary finite maps

A finite map is a list of entries with distinct keys, in no particular order.
-/

set_option autoImplicit false

namespace FixedMap

namespace FinMap

variable {K V : Type} [DecidableEq K]

/-- The value of `k`. -/
def get : List (K × V) → K → Option V
  | [], _ => none
  | p :: l, k => if p.1 = k then some p.2 else get l k

/-- Without `k`. -/
def erase (l : List (K × V)) (k : K) : List (K × V) := l.filter fun p => p.1 ≠ k

/-- With `k` mapped to `v`. -/
def put (l : List (K × V)) (k : K) (v : V) : List (K × V) := (k, v) :: erase l k

end FinMap

end FixedMap
