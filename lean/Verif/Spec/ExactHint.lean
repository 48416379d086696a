import Verif.Model.Key
import Verif.Spec.Hashbrown
import Verif.Spec.Exhaust

/-! # Exact size hints: specification -/

set_option autoImplicit false

namespace FixedMap

/-- After any schedule `size_hint` gives the number of items remaining in the deque as both bounds. -/
def IterOf.hintsExactly {S α : Type} (it : IterOf S α) (s : S) (l : List α) : Prop :=
  ∀ ds outs st, it.I.run ds (it.init s) = some (outs, st) →
    it.I.sizeHint st = ((dequeRun ds l).2.length, some (dequeRun ds l).2.length)

/-- After any schedule `size_hint` is `(0, None)` or `(0, Some(0))`, the latter at the latest after the first `None`. -/
def IterOf.hintsVaguely {S α : Type} (it : IterOf S α) (s : S) : Prop :=
  ∀ ds outs st, it.I.run ds (it.init s) = some (outs, st) →
    (it.I.sizeHint st = (0, none) ∨ it.I.sizeHint st = (0, some 0)) ∧ (none ∈ outs → it.I.sizeHint st = (0, some 0))

/-- The iterators of hashbrown are `ExactSizeIterator`s. -/
def HashMapLaws.exactHints {K V : Type} {A : HashMapApi K V} (L : HashMapLaws A) : Prop :=
  ∀ t, A.iter.hintsExactly t (L.entries t) ∧ A.keys.hintsExactly t ((L.entries t).map Prod.fst) ∧
    A.values.hintsExactly t ((L.entries t).map Prod.snd) ∧ A.iter_mut.hintsExactly t (L.addrs t) ∧
    A.values_mut.hintsExactly t ((L.addrs t).map Prod.snd) ∧ A.into_iter.hintsExactly t (L.entries t)

def Hashbrown.exactHints (H : Hashbrown) : Prop := ∀ (K V : Type) [DecidableEq K], (H.laws K V).exactHints

/-- Key types whose iterators count: no derived enum inside. -/
def KeyTy.counted : KeyTy → Bool
  | .bool | .unit | .prim _ => true
  | .opt κ => κ.counted
  | .units _ | .bitset _ _ _ | .enum _ => false

end FixedMap
