import Verif.Model.IterDrop
import Verif.Spec.Hashbrown

/-! # Dropping an owning iterator: specification -/

set_option autoImplicit false

namespace FixedMap

/-- Assumed law of `hash_map::IntoIter`: it holds the values it has not handed out, in any order. -/
def HeldLaw (H : Hashbrown) (V : Type) (held : HeldApi H.api V) : Prop :=
  ∀ (K : Type) [DecidableEq K] (t : (H.api K V).Table) (ds : List Dir) outs st,
    (H.api K V).into_iter.I.run ds ((H.api K V).into_iter.init t) = some (outs, st) →
    (held K st).Perm ((dequeRun ds ((H.laws K V).entries t)).2.map Prod.snd)

end FixedMap
