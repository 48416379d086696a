import Verif.Model.MapTrait

/-!
# Specification of `retain` on a list of entries
-/

set_option autoImplicit false

namespace FixedMap

/-- Go through the entries in order, calling the closure once per entry. Accepted entries are kept with the value
the closure left in them, rejected ones are dropped (with the value the closure left in them). When the
closure panics, its entry (with the value it left) and all later entries stay. -/
def retainRef {K V σ : Type} (f : σ → K → V → σ × V × Option Bool) :
    List (K × V) → σ → RetainOut (List (K × V)) σ V
  | [], st => ⟨[], st, false, []⟩
  | (k, v) :: l, st =>
    match f st k v with
    | (st', v', none) => ⟨(k, v') :: l, st', true, []⟩
    | (st', v', some true) =>
      let r := retainRef f l st'
      ⟨(k, v') :: r.s, r.st, r.panicked, r.dropped⟩
    | (st', v', some false) =>
      let r := retainRef f l st'
      ⟨r.s, r.st, r.panicked, v' :: r.dropped⟩

end FixedMap
