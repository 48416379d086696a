import Verif.Model.DropPanic
import Verif.Model.SetApi

/-!
# Collecting from a source that fails or panics

`Model/DropPanic` models `FromIterator` on a list of items. Here the source is the user's: an iterator whose `next` acts on the
outside world and may panic, and whose destructor may drop values and panic; or serde's `MapAccess`/`SeqAccess`, which may also fail.
It need not come to an end, so the loops take fuel.

Rules of Rust used: a `for` loop drops its iterator when the loop is left, before the variables declared outside; on `?` and while
unwinding the map is dropped before the parameter `visitor`. What dropping `visitor` does comes after everything else and is not part of the model.
-/

set_option autoImplicit false

namespace FixedMap

/-- What `next`, `next_entry` or `next_element` answers. -/
inductive Pull (α E : Type) where
  | item (a : α)
  | done
  | fail (err : E)
  | panic

/-- Why the loop was left. -/
inductive Stop (E : Type) where
  | done
  | fail (err : E)
  | panicked
deriving DecidableEq

/-- What the caller gets. `panicked` stands for a panic or an abort, see the fate in `Drops`. -/
inductive Outcome (S E : Type) where
  | ok (s : S)
  | fail (err : E)
  | panicked

section
variable (H : HashbrownApi) {σ V E : Type} (d : Dtor σ V)

/-- The loops of map.rs 1377-1379 and 1438-1440. `map.insert(k, v);` drops the value that `insert` returns. -/
def collectD (κ : KeyTy) (next : σ → σ × Pull (κ.Key × V) E) : Nat → (mapStorage H V κ).S → Drops σ V →
    Option (Stop E × (mapStorage H V κ).S × Drops σ V)
  | 0, _, _ => none
  | fuel + 1, m, x =>
    match next x.st with
    | (st, .done) => some (.done, m, { x with st := st })
    | (st, .fail err) => some (.fail err, m, { x with st := st })
    | (st, .panic) => some (.panicked, m, { x with st := st, fate := x.fate.panic })
    | (st, .item p) =>
      let r := Map.insert (mapStorage H V κ) m p.1 p.2
      let y := Drops.slot d r.1 { x with st := st }
      if y.fate = .normal then collectD κ next fuel r.2 y else some (.panicked, r.2, y)

/-- `Map::from_iter`, map.rs 1372-1381, with an iterator given by its `next` and by what dropping it does. -/
def Map.collectFrom (κ : KeyTy) (next : σ → σ × Pull (κ.Key × V) Empty) (drop : Drops σ V → Drops σ V) (fuel : Nat) (st : σ) :
    Option (Outcome (mapStorage H V κ).S Empty × Drops σ V) :=
  (collectD H d κ next fuel (Map.new _) (.start st)).map fun r =>
    let y := drop r.2.2
    if y.fate = .normal then (.ok r.2.1, y) else (.panicked, κ.dropD H d r.2.1 y)

/-- `visit_map`, map.rs 1432-1443. -/
def Map.visitFrom (κ : KeyTy) (next : σ → σ × Pull (κ.Key × V) E) (fuel : Nat) (st : σ) :
    Option (Outcome (mapStorage H V κ).S E × Drops σ V) :=
  (collectD H d κ next fuel (Map.new _) (.start st)).map fun r =>
    match r.1 with
    | .done => (.ok r.2.1, r.2.2)
    | .fail err =>
      let y := κ.dropD H d r.2.1 r.2.2
      (if y.fate = .normal then .fail err else .panicked, y)
    | .panicked => (.panicked, κ.dropD H d r.2.1 r.2.2)
end

section
variable {σ T E : Type} (M : SetStorage T)

/-- The loops of set.rs 996-998 and 1055-1057. Keys are `Copy`: nothing is dropped. -/
def collectSet (next : σ → σ × Pull T E) : Nat → M.S → σ → Option (Outcome M.S E × σ)
  | 0, _, _ => none
  | fuel + 1, s, st =>
    match next st with
    | (st, .done) => some (.ok s, st)
    | (st, .fail err) => some (.fail err, st)
    | (st, .panic) => some (.panicked, st)
    | (st, .item k) => collectSet next fuel (FSet.insert M s k).2 st

/-- `visit_seq`, set.rs 1049-1060. -/
def FSet.visitFrom (next : σ → σ × Pull T E) (fuel : Nat) (st : σ) : Option (Outcome M.S E × σ) :=
  collectSet M next fuel (FSet.new M) st

/-- `Set::from_iter`, set.rs 990-1001. Dropping the iterator may panic. -/
def FSet.collectFrom (next : σ → σ × Pull T Empty) (drop : σ → σ × Bool) (fuel : Nat) (st : σ) :
    Option (Outcome M.S Empty × σ) :=
  (collectSet M next fuel (FSet.new M) st).map fun r =>
    ((if (drop r.2).2 then .panicked else r.1), (drop r.2).1)
end

end FixedMap
