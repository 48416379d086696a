import Verif.Model.SetApi

/-! # Specification of sets: reachable sets, `retain` on a list of elements, ordinary sets -/

set_option autoImplicit false

namespace FixedMap

/-- Sets that can be built with the safe API without `from_raw`. (`FromIterator`, `From<[T; N]>` and deserialization
are sequences of `insert`.) A `retain` whose closure panicked also leaves a reachable set. -/
inductive Reachable {T : Type} (M : SetStorage T) : M.S → Prop where
  | new : Reachable M (FSet.new M)
  | default : Reachable M (FSet.default M)
  | insert {s : M.S} (x : T) : Reachable M s → Reachable M (FSet.insert M s x).2
  | remove {s : M.S} (x : T) : Reachable M s → Reachable M (FSet.remove M s x).2
  | retain {s : M.S} {σ : Type} (f : σ → T → σ × Option Bool) (st : σ) : Reachable M s →
      Reachable M (FSet.retain M f s st).s
  | clear {s : M.S} : Reachable M s → Reachable M (FSet.clear M s)
  | clone {s : M.S} : Reachable M s → Reachable M (FSet.clone M s)

/-- What became of a run of the closure over a list of elements. -/
structure Visited (T σ : Type) where
  /-- elements the closure accepted, in order -/
  kept : List T
  /-- elements the closure rejected, in order -/
  rejected : List T
  st : σ
  panicked : Bool

/-- Call the closure once per element, in order, until it panics. -/
def visit {T σ : Type} (f : σ → T → σ × Option Bool) : List T → σ → Visited T σ
  | [], st => ⟨[], [], st, false⟩
  | x :: l, st =>
    match f st x with
    | (st', none) => ⟨[], [], st', true⟩
    | (st', some true) => { visit f l st' with kept := x :: (visit f l st').kept }
    | (st', some false) => { visit f l st' with rejected := x :: (visit f l st').rejected }

end FixedMap
