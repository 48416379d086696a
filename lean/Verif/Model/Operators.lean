import Verif.Model.Compare

/-!
# The other operators with `V` methods that have effects or panic

`!=`, `<`, `<=`, `>`, `>=`, `max`, `min`, `clamp` and `hash` of maps. The crate forwards them to the storage (map.rs 1143-1165,
1222-1245, 1080-1085); the storages do not override the default methods of core, see `OrdHash`.

Rules of Rust used: what a function does not return it drops, parameters in reverse order; after a panic all of them are dropped.
Destructors are quiet here.
-/

set_option autoImplicit false

namespace FixedMap

/-- `PartialEq::ne` (core default). -/
def Map.neD (H : HashbrownApi) {σ V : Type} (κ : KeyTy) (e : EqFn σ V) (a b : (mapStorage H V κ).S) (st : σ) : σ × Option Bool :=
  let r := Map.eqD H κ e a b st
  (r.1, r.2.map (!·))

namespace MapOrd
variable {n : Nat} {σ V : Type} (c : CmpFn σ V (Option Ordering))

/-- map.rs 1148-1150 -/
def ltD (a b : UnitsSt n V) (st : σ) : σ × Option Bool := let r := partialCmpD c a b st; (r.1, r.2.map ltOf)
/-- map.rs 1153-1155 -/
def leD (a b : UnitsSt n V) (st : σ) : σ × Option Bool := let r := partialCmpD c a b st; (r.1, r.2.map leOf)
/-- map.rs 1158-1160 -/
def gtD (a b : UnitsSt n V) (st : σ) : σ × Option Bool := let r := partialCmpD c a b st; (r.1, r.2.map gtOf)
/-- map.rs 1163-1165 -/
def geD (a b : UnitsSt n V) (st : σ) : σ × Option Bool := let r := partialCmpD c a b st; (r.1, r.2.map geOf)

/-- The outcome of `max`, `min` and `clamp`: the world, the map returned unless there was a panic, and the values dropped. -/
structure Chosen (σ V : Type) (n : Nat) where
  st : σ
  out : Option (UnitsSt n V)
  dropped : List V

/-- Drop glue of the array. -/
def dropUnits (s : UnitsSt n V) : List V := s.toList.flatMap dropSlot

/-- `Ord::max` (core default), map.rs 1227-1231: `if other < self { self } else { other }`. -/
def maxD (self other : UnitsSt n V) (st : σ) : Chosen σ V n :=
  match ltD c other self st with
  | (st', none) => ⟨st', none, dropUnits other ++ dropUnits self⟩
  | (st', some true) => ⟨st', some self, dropUnits other⟩
  | (st', some false) => ⟨st', some other, dropUnits self⟩

/-- `Ord::min` (core default), map.rs 1234-1238: `if other < self { other } else { self }`. -/
def minD (self other : UnitsSt n V) (st : σ) : Chosen σ V n :=
  match ltD c other self st with
  | (st', none) => ⟨st', none, dropUnits other ++ dropUnits self⟩
  | (st', some true) => ⟨st', some other, dropUnits self⟩
  | (st', some false) => ⟨st', some self, dropUnits other⟩

/-- `Ord::clamp` (core default), map.rs 1241-1245:
`assert!(min <= max); if self < min { min } else if self > max { max } else { self }`. -/
def clampD (self min max : UnitsSt n V) (st : σ) : Chosen σ V n :=
  let panic (st : σ) : Chosen σ V n := ⟨st, none, dropUnits max ++ dropUnits min ++ dropUnits self⟩
  match leD c min max st with
  | (st, none) => panic st
  | (st, some false) => panic st
  | (st, some true) =>
    match ltD c self min st with
    | (st, none) => panic st
    | (st, some true) => ⟨st, some min, dropUnits max ++ dropUnits self⟩
    | (st, some false) =>
      match gtD c self max st with
      | (st, none) => panic st
      | (st, some true) => ⟨st, some max, dropUnits min ++ dropUnits self⟩
      | (st, some false) => ⟨st, some self, dropUnits max ++ dropUnits min⟩
end MapOrd

/-! ## Hash -/

/-- A call on the hasher, or `V::hash`: the new world (which includes the hasher), and whether it returned. -/
abbrev HashFn (σ A : Type) : Type := σ → A → σ × Bool

section
variable {σ V : Type} (w : HashFn σ (HashCall Empty)) (vh : HashFn σ V)

/-- `a; b` -/
def thenD (a : σ × Bool) (b : σ → σ × Bool) : σ × Bool := if a.2 then b a.1 else a

/-- `Hash for Option<V>` (core, derived). -/
def optHashD : Option V → σ → σ × Bool
  | none => fun st => w st (.isize 0)
  | some v => fun st => thenD (w st (.isize 1)) fun st => vh st v

/-- `Hash::hash_slice` (core default). -/
def sliceHashD {α : Type} (h : α → σ → σ × Bool) : List α → σ → σ × Bool
  | [] => fun st => (st, true)
  | a :: l => fun st => thenD (h a st) (sliceHashD h l)

/-- `Hash for [T; N]` (core): length prefix, then the elements. -/
def arrayHashD {α : Type} (h : α → σ → σ × Bool) (l : List α) (st : σ) : σ × Bool :=
  thenD (w st (.lengthPrefix l.length)) (sliceHashD h l)

/-- `Hash for Map<K, V>` over a unit enum, map.rs 1080-1085, unit_variants.rs 200-208. -/
def MapOrd.hashD {n : Nat} (s : UnitsSt n V) (st : σ) : σ × Bool := arrayHashD w (optHashD w vh) s.toList st

/-- `Hash for Set<T>` over a unit enum (array of `bool`), set.rs 743-915, unit_variants.rs 587. -/
def SetOrd.unitsHashD {n : Nat} (s : UnitsSetSt n) (st : σ) : σ × Bool :=
  arrayHashD w (fun b st => w st (.uint 8 b.toNat)) s.toList st
end

end FixedMap
