import Verif.Model.SetApi

/-!
# `PartialOrd`, `Ord` and `Hash` of maps and sets

Only storages of unit-only enums (and `SingletonSetStorage`) implement these traits. src/macro_support.rs,
unit_variants.rs, and the wrappers in src/map.rs 1074-1246 and src/set.rs 743-915.
-/

set_option autoImplicit false

namespace FixedMap

/-! ## core -/

/-- `Iterator::partial_cmp` (core): lexicographic, stops at the first item pair that is not `Some(Equal)`. -/
def iterPartialCmp {α : Type} (pcmp : α → α → Option Ordering) : List α → List α → Option Ordering
  | [], [] => some .eq
  | [], _ :: _ => some .lt
  | _ :: _, [] => some .gt
  | a :: as, b :: bs =>
    match pcmp a b with
    | some .eq => iterPartialCmp pcmp as bs
    | r => r

/-- `Iterator::cmp` (core). -/
def iterCmp {α : Type} (cmp : α → α → Ordering) : List α → List α → Ordering
  | [], [] => .eq
  | [], _ :: _ => .lt
  | _ :: _, [] => .gt
  | a :: as, b :: bs =>
    match cmp a b with
    | .eq => iterCmp cmp as bs
    | r => r

/-- `PartialOrd for (usize, &T)` (core). -/
def pairPartialCmp {V : Type} (pcmp : V → V → Option Ordering) (a b : Nat × V) : Option Ordering :=
  match some (compare a.1 b.1) with
  | some .eq => pcmp a.2 b.2
  | r => r

/-- `Ord for (usize, &T)` (core). -/
def pairCmp {V : Type} (cmp : V → V → Ordering) (a b : Nat × V) : Ordering :=
  match compare a.1 b.1 with
  | .eq => cmp a.2 b.2
  | r => r

/-- `Iterator::enumerate` (core). -/
def enumerate {α : Type} (l : List α) : List (Nat × α) := l.zipIdx.map fun p => (p.2, p.1)

/-- `PartialOrd::{lt, le, gt, ge}` (core defaults from `partial_cmp`). -/
def ltOf (r : Option Ordering) : Bool := r == some .lt
def leOf (r : Option Ordering) : Bool := r == some .lt || r == some .eq
def gtOf (r : Option Ordering) : Bool := r == some .gt
def geOf (r : Option Ordering) : Bool := r == some .gt || r == some .eq

/-- `Ord::max` (core default): `if other < self { self } else { other }`. -/
def ordMax {S : Type} (pcmp : S → S → Option Ordering) (self other : S) : S :=
  if ltOf (pcmp other self) then self else other
/-- `Ord::min` (core default): `if other < self { other } else { self }`. -/
def ordMin {S : Type} (pcmp : S → S → Option Ordering) (self other : S) : S :=
  if ltOf (pcmp other self) then other else self
/-- `Ord::clamp` (core default): asserts `min <= max`. -/
def ordClamp {S : Type} (pcmp : S → S → Option Ordering) (self min max : S) : Res S :=
  if leOf (pcmp min max) then
    if ltOf (pcmp self min) then .ok min
    else if gtOf (pcmp self max) then .ok max
    else .ok self
  else .panic

/-! ## macro_support.rs -/

/-- `flatten`, macro_support.rs 12-17. -/
def flattenEntry {V : Type} : Nat × Option V → Option (Nat × V)
  | (index, some value) => some (index, value)
  | _ => none

/-- `__storage_iterator_partial_cmp`, macro_support.rs 21-30. -/
def storageIteratorPartialCmp {V : Type} (pcmp : V → V → Option Ordering) (a b : List (Option V)) :
    Option Ordering :=
  iterPartialCmp (pairPartialCmp pcmp) ((enumerate a).filterMap flattenEntry)
    ((enumerate b).filterMap flattenEntry)

/-- `__storage_iterator_cmp`, macro_support.rs 34-43. -/
def storageIteratorCmp {V : Type} (cmp : V → V → Ordering) (a b : List (Option V)) : Ordering :=
  iterCmp (pairCmp cmp) ((enumerate a).filterMap flattenEntry) ((enumerate b).filterMap flattenEntry)

/-- `filter_bool`, macro_support.rs 46-48. -/
def filterBool (p : Nat × Bool) : Bool := p.2

/-- `Ord for bool` (core): `false < true`. -/
def boolCmp (a b : Bool) : Ordering := compare a.toNat b.toNat

/-- `__storage_iterator_partial_cmp_bool`, macro_support.rs 52-60. -/
def storageIteratorPartialCmpBool (a b : List Bool) : Option Ordering :=
  iterPartialCmp (pairPartialCmp fun x y => some (boolCmp x y)) ((enumerate a).filter filterBool)
    ((enumerate b).filter filterBool)

/-- `__storage_iterator_cmp_bool`, macro_support.rs 64-72. -/
def storageIteratorCmpBool (a b : List Bool) : Ordering :=
  iterCmp (pairCmp boolCmp) ((enumerate a).filter filterBool) ((enumerate b).filter filterBool)

/-! ## Orders of the storages -/

/-- `PartialOrd for __MapStorage<V>`, unit_variants.rs 211-216. -/
def unitsMapPartialCmp {n : Nat} {V : Type} (pcmp : V → V → Option Ordering) (a b : UnitsSt n V) :
    Option Ordering := storageIteratorPartialCmp pcmp a.toList b.toList
/-- `Ord for __MapStorage<V>`, unit_variants.rs 219-224. -/
def unitsMapCmp {n : Nat} {V : Type} (cmp : V → V → Ordering) (a b : UnitsSt n V) : Ordering :=
  storageIteratorCmp cmp a.toList b.toList

/-- `PartialOrd for __SetStorage` (array), unit_variants.rs 595-600. -/
def unitsSetPartialCmp {n : Nat} (a b : UnitsSetSt n) : Option Ordering :=
  storageIteratorPartialCmpBool a.toList b.toList
/-- `Ord for __SetStorage` (array), unit_variants.rs 603-608. -/
def unitsSetCmp {n : Nat} (a b : UnitsSetSt n) : Ordering := storageIteratorCmpBool a.toList b.toList

/-- `Ord for __SetStorage` (bitset), unit_variants.rs 436-441: comparison of the unsigned integers. -/
def bitsetCmp {w : Nat} (a b : BitVec w) : Ordering := compare a.toNat b.toNat
/-- `PartialOrd for __SetStorage` (bitset), unit_variants.rs 428-433. -/
def bitsetPartialCmp {w : Nat} (a b : BitVec w) : Option Ordering := some (compare a.toNat b.toNat)

/-- `Ord for SingletonSetStorage`, derived on `{ is_set: bool }`, set/storage/singleton.rs 7. -/
def unitSetCmp (a b : Bool) : Ordering := boolCmp a b
/-- `PartialOrd for SingletonSetStorage`, derived. -/
def unitSetPartialCmp (a b : Bool) : Option Ordering := some (boolCmp a b)

/-! ## Hash: the sequence of calls made on the `Hasher` -/

/-- Calls on a `Hasher`. `value` stands for whatever a value's `Hash::hash` writes. -/
inductive HashCall (τ : Type) where
  | lengthPrefix (n : Nat)
  | isize (i : Nat)
  | uint (w : Nat) (n : Nat)
  | value (t : τ)
deriving DecidableEq, Repr

/-- `#[derive(Hash)] for Option<V>` (core): the discriminant as `isize`, then the value. `vh` lists the calls
made by `V::hash`. -/
def optHash {V τ : Type} (vh : V → List τ) : Option V → List (HashCall τ)
  | none => [.isize 0]
  | some v => .isize 1 :: (vh v).map .value

/-- `Hash for [T; N]` (core): length prefix, then the elements. -/
def arrayHash {α τ : Type} (h : α → List (HashCall τ)) (l : List α) : List (HashCall τ) :=
  .lengthPrefix l.length :: l.flatMap h

/-- `Hash for bool` (core): `write_u8`. -/
def boolHash {τ : Type} (b : Bool) : List (HashCall τ) := [.uint 8 b.toNat]

/-- `Hash for __MapStorage<V>`, unit_variants.rs 200-208. -/
def unitsMapHash {n : Nat} {V τ : Type} (vh : V → List τ) (s : UnitsSt n V) : List (HashCall τ) :=
  arrayHash (optHash vh) s.toList
/-- `#[derive(Hash)]` on `{ data: [bool; n] }`, unit_variants.rs 587. -/
def unitsSetHash {n : Nat} (s : UnitsSetSt n) : List (HashCall Unit) := arrayHash boolHash s.toList
/-- `#[derive(Hash)]` on `{ data: uW }`, unit_variants.rs 422. -/
def bitsetHash {w : Nat} (s : BitVec w) : List (HashCall Unit) := [.uint w s.toNat]
/-- `#[derive(Hash)]` on `{ is_set: bool }`, set/storage/singleton.rs 7. -/
def unitSetHash (s : Bool) : List (HashCall Unit) := boolHash s

/-! ## The wrappers on `Map` and `Set`

map.rs 1137-1166, 1216-1246; set.rs 806-835, 885-915: every method forwards to the storage's method of the same
name; the storage types do not override the `core` defaults. -/

namespace MapOrd
variable {n : Nat} {V : Type} (pcmp : V → V → Option Ordering)
/-- map.rs 1143-1145 -/
def partialCmp (a b : UnitsSt n V) : Option Ordering := unitsMapPartialCmp pcmp a b
/-- map.rs 1148-1150 -/
def lt (a b : UnitsSt n V) : Bool := ltOf (unitsMapPartialCmp pcmp a b)
/-- map.rs 1153-1155 -/
def le (a b : UnitsSt n V) : Bool := leOf (unitsMapPartialCmp pcmp a b)
/-- map.rs 1158-1160 -/
def gt (a b : UnitsSt n V) : Bool := gtOf (unitsMapPartialCmp pcmp a b)
/-- map.rs 1163-1165 -/
def ge (a b : UnitsSt n V) : Bool := geOf (unitsMapPartialCmp pcmp a b)
/-- map.rs 1222-1224 -/
def cmp (c : V → V → Ordering) (a b : UnitsSt n V) : Ordering := unitsMapCmp c a b
/-- map.rs 1227-1231 -/
def max (a b : UnitsSt n V) : UnitsSt n V := ordMax (unitsMapPartialCmp pcmp) a b
/-- map.rs 1234-1238 -/
def min (a b : UnitsSt n V) : UnitsSt n V := ordMin (unitsMapPartialCmp pcmp) a b
/-- map.rs 1241-1245 -/
def clamp (a lo hi : UnitsSt n V) : Res (UnitsSt n V) := ordClamp (unitsMapPartialCmp pcmp) a lo hi
end MapOrd

-- The `Ord`/`PartialOrd` methods of a set, given the storage's `partial_cmp`.
namespace SetOrd
variable {S : Type} (pcmp : S → S → Option Ordering)
/-- set.rs 817-819 -/
def lt (a b : S) : Bool := ltOf (pcmp a b)
/-- set.rs 822-824 -/
def le (a b : S) : Bool := leOf (pcmp a b)
/-- set.rs 827-829 -/
def gt (a b : S) : Bool := gtOf (pcmp a b)
/-- set.rs 832-834 -/
def ge (a b : S) : Bool := geOf (pcmp a b)
/-- set.rs 896-900 -/
def max (a b : S) : S := ordMax pcmp a b
/-- set.rs 903-907 -/
def min (a b : S) : S := ordMin pcmp a b
/-- set.rs 910-914 -/
def clamp (a lo hi : S) : Res S := ordClamp pcmp a lo hi
end SetOrd

end FixedMap
