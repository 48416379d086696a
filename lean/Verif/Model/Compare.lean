import Verif.Model.OrdHash

/-!
# Comparisons with a `V::eq` or `V::cmp` that has effects or panics

The rest of the model takes `V::eq`, `V::partial_cmp` and `V::cmp` as pure functions. Here they act on the outside world `σ` and may
panic, and the comparisons of maps are modelled again.

Rules of core used: `Option`'s `==` calls `V::eq` only on two `Some`s, its `!=` is the negation of `==`; arrays are compared
element by element, in order, up to the first difference; `Iterator::{partial_cmp, cmp}` compare pair after pair up to the first
that is not `Equal`, and a tuple compares its second components only if the first ones are equal. Rule of hashbrown used: `==`
compares the lengths, then goes through `self.iter()`, looking up each key in `other`, up to the first difference.
-/

set_option autoImplicit false

namespace FixedMap

/-- `V::eq`: the new world, and the answer unless it panicked. -/
abbrev EqFn (σ V : Type) : Type := σ → V → V → σ × Option Bool

section
variable {σ V : Type} (e : EqFn σ V)

/-- `a && b` -/
def andD (a : σ × Option Bool) (b : σ → σ × Option Bool) : σ × Option Bool :=
  match a with
  | (st, some true) => b st
  | (st, some false) => (st, some false)
  | (st, none) => (st, none)

/-- `if PartialEq::ne(..) { return false; } rest` -/
def unlessNe (a : σ × Option Bool) (rest : σ → σ × Option Bool) : σ × Option Bool :=
  match (a.1, a.2.map (!·)) with
  | (st, some true) => (st, some false)
  | (st, some false) => rest st
  | (st, none) => (st, none)

/-- `==` of two `Option<V>`. -/
def slotEqD : Option V → Option V → σ → σ × Option Bool
  | none, none => fun st => (st, some true)
  | some a, some b => fun st => e st a b
  | _, _ => fun st => (st, some false)

/-- `==` of two arrays. -/
def arrayEqD : List (Option V) → List (Option V) → σ → σ × Option Bool
  | a :: as, b :: bs => fun st => andD (slotEqD e a b st) (arrayEqD as bs)
  | _, _ => fun st => (st, some true)

/-- `self.iter().all(|(k, v)| other.get(k).map_or(false, |w| *v == *w))` -/
def allEqD {K : Type} (get : K → Option V) : List (K × V) → σ → σ × Option Bool
  | [] => fun st => (st, some true)
  | p :: l => fun st => andD (match get p.1 with
    | some w => e st p.2 w
    | none => (st, some false)) (allEqD get l)

/-- `==` of two hash tables. -/
def tableEqD {K : Type} (A : HashMapApi K V) (a b : A.Table) (st : σ) : σ × Option Bool :=
  if A.len a ≠ A.len b then (st, some false)
  else allEqD e (A.get b) (A.iter.I.collect (A.len a) (A.iter.init a)) st
end

section
variable (H : HashbrownApi) {σ V : Type} (e : EqFn σ V)

mutual
/-- `==` of the map storages. -/
def KeyTy.eqD : (κ : KeyTy) → (mapStorage H V κ).S → (mapStorage H V κ).S → σ → σ × Option Bool
  -- boolean.rs 73-77 (derived)
  | .bool => fun a b st => andD (slotEqD e a.t b.t st) (slotEqD e a.f b.f)
  -- singleton.rs 6-9 (derived)
  | .unit => fun a b st => slotEqD e a b st
  -- option.rs 110-112: `self.none == other.none && self.some == other.some`
  | .opt κ => fun a b st => andD (slotEqD e a.none b.none st) (KeyTy.eqD κ a.some b.some)
  -- hashbrown.rs 57-59
  | .prim p => fun a b st => tableEqD e (H p.Key V) a b st
  -- unit_variants.rs 190-192
  | .units n => fun (a b : UnitsSt n V) st => arrayEqD e a.toList b.toList st
  | .bitset n _ _ => fun (a b : UnitsSt n V) st => arrayEqD e a.toList b.toList st
  -- any_variants.rs 170-176
  | .enum fs => Fields.eqD fs
/-- The statements of the generated `eq`, any_variants.rs 171-173, one per variant. -/
def Fields.eqD : (fs : Fields) → (mapFields H V fs).S → (mapFields H V fs).S → σ → σ × Option Bool
  | .nil => fun _ _ st => (st, some true)
  | .simple fs => fun a b st => unlessNe (slotEqD e a.1 b.1 st) (Fields.eqD fs a.2 b.2)
  | .complex κ fs => fun a b st => unlessNe (KeyTy.eqD κ a.1 b.1 st) (Fields.eqD fs a.2 b.2)
end
end

/-- `==` of two maps, map.rs 1018-1020. -/
def Map.eqD (H : HashbrownApi) {σ V : Type} (κ : KeyTy) (e : EqFn σ V) (a b : (mapStorage H V κ).S) (st : σ) : σ × Option Bool :=
  κ.eqD H e a b st

/-! ## Orders: only maps over unit enums have them -/

/-- `V::partial_cmp` (`R = Option Ordering`) or `V::cmp` (`R = Ordering`): the new world, and the answer unless it panicked. -/
abbrev CmpFn (σ V R : Type) : Type := σ → V → V → σ × Option R

section
variable {σ V R : Type} (of : Ordering → R) (isEq : R → Bool) (c : CmpFn σ V R)

/-- `partial_cmp` or `cmp` of two tuples `(usize, &V)`. -/
def pairCmpD (a b : Nat × V) (st : σ) : σ × Option R :=
  if isEq (of (compare a.1 b.1)) then c st a.2 b.2 else (st, some (of (compare a.1 b.1)))

/-- `Iterator::partial_cmp` or `Iterator::cmp` of two iterators over such tuples. -/
def iterCmpD : List (Nat × V) → List (Nat × V) → σ → σ × Option R
  | [], [], st => (st, some (of .eq))
  | [], _ :: _, st => (st, some (of .lt))
  | _ :: _, [], st => (st, some (of .gt))
  | a :: as, b :: bs, st =>
    match pairCmpD of isEq c a b st with
    | (st', none) => (st', none)
    | (st', some r) => if isEq r then iterCmpD as bs st' else (st', some r)

/-- `__storage_iterator_partial_cmp` and `__storage_iterator_cmp`, macro_support.rs 21-43. -/
def storageIteratorCmpD (a b : List (Option V)) (st : σ) : σ × Option R :=
  iterCmpD of isEq c ((enumerate a).filterMap flattenEntry) ((enumerate b).filterMap flattenEntry) st
end

/-- `PartialOrd::partial_cmp` of two maps over a unit enum: map.rs 1143-1145, unit_variants.rs 211-216. -/
def MapOrd.partialCmpD {n : Nat} {σ V : Type} (c : CmpFn σ V (Option Ordering)) (a b : UnitsSt n V) (st : σ) :
    σ × Option (Option Ordering) := storageIteratorCmpD some (· == some .eq) c a.toList b.toList st

/-- `Ord::cmp` of two maps over a unit enum: map.rs 1222-1224, unit_variants.rs 219-224. -/
def MapOrd.cmpD {n : Nat} {σ V : Type} (c : CmpFn σ V Ordering) (a b : UnitsSt n V) (st : σ) : σ × Option Ordering :=
  storageIteratorCmpD id (· == .eq) c a.toList b.toList st

end FixedMap
