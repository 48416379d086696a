import Verif.Model.SetApi

/-!
# Internal iteration: `fold` and `rfold`

`Iterator::fold` is what `for_each`, `count`, `sum`, `collect` and others of core run on. An iterator that does not define it gets the loop over `next`;
the adapters of core do define it, and then `next` is not called at all. Which iterator has which is modelled here for all iterators of the crate. The
closure may stop the fold by a panic: it returns `Except`.
-/

set_option autoImplicit false

namespace FixedMap

/-- `fold(self, init, f)`: the first argument bounds the loops, `none` = out of fuel. -/
abbrev FoldFn (St α : Type) := (B E : Type) → Nat → (B → α → Except E B) → B → St → Option (Except E B)

/-- core, traits/iterator.rs `fold`, traits/double_ended.rs `rfold`: `while let Some(x) = self.next() { acc = f(acc, x) } acc`. -/
def loopFold {St α : Type} (step : St → Option α × St) : FoldFn St α
  | _, _, 0, _, _, _ => none
  | B, E, n + 1, f, acc, st =>
    match step st with
    | (none, _) => some (.ok acc)
    | (some x, st') =>
      match f acc x with
      | .error e => some (.error e)
      | .ok acc' => loopFold step B E n f acc' st'

structure Folds {α : Type} (I : IterImpl α) : Type 1 where
  fold : FoldFn I.St α
  /-- Only there if the iterator has `next_back`. -/
  rfold : FoldFn I.St α

/-- An iterator that defines neither. -/
def Folds.default {α : Type} (I : IterImpl α) : Folds I where
  fold := loopFold I.next
  rfold :=
    match I.nextBack? with
    | some nb => loopFold nb
    | none => fun _ _ _ _ _ _ => none

/-- `Map` and `Copied`: `self.iter.fold(init, |acc, x| g(acc, f(x)))`. -/
def Folds.map {α β : Type} {I : IterImpl α} (g : α → β) (F : Folds I) : Folds (I.map g) where
  fold B E fuel f acc st := F.fold B E fuel (fun acc x => f acc (g x)) acc st
  rfold B E fuel f acc st := F.rfold B E fuel (fun acc x => f acc (g x)) acc st

/-- Sequencing. -/
def andFold {B E : Type} (r : Option (Except E B)) (k : B → Option (Except E B)) : Option (Except E B) :=
  match r with
  | none => none
  | some (.error e) => some (.error e)
  | some (.ok b) => k b

/-- `if let Some(a) = self.a { acc = a.fold(acc, &mut f) }` -/
def partFold {St α : Type} (F : FoldFn St α) : FoldFn (Option St) α
  | _, _, _, _, acc, none => some (.ok acc)
  | B, E, fuel, f, acc, some st => F B E fuel f acc st

/-- `Chain`: first one part, then the other. -/
def Folds.chain {α : Type} {I J : IterImpl α} (F : Folds I) (G : Folds J) : Folds (I.chain J) where
  fold B E fuel f acc st := andFold (partFold F.fold B E fuel f acc st.1) fun acc => partFold G.fold B E fuel f acc st.2
  rfold B E fuel f acc st := andFold (partFold G.rfold B E fuel f acc st.2) fun acc => partFold F.rfold B E fuel f acc st.1

/-- `array::IntoIter::fold` and `slice::Iter::fold` with the closure of `FlattenCompat`, which folds over each inner `option::IntoIter`. -/
def arrayFold {β α : Type} (g : β → Option α) (B E : Type) (fuel : Nat) (f : B → α → Except E B) : B → List β → Option (Except E B)
  | acc, [] => some (.ok acc)
  | acc, b :: bs => andFold (loopFold optNext B E fuel f acc (g b)) fun acc => arrayFold g B E fuel f acc bs

/-- `FlatMap` and `Flatten` (`FlattenCompat::iter_fold` and `iter_rfold`): the front inner iterator, the array, the back inner iterator. -/
def Folds.flat {β α : Type} (g : β → Option α) : Folds (flatIter g) where
  fold B E fuel f acc st :=
    andFold (partFold (loopFold optNext) B E fuel f acc st.front) fun acc =>
      andFold (arrayFold g B E fuel f acc st.iter) fun acc => partFold (loopFold optNext) B E fuel f acc st.back
  rfold B E fuel f acc st :=
    andFold (partFold (loopFold optNext) B E fuel f acc st.back) fun acc =>
      andFold (arrayFold g B E fuel f acc st.iter.reverse) fun acc => partFold (loopFold optNext) B E fuel f acc st.front

/-! ## The iterators of maps -/

structure MapFolds {K V : Type} (M : MapStorage K V) where
  iter : Folds M.iter.I
  keys : Folds M.keys.I
  values : Folds M.values.I
  iterMut : Folds M.iterMut.I
  valuesMut : Folds M.valuesMut.I
  intoIter : Folds M.intoIter.I

/-- boolean.rs 312-354; `Keys` (101-131) defines no `fold`. -/
def boolMapFolds (V : Type) : MapFolds (boolMap V) where
  iter := .chain (.map _ (.default (optionIter _))) (.map _ (.default (optionIter _)))
  keys := .default _
  values := .chain (.default (optionIter _)) (.default (optionIter _))
  iterMut := .chain (.map _ (.default (optionIter _))) (.map _ (.default (optionIter _)))
  valuesMut := .chain (.default (optionIter _)) (.default (optionIter _))
  intoIter := .chain (.map _ (.default (optionIter _))) (.map _ (.default (optionIter _)))

/-- option.rs 332-375 -/
def optMapFolds {K V : Type} {M : MapStorage K V} (t : MapFolds M) : MapFolds (optMap M) where
  iter := .chain (.map _ t.iter) (.map _ (.default (optionIter _)))
  keys := .chain (.map _ t.keys) (.default (optionIter _))
  values := .chain t.values (.default (optionIter _))
  iterMut := .chain (.map _ t.iterMut) (.map _ (.default (optionIter _)))
  valuesMut := .chain (.map _ t.valuesMut) (.default (optionIter _))
  intoIter := .chain (.map _ t.intoIter) (.map _ (.default (optionIter _)))

/-- hashbrown.rs 222-251; the iterators of hashbrown 0.13.2 define no `fold`. -/
def hashMapFolds {K V : Type} (A : HashMapApi K V) : MapFolds (hashMap A) where
  iter := .map _ (.default _)
  keys := .map _ (.default _)
  values := .default _
  iterMut := .map _ (.default _)
  valuesMut := .default _
  intoIter := .default _

/-- singleton.rs 117-144: `option::IntoIter` and its like. Generated iterators (any_variants.rs 820-845, 970-995, 1116-1141, 1215-1240, 1347-1372, 1457-1482): only `next` and `next_back`. -/
def MapFolds.default {K V : Type} (M : MapStorage K V) : MapFolds M := ⟨.default _, .default _, .default _, .default _, .default _, .default _⟩

/-- unit_variants.rs 333-364 -/
def unitsMapFolds (n : Nat) (V : Type) : MapFolds (unitsMap n V) := ⟨.flat _, .flat _, .flat _, .flat _, .flat _, .flat _⟩

def mapFolds (H : HashbrownApi) (V : Type) : (κ : KeyTy) → MapFolds (mapStorage H V κ)
  | .bool => boolMapFolds V
  | .unit => .default (unitMap V)
  | .opt κ => optMapFolds (mapFolds H V κ)
  | .prim p => hashMapFolds (H p.Key V)
  | .units n => unitsMapFolds n V
  | .bitset n _ _ => unitsMapFolds n V
  | .enum fs => .default (enumMap (mapFields H V fs))

/-! ## The iterators of sets -/

structure SetFolds {T : Type} (M : SetStorage T) where
  iter : Folds M.iter.I
  intoIter : Folds M.intoIter.I

def SetFolds.default {T : Type} (M : SetStorage T) : SetFolds M := ⟨.default _, .default _⟩

/-- set/storage/option.rs 167-182 -/
def optSetFolds {T : Type} {M : SetStorage T} (t : SetFolds M) : SetFolds (optSet M) where
  iter := .chain (.map _ t.iter) (.default (optionIter _))
  intoIter := .chain (.map _ t.intoIter) (.default (optionIter _))

/-- set/storage/hashbrown.rs 61, 113-120 -/
def hashSetFolds {T : Type} (A : HashMapApi T Unit) : SetFolds (hashSet A) := ⟨.map _ (.default A.keys.I), .map _ (.default A.into_iter.I)⟩

def setFolds (H : HashbrownApi) : (κ : KeyTy) → SetFolds (setStorage H κ)
  | .bool => .default boolSet
  | .unit => .default unitSet
  | .opt κ => optSetFolds (setFolds H κ)
  | .prim p => hashSetFolds (H p.Key Unit)
  | .units n => (⟨.flat _, .flat _⟩ : SetFolds (unitsSet n))
  | .bitset n w _ => (⟨.flat _, .flat _⟩ : SetFolds (bitsetSet n w))
  | .enum fs => .default (enumSet (setFields H fs))

/-- `Intersection::fold`, intersection.rs 75-87: `self.iter.fold(init, |acc, elt| if self.other.contains(elt) { f(acc, elt) } else { acc })`. -/
def Intersection.foldVia {T : Type} {M : SetStorage T} (F : SetFolds M) : FoldFn (Intersection M) T :=
  fun B E fuel f acc st => F.iter.fold B E fuel (fun acc elt => if FSet.contains M st.other elt then f acc elt else .ok acc) acc st.iter

end FixedMap
