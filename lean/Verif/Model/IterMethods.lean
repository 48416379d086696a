import Verif.Model.Fold

/-!
# The other methods of the iterators

`Iterator` and `DoubleEndedIterator` have many more methods than `next` and `next_back`. Those from which the rest is built, and those which the
adapters of core define themselves, are modelled here: `try_fold`, `try_rfold`, `advance_by`, `advance_back_by`, `nth`, `nth_back`, `find`, `rfind`,
`count` and `last`. They work on `&mut self`, so they also return the state they leave. No iterator of the crate defines one of them: generated
iterators and `Keys` of `bool` get the loops of the traits, all others are adapters of core or iterators of hashbrown, which get these loops as well.

`none` = out of fuel. `usize` is `Nat`: `count` does not overflow.
-/

set_option autoImplicit false

namespace FixedMap

/-- `try_fold(&mut self, init, f)` with `?` on `Except`. -/
abbrev TryFoldFn (St α : Type) := (σ E : Type) → Nat → (σ → α → Except E σ) → σ → St → Option (Except E σ × St)

/-- `advance_by(&mut self, n)`: the number of steps which could not be made, 0 for `Ok(())`. -/
abbrev AdvanceFn (St : Type) := Nat → St → Option (Nat × St)

/-- `nth(&mut self, n)` -/
abbrev NthFn (St α : Type) := Nat → St → Option (Option α × St)

/-- `find(&mut self, predicate)`; the predicate is `FnMut` and may keep a state. -/
abbrev FindFn (St α : Type) := (σ : Type) → Nat → (σ → α → σ × Bool) → σ → St → Option ((Option α × σ) × St)

/-- The methods of an iterator. Those that start with `back`, `tryRfold` and `rfind` are only there if the iterator has `next_back`. -/
structure Methods {α : Type} (I : IterImpl α) : Type 1 where
  tryFold : TryFoldFn I.St α
  tryRfold : TryFoldFn I.St α
  advanceBy : AdvanceFn I.St
  advanceBackBy : AdvanceFn I.St
  nth : NthFn I.St α
  nthBack : NthFn I.St α
  find : FindFn I.St α
  rfind : FindFn I.St α
  /-- `count(self)` -/
  count : Nat → I.St → Option Nat
  /-- `last(self)` -/
  last : Nat → I.St → Option (Option α)

/-! ## The definitions in the traits -/

/-- core, traits/iterator.rs `try_fold`, traits/double_ended.rs `try_rfold`:
`while let Some(x) = self.next() { accum = f(accum, x)?; } try { accum }`. -/
def loopTryFold {St α : Type} (step : St → Option α × St) : TryFoldFn St α
  | _, _, 0, _, _, _ => none
  | σ, E, n + 1, f, acc, st =>
    match step st with
    | (none, st') => some (.ok acc, st')
    | (some x, st') =>
      match f acc x with
      | .error e => some (.error e, st')
      | .ok acc' => loopTryFold step σ E n f acc' st'

/-- core, traits/iterator.rs `advance_by`: `for i in 0..n { if self.next().is_none() { return Err(n - i); } } Ok(())`. -/
def loopAdvance {St α : Type} (step : St → Option α × St) : AdvanceFn St
  | 0, st => some (0, st)
  | n + 1, st =>
    match step st with
    | (none, st') => some (n + 1, st')
    | (some _, st') => loopAdvance step n st'

/-- core, traits/iterator.rs `nth`: `self.advance_by(n).ok()?; self.next()`. -/
def nthVia {St α : Type} (adv : AdvanceFn St) (step : St → Option α × St) : NthFn St α := fun n st =>
  match adv n st with
  | none => none
  | some (0, st') => some (step st')
  | some (_ + 1, st') => some (none, st')

/-- core, traits/iterator.rs `find`: `self.try_fold((), check(predicate)).break_value()`. -/
def findVia {St α : Type} (T : TryFoldFn St α) : FindFn St α := fun σ fuel p s st =>
  match T σ (α × σ) fuel (fun s x => if (p s x).2 then .error (x, (p s x).1) else .ok (p s x).1) s st with
  | none => none
  | some (.error (x, s'), st') => some ((some x, s'), st')
  | some (.ok s', st') => some ((none, s'), st')

/-- core, traits/iterator.rs `count`: `self.fold(0, |count, _| count + 1)`. -/
def countVia {St α : Type} (F : FoldFn St α) (fuel : Nat) (st : St) : Option Nat :=
  match F Nat Empty fuel (fun c _ => .ok (c + 1)) 0 st with
  | some (.ok c) => some c
  | _ => none

/-- core, traits/iterator.rs `last`: `self.fold(None, |_, x| Some(x))`. -/
def lastVia {St α : Type} (F : FoldFn St α) (fuel : Nat) (st : St) : Option (Option α) :=
  match F (Option α) Empty fuel (fun _ x => .ok (some x)) none st with
  | some (.ok c) => some c
  | _ => none

/-- core, traits/iterator.rs `any`: `self.try_fold((), |(), x| if f(x) { Break(()) } else { Continue(()) }) == Break(())`. -/
def anyVia {St α : Type} (T : TryFoldFn St α) (fuel : Nat) (f : α → Bool) (st : St) : Option (Bool × St) :=
  (T Unit Unit fuel (fun _ x => if f x then .error () else .ok ()) () st).map fun r =>
    (match r.1 with
      | .error () => true
      | .ok () => false, r.2)

/-- core, traits/iterator.rs `all` -/
def allVia {St α : Type} (T : TryFoldFn St α) (fuel : Nat) (f : α → Bool) (st : St) : Option (Bool × St) :=
  (anyVia T fuel (fun x => !f x) st).map fun r => (!r.1, r.2)

/-- core, traits/iterator.rs `position`: `self.try_fold(0, |i, x| if predicate(x) { Break(i) } else { Continue(i + 1) })`. -/
def positionVia {St α : Type} (T : TryFoldFn St α) (fuel : Nat) (f : α → Bool) (st : St) : Option (Option Nat × St) :=
  (T Nat Nat fuel (fun i x => if f x then .error i else .ok (i + 1)) 0 st).map fun r =>
    (match r.1 with
      | .error i => some i
      | .ok _ => none, r.2)

/-- `next_back`, or nothing. -/
def IterImpl.backStep {α : Type} (I : IterImpl α) (st : I.St) : Option α × I.St :=
  match I.nextBack? with
  | some nb => nb st
  | none => (none, st)

/-- An iterator that defines none of them. -/
def Methods.default {α : Type} (I : IterImpl α) : Methods I where
  tryFold := loopTryFold I.next
  tryRfold := loopTryFold I.backStep
  advanceBy := loopAdvance I.next
  advanceBackBy := loopAdvance I.backStep
  nth := nthVia (loopAdvance I.next) I.next
  nthBack := nthVia (loopAdvance I.backStep) I.backStep
  find := findVia (loopTryFold I.next)
  rfind := findVia (loopTryFold I.backStep)
  count := countVia (loopFold I.next)
  last := lastVia (loopFold I.next)

/-! ## `Map` and `Copied` -/

/-- `self.iter.try_fold(init, |acc, x| g(acc, f(x)))` -/
def mapTryFold {St α β : Type} (g : α → β) (T : TryFoldFn St α) : TryFoldFn St β := fun σ E fuel f acc st =>
  T σ E fuel (fun acc x => f acc (g x)) acc st

/-- core, adapters/map.rs: `Map` defines `try_fold`, `fold` and their back versions. -/
def Methods.map {α β : Type} {I : IterImpl α} (g : α → β) (F : Folds I) (X : Methods I) : Methods (I.map g) where
  tryFold := mapTryFold g X.tryFold
  tryRfold := mapTryFold g X.tryRfold
  advanceBy := loopAdvance (I.map g).next
  advanceBackBy := loopAdvance (I.map g).backStep
  nth := nthVia (loopAdvance (I.map g).next) (I.map g).next
  nthBack := nthVia (loopAdvance (I.map g).backStep) (I.map g).backStep
  find := findVia (mapTryFold g X.tryFold)
  rfind := findVia (mapTryFold g X.tryRfold)
  count := countVia (F.map g).fold
  last := lastVia (F.map g).fold

/-- core, adapters/copied.rs: `Copied` also defines `nth`, `last`, `count`, `advance_by` and `advance_back_by`. -/
def Methods.copied {α β : Type} {I : IterImpl α} (g : α → β) (X : Methods I) : Methods (I.map g) where
  tryFold := mapTryFold g X.tryFold
  tryRfold := mapTryFold g X.tryRfold
  advanceBy := X.advanceBy
  advanceBackBy := X.advanceBackBy
  nth n st := (X.nth n st).map fun r => (r.1.map g, r.2)
  nthBack := nthVia X.advanceBackBy (I.map g).backStep
  find := findVia (mapTryFold g X.tryFold)
  rfind := findVia (mapTryFold g X.tryRfold)
  count := X.count
  last fuel st := (X.last fuel st).map (·.map g)

/-- The same iterator whose items are written down differently (no adapter; see `optMap`, where the addresses of values are paired up). -/
def Methods.relabel {α β : Type} {I : IterImpl α} (g : α → β) (X : Methods I) : Methods (I.map g) where
  tryFold := mapTryFold g X.tryFold
  tryRfold := mapTryFold g X.tryRfold
  advanceBy := X.advanceBy
  advanceBackBy := X.advanceBackBy
  nth n st := (X.nth n st).map fun r => (r.1.map g, r.2)
  nthBack n st := (X.nthBack n st).map fun r => (r.1.map g, r.2)
  find σ fuel p s st := (X.find σ fuel (fun s x => p s (g x)) s st).map fun r => ((r.1.1.map g, r.1.2), r.2)
  rfind σ fuel p s st := (X.rfind σ fuel (fun s x => p s (g x)) s st).map fun r => ((r.1.1.map g, r.1.2), r.2)
  count := X.count
  last fuel st := (X.last fuel st).map (·.map g)

/-! ## `Chain` -/

/-- core, adapters/chain.rs `try_fold`: the first part is cleared once it is through, the second is not. -/
def chainTryFold {A B α : Type} (F : TryFoldFn A α) (G : TryFoldFn B α) : TryFoldFn (Option A × Option B) α := fun σ E fuel f acc st =>
  let second (acc : σ) : Option (Except E σ × (Option A × Option B)) :=
    match st.2 with
    | none => some (.ok acc, (none, none))
    | some b => (G σ E fuel f acc b).map fun r => (r.1, (none, some r.2))
  match st.1 with
  | none => second acc
  | some a =>
    match F σ E fuel f acc a with
    | none => none
    | some (.error e, a') => some (.error e, (some a', st.2))
    | some (.ok acc', _) => second acc'

/-- core, adapters/chain.rs `advance_by` -/
def chainAdvance {A B : Type} (F : AdvanceFn A) (G : AdvanceFn B) : AdvanceFn (Option A × Option B) := fun n st =>
  let second (n : Nat) : Option (Nat × (Option A × Option B)) :=
    match st.2 with
    | none => some (n, (none, none))
    | some b => (G n b).map fun r => (r.1, (none, some r.2))
  match st.1 with
  | none => second n
  | some a =>
    match F n a with
    | none => none
    | some (0, a') => some (0, (some a', st.2))
    | some (k + 1, _) => second (k + 1)

/-- core, adapters/chain.rs `nth` -/
def chainNth {A B α : Type} (F : AdvanceFn A) (step : A → Option α × A) (G : NthFn B α) : NthFn (Option A × Option B) α := fun n st =>
  let second (n : Nat) : Option (Option α × (Option A × Option B)) :=
    match st.2 with
    | none => some (none, (none, none))
    | some b => (G n b).map fun r => (r.1, (none, some r.2))
  match st.1 with
  | none => second n
  | some a =>
    match F n a with
    | none => none
    | some (0, a') =>
      match step a' with
      | (none, _) => second 0
      | (some x, a'') => some (some x, (some a'', st.2))
    | some (k + 1, _) => second (k + 1)

/-- core, adapters/chain.rs `find`: `and_then_or_clear(&mut self.a, |a| a.find(&mut predicate)).or_else(|| self.b.as_mut()?.find(predicate))`. -/
def chainFind {A B α : Type} (F : FindFn A α) (G : FindFn B α) : FindFn (Option A × Option B) α := fun σ fuel p s st =>
  let second (s : σ) : Option ((Option α × σ) × (Option A × Option B)) :=
    match st.2 with
    | none => some ((none, s), (none, none))
    | some b => (G σ fuel p s b).map fun r => (r.1, (none, some r.2))
  match st.1 with
  | none => second s
  | some a =>
    match F σ fuel p s a with
    | none => none
    | some ((some x, s'), a') => some ((some x, s'), (some a', st.2))
    | some ((none, s'), _) => second s'

/-- The states of the back versions are the other way round. -/
def swapState {A B C : Type} (f : Option B × Option A → Option (C × (Option B × Option A))) (st : Option A × Option B) :
    Option (C × (Option A × Option B)) :=
  (f st.swap).map fun r => (r.1, r.2.swap)

/-- `match self.a { Some(a) => a.count(), None => 0 }` and the like. -/
def partOr {A C : Type} (f : A → Option C) (d : C) : Option A → Option C
  | none => some d
  | some a => f a

/-- core, adapters/chain.rs -/
def Methods.chain {α : Type} {I J : IterImpl α} (X : Methods I) (Y : Methods J) : Methods (I.chain J) where
  tryFold := chainTryFold X.tryFold Y.tryFold
  tryRfold σ E fuel f acc := swapState (chainTryFold Y.tryRfold X.tryRfold σ E fuel f acc)
  advanceBy := chainAdvance X.advanceBy Y.advanceBy
  advanceBackBy n := swapState (chainAdvance Y.advanceBackBy X.advanceBackBy n)
  nth := chainNth X.advanceBy I.next Y.nth
  nthBack n := swapState (chainNth Y.advanceBackBy J.backStep X.nthBack n)
  find := chainFind X.find Y.find
  rfind σ fuel p s := swapState (chainFind Y.rfind X.rfind σ fuel p s)
  count fuel st := (partOr (X.count fuel) 0 st.1).bind fun a => (partOr (Y.count fuel) 0 st.2).map fun b => a + b
  last fuel st := (partOr (X.last fuel) none st.1).bind fun a => (partOr (Y.last fuel) none st.2).map fun b => b.or a

/-! ## `FlatMap` and `Flatten` -/

/-- `array::IntoIter::try_fold` and `slice::Iter::try_fold` with the closure `|acc, x| fold(acc, self.frontiter.insert(x.into_iter()))`: the second
component is the inner iterator inserted last, the third the items that are left. -/
def arrayTry {β α σ E : Type} (g : β → Option α) (fold : σ → Option α → Option (Except E σ × Option α)) :
    σ → Option (Option α) → List β → Option (Except E σ × Option (Option α) × List β)
  | acc, u, [] => some (.ok acc, u, [])
  | acc, _, b :: bs =>
    match fold acc (g b) with
    | none => none
    | some (.error e, u) => some (.error e, some u, bs)
    | some (.ok acc', u) => arrayTry g fold acc' (some u) bs

/-- core, adapters/flatten.rs `iter_try_fold`: the near inner iterator, the array, the far inner iterator; each is cleared once it is through. -/
def flatTry {β α σ E : Type} (g : β → Option α) (fold : σ → Option α → Option (Except E σ × Option α)) (acc : σ) (near : Option (Option α))
    (l : List β) (far : Option (Option α)) : Option (Except E σ × (Option (Option α) × List β × Option (Option α))) :=
  let third (acc : σ) : Option (Except E σ × (Option (Option α) × List β × Option (Option α))) :=
    match far with
    | none => some (.ok acc, (none, [], none))
    | some u =>
      match fold acc u with
      | none => none
      | some (.error e, u') => some (.error e, (none, [], some u'))
      | some (.ok acc', _) => some (.ok acc', (none, [], none))
  let second (acc : σ) : Option (Except E σ × (Option (Option α) × List β × Option (Option α))) :=
    match arrayTry g fold acc none l with
    | none => none
    | some (.error e, u, bs) => some (.error e, (u, bs, far))
    | some (.ok acc', _, _) => third acc'
  match near with
  | none => second acc
  | some u =>
    match fold acc u with
    | none => none
    | some (.error e, u') => some (.error e, (some u', l, far))
    | some (.ok acc', _) => second acc'

/-- `iter_try_fold` -/
def flatTryFront {β α σ E : Type} (g : β → Option α) (fold : σ → Option α → Option (Except E σ × Option α)) (acc : σ) (st : FlatSt β α) :
    Option (Except E σ × FlatSt β α) :=
  (flatTry g fold acc st.front st.iter st.back).map fun r => (r.1, ⟨r.2.1, r.2.2.1, r.2.2.2⟩)

/-- `iter_try_rfold` -/
def flatTryBack {β α σ E : Type} (g : β → Option α) (fold : σ → Option α → Option (Except E σ × Option α)) (acc : σ) (st : FlatSt β α) :
    Option (Except E σ × FlatSt β α) :=
  (flatTry g fold acc st.back st.iter.reverse st.front).map fun r => (r.1, ⟨r.2.2.2, r.2.2.1.reverse, r.2.1⟩)

/-- core, adapters/flatten.rs `advance`: `match iter.advance_by(n) { Ok(()) => Break(()), Err(remaining) => Continue(remaining) }`. -/
def flatAdvance {α : Type} (n : Nat) (u : Option α) : Option (Except Unit Nat × Option α) :=
  (loopAdvance optNext n u).map fun r =>
    match r with
    | (0, u') => (.error (), u')
    | (k + 1, u') => (.ok (k + 1), u')

/-- `match self.iter_try_fold(n, advance) { Continue(remaining) => …, _ => Ok(()) }` -/
def flatAdvanced {S : Type} : Except Unit Nat × S → Nat × S
  | (.ok k, st) => (k, st)
  | (.error (), st) => (0, st)

/-- core, adapters/flatten.rs `iter_fold`: front, array, back. -/
def flatFold {β α C : Type} (g : β → Option α) (fold : C → Option α → Option C) (acc : C) (st : FlatSt β α) : Option C :=
  (partOr (fold acc) acc st.front).bind fun acc => ((st.iter.map g).foldlM fold acc).bind fun acc => partOr (fold acc) acc st.back

/-- core, adapters/flatten.rs: `FlattenCompat`, to which `FlatMap` and `Flatten` pass these calls on. It defines no `nth` and no `find`. -/
def Methods.flat {β α : Type} (g : β → Option α) : Methods (flatIter g) where
  tryFold σ E fuel f := flatTryFront g (loopTryFold optNext σ E fuel f)
  tryRfold σ E fuel f := flatTryBack g (loopTryFold optNext σ E fuel f)
  advanceBy n st := (flatTryFront g flatAdvance n st).map flatAdvanced
  advanceBackBy n st := (flatTryBack g flatAdvance n st).map flatAdvanced
  nth := nthVia (fun n st => (flatTryFront g flatAdvance n st).map flatAdvanced) (flatIter g).next
  nthBack := nthVia (fun n st => (flatTryBack g flatAdvance n st).map flatAdvanced) (flatIter g).backStep
  find := findVia fun σ E fuel f => flatTryFront g (loopTryFold optNext σ E fuel f)
  rfind := findVia fun σ E fuel f => flatTryBack g (loopTryFold optNext σ E fuel f)
  count fuel := flatFold g (fun c u => (countVia (loopFold optNext) fuel u).map (c + ·)) 0
  last fuel := flatFold g (fun (c : Option α) u => (lastVia (loopFold optNext) fuel u).map (·.or c)) none

/-! ## The iterators of maps -/

structure MapMethods {K V : Type} (M : MapStorage K V) : Type 1 where
  iter : Methods M.iter.I
  keys : Methods M.keys.I
  values : Methods M.values.I
  iterMut : Methods M.iterMut.I
  valuesMut : Methods M.valuesMut.I
  intoIter : Methods M.intoIter.I

/-- `opt.iter().map(f)` -/
def Methods.mapOption {α β : Type} (g : α → β) : Methods ((optionIter α).map g) := .map g (.default _) (.default _)

/-- boolean.rs 312-354 -/
def boolMapMethods (V : Type) : MapMethods (boolMap V) where
  iter := .chain (.mapOption _) (.mapOption _)
  keys := .default _
  values := .chain (.default (optionIter _)) (.default (optionIter _))
  iterMut := .chain (.mapOption _) (.mapOption _)
  valuesMut := .chain (.default (optionIter _)) (.default (optionIter _))
  intoIter := .chain (.mapOption _) (.mapOption _)

/-- option.rs 332-375 -/
def optMapMethods {K V : Type} {M : MapStorage K V} (f : MapFolds M) (t : MapMethods M) : MapMethods (optMap M) where
  iter := .chain (.map _ f.iter t.iter) (.mapOption _)
  keys := .chain (.map _ f.keys t.keys) (.default (optionIter _))
  values := .chain t.values (.default (optionIter _))
  iterMut := .chain (.map _ f.iterMut t.iterMut) (.mapOption _)
  valuesMut := .chain (.relabel _ t.valuesMut) (.default (optionIter _))
  intoIter := .chain (.map _ f.intoIter t.intoIter) (.mapOption _)

/-- hashbrown.rs 222-251 -/
def hashMapMethods {K V : Type} (A : HashMapApi K V) : MapMethods (hashMap A) where
  iter := .map _ (.default _) (.default _)
  keys := .copied _ (.default _)
  values := .default _
  iterMut := .map _ (.default _) (.default _)
  valuesMut := .default _
  intoIter := .default _

/-- singleton.rs 117-144 and the generated iterators. -/
def MapMethods.default {K V : Type} (M : MapStorage K V) : MapMethods M := ⟨.default _, .default _, .default _, .default _, .default _, .default _⟩

/-- unit_variants.rs 333-364 -/
def unitsMapMethods (n : Nat) (V : Type) : MapMethods (unitsMap n V) := ⟨.flat _, .flat _, .flat _, .flat _, .flat _, .flat _⟩

def mapMethods (H : HashbrownApi) (V : Type) : (κ : KeyTy) → MapMethods (mapStorage H V κ)
  | .bool => boolMapMethods V
  | .unit => .default (unitMap V)
  | .opt κ => optMapMethods (mapFolds H V κ) (mapMethods H V κ)
  | .prim p => hashMapMethods (H p.Key V)
  | .units n => unitsMapMethods n V
  | .bitset n _ _ => unitsMapMethods n V
  | .enum fs => .default (enumMap (mapFields H V fs))

/-! ## The iterators of sets -/

structure SetMethods {T : Type} (M : SetStorage T) : Type 1 where
  iter : Methods M.iter.I
  intoIter : Methods M.intoIter.I

def SetMethods.default {T : Type} (M : SetStorage T) : SetMethods M := ⟨.default _, .default _⟩

/-- set/storage/option.rs 167-182 -/
def optSetMethods {T : Type} {M : SetStorage T} (f : SetFolds M) (t : SetMethods M) : SetMethods (optSet M) where
  iter := .chain (.map _ f.iter t.iter) (.default (optionIter _))
  intoIter := .chain (.map _ f.intoIter t.intoIter) (.default (optionIter _))

/-- set/storage/hashbrown.rs 61, 113-120; `hash_set::IntoIter` is no adapter of core. -/
def hashSetMethods {T : Type} (A : HashMapApi T Unit) : SetMethods (hashSet A) := ⟨.copied _ (.default A.keys.I), .default _⟩

def setMethods (H : HashbrownApi) : (κ : KeyTy) → SetMethods (setStorage H κ)
  | .bool => .default boolSet
  | .unit => .default unitSet
  | .opt κ => optSetMethods (setFolds H κ) (setMethods H κ)
  | .prim p => hashSetMethods (H p.Key Unit)
  | .units n => (⟨.flat _, .flat _⟩ : SetMethods (unitsSet n))
  | .bitset n w _ => (⟨.flat _, .flat _⟩ : SetMethods (bitsetSet n w))
  | .enum fs => .default (enumSet (setFields H fs))

end FixedMap
