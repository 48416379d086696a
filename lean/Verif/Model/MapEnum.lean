import Verif.Model.MapUnits

/-!
# Derived map storage of enums with some non-unit variant: fixed-map-derive/src/any_variants.rs

The generated struct has one field per variant, `_0, _1, …`: an `Option<V>` for a unit variant
(`Kind::Simple`), the storage of the element type for a tuple variant (`Kind::Complex`).
The model builds it field by field: `fieldsNil`, `fieldsSimple`, `fieldsComplex` add one field in front; the
key is a sum with one summand per variant, in declaration order (`.inl` = first variant).
-/

set_option autoImplicit false

namespace FixedMap

/-! ## The iterator loops -/

/-- The fields of a generated iterator struct and the arms of its `match`:
* `next i` runs the arm with index `i`: `none` is the `_ => break` arm, `some (none, st)` falls through
  to the end of the arm, `some (some x, st)` is `return Some(x)`.
* `nextBack?` likewise for the backward arms; present when all complex fields are double ended
  (the generated `where` clause). -/
structure StepOf (S α : Type) : Type 1 where
  St : Type
  count : Nat
  init : S → St
  next : Nat → St → Option (Option α × St)
  nextBack? : Option (Nat → St → Option (Option α × St))

/-- No fields: only the `_ => break` arm. -/
def StepOf.nil (S α : Type) : StepOf S α where
  St := Unit
  count := 0
  init _ := ()
  next _ _ := none
  nextBack? := some fun _ _ => none

/-- Add a field in front. The arm of the field returns what the field's iterator returns. The arm index
of a variant is its position (any_variants.rs 21, 66-72), so the remaining arms are shifted by one. -/
def StepOf.cons {S α : Type} (it : IterOf S α) (F : StepOf S α) : StepOf S α where
  St := it.I.St × F.St
  count := F.count + 1
  init s := (it.init s, F.init s)
  next
    | 0, st => some ((it.I.next st.1).1, ((it.I.next st.1).2, st.2))
    | i + 1, st => (F.next i st.2).map fun p => (p.1, (st.1, p.2))
  nextBack? :=
    match it.I.nextBack?, F.nextBack? with
    | some nb, some fb => some fun
      | 0, st => some ((nb st.1).1, ((nb st.1).2, st.2))
      | i + 1, st => (fb i st.2).map fun p => (p.1, (st.1, p.2))
    | _, _ => none

/-- The same iterator fields inside a bigger struct. -/
def StepOf.comap {S T α : Type} (p : T → S) (F : StepOf S α) : StepOf T α :=
  { F with init := fun t => F.init (p t) }

/-- Rename the returned items (the constructor of the variant). -/
def StepOf.map {S α β : Type} (g : α → β) (F : StepOf S α) : StepOf S β where
  St := F.St
  count := F.count
  init := F.init
  next i st := (F.next i st).map fun p => (p.1.map g, p.2)
  nextBack? := F.nextBack?.map fun nb i st => (nb i st).map fun p => (p.1.map g, p.2)

/-- `{ start: usize, end: usize, fields… }`, any_variants.rs 803-807 and the other iterator structs. -/
structure LoopSt (St : Type) where
  start : Nat
  stop : Nat
  fields : St

/-- `IteratorNext::to_tokens`, any_variants.rs 1800-1815:
`while start < end { match start { arms, _ => break } start = min(start + 1, end) }` then `None`.
`fuel` bounds the number of loop iterations; `end - start` of them suffice because each round increases
`start`. `wrapping_add` cannot wrap below `end`. -/
def StepOf.loopNext {S α : Type} (F : StepOf S α) : Nat → LoopSt F.St → Option α × LoopSt F.St
  | 0, st => (none, st)
  | fuel + 1, st =>
    if st.start < st.stop then
      match F.next st.start st.fields with
      | none => (none, st)
      | some (some x, fs) => (some x, { st with fields := fs })
      | some (none, fs) =>
        StepOf.loopNext F fuel ⟨min (st.start + 1) st.stop, st.stop, fs⟩
    else (none, st)

/-- `IteratorNextBack::to_tokens`, any_variants.rs 1833-1850:
`while start < end { let next = end - 1; match next { arms, _ => break } end = max(next, start) }`. -/
def loopNextBack {St α : Type} (nb : Nat → St → Option (Option α × St)) :
    Nat → LoopSt St → Option α × LoopSt St
  | 0, st => (none, st)
  | fuel + 1, st =>
    if st.start < st.stop then
      match nb (st.stop - 1) st.fields with
      | none => (none, st)
      | some (some x, fs) => (some x, { st with fields := fs })
      | some (none, fs) =>
        loopNextBack nb fuel ⟨st.start, max (st.stop - 1) st.start, fs⟩
    else (none, st)

/-- A generated iterator: constructed with `start: 0, end: fields.len()` (any_variants.rs 849, 999, 1145,
…); `size_hint` is not overridden, so it is the default `(0, None)`. -/
def StepOf.toIter {S α : Type} (F : StepOf S α) : IterOf S α where
  I :=
    { St := LoopSt F.St
      next := fun st => F.loopNext (st.stop - st.start) st
      nextBack? := F.nextBack?.map fun nb st => loopNextBack nb (st.stop - st.start) st
      sizeHint := fun _ => (0, none) }
  init s := ⟨0, F.count, F.init s⟩

/-- A `bool` iterator field of a unit variant, `if mem::take(&mut self.name) { return Some(..) }`
(any_variants.rs 897-911). -/
def takeBoolIter : IterImpl Unit where
  St := Bool
  next b := (if b then some () else none, false)
  nextBack? := some fun b => (if b then some () else none, false)
  sizeHint b := (b.toNat, some b.toNat)

/-! ## The storage struct -/

/-- The generated struct: trait methods plus the fields of the six generated iterators. -/
structure MapFields (K V : Type) : Type 1 extends MapCore K V where
  iter : StepOf S (K × V)
  keys : StepOf S K
  values : StepOf S V
  iterMut : StepOf S (K × Addr)
  valuesMut : StepOf S Addr
  intoIter : StepOf S (K × V)

/-- A struct without fields. Every `match key {}` is on an uninhabited key; `len` is `0`, `is_empty` is
`true`, `eq` is `true`. -/
@[reducible] def fieldsNil (V : Type) : MapFields Empty V where
  S := Unit
  Addr := Empty
  Occ := Empty
  Vac := Empty
  read _ a := a.elim
  write _ a _ := a.elim
  empty := ()
  len _ := 0
  isEmpty _ := true
  insert _ k _ := k.elim
  containsKey _ k := k.elim
  get _ k := k.elim
  getMut _ k := k.elim
  remove _ k := k.elim
  retain _ s st := ⟨s, st, false, []⟩
  clear s := (s, [])
  entry _ k := k.elim
  occKey e := e.elim
  occGet e _ := e.elim
  occGetMut e _ := e.elim
  occIntoMut e _ := e.elim
  occInsert e _ _ := e.elim
  occRemove e _ := e.elim
  vacKey e := e.elim
  vacInsert e _ _ := e.elim
  eq _ _ _ := true
  clone _ s := s
  iter := StepOf.nil _ _
  keys := StepOf.nil _ _
  values := StepOf.nil _ _
  iterMut := StepOf.nil _ _
  valuesMut := StepOf.nil _ _
  intoIter := StepOf.nil _ _

/-- `SimpleOccupiedEntry` / `SimpleVacantEntry`, any_variants.rs 1944-1947, 1956-1959: the key; the bucket
points to the field of the variant. -/
structure SimpleEntry (K : Type) where
  key : K

/-- `option_to_entry(&mut self._i, key)`, any_variants.rs 2069-2074. -/
def simpleOptionToEntry {K V O W : Type} {S : Type} (slot : Option V) (key : K) (s : S) :
    Res (((SimpleEntry K ⊕ O) ⊕ (SimpleEntry K ⊕ W)) × S) :=
  (OptionBucket.new slot).map fun
    | .some => (.inl (.inl ⟨key⟩), s)
    | .none => (.inr (.inl ⟨key⟩), s)

/-- Add a unit variant (`Kind::Simple`) in front: field `_i: Option<V>` (any_variants.rs 407).
Line numbers refer to any_variants.rs. -/
@[reducible] def fieldsSimple {K V : Type} (F : MapFields K V) : MapFields (Unit ⊕ K) V where
  S := Option V × F.S
  Addr := Unit ⊕ F.Addr
  Occ := SimpleEntry (Unit ⊕ K) ⊕ F.Occ
  Vac := SimpleEntry (Unit ⊕ K) ⊕ F.Vac
  read s
    | .inl _ => s.1
    | .inr a => F.read s.2 a
  write s a v :=
    match a with
    | .inl _ => (writeSlot s.1 v, s.2)
    | .inr a => (s.1, F.write s.2 a v)
  -- 209-223
  empty := (none, F.empty)
  -- 247-259
  len s := s.1.isSome.toNat + F.len s.2
  -- 263-275
  isEmpty s := s.1.isNone && F.isEmpty s.2
  -- 229-243
  insert s k v :=
    match k with
    | .inl _ => (s.1, (some v, s.2))
    | .inr k => ((F.insert s.2 k v).1, (s.1, (F.insert s.2 k v).2))
  -- 281-295
  containsKey s
    | .inl _ => s.1.isSome
    | .inr k => F.containsKey s.2 k
  -- 301-315
  get s
    | .inl _ => s.1
    | .inr k => F.get s.2 k
  -- 321-335
  getMut s
    | .inl _ => s.1.map fun _ => .inl ()
    | .inr k => (F.getMut s.2 k).map .inr
  -- 339-355
  remove s
    | .inl _ => (s.1, (none, s.2))
    | .inr k => ((F.remove s.2 k).1, (s.1, (F.remove s.2 k).2))
  -- 366-372, 382
  retain f s st :=
    (retainSlot f (.inl ()) s.1 st).andThen s.2 fun st =>
      F.retain (fun st k v => f st (.inr k) v) s.2 st
  -- 392-401
  clear s := ((none, (F.clear s.2).1), dropSlot s.1 ++ (F.clear s.2).2)
  -- 1893-1895, 2082-2086
  entry s k :=
    match k with
    | .inl u => simpleOptionToEntry s.1 (.inl u) s
    | .inr k => (F.entry s.2 k).map fun
      | (.inl e, s') => (.inl (.inr e), (s.1, s'))
      | (.inr e, s') => (.inr (.inr e), (s.1, s'))
  -- 2020-2025
  occKey
    | .inl e => e.key
    | .inr e => .inr (F.occKey e)
  -- 1963-1965, 2028-2033
  occGet e s :=
    match e with
    | .inl _ => SomeBucket.asRef s.1
    | .inr e => F.occGet e s.2
  -- 1968-1970, 2036-2041
  occGetMut e s :=
    match e with
    | .inl _ => (SomeBucket.asMut s.1).map fun _ => .inl ()
    | .inr e => (F.occGetMut e s.2).map .inr
  -- 1973-1975, 2044-2049
  occIntoMut e s :=
    match e with
    | .inl _ => (SomeBucket.intoMut s.1).map fun _ => .inl ()
    | .inr e => (F.occIntoMut e s.2).map .inr
  -- 1978-1980, 2052-2057
  occInsert e s v :=
    match e with
    | .inl _ => (SomeBucket.replace s.1 v).map fun p => (p.1, (p.2, s.2))
    | .inr e => (F.occInsert e s.2 v).map fun p => (p.1, (s.1, p.2))
  -- 1983-1985, 2060-2065
  occRemove e s :=
    match e with
    | .inl _ => (SomeBucket.take s.1).map fun p => (p.1, (p.2, s.2))
    | .inr e => (F.occRemove e s.2).map fun p => (p.1, (s.1, p.2))
  -- 2001-2006
  vacKey
    | .inl e => e.key
    | .inr e => .inr (F.vacKey e)
  -- 1951-1953, 2009-2014
  vacInsert e s v :=
    match e with
    | .inl _ => (NoneBucket.insert s.1 v).map fun o => (.inl (), (o, s.2))
    | .inr e => (F.vacInsert e s.2 v).map fun p => (.inr p.1, (s.1, p.2))
  -- 170-176: `if ne(a, b) { return false; }` per field
  eq veq s t := if !(optBeq veq s.1 t.1) then false else F.eq veq s.2 t.2
  -- 196-200
  clone c s := (s.1.map c, F.clone c s.2)
  -- 693-709, 783-786
  iter := StepOf.cons
    ((IterOf.option fun s : Option V × F.S => s.1).map fun v => (.inl (), v))
    ((F.iter.comap Prod.snd).map fun p => (.inr p.1, p.2))
  -- 893-912
  keys := StepOf.cons
    ((⟨takeBoolIter, fun s : Option V × F.S => s.1.isSome⟩ : IterOf _ _).map fun _ => .inl ())
    ((F.keys.comap Prod.snd).map .inr)
  -- 1039-1058
  values := StepOf.cons
    (IterOf.option fun s : Option V × F.S => s.1)
    (F.values.comap Prod.snd)
  -- 693-709, 1187-1190
  iterMut := StepOf.cons
    ((IterOf.option fun s : Option V × F.S => s.1.map fun _ => .inl ()).map fun a => (.inl (), a))
    ((F.iterMut.comap Prod.snd).map fun p => (.inr p.1, .inr p.2))
  -- 1283-1302
  valuesMut := StepOf.cons
    (IterOf.option fun s : Option V × F.S => s.1.map fun _ => .inl ())
    ((F.valuesMut.comap Prod.snd).map .inr)
  -- 693-709, 1418-1421
  intoIter := StepOf.cons
    ((IterOf.option fun s : Option V × F.S => s.1).map fun v => (.inl (), v))
    ((F.intoIter.comap Prod.snd).map fun p => (.inr p.1, p.2))

/-- Add a tuple variant (`Kind::Complex`) with element storage `M` in front: field `_i: M` (any_variants.rs
406). Line numbers refer to any_variants.rs. -/
@[reducible] def fieldsComplex {E K V : Type} (M : MapStorage E V) (F : MapFields K V) : MapFields (E ⊕ K) V where
  S := M.S × F.S
  Addr := M.Addr ⊕ F.Addr
  Occ := M.Occ ⊕ F.Occ
  Vac := M.Vac ⊕ F.Vac
  read s
    | .inl a => M.read s.1 a
    | .inr a => F.read s.2 a
  write s a v :=
    match a with
    | .inl a => (M.write s.1 a v, s.2)
    | .inr a => (s.1, F.write s.2 a v)
  -- 209-223
  empty := (M.empty, F.empty)
  -- 247-259
  len s := M.len s.1 + F.len s.2
  -- 263-275
  isEmpty s := M.isEmpty s.1 && F.isEmpty s.2
  -- 229-243
  insert s k v :=
    match k with
    | .inl k => ((M.insert s.1 k v).1, ((M.insert s.1 k v).2, s.2))
    | .inr k => ((F.insert s.2 k v).1, (s.1, (F.insert s.2 k v).2))
  -- 281-295
  containsKey s
    | .inl k => M.containsKey s.1 k
    | .inr k => F.containsKey s.2 k
  -- 301-315
  get s
    | .inl k => M.get s.1 k
    | .inr k => F.get s.2 k
  -- 321-335
  getMut s
    | .inl k => (M.getMut s.1 k).map .inl
    | .inr k => (F.getMut s.2 k).map .inr
  -- 339-355
  remove s
    | .inl k => ((M.remove s.1 k).1, ((M.remove s.1 k).2, s.2))
    | .inr k => ((F.remove s.2 k).1, (s.1, (F.remove s.2 k).2))
  -- 363-365, 382
  retain f s st :=
    (M.retain (fun st k v => f st (.inl k) v) s.1 st).andThen s.2 fun st =>
      F.retain (fun st k v => f st (.inr k) v) s.2 st
  -- 389-401
  clear s := (((M.clear s.1).1, (F.clear s.2).1), (M.clear s.1).2 ++ (F.clear s.2).2)
  -- 1906-1911, 2082-2086
  entry s k :=
    match k with
    | .inl k => (M.entry s.1 k).map fun
      | (.inl e, s') => (.inl (.inl e), (s', s.2))
      | (.inr e, s') => (.inr (.inl e), (s', s.2))
    | .inr k => (F.entry s.2 k).map fun
      | (.inl e, s') => (.inl (.inr e), (s.1, s'))
      | (.inr e, s') => (.inr (.inr e), (s.1, s'))
  -- 1926, 2020-2025
  occKey
    | .inl e => .inl (M.occKey e)
    | .inr e => .inr (F.occKey e)
  -- 1927-1928
  occGet e s :=
    match e with
    | .inl e => M.occGet e s.1
    | .inr e => F.occGet e s.2
  -- 1929-1931
  occGetMut e s :=
    match e with
    | .inl e => (M.occGetMut e s.1).map .inl
    | .inr e => (F.occGetMut e s.2).map .inr
  -- 1932-1934
  occIntoMut e s :=
    match e with
    | .inl e => (M.occIntoMut e s.1).map .inl
    | .inr e => (F.occIntoMut e s.2).map .inr
  -- 1935
  occInsert e s v :=
    match e with
    | .inl e => (M.occInsert e s.1 v).map fun p => (p.1, (p.2, s.2))
    | .inr e => (F.occInsert e s.2 v).map fun p => (p.1, (s.1, p.2))
  -- 1936-1938
  occRemove e s :=
    match e with
    | .inl e => (M.occRemove e s.1).map fun p => (p.1, (p.2, s.2))
    | .inr e => (F.occRemove e s.2).map fun p => (p.1, (s.1, p.2))
  -- 1916-1918
  vacKey
    | .inl e => .inl (M.vacKey e)
    | .inr e => .inr (F.vacKey e)
  -- 1919-1921
  vacInsert e s v :=
    match e with
    | .inl e => (M.vacInsert e s.1 v).map fun p => (.inl p.1, (p.2, s.2))
    | .inr e => (F.vacInsert e s.2 v).map fun p => (.inr p.1, (s.1, p.2))
  -- 170-176
  eq veq s t := if !(M.eq veq s.1 t.1) then false else F.eq veq s.2 t.2
  -- 196-200
  clone c s := (M.clone c s.1, F.clone c s.2)
  -- 710-740, 787-790
  iter := StepOf.cons
    ((M.iter.comap Prod.fst).map fun p => (.inl p.1, p.2))
    ((F.iter.comap Prod.snd).map fun p => (.inr p.1, p.2))
  -- 913-940
  keys := StepOf.cons
    ((M.keys.comap Prod.fst).map .inl)
    ((F.keys.comap Prod.snd).map .inr)
  -- 1059-1086
  values := StepOf.cons (M.values.comap Prod.fst) (F.values.comap Prod.snd)
  -- 710-740, 1191-1198
  iterMut := StepOf.cons
    ((M.iterMut.comap Prod.fst).map fun p => (.inl p.1, .inl p.2))
    ((F.iterMut.comap Prod.snd).map fun p => (.inr p.1, .inr p.2))
  -- 1303-1330
  valuesMut := StepOf.cons
    ((M.valuesMut.comap Prod.fst).map .inl)
    ((F.valuesMut.comap Prod.snd).map .inr)
  -- 710-740, 1422-1429
  intoIter := StepOf.cons
    ((M.intoIter.comap Prod.fst).map fun p => (.inl p.1, p.2))
    ((F.intoIter.comap Prod.snd).map fun p => (.inr p.1, p.2))

/-- `impl MapStorage<Ident, V> for __MapStorage<V>`, any_variants.rs 142-426, from the assembled fields. -/
@[reducible] def enumMap {K V : Type} (F : MapFields K V) : MapStorage K V where
  toMapCore := F.toMapCore
  iter := F.iter.toIter
  keys := F.keys.toIter
  values := F.values.toIter
  iterMut := F.iterMut.toIter
  valuesMut := F.valuesMut.toIter
  intoIter := F.intoIter.toIter

end FixedMap
