import Verif.Model.MapBool

/-!
# `src/map/storage/option.rs` and `src/map/storage/hashbrown.rs`
-/

set_option autoImplicit false

namespace FixedMap

/-! ## option.rs -/

/-- `OptionMapStorage<K, V>`, option.rs 72-78. -/
structure OptMapSt (S V : Type) where
  some : S
  none : Option V

/-- `Vacant`/`Occupied`, option.rs 123-137; the bucket of the `None` constructor always points to
`self.none`. -/
inductive OptEntry (E : Type) where
  | none
  | some (e : E)

/-- `OptionMapStorage::entry`, option.rs 378-389. -/
def OptMapSt.entry {K V : Type} (M : MapStorage K V) (s : OptMapSt M.S V) (key : Option K) :
    Res ((OptEntry M.Occ ⊕ OptEntry M.Vac) × OptMapSt M.S V) :=
  match key with
  | .some key => (M.entry s.some key).map fun
    | (.inl e, s') => (.inl (.some e), { s with some := s' })
    | (.inr e, s') => (.inr (.some e), { s with some := s' })
  | .none => (OptionBucket.new s.none).map fun
    | .some => (.inl .none, s)
    | .none => (.inr .none, s)

/-- `impl MapStorage<Option<K>, V> for OptionMapStorage<K, V>`, option.rs 213-390, over the storage `M` of
`K`. Addresses: `none` is the slot `self.none`, `some a` an address inside `self.some`. -/
@[reducible] def optMap {K V : Type} (M : MapStorage K V) : MapStorage (Option K) V where
  S := OptMapSt M.S V
  Addr := Option M.Addr
  Occ := OptEntry M.Occ
  Vac := OptEntry M.Vac
  read s
    | .none => s.none
    | .some a => M.read s.some a
  write s a v :=
    match a with
    | .none => { s with none := writeSlot s.none v }
    | .some a => { s with some := M.write s.some a v }
  -- 255-260
  empty := ⟨M.empty, .none⟩
  -- 263-265
  len s := M.len s.some + s.none.isSome.toNat
  -- 268-270
  isEmpty s := M.isEmpty s.some && s.none.isNone
  -- 273-278
  insert s k v :=
    match k with
    | .some k => ((M.insert s.some k v).1, { s with some := (M.insert s.some k v).2 })
    | .none => (s.none, { s with none := .some v })
  -- 281-286
  containsKey s
    | .some k => M.containsKey s.some k
    | .none => s.none.isSome
  -- 289-294
  get s
    | .some k => M.get s.some k
    | .none => s.none
  -- 297-302
  getMut s
    | .some k => (M.getMut s.some k).map .some
    | .none => s.none.map fun _ => .none
  -- 305-310
  remove s
    | .some k => ((M.remove s.some k).1, { s with some := (M.remove s.some k).2 })
    | .none => (s.none, { s with none := .none })
  -- 313-323
  retain f s st :=
    ((M.retain (fun st k v => f st (.some k) v) s.some st).andThen s.none
      fun st => retainSlot f .none s.none st).mapS fun p => ⟨p.1, p.2⟩
  -- 326-329
  clear s := (⟨(M.clear s.some).1, .none⟩, (M.clear s.some).2 ++ dropSlot s.none)
  entry := OptMapSt.entry M
  -- 165-170
  occKey
    | .none => .none
    | .some e => .some (M.occKey e)
  -- 173-178
  occGet e s :=
    match e with
    | .none => SomeBucket.asRef s.none
    | .some e => M.occGet e s.some
  -- 181-186
  occGetMut e s :=
    match e with
    | .none => (SomeBucket.asMut s.none).map fun _ => .none
    | .some e => (M.occGetMut e s.some).map .some
  -- 189-194
  occIntoMut e s :=
    match e with
    | .none => (SomeBucket.intoMut s.none).map fun _ => .none
    | .some e => (M.occIntoMut e s.some).map .some
  -- 197-202
  occInsert e s v :=
    match e with
    | .none => (SomeBucket.replace s.none v).map fun p => (p.1, { s with none := p.2 })
    | .some e => (M.occInsert e s.some v).map fun p => (p.1, { s with some := p.2 })
  -- 205-210
  occRemove e s :=
    match e with
    | .none => (SomeBucket.take s.none).map fun p => (p.1, { s with none := p.2 })
    | .some e => (M.occRemove e s.some).map fun p => (p.1, { s with some := p.2 })
  -- 144-149
  vacKey
    | .none => .none
    | .some e => .some (M.vacKey e)
  -- 152-157
  vacInsert e s v :=
    match e with
    | .none => (NoneBucket.insert s.none v).map fun o => (.none, { s with none := o })
    | .some e => (M.vacInsert e s.some v).map fun p => (.some p.1, { s with some := p.2 })
  -- 110-112
  eq veq s t := optBeq veq s.none t.none && M.eq veq s.some t.some
  -- 87-92
  clone c s := ⟨M.clone c s.some, s.none.map c⟩
  -- 332-338
  iter := ((M.iter.comap OptMapSt.some).map fun p => (some p.1, p.2)).chain
    ((IterOf.option OptMapSt.none).map fun v => (none, v))
  -- 341-347
  keys := ((M.keys.comap OptMapSt.some).map some).chain
    (IterOf.option fun s => if s.none.isSome then .some .none else .none)
  -- 350-352
  values := (M.values.comap OptMapSt.some).chain (IterOf.option OptMapSt.none)
  -- 355-361
  iterMut := ((M.iterMut.comap OptMapSt.some).map fun p => (some p.1, some p.2)).chain
    ((IterOf.option fun s : OptMapSt M.S V => s.none.map fun _ => none).map fun a => (none, a))
  -- 364-366
  valuesMut := ((M.valuesMut.comap OptMapSt.some).map some).chain
    (IterOf.option fun s => s.none.map fun _ => none)
  -- 369-375
  intoIter := ((M.intoIter.comap OptMapSt.some).map fun p => (some p.1, p.2)).chain
    ((IterOf.option OptMapSt.none).map fun v => (none, v))

/-! ## hashbrown.rs -/

/-- The part of `hashbrown::HashMap<K, V>` (and its entry types) that fixed-map calls. External crate: a
parameter of the model. -/
structure HashMapApi (K V : Type) : Type 1 where
  Table : Type
  Addr : Type
  OccupiedEntry : Type
  VacantEntry : Type
  read : Table → Addr → Option V
  write : Table → Addr → V → Table
  new : Table
  len : Table → Nat
  is_empty : Table → Bool
  insert : Table → K → V → Option V × Table
  contains_key : Table → K → Bool
  get : Table → K → Option V
  get_mut : Table → K → Option Addr
  remove : Table → K → Option V × Table
  retain : {σ : Type} → (σ → K → V → σ × V × Option Bool) → Table → σ → RetainOut Table σ V
  clear : Table → Table × List V
  entry : Table → K → (OccupiedEntry ⊕ VacantEntry) × Table
  occ_key : OccupiedEntry → K
  occ_get : OccupiedEntry → Table → Res V
  occ_get_mut : OccupiedEntry → Table → Res Addr
  occ_into_mut : OccupiedEntry → Table → Res Addr
  occ_insert : OccupiedEntry → Table → V → Res (V × Table)
  occ_remove : OccupiedEntry → Table → Res (V × Table)
  vac_key : VacantEntry → K
  vac_insert : VacantEntry → Table → V → Res (Addr × Table)
  clone : (V → V) → Table → Table
  iter : IterOf Table (K × V)
  keys : IterOf Table K
  values : IterOf Table V
  iter_mut : IterOf Table (K × Addr)
  values_mut : IterOf Table Addr
  into_iter : IterOf Table (K × V)

/-- `impl PartialEq for hashbrown::HashMap` (hashbrown 0.13, map.rs): equal lengths and every entry of `self`
is in `other` with an equal value. `entries` lists what `self.iter()` yields. -/
def HashMapApi.eqVia {K V : Type} (A : HashMapApi K V) (veq : V → V → Bool)
    (entries : List (K × V)) (s t : A.Table) : Bool :=
  if A.len s ≠ A.len t then false
  else entries.all fun p =>
    match A.get t p.1 with
    | some v => veq p.2 v
    | none => false

/-- Exhaust an iterator with at most `n` calls of `next`. -/
def IterImpl.collect {α : Type} (I : IterImpl α) : Nat → I.St → List α
  | 0, _ => []
  | n + 1, st =>
    match I.next st with
    | (none, _) => []
    | (some a, st') => a :: IterImpl.collect I n st'

/-- `impl MapStorage<K, V> for HashbrownMapStorage<K, V>`, hashbrown.rs 119-260: one-to-one delegation to
the inner `HashMap`; entry traits 69-117; `eq` 57-59; `clone` 44-48.
The comparison runs `self.inner.iter()`; the model exhausts it with `len` calls of `next`. -/
@[reducible] def hashMap {K V : Type} (A : HashMapApi K V) : MapStorage K V where
  S := A.Table
  Addr := A.Addr
  Occ := A.OccupiedEntry
  Vac := A.VacantEntry
  read := A.read
  write := A.write
  -- 167-171
  empty := A.new
  -- 174-176
  len := A.len
  -- 179-181
  isEmpty := A.is_empty
  -- 184-186
  insert := A.insert
  -- 189-191
  containsKey := A.contains_key
  -- 194-196
  get := A.get
  -- 199-201
  getMut := A.get_mut
  -- 204-206
  remove := A.remove
  -- 209-214
  retain f s st := A.retain f s st
  -- 217-219
  clear := A.clear
  -- 254-259
  entry s k := .ok (A.entry s k)
  -- 74-101
  occKey := A.occ_key
  occGet := A.occ_get
  occGetMut := A.occ_get_mut
  occIntoMut := A.occ_into_mut
  occInsert := A.occ_insert
  occRemove := A.occ_remove
  -- 109-116
  vacKey := A.vac_key
  vacInsert := A.vac_insert
  -- 57-59
  eq veq s t := A.eqVia veq (A.iter.I.collect (A.len s) (A.iter.init s)) s t
  -- 44-48
  clone := A.clone
  -- 222-225 (`*k` on a `Copy` key is the identity)
  iter := A.iter.map fun p => (p.1, p.2)
  -- 228-230
  keys := A.keys.map fun k => k
  -- 233-235
  values := A.values
  -- 238-241
  iterMut := A.iter_mut.map fun p => (p.1, p.2)
  -- 244-246
  valuesMut := A.values_mut
  -- 249-251
  intoIter := A.into_iter

end FixedMap
