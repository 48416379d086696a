import Verif.Model.MapOpt

/-!
# Derived storage of enums with only unit variants: `impl_map` in fixed-map-derive/src/unit_variants.rs

A variant is its declaration index, `Fin n`. The macro zips the variants with the array slots
`_0, _1, …` position by position (names 13-18, variants 160), so variant `i` owns slot `i`.
-/

set_option autoImplicit false

namespace FixedMap

/-- `struct __MapStorage<V> { data: [Option<V>; count] }`, unit_variants.rs 170-172. -/
abbrev UnitsSt (n : Nat) (V : Type) : Type := Vector (Option V) n

/-- `OccupiedEntry` / `VacantEntry`, unit_variants.rs 61-64, 79-82: key and bucket (place of the slot). -/
structure UnitsEntry (n : Nat) where
  key : Fin n
  inner : Fin n

/-- `option_to_entry(names[i], key)`, unit_variants.rs 118-123. -/
def unitsOptionToEntry {n : Nat} {V : Type} (s : UnitsSt n V) (i : Fin n) (key : Fin n) :
    Res ((UnitsEntry n ⊕ UnitsEntry n) × UnitsSt n V) :=
  (OptionBucket.new s[i]).map fun
    | .some => (.inl ⟨key, i⟩, s)
    | .none => (.inr ⟨key, i⟩, s)

/-- `retain`, unit_variants.rs 314-325: the unrolled statements, one per variant in declaration order. -/
def unitsRetain {n : Nat} {V σ : Type} (f : σ → Fin n → V → σ × V × Option Bool) :
    List (Fin n) → UnitsSt n V → σ → RetainOut (UnitsSt n V) σ V
  | [], s, st => ⟨s, st, false, []⟩
  | i :: is, s, st =>
    let r := retainSlot f i s[i] st
    if r.panicked then ⟨s.set i r.s, r.st, true, r.dropped⟩
    else
      let r' := unitsRetain f is (s.set i r.s) r.st
      ⟨r'.s, r'.st, r'.panicked, r.dropped ++ r'.dropped⟩

/-- `[(Ident::V0, _0), (Ident::V1, _1), …]` -/
def unitsPairs {n : Nat} {V : Type} (s : UnitsSt n V) : List (Fin n × Option V) :=
  (List.finRange n).map fun i => (i, s[i])

/-- `impl MapStorage<Ident, V> for __MapStorage<V>`, unit_variants.rs 227-374; entries 67-115.
`data` is destructured into `_0, …`; the sums/conjunctions `0 + …`, `true && …` are left folds. -/
@[reducible] def unitsMap (n : Nat) (V : Type) : MapStorage (Fin n) V where
  S := UnitsSt n V
  Addr := Fin n
  Occ := UnitsEntry n
  Vac := UnitsEntry n
  read s a := s[a]
  write s a v := s.set a (writeSlot s[a] v)
  -- 250-254
  empty := Vector.replicate n none
  -- 257-260
  len s := s.toList.foldl (fun acc o => acc + o.isSome.toNat) 0
  -- 263-266
  isEmpty s := s.toList.foldl (fun acc o => acc && o.isNone) true
  -- 269-275
  insert s k v := (s[k], s.set k (some v))
  -- 278-284
  containsKey s k := s[k].isSome
  -- 287-293
  get s k := s[k]
  -- 296-302
  getMut s k := s[k].map fun _ => k
  -- 305-311
  remove s k := (s[k], s.set k none)
  -- 314-325
  retain f s st := unitsRetain f (List.finRange n) s st
  -- 328-330
  clear s := (Vector.replicate n none, s.toList.flatMap dropSlot)
  -- 367-373
  entry s k := unitsOptionToEntry s k k
  -- 87-89
  occKey e := e.key
  -- 92-94
  occGet e s := SomeBucket.asRef s[e.inner]
  -- 97-99
  occGetMut e s := (SomeBucket.asMut s[e.inner]).map fun _ => e.inner
  -- 102-104
  occIntoMut e s := (SomeBucket.intoMut s[e.inner]).map fun _ => e.inner
  -- 107-109
  occInsert e s v := (SomeBucket.replace s[e.inner] v).map fun p => (p.1, s.set e.inner p.2)
  -- 112-114
  occRemove e s := (SomeBucket.take s[e.inner]).map fun p => (p.1, s.set e.inner p.2)
  -- 69-71
  vacKey e := e.key
  -- 74-76
  vacInsert e s v := (NoneBucket.insert s[e.inner] v).map fun o => (e.inner, s.set e.inner o)
  -- 189-194 (array `PartialEq`: element by element)
  eq veq s t := (List.finRange n).all fun i => optBeq veq s[i] t[i]
  -- 175-182
  clone c s := s.map (Option.map c)
  -- 333-336
  iter := IterOf.flat (fun p : Fin n × Option V => p.2.map fun v => (p.1, v)) unitsPairs
  -- 339-342
  keys := IterOf.flat id fun s : UnitsSt n V =>
    (List.finRange n).map fun i => if s[i].isSome then some i else none
  -- 345-347
  values := IterOf.flat id fun s : UnitsSt n V => s.toList
  -- 350-353
  iterMut := IterOf.flat (fun p : Fin n × Fin n × Option V => p.2.2.map fun _ => (p.1, p.2.1))
    fun s : UnitsSt n V => (List.finRange n).map fun i => (i, i, s[i])
  -- 356-358
  valuesMut := IterOf.flat (fun p : Fin n × Option V => p.2.map fun _ => p.1)
    fun s : UnitsSt n V => (List.finRange n).map fun i => (i, s[i])
  -- 361-364
  intoIter := IterOf.flat (fun p : Fin n × Option V => p.2.map fun v => (p.1, v)) unitsPairs

end FixedMap
