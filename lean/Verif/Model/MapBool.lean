import Verif.Model.MapTrait

/-!
# `src/map/storage/boolean.rs` and `src/map/storage/singleton.rs`
-/

set_option autoImplicit false

namespace FixedMap

/-! ## boolean.rs -/

/-- `BooleanMapStorage<V>`, boolean.rs 74-77. -/
structure BoolMapSt (V : Type) where
  t : Option V
  f : Option V

/-- `TRUE_BIT`, boolean.rs 11 (the set storage has the same constants, set/storage/boolean.rs 8-9). -/
def TRUE_BIT : BitVec 8 := 0b10#8
/-- `FALSE_BIT`, boolean.rs 12. -/
def FALSE_BIT : BitVec 8 := 0b01#8

/-- `u8::count_ones` and the like (a `core` intrinsic): number of set bits. -/
def countOnes {w : Nat} (b : BitVec w) : Nat := (List.range w).countP fun i => b.getLsbD i

/-- `Keys::next`, boolean.rs 95-107 (`Iter::next` of set/storage/boolean.rs 73-85 is the same code). -/
def boolBitsNext (bits : BitVec 8) : Option Bool × BitVec 8 :=
  if bits &&& TRUE_BIT ≠ 0 then (some true, bits &&& ~~~TRUE_BIT)
  else if bits &&& FALSE_BIT ≠ 0 then (some false, bits &&& ~~~FALSE_BIT)
  else (none, bits)

/-- `Keys::next_back`, boolean.rs 118-130 (set/storage/boolean.rs 96-108). -/
def boolBitsNextBack (bits : BitVec 8) : Option Bool × BitVec 8 :=
  if bits &&& FALSE_BIT ≠ 0 then (some false, bits &&& ~~~FALSE_BIT)
  else if bits &&& TRUE_BIT ≠ 0 then (some true, bits &&& ~~~TRUE_BIT)
  else (none, bits)

/-- `ExactSizeIterator::len` of `Keys`, boolean.rs 135-137 (set/storage/boolean.rs 113-115). -/
def boolBitsLen (bits : BitVec 8) : Nat := countOnes bits

/-- `Keys`, boolean.rs 80-138; `size_hint` 110-113. `set/storage/boolean.rs` 58-116 has the same iterator. -/
def boolBitsIter : IterImpl Bool where
  St := BitVec 8
  next := boolBitsNext
  nextBack? := some boolBitsNextBack
  sizeHint bits := (countOnes bits, some (countOnes bits))

/-- Slot addressed by a bool (`self.t` / `self.f`). -/
def BoolMapSt.slot {V : Type} (s : BoolMapSt V) (a : Bool) : Option V := if a then s.t else s.f
/-- Replace the content of a slot. -/
def BoolMapSt.setSlot {V : Type} (s : BoolMapSt V) (a : Bool) (o : Option V) : BoolMapSt V :=
  if a then { s with t := o } else { s with f := o }

/-- `Occupied`/`Vacant`, boolean.rs 140-148: the key and the bucket, i.e. the place of the bucket's slot. -/
structure BoolEntry where
  key : Bool
  inner : Bool

/-- `BooleanMapStorage::entry`, boolean.rs 357-369. -/
def BoolMapSt.entry {V : Type} (s : BoolMapSt V) (key : Bool) :
    Res ((BoolEntry ⊕ BoolEntry) × BoolMapSt V) :=
  if key then
    (OptionBucket.new s.t).map fun
      | .some => (.inl ⟨key, true⟩, s)
      | .none => (.inr ⟨key, true⟩, s)
  else
    (OptionBucket.new s.f).map fun
      | .some => (.inl ⟨key, false⟩, s)
      | .none => (.inr ⟨key, false⟩, s)

/-- `impl MapStorage<bool, V> for BooleanMapStorage<V>`, boolean.rs 194-370; derives 73; entries 150-192.
`len` uses `saturating_add` on two numbers ≤ 1, modelled as `+`. -/
@[reducible] def boolMap (V : Type) : MapStorage Bool V where
  S := BoolMapSt V
  Addr := Bool
  Occ := BoolEntry
  Vac := BoolEntry
  read s a := s.slot a
  write s a v := s.setSlot a (writeSlot (s.slot a) v)
  -- 226-231
  empty := ⟨none, none⟩
  -- 234-236
  len s := s.t.isSome.toNat + s.f.isSome.toNat
  -- 239-241
  isEmpty s := s.t.isNone && s.f.isNone
  -- 244-250
  insert s k v := if k then (s.t, { s with t := some v }) else (s.f, { s with f := some v })
  -- 253-259
  containsKey s k := if k then s.t.isSome else s.f.isSome
  -- 262-268
  get s k := if k then s.t else s.f
  -- 271-277
  getMut s k := if k then s.t.map fun _ => true else s.f.map fun _ => false
  -- 280-286
  remove s k := if k then (s.t, { s with t := none }) else (s.f, { s with f := none })
  -- 289-303
  retain f s st :=
    ((retainSlot f true s.t st).andThen s.f fun st => retainSlot f false s.f st).mapS
      fun p => ⟨p.1, p.2⟩
  -- 306-309
  clear s := (⟨none, none⟩, dropSlot s.t ++ dropSlot s.f)
  entry := BoolMapSt.entry
  -- 164-166
  occKey e := e.key
  -- 169-171
  occGet e s := SomeBucket.asRef (s.slot e.inner)
  -- 174-176
  occGetMut e s := (SomeBucket.asMut (s.slot e.inner)).map fun _ => e.inner
  -- 179-181
  occIntoMut e s := (SomeBucket.intoMut (s.slot e.inner)).map fun _ => e.inner
  -- 184-186
  occInsert e s v := (SomeBucket.replace (s.slot e.inner) v).map fun p => (p.1, s.setSlot e.inner p.2)
  -- 189-191
  occRemove e s := (SomeBucket.take (s.slot e.inner)).map fun p => (p.1, s.setSlot e.inner p.2)
  -- 152-154
  vacKey e := e.key
  -- 157-159
  vacInsert e s v := (NoneBucket.insert (s.slot e.inner) v).map fun o => (e.inner, s.setSlot e.inner o)
  -- `#[derive(PartialEq)]` 73
  eq veq s t := optBeq veq s.t t.t && optBeq veq s.f t.f
  -- `#[derive(Clone)]` 73
  clone c s := ⟨s.t.map c, s.f.map c⟩
  -- 312-318
  iter := ((IterOf.option fun s : BoolMapSt V => s.t).map fun v => (true, v)).chain
    ((IterOf.option fun s : BoolMapSt V => s.f).map fun v => (false, v))
  -- 321-326
  keys := ⟨boolBitsIter, fun s => (if s.t.isSome then TRUE_BIT else 0) ||| (if s.f.isSome then FALSE_BIT else 0)⟩
  -- 329-331
  values := (IterOf.option fun s : BoolMapSt V => s.t).chain (IterOf.option fun s => s.f)
  -- 334-340
  iterMut := ((IterOf.option fun s : BoolMapSt V => s.t.map fun _ => true).map fun a => (true, a)).chain
    ((IterOf.option fun s : BoolMapSt V => s.f.map fun _ => false).map fun a => (false, a))
  -- 343-345
  valuesMut := (IterOf.option fun s : BoolMapSt V => s.t.map fun _ => true).chain
    (IterOf.option fun s => s.f.map fun _ => false)
  -- 348-354
  intoIter := ((IterOf.option fun s : BoolMapSt V => s.t).map fun v => (true, v)).chain
    ((IterOf.option fun s : BoolMapSt V => s.f).map fun v => (false, v))

/-! ## singleton.rs -/

/-- `impl MapStorage<K, V> for SingletonMapStorage<V>`, singleton.rs 23-153, at its only key type `K = ()`
(key.rs 182), whose `K::default()` is `()`. The struct `{ inner: Option<V> }` (7-9) is the `Option`.
Entries are the buckets themselves (48-55), `key()` of a bucket is `K::default()` (option_bucket.rs
269-271, 375-377). -/
@[reducible] def unitMap (V : Type) : MapStorage Unit V where
  S := Option V
  Addr := Unit
  Occ := Unit
  Vac := Unit
  read s _ := s
  write s _ v := writeSlot s v
  -- 58-62
  empty := none
  -- 65-67
  len s := s.isSome.toNat
  -- 70-72
  isEmpty s := s.isNone
  -- 75-77
  insert s _ v := (s, some v)
  -- 80-82
  containsKey s _ := s.isSome
  -- 85-87
  get s _ := s
  -- 90-92
  getMut s _ := s.map fun _ => ()
  -- 95-97
  remove s _ := (s, none)
  -- 100-109
  retain f s st := retainSlot f () s st
  -- 112-114
  clear s := (none, dropSlot s)
  -- 147-152
  entry s _ := (OptionBucket.new s).map fun
    | .some => (.inl (), s)
    | .none => (.inr (), s)
  -- option_bucket.rs 264-297
  occKey _ := ()
  occGet _ s := SomeBucket.asRef s
  occGetMut _ s := SomeBucket.asMut s
  occIntoMut _ s := SomeBucket.intoMut s
  occInsert _ s v := SomeBucket.replace s v
  occRemove _ s := SomeBucket.take s
  -- option_bucket.rs 370-383
  vacKey _ := ()
  vacInsert _ s v := (NoneBucket.insert s v).map fun o => ((), o)
  -- 16-18
  eq veq s t := optBeq veq s t
  -- `#[derive(Clone)]` 6
  clone c s := s.map c
  -- 117-119
  iter := IterOf.option fun s : Option V => s.map fun v => ((), v)
  -- 122-124: unconditionally `Some(K::default())`
  keys := IterOf.option fun _ : Option V => some ()
  -- 127-129
  values := IterOf.option fun s : Option V => s
  -- 132-134
  iterMut := IterOf.option fun s : Option V => s.map fun _ => ((), ())
  -- 137-139
  valuesMut := IterOf.option fun s : Option V => s.map fun _ => ()
  -- 142-144
  intoIter := IterOf.option fun s : Option V => s.map fun v => ((), v)

end FixedMap
