import Verif.Model.GenHeader
import Verif.Model.GenEntry

/-!
# `Send` and `Sync`

The crate and the derive implement neither (there is no `unsafe impl` in /repo), so rustc works both out from the types of the fields. Here
are those types, for all storages, iterators and entries, and rustc's rules. `V` is left open; keys are `Send` and `Sync` (integers, `char`,
`&'static str`, `&'static [u8]`, and enums made of them).

Lifetimes, and how many elements an array has, are left out: they do not matter to rustc here.
-/

set_option autoImplicit false

namespace FixedMap

/-- Types of hashbrown 0.13 with a value type `V` and keys that are `Send` and `Sync`. -/
inductive HashTy where
  /-- `HashMap<K, V>` -/
  | table
  /-- `hash_map::Iter`, `Keys`, `Values` -/
  | iter
  /-- `hash_map::IterMut`, `ValuesMut` -/
  | iterMut
  /-- `hash_map::IntoIter` -/
  | intoIter
  /-- `hash_map::OccupiedEntry`, `VacantEntry` -/
  | entry
deriving DecidableEq

/-- Types, as far as `Send` and `Sync` look into them. -/
inductive RTy where
  /-- integers, `bool`, keys, function pointers, and tables of keys -/
  | plain
  /-- `V` -/
  | value
  /-- `&'a T`; also `slice::Iter<'a, T>`, for which core has the same rules -/
  | ref (t : RTy)
  /-- `&'a mut T`; also `slice::IterMut<'a, T>` -/
  | mutRef (t : RTy)
  /-- `Option<T>` -/
  | opt (t : RTy)
  /-- `[T; N]` -/
  | array (t : RTy)
  /-- tuples, the fields of a struct, the variants of an enum -/
  | pair (t u : RTy)
  | hash (h : HashTy)
deriving DecidableEq

namespace RTy

/-! The adapters of core, by their fields. -/

/-- `option::IntoIter<T>` -/
abbrev optIntoIter (t : RTy) : RTy := opt t
/-- `option::Iter<'a, T>` -/
abbrev optIter (t : RTy) : RTy := opt (ref t)
/-- `option::IterMut<'a, T>` -/
abbrev optIterMut (t : RTy) : RTy := opt (mutRef t)
/-- `array::IntoIter<T, N>`: the elements and the range that is left -/
abbrev arrayIter (t : RTy) : RTy := pair (array t) plain
/-- `iter::Map<I, fn(..) -> ..>` -/
abbrev map (i : RTy) : RTy := pair i plain
/-- `iter::Chain<A, B>` -/
abbrev chain (a b : RTy) : RTy := pair (opt a) (opt b)
/-- `iter::FlatMap<I, U, fn(..) -> U>` and `iter::Flatten<I>`, where the iterator of `U` is `u` -/
abbrev flat (i u : RTy) : RTy := pair (opt (map i)) (pair (opt u) (opt u))

end RTy

open RTy
open Gen (MapIt SetIt)

/-- option_bucket.rs 109-111 and 304-306: `SomeBucket` and `NoneBucket` hold a `&'a mut Option<V>`. -/
def bucketTy : RTy := mutRef (opt value)

/-- `struct .. { key: K, inner: SomeBucket<'a, V> }` or `NoneBucket`: boolean.rs 140-148, unit_variants.rs 61-64 and 79-82,
any_variants.rs 1944-1947 and 1956-1959. -/
def keyedTy : RTy := pair plain bucketTy

/-- map/storage/boolean.rs 14-27, 80-82. -/
def boolIterTy : MapIt → RTy
  | .iter => chain (map (optIter value)) (map (optIter value))
  | .keys => plain
  | .values => chain (optIter value) (optIter value)
  | .iterMut => chain (map (optIterMut value)) (map (optIterMut value))
  | .valuesMut => chain (optIterMut value) (optIterMut value)
  | .intoIter => chain (map (optIntoIter value)) (map (optIntoIter value))

/-- map/storage/singleton.rs 27-47. -/
def unitIterTy : MapIt → RTy
  | .iter => optIntoIter (pair plain (ref value))
  | .keys => optIntoIter plain
  | .values => optIter value
  | .iterMut => optIntoIter (pair plain (mutRef value))
  | .valuesMut => optIterMut value
  | .intoIter => optIntoIter (pair plain value)

/-- map/storage/option.rs 8-38; `i` is the iterator of the storage of `K`. -/
def optIterTy (i : RTy) : MapIt → RTy
  | .iter => chain (map i) (map (optIter value))
  | .keys => chain (map i) (optIntoIter plain)
  | .values => chain i (optIter value)
  | .iterMut => chain (map i) (map (optIterMut value))
  | .valuesMut => chain i (optIterMut value)
  | .intoIter => chain (map i) (map (optIntoIter value))

/-- map/storage/hashbrown.rs 123-154; `iter::Copied` is a struct around its iterator. -/
def hashIterTy : MapIt → RTy
  | .iter => map (hash .iter)
  | .keys => hash .iter
  | .values => hash .iter
  | .iterMut => map (hash .iterMut)
  | .valuesMut => hash .iterMut
  | .intoIter => hash .intoIter

/-- unit_variants.rs 228-245. -/
def unitsIterTy : MapIt → RTy
  | .iter => flat (arrayIter (pair plain (ref (opt value)))) (optIntoIter (pair plain (ref value)))
  | .keys => flat (arrayIter (opt plain)) (optIntoIter plain)
  | .values => flat (ref (opt value)) (optIter value)
  | .iterMut => flat (arrayIter (pair plain (mutRef (opt value)))) (optIntoIter (pair plain (mutRef value)))
  | .valuesMut => flat (mutRef (opt value)) (optIterMut value)
  | .intoIter => flat (arrayIter (pair plain (opt value))) (optIntoIter (pair plain value))

/-- The field of an iterator for a variant without payload, any_variants.rs 783, 895, 1041, 1188, 1285, 1419. -/
def slotIterTy : MapIt → RTy
  | .iter | .values => opt (ref value)
  | .keys => plain
  | .iterMut | .valuesMut => opt (mutRef value)
  | .intoIter => opt value

mutual
/-- `<K as Key>::MapStorage<V>`. `Map<K, V>` is a struct around it (map.rs 110-115). -/
def KeyTy.mapTy : KeyTy → RTy
  -- map/storage/boolean.rs 74-77
  | .bool => pair (opt value) (opt value)
  -- map/storage/singleton.rs 7-9
  | .unit => opt value
  -- map/storage/option.rs 72-78
  | .opt κ => pair κ.mapTy (opt value)
  -- map/storage/hashbrown.rs 34-36
  | .prim _ => hash .table
  -- unit_variants.rs 170-172
  | .units _ => array (opt value)
  | .bitset _ _ _ => array (opt value)
  -- any_variants.rs 405-415
  | .enum fs => fs.mapTy
def Fields.mapTy : Fields → RTy
  | .nil => plain
  | .simple fs => pair (opt value) fs.mapTy
  | .complex κ fs => pair κ.mapTy fs.mapTy
end

mutual
/-- The iterators of the map storages. -/
def KeyTy.mapIterTy (q : MapIt) : KeyTy → RTy
  | .bool => boolIterTy q
  | .unit => unitIterTy q
  | .opt κ => optIterTy (κ.mapIterTy q) q
  | .prim _ => hashIterTy q
  | .units _ => unitsIterTy q
  | .bitset _ _ _ => unitsIterTy q
  -- any_variants.rs 803-807, 953-957, 1099-1103, 1210-1214, 1342-1346, 1440-1444: `start`, `end`, and the fields
  | .enum fs => pair plain (pair plain (fs.mapIterTy q))
def Fields.mapIterTy (q : MapIt) : Fields → RTy
  | .nil => plain
  | .simple fs => pair (slotIterTy q) (fs.mapIterTy q)
  | .complex κ fs => pair (κ.mapIterTy q) (fs.mapIterTy q)
end

mutual
/-- `Occupied<'a>` and `Vacant<'a>` of the map storages: the two have the same parts. -/
def KeyTy.entryTy : KeyTy → RTy
  -- map/storage/boolean.rs 140-148
  | .bool => keyedTy
  -- map/storage/singleton.rs 48-55
  | .unit => bucketTy
  -- map/storage/option.rs 123-137
  | .opt κ => pair bucketTy κ.entryTy
  -- map/storage/hashbrown.rs 7-8
  | .prim _ => hash .entry
  -- unit_variants.rs 61-64, 79-82
  | .units _ => keyedTy
  | .bitset _ _ _ => keyedTy
  -- any_variants.rs 1988-1996
  | .enum fs => pair keyedTy fs.entryTy
def Fields.entryTy : Fields → RTy
  | .nil => plain
  | .simple fs => fs.entryTy
  | .complex κ fs => pair κ.entryTy fs.entryTy
end

mutual
/-- `<K as Key>::SetStorage`. `Set<K>` is a struct around it (set.rs 80-85). -/
def KeyTy.setTy : KeyTy → RTy
  -- set/storage/boolean.rs 53-55, singleton.rs 8-10
  | .bool | .unit => plain
  -- set/storage/option.rs 49-55
  | .opt κ => pair κ.setTy plain
  -- set/storage/hashbrown.rs 29-31
  | .prim _ => plain
  -- unit_variants.rs 590-592, 423-425
  | .units _ => array plain
  | .bitset _ _ _ => plain
  -- any_variants.rs 646-656
  | .enum fs => fs.setTy
def Fields.setTy : Fields → RTy
  | .nil => plain
  | .simple fs => pair plain fs.setTy
  | .complex κ fs => pair κ.setTy fs.setTy
end

mutual
/-- The iterators of the set storages. -/
def KeyTy.setIterTy (q : SetIt) : KeyTy → RTy
  -- set/storage/boolean.rs 58-60
  | .bool => plain
  -- set/storage/singleton.rs 16-17
  | .unit => optIntoIter plain
  -- set/storage/option.rs 8-15
  | .opt κ => chain (map (κ.setIterTy q)) (optIntoIter (opt plain))
  -- set/storage/hashbrown.rs 61-65
  | .prim _ => match q with
    | .iter => ref plain
    | .intoIter => plain
  -- unit_variants.rs 445-446, 612-613
  | .units _ => flat (arrayIter (opt plain)) (optIntoIter plain)
  | .bitset _ _ _ => flat (arrayIter (opt plain)) (optIntoIter plain)
  -- any_variants.rs 1585-1589, 1727-1731
  | .enum fs => pair plain (pair plain (fs.setIterTy q))
def Fields.setIterTy (q : SetIt) : Fields → RTy
  | .nil => plain
  | .simple fs => pair plain (fs.setIterTy q)
  | .complex κ fs => pair (κ.setIterTy q) (fs.setIterTy q)
end

/-- set/intersection.rs 34-39. -/
def KeyTy.intersectionTy (κ : KeyTy) : RTy := pair (κ.setIterTy .iter) (ref κ.setTy)

/-- map/entry.rs 6-14: `enum Entry<'a, S, K, V> { Occupied(S::Occupied<'a>), Vacant(S::Vacant<'a>) }`. -/
def KeyTy.wholeEntryTy (κ : KeyTy) : RTy := pair κ.entryTy κ.entryTy

/-! ## rustc's rules -/

/-- Whether a type is `Send` and `Sync`. -/
structure Auto where
  send : Bool
  sync : Bool
deriving DecidableEq, Repr

def Auto.and (a b : Auto) : Auto := ⟨a.send && b.send, a.sync && b.sync⟩

/-- What hashbrown's types are, if the value type is `v`. Assumed: `RawTable` and `RawIntoIter` have `unsafe impl`s that pass both traits through; the borrowing
iterators have a `PhantomData<(&'a K, &'a V)>`; `IterMut` and the entries have `unsafe impl`s of `Send` for `V: Send` and are `Sync` for `V: Sync`. -/
def HashTy.auto (v : Auto) : HashTy → Auto
  | .table | .intoIter => v
  | .iter => ⟨v.sync, v.sync⟩
  | .iterMut | .entry => v

/-- Structs, tuples, arrays and enums pass both traits through; `&T` is `Send` and `Sync` if `T` is `Sync`; `&mut T` is what `T` is. -/
def RTy.auto (v : Auto) : RTy → Auto
  | .plain => ⟨true, true⟩
  | .value => v
  | .ref t => ⟨(t.auto v).sync, (t.auto v).sync⟩
  | .mutRef t => t.auto v
  | .opt t | .array t => t.auto v
  | .pair t u => (t.auto v).and (u.auto v)
  | .hash h => h.auto v

/-! ## The emitted structs -/

namespace Gen

/-- The types of emitted fields (`Model/GenHeader.lean`). -/
def Ty.rty : Ty → RTy
  | .plain => .plain
  | .value => .value
  | .optVal => .opt .value
  | .optRef => .opt (.ref .value)
  | .optMut => .opt (.mutRef .value)
  | .map κ => κ.mapTy
  | .set κ => κ.setTy
  | .mapIter κ q _ => κ.mapIterTy q
  | .setIter κ q _ => κ.setIterTy q

/-- An emitted struct, by its fields. -/
def Decl.rty (d : Decl) : RTy := (d.fields.map Ty.rty).foldr .pair .plain

/-- An emitted enum of entries, by its variants. -/
def entriesTy (variants : List (String × Option KeyTy)) : RTy :=
  (variants.map fun p => match p.2 with | none => keyedTy | some κ => κ.entryTy).foldr .pair .plain

end Gen

end FixedMap
