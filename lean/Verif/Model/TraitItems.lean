import Verif.Model.Quote

/-!
# The traits that the emitted code implements

Those of fixed-map with the text of the source; provided methods do not occur in them. Those of core, as far as the emitted code goes, with their required items only, are trusted.
-/

set_option autoImplicit false

namespace FixedMap.Impls

open FixedMap.Emit (Toks)

/-- A trait: where it can be found, its parameters with defaults, names used in it, and its items up to the semicolon. -/
structure Trait where
  path : List String
  params : List (String × Option Toks)
  uses : List (String × List String)
  items : List Toks

/-- `Option` and the traits named in bounds come from the prelude. -/
def prelude : List (String × List String) := [("Option", ["core", "option", "Option"]), ("Iterator", ["core", "iter", "Iterator"]), ("Clone", ["core", "clone", "Clone"])]

/-- src/key.rs 127-135; the two names: 5, 8 and map.rs 7, set.rs 11 -/
def trKey : Trait :=
  { path := ["fixed_map", "Key"], params := [], uses := [("MapStorage", ["fixed_map", "map", "MapStorage"]), ("SetStorage", ["fixed_map", "set", "SetStorage"])],
    items := [quote! "type MapStorage<V>: MapStorage<Self, V>", quote! "type SetStorage: SetStorage<Self>"] }

/-- src/map/storage.rs 25-120; the names: 17, 124, 426 and map.rs 4, 7 -/
def trMapStorage : Trait :=
  { path := ["fixed_map", "map", "MapStorage"], params := [("K", none), ("V", none)],
    uses := prelude ++ [("Entry", ["fixed_map", "map", "Entry"]), ("OccupiedEntry", ["fixed_map", "map", "OccupiedEntry"]), ("VacantEntry", ["fixed_map", "map", "VacantEntry"])],
    items := [
      quote! "type Iter<'this>: Iterator<Item = (K, &'this V)> where Self: 'this, V: 'this",
      quote! "type Keys<'this>: Iterator<Item = K> where Self: 'this",
      quote! "type Values<'this>: Iterator<Item = &'this V> where Self: 'this, V: 'this",
      quote! "type IterMut<'this>: Iterator<Item = (K, &'this mut V)> where Self: 'this, V: 'this",
      quote! "type ValuesMut<'this>: Iterator<Item = &'this mut V> where Self: 'this, V: 'this",
      quote! "type IntoIter: Iterator<Item = (K, V)>",
      quote! "type Occupied<'this>: OccupiedEntry<'this, K, V> where Self: 'this",
      quote! "type Vacant<'this>: VacantEntry<'this, K, V> where Self: 'this",
      quote! "fn empty() -> Self",
      quote! "fn len(&self) -> usize",
      quote! "fn is_empty(&self) -> bool",
      quote! "fn insert(&mut self, key: K, value: V) -> Option<V>",
      quote! "fn contains_key(&self, key: K) -> bool",
      quote! "fn get(&self, key: K) -> Option<&V>",
      quote! "fn get_mut(&mut self, key: K) -> Option<&mut V>",
      quote! "fn remove(&mut self, key: K) -> Option<V>",
      quote! "fn retain<F>(&mut self, f: F) where F: FnMut(K, &mut V) -> bool",
      quote! "fn clear(&mut self)",
      quote! "fn iter(&self) -> Self::Iter<'_>",
      quote! "fn keys(&self) -> Self::Keys<'_>",
      quote! "fn values(&self) -> Self::Values<'_>",
      quote! "fn iter_mut(&mut self) -> Self::IterMut<'_>",
      quote! "fn values_mut(&mut self) -> Self::ValuesMut<'_>",
      quote! "fn into_iter(self) -> Self::IntoIter",
      quote! "fn entry(&mut self, key: K) -> Entry<'_, Self, K, V>"] }

/-- src/map/storage.rs 124-422 -/
def trOccupiedEntry : Trait :=
  { path := ["fixed_map", "map", "OccupiedEntry"], params := [("'a", none), ("K", none), ("V", none)], uses := prelude,
    items := [quote! "fn key(&self) -> K", quote! "fn get(&self) -> &V", quote! "fn get_mut(&mut self) -> &mut V", quote! "fn into_mut(self) -> &'a mut V",
      quote! "fn insert(&mut self, value: V) -> V", quote! "fn remove(self) -> V"] }

/-- src/map/storage.rs 426-518 -/
def trVacantEntry : Trait :=
  { path := ["fixed_map", "map", "VacantEntry"], params := [("'a", none), ("K", none), ("V", none)], uses := prelude,
    items := [quote! "fn key(&self) -> K", quote! "fn insert(self, value: V) -> &'a mut V"] }

/-- src/set/storage.rs 22-62 -/
def trSetStorage : Trait :=
  { path := ["fixed_map", "set", "SetStorage"], params := [("T", none)], uses := prelude,
    items := [
      quote! "type Iter<'this>: Iterator<Item = T> + Clone where Self: 'this",
      quote! "type IntoIter: Iterator<Item = T>",
      quote! "fn empty() -> Self",
      quote! "fn len(&self) -> usize",
      quote! "fn is_empty(&self) -> bool",
      quote! "fn insert(&mut self, value: T) -> bool",
      quote! "fn contains(&self, value: T) -> bool",
      quote! "fn remove(&mut self, value: T) -> bool",
      quote! "fn retain<F>(&mut self, f: F) where F: FnMut(T) -> bool",
      quote! "fn clear(&mut self)",
      quote! "fn iter(&self) -> Self::Iter<'_>",
      quote! "fn into_iter(self) -> Self::IntoIter"] }

/-- src/raw.rs 13-22 -/
def trRawStorage : Trait :=
  { path := ["fixed_map", "raw", "RawStorage"], params := [], uses := prelude,
    items := [quote! "type Value", quote! "fn as_raw(&self) -> Self::Value", quote! "fn from_raw(raw: Self::Value) -> Self"] }

/-! Those of core -/

def trClone : Trait :=
  { path := ["core", "clone", "Clone"], params := [], uses := prelude, items := [quote! "fn clone(&self) -> Self"] }

def trCopy : Trait :=
  { path := ["core", "marker", "Copy"], params := [], uses := prelude, items := [] }

def trPartialEq : Trait :=
  { path := ["core", "cmp", "PartialEq"], params := [("Rhs", some ["Self"])], uses := prelude, items := [quote! "fn eq(&self, other: &Rhs) -> bool"] }

def trEq : Trait :=
  { path := ["core", "cmp", "Eq"], params := [], uses := prelude, items := [] }

def trPartialOrd : Trait :=
  { path := ["core", "cmp", "PartialOrd"], params := [("Rhs", some ["Self"])], uses := prelude ++ [("Ordering", ["core", "cmp", "Ordering"])],
    items := [quote! "fn partial_cmp(&self, other: &Rhs) -> Option<Ordering>"] }

def trOrd : Trait :=
  { path := ["core", "cmp", "Ord"], params := [], uses := prelude ++ [("Ordering", ["core", "cmp", "Ordering"])], items := [quote! "fn cmp(&self, other: &Self) -> Ordering"] }

def trHash : Trait :=
  { path := ["core", "hash", "Hash"], params := [], uses := prelude ++ [("Hasher", ["core", "hash", "Hasher"])], items := [quote! "fn hash<H>(&self, state: &mut H) where H: Hasher"] }

def trIterator : Trait :=
  { path := ["core", "iter", "Iterator"], params := [], uses := prelude, items := [quote! "type Item", quote! "fn next(&mut self) -> Option<Self::Item>"] }

def trDoubleEndedIterator : Trait :=
  { path := ["core", "iter", "DoubleEndedIterator"], params := [], uses := prelude, items := [quote! "fn next_back(&mut self) -> Option<Self::Item>"] }

def traits : List Trait := [trKey, trMapStorage, trOccupiedEntry, trVacantEntry, trSetStorage, trRawStorage, trClone, trCopy, trPartialEq, trEq, trPartialOrd, trOrd, trHash, trIterator, trDoubleEndedIterator]

end FixedMap.Impls
