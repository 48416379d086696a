import Verif.Model.Key

/-!
# Which standard traits the storages and their iterators implement

Trait selection by rustc, for the `impl`s in this repository: an `impl` applies if its `where` clauses hold. `v t` says that the
value type implements the trait `t`. All key types are `Copy`, and those stored in hash tables are `Eq + Hash`.
`Map<K, V>` and `Set<T>` implement each of these traits exactly if their storage does (map.rs 863-1222, set.rs 535-891).
-/

set_option autoImplicit false

namespace FixedMap

/-- Standard traits. -/
inductive Tr where
  | clone | copy | partialEq | eq | hash | partialOrd | ord
deriving DecidableEq, Repr

/-- The four traits of `#[derive(Clone, Copy, PartialEq, Eq)]`. -/
def Tr.basic : Tr → Bool
  | .clone | .copy | .partialEq | .eq => true
  | _ => false

mutual
/-- `<K as Key>::MapStorage<V>: t` -/
def KeyTy.mapImpl (v : Tr → Bool) (t : Tr) : KeyTy → Bool
  -- map/storage/boolean.rs 73 (derive adds `V: t`)
  | .bool => t.basic && v t
  -- map/storage/singleton.rs 6-21
  | .unit => t.basic && v t
  -- map/storage/option.rs 80-121
  | .opt κ => t.basic && v t && κ.mapImpl v t
  -- map/storage/hashbrown.rs 38-67
  | .prim _ => (t == .clone || t == .partialEq || t == .eq) && v t
  -- unit_variants.rs 174-224
  | .units _ => v t
  | .bitset _ _ _ => v t
  -- any_variants.rs 166-205
  | .enum fs => t.basic && v t && (t != .copy || fs.mapBounds v .copy)
/-- `#(#bounds: t,)*` with the map storages of the tuple variants, any_variants.rs 186-189, 204 -/
def Fields.mapBounds (v : Tr → Bool) (t : Tr) : Fields → Bool
  | .nil => true
  | .simple fs => fs.mapBounds v t
  | .complex κ fs => κ.mapImpl v t && fs.mapBounds v t
end

mutual
/-- `<K as Key>::SetStorage: t` -/
def KeyTy.setImpl (t : Tr) : KeyTy → Bool
  -- set/storage/boolean.rs 52
  | .bool => t.basic
  -- set/storage/singleton.rs 7
  | .unit => true
  -- set/storage/option.rs 57-94
  | .opt κ => t.basic && κ.setImpl t
  -- set/storage/hashbrown.rs 33-55
  | .prim _ => t == .clone || t == .partialEq || t == .eq
  -- unit_variants.rs 588-609
  | .units _ => true
  -- unit_variants.rs 421-442
  | .bitset _ _ _ => true
  -- any_variants.rs 449-488
  | .enum fs => t.basic && ((t == .partialEq || t == .eq) || fs.setBounds t)
/-- `#(for<'trivial_bounds> #bounds: t,)*`, any_variants.rs 469-472, 477, 487 -/
def Fields.setBounds (t : Tr) : Fields → Bool
  | .nil => true
  | .simple fs => fs.setBounds t
  | .complex κ fs => κ.setImpl t && fs.setBounds t
end

mutual
/-- `Iter<'_>: Clone`, `Keys<'_>: Clone` and `Values<'_>: Clone` (the three have the same answer). -/
def KeyTy.mapIterClone : KeyTy → Bool
  -- map/storage/boolean.rs 14-18, 84: `Chain`, `Map` with a `fn` pointer and `option::Iter` are `Clone`
  | .bool => true
  -- map/storage/singleton.rs 27-36: `option::IntoIter<(K, &V)>`, with `K: Copy`
  | .unit => true
  -- map/storage/option.rs 8-20
  | .opt κ => κ.mapIterClone
  -- map/storage/hashbrown.rs 123-136: `hash_map::{Iter, Keys, Values}` are `Clone`
  | .prim _ => true
  -- unit_variants.rs 228-234: `array::IntoIter` and `slice::Iter`
  | .units _ => true
  | .bitset _ _ _ => true
  -- any_variants.rs 810, 960, 1106: no condition
  | .enum _ => true
/-- What the bodies of these generated `clone` functions use: `Clone` of the iterator fields, any_variants.rs 816, 966, 1112. -/
def Fields.mapIterCloneNeeds : Fields → Bool
  | .nil => true
  | .simple fs => fs.mapIterCloneNeeds
  | .complex κ fs => κ.mapIterClone && fs.mapIterCloneNeeds
end

mutual
/-- `IntoIter: Clone` of the map storage. -/
def KeyTy.mapIntoIterClone (v : Tr → Bool) : KeyTy → Bool
  -- map/storage/boolean.rs 24-27
  | .bool => v .clone
  -- map/storage/singleton.rs 47
  | .unit => v .clone
  -- map/storage/option.rs 32-38
  | .opt κ => κ.mapIntoIterClone v && v .clone
  -- map/storage/hashbrown.rs 154: `hash_map::IntoIter` is not `Clone`
  | .prim _ => false
  -- unit_variants.rs 241-245
  | .units _ => v .clone
  | .bitset _ _ _ => v .clone
  -- any_variants.rs 1435-1447
  | .enum fs => v .clone && fs.mapIntoIterClone v
def Fields.mapIntoIterClone (v : Tr → Bool) : Fields → Bool
  | .nil => true
  | .simple fs => fs.mapIntoIterClone v
  | .complex κ fs => κ.mapIntoIterClone v && fs.mapIntoIterClone v
end

mutual
/-- `Iter<'_>: Clone` of the set storage. -/
def KeyTy.setIterClone : KeyTy → Bool
  -- set/storage/boolean.rs 62, singleton.rs 16
  | .bool => true
  | .unit => true
  -- set/storage/option.rs 8-11
  | .opt κ => κ.setIterClone
  -- set/storage/hashbrown.rs 61-62
  | .prim _ => true
  -- unit_variants.rs 445, 612
  | .units _ => true
  | .bitset _ _ _ => true
  -- any_variants.rs 1592: no condition
  | .enum _ => true
/-- any_variants.rs 1598 -/
def Fields.setIterCloneNeeds : Fields → Bool
  | .nil => true
  | .simple fs => fs.setIterCloneNeeds
  | .complex κ fs => κ.setIterClone && fs.setIterCloneNeeds
end

mutual
/-- `IntoIter: Clone` of the set storage. -/
def KeyTy.setIntoIterClone : KeyTy → Bool
  -- set/storage/boolean.rs 62, singleton.rs 17
  | .bool => true
  | .unit => true
  -- set/storage/option.rs 12-15
  | .opt κ => κ.setIntoIterClone
  -- set/storage/hashbrown.rs 65: `hash_set::IntoIter` is not `Clone`
  | .prim _ => false
  -- unit_variants.rs 446, 613
  | .units _ => true
  | .bitset _ _ _ => true
  -- any_variants.rs 1735-1742
  | .enum fs => fs.setIntoIterClone
def Fields.setIntoIterClone : Fields → Bool
  | .nil => true
  | .simple fs => fs.setIntoIterClone
  | .complex κ fs => κ.setIntoIterClone && fs.setIntoIterClone
end

end FixedMap
