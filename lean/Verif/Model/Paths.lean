import Verif.Model.EmitUnits

/-!
# The module tree: what a path from another crate can name

The derive writes absolute paths, `::core::option::Option` and `::fixed_map::map::Entry` (fixed-map-derive/src/context.rs 51-87). Whether they mean anything depends on the modules of the crate, on
what is `pub`, on re-exports, and on features. Here is the module tree of src/, with everything a path can name, as far as it matters here: private items, items of test modules, and fields are
left out except where the emitted code would reach for them; methods are given where a path can end in them (`Entry::or_insert`), or left out of a type that no path goes through.

The table of core is not modelled from a source: it is trusted.
-/

set_option autoImplicit false

namespace FixedMap.Paths

/-- What can be named below a type or a trait. -/
inductive Assoc where
  /-- a function, method, or tuple variant: it can be called -/
  | fn
  /-- a variant without fields -/
  | unit
  | type
deriving DecidableEq

inductive Item where
  | mod
  | type (assoc : List (String × Assoc))
  | trait (assoc : List (String × Assoc))
  | fn
  | mac
  /-- `use` of an item of a module of the same crate -/
  | use (module : List String) (name : String)
deriving DecidableEq

/-- An item, where it is, and who can name it. -/
structure Decl where
  module : List String
  name : String
  /-- `pub`, not `pub(crate)` -/
  isPub : Bool
  item : Item
  /-- `#[cfg(feature = "..")]` -/
  feature : Option String := none

/-- src/ -/
def fixedMap : List Decl := [
  -- lib.rs 290-308, 461
  ⟨[], "raw", true, .mod, none⟩,
  ⟨[], "key", false, .mod, none⟩,
  ⟨[], "Key", true, .use ["key"] "Key", none⟩,
  ⟨[], "map", true, .mod, none⟩,
  ⟨[], "Map", true, .use ["map"] "Map", none⟩,
  ⟨[], "set", true, .mod, none⟩,
  ⟨[], "Set", true, .use ["set"] "Set", none⟩,
  ⟨[], "option_bucket", true, .mod, none⟩,
  ⟨[], "macro_support", true, .mod, none⟩,
  ⟨[], "Key", true, .mac, none⟩,
  -- raw.rs 13-22
  ⟨["raw"], "RawStorage", true, .trait [("Value", .type), ("as_raw", .fn), ("from_raw", .fn)], none⟩,
  -- key.rs 127-135
  ⟨["key"], "Key", true, .trait [("MapStorage", .type), ("SetStorage", .type)], none⟩,
  -- map.rs 3-31, 110
  ⟨["map"], "entry", false, .mod, none⟩,
  ⟨["map"], "Entry", true, .use ["map", "entry"] "Entry", none⟩,
  ⟨["map"], "storage", false, .mod, none⟩,
  ⟨["map"], "MapStorage", true, .use ["map", "storage"] "MapStorage", none⟩,
  ⟨["map"], "OccupiedEntry", true, .use ["map", "storage"] "OccupiedEntry", none⟩,
  ⟨["map"], "VacantEntry", true, .use ["map", "storage"] "VacantEntry", none⟩,
  ⟨["map"], "Iter", true, .type [], none⟩,
  ⟨["map"], "Keys", true, .type [], none⟩,
  ⟨["map"], "Values", true, .type [], none⟩,
  ⟨["map"], "IterMut", true, .type [], none⟩,
  ⟨["map"], "ValuesMut", true, .type [], none⟩,
  ⟨["map"], "IntoIter", true, .type [], none⟩,
  ⟨["map"], "Map", true, .type [], none⟩,
  -- map/entry.rs 6-321
  ⟨["map", "entry"], "Entry", true, .type [("Occupied", .fn), ("Vacant", .fn), ("or_insert", .fn), ("or_insert_with", .fn), ("or_insert_with_key", .fn), ("key", .fn), ("and_modify", .fn),
    ("or_default", .fn)], none⟩,
  -- map/storage.rs 3-15
  ⟨["map", "storage"], "boolean", false, .mod, none⟩,
  ⟨["map", "storage"], "BooleanMapStorage", false, .use ["map", "storage", "boolean"] "BooleanMapStorage", none⟩,
  ⟨["map", "storage"], "hashbrown", false, .mod, some "hashbrown"⟩,
  ⟨["map", "storage"], "HashbrownMapStorage", false, .use ["map", "storage", "hashbrown"] "HashbrownMapStorage", some "hashbrown"⟩,
  ⟨["map", "storage"], "option", false, .mod, none⟩,
  ⟨["map", "storage"], "OptionMapStorage", false, .use ["map", "storage", "option"] "OptionMapStorage", none⟩,
  ⟨["map", "storage"], "singleton", false, .mod, none⟩,
  ⟨["map", "storage"], "SingletonMapStorage", false, .use ["map", "storage", "singleton"] "SingletonMapStorage", none⟩,
  -- map/storage.rs 25-120
  ⟨["map", "storage"], "MapStorage", true, .trait [("Iter", .type), ("Keys", .type), ("Values", .type), ("IterMut", .type), ("ValuesMut", .type), ("IntoIter", .type), ("Occupied", .type),
    ("Vacant", .type), ("empty", .fn), ("len", .fn), ("is_empty", .fn), ("insert", .fn), ("contains_key", .fn), ("get", .fn), ("get_mut", .fn), ("remove", .fn), ("retain", .fn), ("clear", .fn),
    ("iter", .fn), ("keys", .fn), ("values", .fn), ("iter_mut", .fn), ("values_mut", .fn), ("into_iter", .fn), ("entry", .fn)], none⟩,
  -- map/storage.rs 124-422
  ⟨["map", "storage"], "OccupiedEntry", true, .trait [("key", .fn), ("get", .fn), ("get_mut", .fn), ("into_mut", .fn), ("insert", .fn), ("remove", .fn)], none⟩,
  -- map/storage.rs 426-518
  ⟨["map", "storage"], "VacantEntry", true, .trait [("key", .fn), ("insert", .fn)], none⟩,
  -- map/storage/{boolean.rs 74, hashbrown.rs 34, option.rs 72, singleton.rs 7}
  ⟨["map", "storage", "boolean"], "BooleanMapStorage", true, .type [], none⟩,
  ⟨["map", "storage", "hashbrown"], "HashbrownMapStorage", true, .type [], some "hashbrown"⟩,
  ⟨["map", "storage", "option"], "OptionMapStorage", true, .type [], none⟩,
  ⟨["map", "storage", "singleton"], "SingletonMapStorage", true, .type [], none⟩,
  -- set.rs 7-20, 80
  ⟨["set"], "intersection", true, .mod, none⟩,
  ⟨["set"], "storage", true, .mod, none⟩,
  ⟨["set"], "Intersection", true, .use ["set", "intersection"] "Intersection", none⟩,
  ⟨["set"], "SetStorage", true, .use ["set", "storage"] "SetStorage", none⟩,
  ⟨["set"], "Iter", true, .type [], none⟩,
  ⟨["set"], "IntoIter", true, .type [], none⟩,
  ⟨["set"], "Set", true, .type [], none⟩,
  -- set/intersection.rs 34
  ⟨["set", "intersection"], "Intersection", true, .type [], none⟩,
  -- set/storage.rs 3-15
  ⟨["set", "storage"], "singleton", false, .mod, none⟩,
  ⟨["set", "storage"], "SingletonSetStorage", true, .use ["set", "storage", "singleton"] "SingletonSetStorage", none⟩,
  ⟨["set", "storage"], "boolean", false, .mod, none⟩,
  ⟨["set", "storage"], "BooleanSetStorage", true, .use ["set", "storage", "boolean"] "BooleanSetStorage", none⟩,
  ⟨["set", "storage"], "hashbrown", false, .mod, some "hashbrown"⟩,
  ⟨["set", "storage"], "HashbrownSetStorage", true, .use ["set", "storage", "hashbrown"] "HashbrownSetStorage", some "hashbrown"⟩,
  ⟨["set", "storage"], "option", false, .mod, none⟩,
  ⟨["set", "storage"], "OptionSetStorage", true, .use ["set", "storage", "option"] "OptionSetStorage", none⟩,
  -- set/storage.rs 22-62
  ⟨["set", "storage"], "SetStorage", true, .trait [("Iter", .type), ("IntoIter", .type), ("empty", .fn), ("len", .fn), ("is_empty", .fn), ("insert", .fn), ("contains", .fn), ("remove", .fn),
    ("retain", .fn), ("clear", .fn), ("iter", .fn), ("into_iter", .fn)], none⟩,
  -- set/storage/{singleton.rs 8, boolean.rs 53, hashbrown.rs 29, option.rs 49}
  ⟨["set", "storage", "singleton"], "SingletonSetStorage", true, .type [], none⟩,
  ⟨["set", "storage", "boolean"], "BooleanSetStorage", true, .type [], none⟩,
  ⟨["set", "storage", "hashbrown"], "HashbrownSetStorage", true, .type [], some "hashbrown"⟩,
  ⟨["set", "storage", "option"], "OptionSetStorage", true, .type [], none⟩,
  -- option_bucket.rs 109-260
  ⟨["option_bucket"], "SomeBucket", true, .type [("new_unchecked", .fn), ("new", .fn), ("as_ref", .fn), ("as_mut", .fn), ("into_mut", .fn), ("replace", .fn), ("take", .fn)], none⟩,
  -- option_bucket.rs 304-367
  ⟨["option_bucket"], "NoneBucket", true, .type [("new_unchecked", .fn), ("new", .fn), ("insert", .fn)], none⟩,
  -- option_bucket.rs 388-419
  ⟨["option_bucket"], "OptionBucket", true, .type [("Some", .fn), ("None", .fn), ("new", .fn)], none⟩,
  -- macro_support.rs 12-72
  ⟨["macro_support"], "flatten", false, .fn, none⟩,
  ⟨["macro_support"], "__storage_iterator_partial_cmp", true, .fn, none⟩,
  ⟨["macro_support"], "__storage_iterator_cmp", true, .fn, none⟩,
  ⟨["macro_support"], "filter_bool", false, .fn, none⟩,
  ⟨["macro_support"], "__storage_iterator_partial_cmp_bool", true, .fn, none⟩,
  ⟨["macro_support"], "__storage_iterator_cmp_bool", true, .fn, none⟩]

/-- What is used of core (trusted). -/
def core : List Decl := [
  ⟨[], "compile_error", true, .mac, none⟩,
  ⟨[], "array", true, .mod, none⟩,
  ⟨["array"], "IntoIter", true, .type [], none⟩,
  ⟨[], "primitive", true, .mod, none⟩,
  ⟨["primitive"], "bool", true, .type [], none⟩,
  ⟨[], "clone", true, .mod, none⟩,
  ⟨["clone"], "Clone", true, .mac, none⟩,
  ⟨["clone"], "Clone", true, .trait [("clone", .fn), ("clone_from", .fn)], none⟩,
  ⟨[], "marker", true, .mod, none⟩,
  ⟨["marker"], "Copy", true, .mac, none⟩,
  ⟨["marker"], "Copy", true, .trait [], none⟩,
  ⟨[], "iter", true, .mod, none⟩,
  ⟨["iter"], "Iterator", true, .trait [("Item", .type), ("next", .fn), ("size_hint", .fn), ("flat_map", .fn), ("flatten", .fn)], none⟩,
  ⟨["iter"], "DoubleEndedIterator", true, .trait [("next_back", .fn)], none⟩,
  ⟨["iter"], "IntoIterator", true, .trait [("Item", .type), ("IntoIter", .type), ("into_iter", .fn)], none⟩,
  ⟨["iter"], "FlatMap", true, .type [], none⟩,
  ⟨["iter"], "Flatten", true, .type [], none⟩,
  ⟨[], "cmp", true, .mod, none⟩,
  ⟨["cmp"], "PartialEq", true, .mac, none⟩,
  ⟨["cmp"], "PartialEq", true, .trait [("eq", .fn), ("ne", .fn)], none⟩,
  ⟨["cmp"], "Eq", true, .mac, none⟩,
  ⟨["cmp"], "Eq", true, .trait [], none⟩,
  ⟨["cmp"], "PartialOrd", true, .mac, none⟩,
  ⟨["cmp"], "PartialOrd", true, .trait [("partial_cmp", .fn), ("lt", .fn), ("le", .fn), ("gt", .fn), ("ge", .fn)], none⟩,
  ⟨["cmp"], "Ord", true, .mac, none⟩,
  ⟨["cmp"], "Ord", true, .trait [("cmp", .fn), ("max", .fn), ("min", .fn), ("clamp", .fn)], none⟩,
  ⟨["cmp"], "Ordering", true, .type [("Less", .unit), ("Equal", .unit), ("Greater", .unit)], none⟩,
  ⟨[], "hash", true, .mod, none⟩,
  ⟨["hash"], "Hash", true, .mac, none⟩,
  ⟨["hash"], "Hash", true, .trait [("hash", .fn), ("hash_slice", .fn)], none⟩,
  ⟨["hash"], "Hasher", true, .trait [("finish", .fn), ("write", .fn)], none⟩,
  ⟨[], "mem", true, .mod, none⟩,
  ⟨["mem"], "replace", true, .fn, none⟩,
  ⟨["mem"], "take", true, .fn, none⟩,
  ⟨["mem"], "swap", true, .fn, none⟩,
  ⟨[], "option", true, .mod, none⟩,
  ⟨["option"], "Option", true, .type [("Some", .fn), ("None", .unit), ("is_some", .fn), ("is_none", .fn), ("as_ref", .fn), ("as_mut", .fn), ("replace", .fn), ("take", .fn), ("insert", .fn)], none⟩,
  ⟨[], "slice", true, .mod, none⟩,
  ⟨["slice"], "Iter", true, .type [], none⟩,
  ⟨["slice"], "IterMut", true, .type [], none⟩]

/-- The crates that a crate using the derive can name: core always, `fixed_map` because it depends on it under this name. -/
def crateOf (n : String) : Option (List Decl) := if n = "core" then some core else if n = "fixed_map" then some fixedMap else none

/-- What a path names. -/
inductive Entity where
  | mod
  | type (assoc : List (String × Assoc))
  | trait (assoc : List (String × Assoc))
  | fn
  | mac
  | assoc (a : Assoc)
deriving DecidableEq

/-- The declaration of a name in a module, macros apart; with the enabled features. -/
def lookup (feat : String → Bool) (c : List Decl) (m : List String) (n : String) (mac : Bool) : Option Decl :=
  match c.find? fun d => d.name == n && d.module == m && (d.item == .mac) == mac with
  | some d => match d.feature with
    | some f => if feat f then some d else none
    | none => some d
  | none => none

/-- An item, re-exports followed. (A re-export of what is not `pub` is an error of the compiler.) -/
def follow (feat : String → Bool) (c : List Decl) : Nat → Decl → Option Entity
  | 0, _ => none
  | fuel + 1, d => match d.item with
    | .mod => some .mod
    | .type a => some (.type a)
    | .trait a => some (.trait a)
    | .fn => some .fn
    | .mac => some .mac
    | .use m n => match lookup feat c m n false with
      | some d' => if d'.isPub then follow feat c fuel d' else none
      | none => none

/-- A path inside a crate, seen from another crate. -/
def resolveIn (feat : String → Bool) (c : List Decl) (mac : Bool) : List String → List String → Option Entity
  | _, [] => some .mod
  | m, [n] => match lookup feat c m n mac with
    | some d => if d.isPub then follow feat c 8 d else none
    | none => none
  | m, n :: n' :: rest => match lookup feat c m n false with
    | some d => if d.isPub then
        match follow feat c 8 d with
        | some .mod => resolveIn feat c mac (m ++ [n]) (n' :: rest)
        | some (.type a) | some (.trait a) => if rest = [] then (a.find? fun x => x.1 == n').map fun x => .assoc x.2 else none
        | _ => none
      else none
    | none => none

/-- `::segs`, seen from the crate of the user; `mac` if a macro is expected. -/
def resolve (feat : String → Bool) (mac : Bool) : List String → Option Entity
  | [] => none
  | n :: rest => match crateOf n with
    | some c => resolveIn feat c mac [] rest
    | none => none

end FixedMap.Paths
