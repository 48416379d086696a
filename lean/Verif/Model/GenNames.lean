import Verif.Spec.Names

/-!
# The names in the emitted code

The other models of the derive (`Model/Gen*.lean`) describe what the emitted code does, taking for granted that its names mean what they are meant to mean. Here is
the same code once more, reduced to its names and scopes, in the order of the source. `option`, `clone_t` and so on are absolute
paths (context.rs 51-115) and leave no trace.

Left out: lookup of methods and associated functions, which depends on the traits in scope (the emitted code calls inherent methods and, with a full path, methods of
the crate's traits), attributes, visibilities and lifetimes.
-/

set_option autoImplicit false

namespace FixedMap.Names

def V : Code := .loc .type "V"
def usize : Code := .std .type "usize"
def bool : Code := .std .type "bool"
def var (n : String) : Code := .loc .value n

/-- `fn retain<F>(&mut self, mut func: F) where F: FnMut(args..) -> bool`, its header. -/
def retainHead (func : String) (args : List Code) : List Code :=
  [.tparam "F", .pat func, .loc .type "F", .loc .type "F", .std .type "FnMut"] ++ args ++ [bool]

/-! ## Enums with payloads: any_variants.rs -/

namespace Any

/-- A variant: `none` without a field; otherwise the identifiers with which the paths in the type of its field start. -/
abbrev Fld := Option (List String)

/-- The items in the `const _` block. -/
def items : Scope :=
  [(.type, "__MapStorage"), (.type, "__MapStorageIter"), (.type, "__MapStorageKeys"), (.type, "__MapStorageValues"), (.type, "__MapStorageIterMut"),
    (.type, "__MapStorageValuesMut"), (.type, "__MapStorageIntoIter"), (.type, "__SetStorage"), (.type, "__SetStorageIter"),
    (.type, "__SetStorageIntoIter"), (.type, "SimpleVacantEntry"), (.type, "SimpleOccupiedEntry"), (.type, "VacantEntry"), (.type, "OccupiedEntry"),
    (.value, "option_to_entry")]

/-- `#element`, 41 -/
def elem (hs : List String) : List Code := hs.map .user
/-- `<#element as #key_t>::MapStorage::<V>`, 42 -/
def mapSt (hs : List String) : List Code := elem hs ++ [V]
/-- `<#map_storage as #map_storage_t<#element, V>>`, 43 and 1901 -/
def asMap (hs : List String) : List Code := mapSt hs ++ elem hs ++ [V]
/-- `<#set_storage as #set_storage_t<#element>>`, 44-45 -/
def asSet (hs : List String) : List Code := elem hs ++ elem hs

variable (E : String) (fs : List Fld)

/-- `#(..)*` over the fields. -/
def each (simple : List Code) (complex : List String → List Code) : List Code :=
  fs.map fun f => .scope (match f with
    | none => simple
    | some hs => complex hs)

/-- `match key { #(#patterns => ..,)* }`, 92-139. -/
def arms (simple : List Code) (complex : List String → List Code) : List Code :=
  each fs (.user E :: simple) fun hs => [.user E, .pat "v"] ++ complex hs

/-- What the iterators yield. -/
inductive Shape where
  | entries | keys | values

/-- The arms of the loops in `next` and `next_back`: 692-725, 892-931, 1038-1077, 1282-1321, 1529-1568, 1673-1712. -/
def steps : Shape → List Code
  | .entries => each fs [.pat "value", .user E, var "value"] fun _ => [.pat "key", .pat "value", .user E, var "key", var "value"]
  | .keys => each fs [.user E] fun _ => [.pat "key", .user E, var "key"]
  | .values => each fs [.pat "value", var "value"] fun _ => [.pat "value", var "value"]

/-- 1804-1814 -/
def next (sh : Shape) : List Code := steps E fs sh ++ [usize]
/-- 1837-1849 -/
def nextBack (sh : Shape) : List Code := [.pat "next", var "next"] ++ steps E fs sh ++ [usize, var "next"]

/-- `type Item = ..` -/
def itemTy : Shape → List Code
  | .entries => [.user E, V]
  | .keys => [.user E]
  | .values => [V]

/-- The struct and `impl`s of a borrowing iterator of a map: 803-839, 953-989, 1099-1135, 1210-1234, 1342-1366. -/
def mapIter (T : String) (sh : Shape) (clone : Bool) : List Code :=
  [.scope ([.tparam "V", V, usize, usize] ++ each fs (match sh with | .keys => [] | _ => [V]) asMap)] ++
  (if clone then [.scope [.tparam "V", .own .type T, V, V]] else []) ++
  [.scope ([.tparam "V", .own .type T, V, V] ++ itemTy E sh ++ [.scope (next E fs sh)]),
    .scope ([.tparam "V", .own .type T, V] ++ each fs [] (fun hs => asMap hs ++ asMap hs) ++ [V, .scope (nextBack E fs sh)])]

/-- `type Iter<'a> = ..; fn iter(&self) -> ..`: 845-850, 995-1000, 1141-1146, 1240-1245, 1372-1377; `init` starts the path of the call for a
payload (789, 915, 1061, 1197, 1305). -/
def mapIterFn (T : String) (init : List String → List Code) : List Code := [.own .type T, V, V, .scope (.own .type T :: each fs [] init)]

/-- The owning iterator: 1440-1476. -/
def mapIntoIter : List Code :=
  let T := "__MapStorageIntoIter"
  [.scope ([.tparam "V", usize, usize] ++ each fs [V] asMap),
    -- 1447: `V: Clone`
    .scope ([.tparam "V", .own .type T, V, V, .std .type "Clone"] ++ each fs [] asMap),
    -- 1463: `Option<Self::Item>`
    .scope [.tparam "V", .own .type T, V, .user E, V, .scope (.std .type "Option" :: next E fs .entries)],
    .scope ([.tparam "V", .own .type T, V] ++ each fs [] (fun hs => asMap hs ++ asMap hs) ++ [.scope (nextBack E fs .entries)])]

/-- 1482-1487, 1428 -/
def mapIntoIterFn : List Code := [.own .type "__MapStorageIntoIter", V, .scope (.own .type "__MapStorageIntoIter" :: each fs [] mapSt)]

/-- `<#as_map_storage::Vacant<#lt> as #vacant_entry_t<#lt, #element, V>>`, 1913-1914, 1923-1924. -/
def asEntry (hs : List String) : List Code := asMap hs ++ elem hs ++ [V]

/-- A method of `VacantEntry` or `OccupiedEntry`: `match self { T::Simple(entry) => .., T::name(entry) => .. }`, 1916-1938, 1999-2066. -/
def entryFn (T : String) (head : List Code) (args : List Code) (wrap : List Code) : Code :=
  .scope (head ++ [.scope ([.own .type T, .pat "entry", var "entry"] ++ args)] ++
    each fs [] fun hs => [.own .type T, .pat "entry"] ++ wrap ++ asEntry hs ++ [var "entry"] ++ args)

/-- `map_storage_entry`, 1943-2075. -/
def entryItems : List Code :=
  let insert := [.pat "value", V, V]
  [.scope [.tparam "V", .user E, V],
    .scope [.tparam "V", .own .type "SimpleVacantEntry", V, .scope (insert ++ [var "value"])],
    .scope [.tparam "V", .user E, V],
    .scope [.tparam "V", .own .type "SimpleOccupiedEntry", V, .scope [V], .scope [V], .scope [V], .scope (insert ++ [var "value"]), .scope [V]],
    .scope ([.tparam "V", .own .type "SimpleVacantEntry", V] ++ each fs [] asMap),
    .scope ([.tparam "V", .own .type "SimpleOccupiedEntry", V] ++ each fs [] asMap),
    .scope [.tparam "V", .user E, V, .own .type "VacantEntry", V,
      entryFn fs "VacantEntry" [.user E] [] [.user E], entryFn fs "VacantEntry" insert [var "value"] []],
    .scope [.tparam "V", .user E, V, .own .type "OccupiedEntry", V,
      entryFn fs "OccupiedEntry" [.user E] [] [.user E], entryFn fs "OccupiedEntry" [V] [] [], entryFn fs "OccupiedEntry" [V] [] [],
      entryFn fs "OccupiedEntry" [V] [] [], entryFn fs "OccupiedEntry" insert [var "value"] [], entryFn fs "OccupiedEntry" [V] [] []],
    .scope [.tparam "V", .pat "opt", V, .pat "key", .user E, .own .type "__MapStorage", V, .user E, V, var "opt",
      .scope [.pat "inner", .own .type "OccupiedEntry", .own .type "SimpleOccupiedEntry", var "key", var "inner"],
      .scope [.pat "inner", .own .type "VacantEntry", .own .type "SimpleVacantEntry", var "key", var "inner"]]]

/-- 2078-2086, with 1890-1911 -/
def entryFns : List Code :=
  [.own .type "OccupiedEntry", V, V, .own .type "VacantEntry", V, V,
    .scope ([.pat "key", .user E, .user E, V, var "key"] ++
      each fs [.user E, .own .value "option_to_entry", var "key"] fun _ => [.user E, .pat "key", var "key",
        .scope [.pat "entry", .own .type "OccupiedEntry", var "entry"], .scope [.pat "entry", .own .type "VacantEntry", var "entry"]])]

/-- The functions of `impl MapStorage`: 208-403. -/
def mapFns : List Code :=
  [.scope (each fs [] asMap),
    .scope ([.pat "key", .user E, .pat "value", V, V, var "key"] ++ arms E fs [var "value"] fun hs => asMap hs ++ [var "v", var "value"]),
    .scope (usize :: each fs [usize] asMap),
    .scope (bool :: each fs [] asMap),
    .scope ([.pat "value", .user E, bool, var "value"] ++ arms E fs [] fun hs => asMap hs ++ [var "v"]),
    .scope ([.pat "value", .user E, V, var "value"] ++ arms E fs [] fun hs => asMap hs ++ [var "v"]),
    .scope ([.pat "value", .user E, V, var "value"] ++ arms E fs [] fun hs => asMap hs ++ [var "v"]),
    .scope ([.pat "value", .user E, V, var "value"] ++ arms E fs [] fun hs => asMap hs ++ [var "v"]),
    -- 358-385
    .scope (retainHead "func" [.user E, V] ++ each fs [.pat "val", var "func", .user E, var "val", .std .value "None"] fun hs =>
      asMap hs ++ [.pat "k", .pat "v", var "func", .user E, var "k", var "v"]),
    .scope (each fs [] asMap)]

/-- `impl_map_storage`, 142-426. -/
def mapStorage : List Code :=
  [.scope (.tparam "V" :: each fs [V] mapSt),
    .scope ([.tparam "V", .user E, V, .own .type "__MapStorage", V] ++ mapIterFn fs "__MapStorageIter" asMap ++
      mapIterFn fs "__MapStorageKeys" asMap ++ mapIterFn fs "__MapStorageValues" asMap ++ mapIterFn fs "__MapStorageIterMut" mapSt ++
      mapIterFn fs "__MapStorageValuesMut" asMap ++ mapIntoIterFn fs ++ entryFns E fs ++ mapFns E fs)] ++
  mapIter E fs "__MapStorageIter" .entries true ++ mapIter E fs "__MapStorageKeys" .keys true ++ mapIter E fs "__MapStorageValues" .values true ++
  mapIter E fs "__MapStorageIterMut" .entries false ++ mapIter E fs "__MapStorageValuesMut" .values false ++ mapIntoIter E fs ++ entryItems E fs ++
  -- 166-205
  [.scope [.tparam "V", .own .type "__MapStorage", V, V, .scope ([.pat "other", bool] ++ each fs [var "other"] fun _ => [var "other"])],
    .scope [.tparam "V", .own .type "__MapStorage", V, V],
    .scope [.tparam "V", .own .type "__MapStorage", V, V],
    .scope ([.tparam "V", .own .type "__MapStorage", V, V] ++ each fs [] mapSt)]

/-- 1585-1621 and 1728-1778; `owned`: `Clone` has clauses. -/
def setIter (T : String) (owned : Bool) : List Code :=
  [.scope ([usize, usize] ++ each fs [] asSet),
    .scope (.own .type T :: (if owned then each fs [] asSet else [])),
    .scope [.own .type T, .user E, .scope (next E fs .keys)],
    .scope (.own .type T :: each fs [] (fun hs => asSet hs ++ asSet hs) ++ [.scope (nextBack E fs .keys)])]

/-- 1627-1633, 1784-1790 -/
def setIterFn (T : String) : List Code := [.own .type T, .scope (.own .type T :: each fs [] asSet)]

/-- The functions of `impl SetStorage`: 491-644. -/
def setFns : List Code :=
  [.scope (each fs [] asSet),
    .scope ([.pat "key", .user E, bool, var "key"] ++ arms E fs [] fun hs => asSet hs ++ [var "v"]),
    .scope (usize :: each fs [usize] asSet),
    .scope (bool :: each fs [] asSet),
    .scope ([.pat "value", .user E, bool, var "value"] ++ arms E fs [] fun hs => asSet hs ++ [var "v"]),
    .scope ([.pat "value", .user E, bool, var "value"] ++ arms E fs [] fun hs => asSet hs ++ [var "v"]),
    .scope (retainHead "func" [.user E] ++ each fs [var "func", .user E] fun hs => asSet hs ++ [.pat "k", var "func", .user E, var "k"]),
    .scope (each fs [] asSet)]

/-- `impl_set_storage`, 429-667. -/
def setStorage : List Code :=
  [.scope (each fs [bool] elem),
    .scope ([.user E, .own .type "__SetStorage"] ++ setIterFn fs "__SetStorageIter" ++ setIterFn fs "__SetStorageIntoIter" ++ setFns E fs)] ++
  setIter E fs "__SetStorageIter" false ++ setIter E fs "__SetStorageIntoIter" true ++
  [.scope [.own .type "__SetStorage", .scope ([.pat "other", bool] ++ each fs [var "other"] fun _ => [var "other"])],
    .scope [.own .type "__SetStorage"],
    .scope (.own .type "__SetStorage" :: each fs [] elem),
    .scope (.own .type "__SetStorage" :: each fs [] elem)]

/-- `implement`, 78-89. -/
def code : List Code :=
  mapStorage E fs ++ setStorage E fs ++
    [.scope [.user E, .scope [.tparam "V", .own .type "__MapStorage", V], .own .type "__SetStorage"]]

end Any

/-! ## Unit enums: unit_variants.rs -/

namespace Units

/-- The items in the `const _` block. -/
def items (bitset : Bool) : Scope :=
  [(.type, "VacantEntry"), (.type, "OccupiedEntry"), (.type, "__MapStorage"), (.type, "__SetStorage"), (.value, "option_to_entry")] ++
    if bitset then [(.value, "to_bits")] else []

/-- 16-18 -/
def names (n : Nat) : List String := (List.range n).map fun i => s!"_{i}"

variable (E : String) (n : Nat)

/-- `let [#(#names),*] = ..;` -/
def dest : List Code := (names n).map .pat

/-- `#(..)*` over the variants. -/
def each (f : String → List Code) : List Code := (names n).map fun x => .scope (f x)

/-- `impl_entry`, 47-125. -/
def entry : List Code :=
  let insert := [.pat "value", V, V, var "value"]
  [.scope [.tparam "V", .user E, V],
    .scope [.tparam "V", .user E, V, .own .type "VacantEntry", V, .scope [.user E], .scope insert],
    .scope [.tparam "V", .user E, V],
    .scope [.tparam "V", .user E, V, .own .type "OccupiedEntry", V, .scope [.user E], .scope [V], .scope [V], .scope [V], .scope insert, .scope [V]],
    .scope [.tparam "V", .pat "opt", V, .pat "key", .user E, .own .type "__MapStorage", V, .user E, V, var "opt",
      .scope [.pat "inner", .own .type "OccupiedEntry", var "key", var "inner"],
      .scope [.pat "inner", .own .type "VacantEntry", var "key", var "inner"]]]

/-- The types of `impl MapStorage`: 228-247. -/
def mapTypes : List Code :=
  let entries : List Code := [.user E, V, .user E, V, .user E, V, .user E, V]
  entries ++ [V] ++ [.user E, V] ++ [V, V] ++ entries ++ [V] ++ [V, V] ++ entries ++
    [.own .type "OccupiedEntry", V, V, .own .type "VacantEntry", V, V]

/-- The functions of `impl MapStorage`: 249-373. -/
def mapFns : List Code :=
  let entryOf (x : String) : List Code := [.user E, var x]
  let pairs : List Code := dest n ++ each n entryOf
  [.scope ([usize] ++ dest n ++ each n fun x => [usize, var x]),
    .scope ([bool] ++ dest n ++ each n fun x => [var x]),
    .scope ([.pat "key", .user E, .pat "value", V, V] ++ dest n ++ [var "key"] ++ each n fun x => [.user E, var x, var "value"]),
    .scope ([.pat "value", .user E, bool] ++ dest n ++ [var "value"] ++ each n entryOf),
    .scope ([.pat "value", .user E, V] ++ dest n ++ [var "value"] ++ each n entryOf),
    .scope ([.pat "value", .user E, V] ++ dest n ++ [var "value"] ++ each n entryOf),
    .scope ([.pat "value", .user E, V] ++ dest n ++ [var "value"] ++ each n entryOf),
    -- 314-325
    .scope (retainHead "func" [.user E, V] ++ dest n ++ each n fun x =>
      [.pat "val", var x, var "func", .user E, var "val", var x, .std .value "None"]),
    .scope (pairs ++ [.scope [.pat "k", .pat "v", var "k", var "v"]]),
    -- 339-342
    .scope (dest n ++ each n fun x => [var x, .std .value "Some", .user E, .std .value "None"]),
    .scope (pairs ++ [.scope [.pat "k", .pat "v", var "k", var "v"]]),
    .scope (pairs ++ [.scope [.pat "k", .pat "v", var "k", var "v"]]),
    .scope ([.pat "key", .user E, .user E, V] ++ dest n ++ [var "key"] ++ each n fun x => [.user E, .own .value "option_to_entry", var x, var "key"])]

/-- `impl_map`, 127-376. -/
def map : List Code :=
  let head : List Code := [.tparam "V", .own .type "__MapStorage", V, V]
  [.scope [.tparam "V", V], .scope head, .scope head,
    .scope (head ++ [.scope [.pat "other", bool, var "other"]]), .scope head,
    .scope (head ++ [.scope [.tparam "H", .pat "state", .loc .type "H", .loc .type "H", var "state"]]),
    -- 213: `Option<#ordering>`
    .scope (head ++ [.scope [.pat "other", .std .type "Option", var "other"]]),
    .scope (head ++ [.scope [.pat "other", var "other"]]),
    .scope ([.tparam "V", .user E, V, .own .type "__MapStorage", V] ++ mapTypes E ++ mapFns E n)]

/-- The comparisons of a set: 427-441, 594-608. -/
def setOrd : List Code :=
  [.scope [.own .type "__SetStorage", .scope [.pat "other", .std .type "Option", var "other"]],
    .scope [.own .type "__SetStorage", .scope [.pat "other", var "other"]]]

/-- `determine_bits`, 533-548. (Nothing is emitted for more than 128 variants.) -/
def word : String := if n ≤ 8 then "u8" else if n ≤ 16 then "u16" else if n ≤ 32 then "u32" else if n ≤ 64 then "u64" else "u128"

/-- `impl_bitset`, 379-531. -/
def bitset : List Code :=
  let ty : Code := .std .type (word n)
  let mask : List Code := [.pat "value", .user E, bool, .pat "mask", .own .value "to_bits", var "value", .pat "update", var "mask", var "update", var "mask"]
  let list : List Code := each n fun _ => [.std .value "Some", .user E, .std .value "None"]
  [.scope ([.pat "value", .user E, ty, var "value"] ++ each n fun _ => [.user E]), .scope [ty]] ++ setOrd ++
  [.scope [.user E, .own .type "__SetStorage", .user E, .user E, .scope [usize, ty, usize], .scope [bool], .scope mask,
      .scope [.pat "value", .user E, bool, .own .value "to_bits", var "value"], .scope mask,
      -- 485-498
      .scope (retainHead "f" [.user E] ++ [.pat "update"] ++ each n (fun _ => [var "f", .user E, var "update"]) ++ [var "update"]),
      .scope list, .scope list],
    .scope [.own .type "__SetStorage", ty, .scope [ty], .scope [.pat "data", ty, .own .type "__SetStorage", .own .type "__SetStorage", var "data"]]]

/-- `impl_set`, 551-690. -/
def set : List Code :=
  let list : List Code := dest n ++ each n fun x => [var x, .std .value "Some", .user E, .std .value "None"]
  let arm (x : String) : List Code := [.user E, var x]
  [.scope [bool]] ++ setOrd ++
  [.scope [.user E, .own .type "__SetStorage", .user E, .user E,
      .scope ([usize] ++ dest n ++ each n fun x => [usize, var x]),
      .scope ([bool] ++ dest n ++ each n fun x => [var x]),
      .scope ([.pat "value", .user E, bool] ++ dest n ++ [var "value"] ++ each n arm),
      .scope ([.pat "value", .user E, bool] ++ dest n ++ [var "value"] ++ each n arm),
      .scope ([.pat "value", .user E, bool] ++ dest n ++ [var "value"] ++ each n arm),
      .scope (retainHead "f" [.user E] ++ dest n ++ each n fun x => [var x, var x, var "f", .user E]),
      .scope list, .scope list]]

/-- `implement`, 32-43. -/
def code (bits : Bool) : List Code :=
  entry E ++ map E n ++ (if bits then bitset E n else set E n) ++
    [.scope [.user E, .scope [.tparam "V", .own .type "__MapStorage", V], .own .type "__SetStorage"]]

end Units

end FixedMap.Names
