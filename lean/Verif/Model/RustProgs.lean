import Verif.Model.RustText

/-!
# The files of src/, parsed

The results of `parseFile` on the texts of RustText.lean, written down by a script and checked by the kernel.
-/

set_option autoImplicit false
set_option maxRecDepth 10000

namespace FixedMap.Rust.Progs

def optionBucket : Prog := {
  fns := [
    { ty := "SomeBucket", tr := "", name := "new_unchecked", recv := Recv.none, params := [Pat.bind "opt"],
      body := Expr.seq (Expr.mac "debug_assert" [Expr.method (Expr.path ["opt"]) "is_some" [], Expr.str]) (Expr.struct ["SomeBucket"] [("outer", Expr.path ["opt"])]) },
    { ty := "SomeBucket", tr := "", name := "new", recv := Recv.none, params := [Pat.bind "opt"],
      body := Expr.ite (Expr.method (Expr.path ["opt"]) "is_some" []) (Expr.call (Expr.path ["Some"]) [Expr.call (Expr.path ["Self", "new_unchecked"]) [Expr.path ["opt"]]]) (Expr.path ["None"]) },
    { ty := "SomeBucket", tr := "", name := "as_ref", recv := Recv.ref, params := [],
      body := Expr.method (Expr.method (Expr.field (Expr.path ["self"]) "outer") "as_ref" []) "unwrap_unchecked" [] },
    { ty := "SomeBucket", tr := "", name := "as_mut", recv := Recv.ref, params := [],
      body := Expr.method (Expr.method (Expr.field (Expr.path ["self"]) "outer") "as_mut" []) "unwrap_unchecked" [] },
    { ty := "SomeBucket", tr := "", name := "into_mut", recv := Recv.value, params := [],
      body := Expr.method (Expr.method (Expr.field (Expr.path ["self"]) "outer") "as_mut" []) "unwrap_unchecked" [] },
    { ty := "SomeBucket", tr := "", name := "replace", recv := Recv.ref, params := [Pat.bind "value"],
      body := Expr.call (Expr.path ["mem", "replace"]) [Expr.method (Expr.path ["self"]) "as_mut" [], Expr.path ["value"]] },
    { ty := "SomeBucket", tr := "", name := "take", recv := Recv.value, params := [],
      body := Expr.method (Expr.method (Expr.field (Expr.path ["self"]) "outer") "take" []) "unwrap_unchecked" [] },
    { ty := "SomeBucket", tr := "OccupiedEntry", name := "key", recv := Recv.ref, params := [],
      body := Expr.call (Expr.path ["K", "default"]) [] },
    { ty := "SomeBucket", tr := "OccupiedEntry", name := "get", recv := Recv.ref, params := [],
      body := Expr.call (Expr.path ["SomeBucket", "as_ref"]) [Expr.path ["self"]] },
    { ty := "SomeBucket", tr := "OccupiedEntry", name := "get_mut", recv := Recv.ref, params := [],
      body := Expr.call (Expr.path ["SomeBucket", "as_mut"]) [Expr.path ["self"]] },
    { ty := "SomeBucket", tr := "OccupiedEntry", name := "into_mut", recv := Recv.value, params := [],
      body := Expr.call (Expr.path ["SomeBucket", "into_mut"]) [Expr.path ["self"]] },
    { ty := "SomeBucket", tr := "OccupiedEntry", name := "insert", recv := Recv.ref, params := [Pat.bind "value"],
      body := Expr.call (Expr.path ["SomeBucket", "replace"]) [Expr.path ["self"], Expr.path ["value"]] },
    { ty := "SomeBucket", tr := "OccupiedEntry", name := "remove", recv := Recv.value, params := [],
      body := Expr.call (Expr.path ["SomeBucket", "take"]) [Expr.path ["self"]] },
    { ty := "NoneBucket", tr := "", name := "new_unchecked", recv := Recv.none, params := [Pat.bind "opt"],
      body := Expr.seq (Expr.mac "debug_assert" [Expr.method (Expr.path ["opt"]) "is_none" [], Expr.str]) (Expr.struct ["NoneBucket"] [("outer", Expr.path ["opt"])]) },
    { ty := "NoneBucket", tr := "", name := "new", recv := Recv.none, params := [Pat.bind "opt"],
      body := Expr.ite (Expr.method (Expr.path ["opt"]) "is_none" []) (Expr.call (Expr.path ["Some"]) [Expr.call (Expr.path ["Self", "new_unchecked"]) [Expr.path ["opt"]]]) (Expr.path ["None"]) },
    { ty := "NoneBucket", tr := "", name := "insert", recv := Recv.value, params := [Pat.bind "value"],
      body := Expr.seq (Expr.letIn (Pat.bind "outer") (Expr.field (Expr.path ["self"]) "outer") (Expr.seq (Expr.method (Expr.path ["outer"]) "write" [Expr.call (Expr.path ["Some"]) [Expr.path ["value"]]]) (Expr.unit))) (Expr.method (Expr.method (Expr.field (Expr.path ["self"]) "outer") "as_mut" []) "unwrap_unchecked" []) },
    { ty := "NoneBucket", tr := "VacantEntry", name := "key", recv := Recv.ref, params := [],
      body := Expr.call (Expr.path ["K", "default"]) [] },
    { ty := "NoneBucket", tr := "VacantEntry", name := "insert", recv := Recv.value, params := [Pat.bind "value"],
      body := Expr.call (Expr.path ["NoneBucket", "insert"]) [Expr.path ["self"], Expr.path ["value"]] },
    { ty := "OptionBucket", tr := "", name := "new", recv := Recv.none, params := [Pat.bind "opt"],
      body := Expr.ite (Expr.method (Expr.path ["opt"]) "is_some" []) (Expr.call (Expr.path ["OptionBucket", "Some"]) [Expr.call (Expr.path ["SomeBucket", "new_unchecked"]) [Expr.path ["opt"]]]) (Expr.call (Expr.path ["OptionBucket", "None"]) [Expr.call (Expr.path ["NoneBucket", "new_unchecked"]) [Expr.path ["opt"]]]) }],
  consts := [], derives := [] }

set_option maxRecDepth 10000 in
theorem optionBucket_parsed : parseFile Text.optionBucket = some optionBucket := by kernel_rfl

def mapBoolean : Prog := {
  fns := [
    { ty := "Keys", tr := "Clone", name := "clone", recv := Recv.ref, params := [],
      body := Expr.struct ["Keys"] [("bits", Expr.field (Expr.path ["self"]) "bits")] },
    { ty := "Keys", tr := "Iterator", name := "next", recv := Recv.ref, params := [],
      body := Expr.seq (Expr.ite (Expr.bin "!=" (Expr.bin "&" (Expr.field (Expr.path ["self"]) "bits") (Expr.path ["TRUE_BIT"])) (Expr.int 0)) (Expr.seq (Expr.assign "&=" (Expr.field (Expr.path ["self"]) "bits") (Expr.un "!" (Expr.path ["TRUE_BIT"]))) (Expr.seq (Expr.ret (Expr.call (Expr.path ["Some"]) [Expr.bool true])) (Expr.unit))) (Expr.unit)) (Expr.seq (Expr.ite (Expr.bin "!=" (Expr.bin "&" (Expr.field (Expr.path ["self"]) "bits") (Expr.path ["FALSE_BIT"])) (Expr.int 0)) (Expr.seq (Expr.assign "&=" (Expr.field (Expr.path ["self"]) "bits") (Expr.un "!" (Expr.path ["FALSE_BIT"]))) (Expr.seq (Expr.ret (Expr.call (Expr.path ["Some"]) [Expr.bool false])) (Expr.unit))) (Expr.unit)) (Expr.path ["None"])) },
    { ty := "Keys", tr := "Iterator", name := "size_hint", recv := Recv.ref, params := [],
      body := Expr.letIn (Pat.bind "len") (Expr.cast (Expr.method (Expr.field (Expr.path ["self"]) "bits") "count_ones" []) "usize") (Expr.tuple [Expr.path ["len"], Expr.call (Expr.path ["Some"]) [Expr.path ["len"]]]) },
    { ty := "Keys", tr := "DoubleEndedIterator", name := "next_back", recv := Recv.ref, params := [],
      body := Expr.seq (Expr.ite (Expr.bin "!=" (Expr.bin "&" (Expr.field (Expr.path ["self"]) "bits") (Expr.path ["FALSE_BIT"])) (Expr.int 0)) (Expr.seq (Expr.assign "&=" (Expr.field (Expr.path ["self"]) "bits") (Expr.un "!" (Expr.path ["FALSE_BIT"]))) (Expr.seq (Expr.ret (Expr.call (Expr.path ["Some"]) [Expr.bool false])) (Expr.unit))) (Expr.unit)) (Expr.seq (Expr.ite (Expr.bin "!=" (Expr.bin "&" (Expr.field (Expr.path ["self"]) "bits") (Expr.path ["TRUE_BIT"])) (Expr.int 0)) (Expr.seq (Expr.assign "&=" (Expr.field (Expr.path ["self"]) "bits") (Expr.un "!" (Expr.path ["TRUE_BIT"]))) (Expr.seq (Expr.ret (Expr.call (Expr.path ["Some"]) [Expr.bool true])) (Expr.unit))) (Expr.unit)) (Expr.path ["None"])) },
    { ty := "Keys", tr := "ExactSizeIterator", name := "len", recv := Recv.ref, params := [],
      body := Expr.cast (Expr.method (Expr.field (Expr.path ["self"]) "bits") "count_ones" []) "usize" },
    { ty := "Vacant", tr := "VacantEntry", name := "key", recv := Recv.ref, params := [],
      body := Expr.field (Expr.path ["self"]) "key" },
    { ty := "Vacant", tr := "VacantEntry", name := "insert", recv := Recv.value, params := [Pat.bind "value"],
      body := Expr.method (Expr.field (Expr.path ["self"]) "inner") "insert" [Expr.path ["value"]] },
    { ty := "Occupied", tr := "OccupiedEntry", name := "key", recv := Recv.ref, params := [],
      body := Expr.field (Expr.path ["self"]) "key" },
    { ty := "Occupied", tr := "OccupiedEntry", name := "get", recv := Recv.ref, params := [],
      body := Expr.method (Expr.field (Expr.path ["self"]) "inner") "as_ref" [] },
    { ty := "Occupied", tr := "OccupiedEntry", name := "get_mut", recv := Recv.ref, params := [],
      body := Expr.method (Expr.field (Expr.path ["self"]) "inner") "as_mut" [] },
    { ty := "Occupied", tr := "OccupiedEntry", name := "into_mut", recv := Recv.value, params := [],
      body := Expr.method (Expr.field (Expr.path ["self"]) "inner") "into_mut" [] },
    { ty := "Occupied", tr := "OccupiedEntry", name := "insert", recv := Recv.ref, params := [Pat.bind "value"],
      body := Expr.method (Expr.field (Expr.path ["self"]) "inner") "replace" [Expr.path ["value"]] },
    { ty := "Occupied", tr := "OccupiedEntry", name := "remove", recv := Recv.value, params := [],
      body := Expr.method (Expr.field (Expr.path ["self"]) "inner") "take" [] },
    { ty := "BooleanMapStorage", tr := "MapStorage", name := "empty", recv := Recv.none, params := [],
      body := Expr.struct ["Self"] [("t", Expr.call (Expr.path ["Option", "default"]) []), ("f", Expr.call (Expr.path ["Option", "default"]) [])] },
    { ty := "BooleanMapStorage", tr := "MapStorage", name := "len", recv := Recv.ref, params := [],
      body := Expr.method (Expr.call (Expr.path ["usize", "from"]) [Expr.method (Expr.field (Expr.path ["self"]) "t") "is_some" []]) "saturating_add" [Expr.call (Expr.path ["usize", "from"]) [Expr.method (Expr.field (Expr.path ["self"]) "f") "is_some" []]] },
    { ty := "BooleanMapStorage", tr := "MapStorage", name := "is_empty", recv := Recv.ref, params := [],
      body := Expr.bin "&&" (Expr.method (Expr.field (Expr.path ["self"]) "t") "is_none" []) (Expr.method (Expr.field (Expr.path ["self"]) "f") "is_none" []) },
    { ty := "BooleanMapStorage", tr := "MapStorage", name := "insert", recv := Recv.ref, params := [Pat.bind "key", Pat.bind "value"],
      body := Expr.ite (Expr.path ["key"]) (Expr.method (Expr.field (Expr.path ["self"]) "t") "replace" [Expr.path ["value"]]) (Expr.method (Expr.field (Expr.path ["self"]) "f") "replace" [Expr.path ["value"]]) },
    { ty := "BooleanMapStorage", tr := "MapStorage", name := "contains_key", recv := Recv.ref, params := [Pat.bind "key"],
      body := Expr.ite (Expr.path ["key"]) (Expr.method (Expr.field (Expr.path ["self"]) "t") "is_some" []) (Expr.method (Expr.field (Expr.path ["self"]) "f") "is_some" []) },
    { ty := "BooleanMapStorage", tr := "MapStorage", name := "get", recv := Recv.ref, params := [Pat.bind "key"],
      body := Expr.ite (Expr.path ["key"]) (Expr.method (Expr.field (Expr.path ["self"]) "t") "as_ref" []) (Expr.method (Expr.field (Expr.path ["self"]) "f") "as_ref" []) },
    { ty := "BooleanMapStorage", tr := "MapStorage", name := "get_mut", recv := Recv.ref, params := [Pat.bind "key"],
      body := Expr.ite (Expr.path ["key"]) (Expr.method (Expr.field (Expr.path ["self"]) "t") "as_mut" []) (Expr.method (Expr.field (Expr.path ["self"]) "f") "as_mut" []) },
    { ty := "BooleanMapStorage", tr := "MapStorage", name := "remove", recv := Recv.ref, params := [Pat.bind "key"],
      body := Expr.ite (Expr.path ["key"]) (Expr.method (Expr.field (Expr.path ["self"]) "t") "take" []) (Expr.method (Expr.field (Expr.path ["self"]) "f") "take" []) },
    { ty := "BooleanMapStorage", tr := "MapStorage", name := "retain", recv := Recv.ref, params := [Pat.bind "func"],
      body := Expr.seq (Expr.cases (Expr.method (Expr.field (Expr.path ["self"]) "t") "as_mut" []) [(Pat.con ["Some"] [Pat.bind "t"], Expr.ite (Expr.un "!" (Expr.call (Expr.path ["func"]) [Expr.bool true, Expr.path ["t"]])) (Expr.seq (Expr.assign "=" (Expr.field (Expr.path ["self"]) "t") (Expr.path ["None"])) (Expr.unit)) (Expr.unit)), (Pat.wild, Expr.unit)]) (Expr.cases (Expr.method (Expr.field (Expr.path ["self"]) "f") "as_mut" []) [(Pat.con ["Some"] [Pat.bind "f"], Expr.ite (Expr.un "!" (Expr.call (Expr.path ["func"]) [Expr.bool false, Expr.path ["f"]])) (Expr.seq (Expr.assign "=" (Expr.field (Expr.path ["self"]) "f") (Expr.path ["None"])) (Expr.unit)) (Expr.unit)), (Pat.wild, Expr.unit)]) },
    { ty := "BooleanMapStorage", tr := "MapStorage", name := "clear", recv := Recv.ref, params := [],
      body := Expr.seq (Expr.assign "=" (Expr.field (Expr.path ["self"]) "t") (Expr.path ["None"])) (Expr.seq (Expr.assign "=" (Expr.field (Expr.path ["self"]) "f") (Expr.path ["None"])) (Expr.unit)) },
    { ty := "BooleanMapStorage", tr := "MapStorage", name := "iter", recv := Recv.ref, params := [],
      body := Expr.letIn (Pat.bind "map") (Expr.lambda [Pat.bind "v"] (Expr.tuple [Expr.bool true, Expr.path ["v"]])) (Expr.letIn (Pat.bind "a") (Expr.method (Expr.method (Expr.field (Expr.path ["self"]) "t") "iter" []) "map" [Expr.path ["map"]]) (Expr.letIn (Pat.bind "map") (Expr.lambda [Pat.bind "v"] (Expr.tuple [Expr.bool false, Expr.path ["v"]])) (Expr.letIn (Pat.bind "b") (Expr.method (Expr.method (Expr.field (Expr.path ["self"]) "f") "iter" []) "map" [Expr.path ["map"]]) (Expr.method (Expr.path ["a"]) "chain" [Expr.path ["b"]])))) },
    { ty := "BooleanMapStorage", tr := "MapStorage", name := "keys", recv := Recv.ref, params := [],
      body := Expr.struct ["Keys"] [("bits", Expr.bin "|" (Expr.ite (Expr.method (Expr.field (Expr.path ["self"]) "t") "is_some" []) (Expr.path ["TRUE_BIT"]) (Expr.int 0)) (Expr.ite (Expr.method (Expr.field (Expr.path ["self"]) "f") "is_some" []) (Expr.path ["FALSE_BIT"]) (Expr.int 0)))] },
    { ty := "BooleanMapStorage", tr := "MapStorage", name := "values", recv := Recv.ref, params := [],
      body := Expr.method (Expr.method (Expr.field (Expr.path ["self"]) "t") "iter" []) "chain" [Expr.method (Expr.field (Expr.path ["self"]) "f") "iter" []] },
    { ty := "BooleanMapStorage", tr := "MapStorage", name := "iter_mut", recv := Recv.ref, params := [],
      body := Expr.letIn (Pat.bind "map") (Expr.lambda [Pat.bind "v"] (Expr.tuple [Expr.bool true, Expr.path ["v"]])) (Expr.letIn (Pat.bind "a") (Expr.method (Expr.method (Expr.field (Expr.path ["self"]) "t") "iter_mut" []) "map" [Expr.path ["map"]]) (Expr.letIn (Pat.bind "map") (Expr.lambda [Pat.bind "v"] (Expr.tuple [Expr.bool false, Expr.path ["v"]])) (Expr.letIn (Pat.bind "b") (Expr.method (Expr.method (Expr.field (Expr.path ["self"]) "f") "iter_mut" []) "map" [Expr.path ["map"]]) (Expr.method (Expr.path ["a"]) "chain" [Expr.path ["b"]])))) },
    { ty := "BooleanMapStorage", tr := "MapStorage", name := "values_mut", recv := Recv.ref, params := [],
      body := Expr.method (Expr.method (Expr.field (Expr.path ["self"]) "t") "iter_mut" []) "chain" [Expr.method (Expr.field (Expr.path ["self"]) "f") "iter_mut" []] },
    { ty := "BooleanMapStorage", tr := "MapStorage", name := "into_iter", recv := Recv.value, params := [],
      body := Expr.letIn (Pat.bind "map") (Expr.lambda [Pat.bind "v"] (Expr.tuple [Expr.bool true, Expr.path ["v"]])) (Expr.letIn (Pat.bind "a") (Expr.method (Expr.method (Expr.field (Expr.path ["self"]) "t") "into_iter" []) "map" [Expr.path ["map"]]) (Expr.letIn (Pat.bind "map") (Expr.lambda [Pat.bind "v"] (Expr.tuple [Expr.bool false, Expr.path ["v"]])) (Expr.letIn (Pat.bind "b") (Expr.method (Expr.method (Expr.field (Expr.path ["self"]) "f") "into_iter" []) "map" [Expr.path ["map"]]) (Expr.method (Expr.path ["a"]) "chain" [Expr.path ["b"]])))) },
    { ty := "BooleanMapStorage", tr := "MapStorage", name := "entry", recv := Recv.ref, params := [Pat.bind "key"],
      body := Expr.ite (Expr.path ["key"]) (Expr.cases (Expr.call (Expr.path ["OptionBucket", "new"]) [Expr.un "&" (Expr.field (Expr.path ["self"]) "t")]) [(Pat.con ["OptionBucket", "Some"] [Pat.bind "inner"], Expr.call (Expr.path ["Entry", "Occupied"]) [Expr.struct ["Occupied"] [("key", Expr.path ["key"]), ("inner", Expr.path ["inner"])]]), (Pat.con ["OptionBucket", "None"] [Pat.bind "inner"], Expr.call (Expr.path ["Entry", "Vacant"]) [Expr.struct ["Vacant"] [("key", Expr.path ["key"]), ("inner", Expr.path ["inner"])]])]) (Expr.cases (Expr.call (Expr.path ["OptionBucket", "new"]) [Expr.un "&" (Expr.field (Expr.path ["self"]) "f")]) [(Pat.con ["OptionBucket", "Some"] [Pat.bind "inner"], Expr.call (Expr.path ["Entry", "Occupied"]) [Expr.struct ["Occupied"] [("key", Expr.path ["key"]), ("inner", Expr.path ["inner"])]]), (Pat.con ["OptionBucket", "None"] [Pat.bind "inner"], Expr.call (Expr.path ["Entry", "Vacant"]) [Expr.struct ["Vacant"] [("key", Expr.path ["key"]), ("inner", Expr.path ["inner"])]])]) }],
  consts := [("TRUE_BIT", Expr.int 2), ("FALSE_BIT", Expr.int 1)], derives := [("BooleanMapStorage", ["Clone", "Copy", "PartialEq", "Eq"])] }

set_option maxRecDepth 10000 in
theorem mapBoolean_parsed : parseFile Text.mapBoolean = some mapBoolean := by kernel_rfl

def mapSingleton : Prog := {
  fns := [
    { ty := "SingletonMapStorage", tr := "PartialEq", name := "eq", recv := Recv.ref, params := [Pat.bind "other"],
      body := Expr.bin "==" (Expr.field (Expr.path ["self"]) "inner") (Expr.field (Expr.path ["other"]) "inner") },
    { ty := "SingletonMapStorage", tr := "MapStorage", name := "empty", recv := Recv.none, params := [],
      body := Expr.struct ["Self"] [("inner", Expr.call (Expr.path ["Option", "default"]) [])] },
    { ty := "SingletonMapStorage", tr := "MapStorage", name := "len", recv := Recv.ref, params := [],
      body := Expr.call (Expr.path ["usize", "from"]) [Expr.method (Expr.field (Expr.path ["self"]) "inner") "is_some" []] },
    { ty := "SingletonMapStorage", tr := "MapStorage", name := "is_empty", recv := Recv.ref, params := [],
      body := Expr.method (Expr.field (Expr.path ["self"]) "inner") "is_none" [] },
    { ty := "SingletonMapStorage", tr := "MapStorage", name := "insert", recv := Recv.ref, params := [Pat.wild, Pat.bind "value"],
      body := Expr.method (Expr.field (Expr.path ["self"]) "inner") "replace" [Expr.path ["value"]] },
    { ty := "SingletonMapStorage", tr := "MapStorage", name := "contains_key", recv := Recv.ref, params := [Pat.wild],
      body := Expr.method (Expr.field (Expr.path ["self"]) "inner") "is_some" [] },
    { ty := "SingletonMapStorage", tr := "MapStorage", name := "get", recv := Recv.ref, params := [Pat.wild],
      body := Expr.method (Expr.field (Expr.path ["self"]) "inner") "as_ref" [] },
    { ty := "SingletonMapStorage", tr := "MapStorage", name := "get_mut", recv := Recv.ref, params := [Pat.wild],
      body := Expr.method (Expr.field (Expr.path ["self"]) "inner") "as_mut" [] },
    { ty := "SingletonMapStorage", tr := "MapStorage", name := "remove", recv := Recv.ref, params := [Pat.wild],
      body := Expr.method (Expr.field (Expr.path ["self"]) "inner") "take" [] },
    { ty := "SingletonMapStorage", tr := "MapStorage", name := "retain", recv := Recv.ref, params := [Pat.bind "func"],
      body := Expr.cases (Expr.method (Expr.field (Expr.path ["self"]) "inner") "as_mut" []) [(Pat.con ["Some"] [Pat.bind "val"], Expr.ite (Expr.un "!" (Expr.call (Expr.path ["func"]) [Expr.call (Expr.path ["K", "default"]) [], Expr.path ["val"]])) (Expr.seq (Expr.assign "=" (Expr.field (Expr.path ["self"]) "inner") (Expr.path ["None"])) (Expr.unit)) (Expr.unit)), (Pat.wild, Expr.unit)] },
    { ty := "SingletonMapStorage", tr := "MapStorage", name := "clear", recv := Recv.ref, params := [],
      body := Expr.seq (Expr.assign "=" (Expr.field (Expr.path ["self"]) "inner") (Expr.path ["None"])) (Expr.unit) },
    { ty := "SingletonMapStorage", tr := "MapStorage", name := "iter", recv := Recv.ref, params := [],
      body := Expr.method (Expr.method (Expr.method (Expr.field (Expr.path ["self"]) "inner") "as_ref" []) "map" [Expr.lambda [Pat.bind "v"] (Expr.tuple [Expr.call (Expr.path ["K", "default"]) [], Expr.path ["v"]])]) "into_iter" [] },
    { ty := "SingletonMapStorage", tr := "MapStorage", name := "keys", recv := Recv.ref, params := [],
      body := Expr.method (Expr.call (Expr.path ["Some"]) [Expr.call (Expr.path ["K", "default"]) []]) "into_iter" [] },
    { ty := "SingletonMapStorage", tr := "MapStorage", name := "values", recv := Recv.ref, params := [],
      body := Expr.method (Expr.field (Expr.path ["self"]) "inner") "iter" [] },
    { ty := "SingletonMapStorage", tr := "MapStorage", name := "iter_mut", recv := Recv.ref, params := [],
      body := Expr.method (Expr.method (Expr.method (Expr.field (Expr.path ["self"]) "inner") "as_mut" []) "map" [Expr.lambda [Pat.bind "v"] (Expr.tuple [Expr.call (Expr.path ["K", "default"]) [], Expr.path ["v"]])]) "into_iter" [] },
    { ty := "SingletonMapStorage", tr := "MapStorage", name := "values_mut", recv := Recv.ref, params := [],
      body := Expr.method (Expr.field (Expr.path ["self"]) "inner") "iter_mut" [] },
    { ty := "SingletonMapStorage", tr := "MapStorage", name := "into_iter", recv := Recv.value, params := [],
      body := Expr.method (Expr.method (Expr.field (Expr.path ["self"]) "inner") "map" [Expr.lambda [Pat.bind "v"] (Expr.tuple [Expr.call (Expr.path ["K", "default"]) [], Expr.path ["v"]])]) "into_iter" [] },
    { ty := "SingletonMapStorage", tr := "MapStorage", name := "entry", recv := Recv.ref, params := [Pat.bind "_key"],
      body := Expr.cases (Expr.call (Expr.path ["OptionBucket", "new"]) [Expr.un "&" (Expr.field (Expr.path ["self"]) "inner")]) [(Pat.con ["OptionBucket", "Some"] [Pat.bind "some"], Expr.call (Expr.path ["Entry", "Occupied"]) [Expr.path ["some"]]), (Pat.con ["OptionBucket", "None"] [Pat.bind "none"], Expr.call (Expr.path ["Entry", "Vacant"]) [Expr.path ["none"]])] }],
  consts := [], derives := [("SingletonMapStorage", ["Clone", "Copy"])] }

set_option maxRecDepth 10000 in
theorem mapSingleton_parsed : parseFile Text.mapSingleton = some mapSingleton := by kernel_rfl

def mapOption : Prog := {
  fns := [
    { ty := "OptionMapStorage", tr := "Clone", name := "clone", recv := Recv.ref, params := [],
      body := Expr.struct ["Self"] [("some", Expr.method (Expr.field (Expr.path ["self"]) "some") "clone" []), ("none", Expr.method (Expr.field (Expr.path ["self"]) "none") "clone" [])] },
    { ty := "OptionMapStorage", tr := "PartialEq", name := "eq", recv := Recv.ref, params := [Pat.bind "other"],
      body := Expr.bin "&&" (Expr.bin "==" (Expr.field (Expr.path ["self"]) "none") (Expr.field (Expr.path ["other"]) "none")) (Expr.bin "==" (Expr.field (Expr.path ["self"]) "some") (Expr.field (Expr.path ["other"]) "some")) },
    { ty := "Vacant", tr := "VacantEntry", name := "key", recv := Recv.ref, params := [],
      body := Expr.cases (Expr.path ["self"]) [(Pat.con ["Vacant", "None"] [Pat.wild], Expr.path ["None"]), (Pat.con ["Vacant", "Some"] [Pat.bind "entry"], Expr.call (Expr.path ["Some"]) [Expr.method (Expr.path ["entry"]) "key" []])] },
    { ty := "Vacant", tr := "VacantEntry", name := "insert", recv := Recv.value, params := [Pat.bind "value"],
      body := Expr.cases (Expr.path ["self"]) [(Pat.con ["Vacant", "None"] [Pat.bind "entry"], Expr.method (Expr.path ["entry"]) "insert" [Expr.path ["value"]]), (Pat.con ["Vacant", "Some"] [Pat.bind "entry"], Expr.method (Expr.path ["entry"]) "insert" [Expr.path ["value"]])] },
    { ty := "Occupied", tr := "OccupiedEntry", name := "key", recv := Recv.ref, params := [],
      body := Expr.cases (Expr.path ["self"]) [(Pat.con ["Occupied", "None"] [Pat.wild], Expr.path ["None"]), (Pat.con ["Occupied", "Some"] [Pat.bind "entry"], Expr.call (Expr.path ["Some"]) [Expr.method (Expr.path ["entry"]) "key" []])] },
    { ty := "Occupied", tr := "OccupiedEntry", name := "get", recv := Recv.ref, params := [],
      body := Expr.cases (Expr.path ["self"]) [(Pat.con ["Occupied", "None"] [Pat.bind "entry"], Expr.method (Expr.path ["entry"]) "as_ref" []), (Pat.con ["Occupied", "Some"] [Pat.bind "entry"], Expr.method (Expr.path ["entry"]) "get" [])] },
    { ty := "Occupied", tr := "OccupiedEntry", name := "get_mut", recv := Recv.ref, params := [],
      body := Expr.cases (Expr.path ["self"]) [(Pat.con ["Occupied", "None"] [Pat.bind "entry"], Expr.method (Expr.path ["entry"]) "as_mut" []), (Pat.con ["Occupied", "Some"] [Pat.bind "entry"], Expr.method (Expr.path ["entry"]) "get_mut" [])] },
    { ty := "Occupied", tr := "OccupiedEntry", name := "into_mut", recv := Recv.value, params := [],
      body := Expr.cases (Expr.path ["self"]) [(Pat.con ["Occupied", "None"] [Pat.bind "entry"], Expr.method (Expr.path ["entry"]) "into_mut" []), (Pat.con ["Occupied", "Some"] [Pat.bind "entry"], Expr.method (Expr.path ["entry"]) "into_mut" [])] },
    { ty := "Occupied", tr := "OccupiedEntry", name := "insert", recv := Recv.ref, params := [Pat.bind "value"],
      body := Expr.cases (Expr.path ["self"]) [(Pat.con ["Occupied", "None"] [Pat.bind "entry"], Expr.method (Expr.path ["entry"]) "replace" [Expr.path ["value"]]), (Pat.con ["Occupied", "Some"] [Pat.bind "entry"], Expr.method (Expr.path ["entry"]) "insert" [Expr.path ["value"]])] },
    { ty := "Occupied", tr := "OccupiedEntry", name := "remove", recv := Recv.value, params := [],
      body := Expr.cases (Expr.path ["self"]) [(Pat.con ["Occupied", "None"] [Pat.bind "entry"], Expr.method (Expr.path ["entry"]) "take" []), (Pat.con ["Occupied", "Some"] [Pat.bind "entry"], Expr.method (Expr.path ["entry"]) "remove" [])] },
    { ty := "OptionMapStorage", tr := "MapStorage", name := "empty", recv := Recv.none, params := [],
      body := Expr.struct ["Self"] [("some", Expr.call (Expr.path ["K", "MapStorage", "empty"]) []), ("none", Expr.call (Expr.path ["Option", "default"]) [])] },
    { ty := "OptionMapStorage", tr := "MapStorage", name := "len", recv := Recv.ref, params := [],
      body := Expr.bin "+" (Expr.method (Expr.field (Expr.path ["self"]) "some") "len" []) (Expr.call (Expr.path ["usize", "from"]) [Expr.method (Expr.field (Expr.path ["self"]) "none") "is_some" []]) },
    { ty := "OptionMapStorage", tr := "MapStorage", name := "is_empty", recv := Recv.ref, params := [],
      body := Expr.bin "&&" (Expr.method (Expr.field (Expr.path ["self"]) "some") "is_empty" []) (Expr.method (Expr.field (Expr.path ["self"]) "none") "is_none" []) },
    { ty := "OptionMapStorage", tr := "MapStorage", name := "insert", recv := Recv.ref, params := [Pat.bind "key", Pat.bind "value"],
      body := Expr.cases (Expr.path ["key"]) [(Pat.con ["Some"] [Pat.bind "key"], Expr.method (Expr.field (Expr.path ["self"]) "some") "insert" [Expr.path ["key"], Expr.path ["value"]]), (Pat.con ["None"] [], Expr.method (Expr.field (Expr.path ["self"]) "none") "replace" [Expr.path ["value"]])] },
    { ty := "OptionMapStorage", tr := "MapStorage", name := "contains_key", recv := Recv.ref, params := [Pat.bind "key"],
      body := Expr.cases (Expr.path ["key"]) [(Pat.con ["Some"] [Pat.bind "key"], Expr.method (Expr.field (Expr.path ["self"]) "some") "contains_key" [Expr.path ["key"]]), (Pat.con ["None"] [], Expr.method (Expr.field (Expr.path ["self"]) "none") "is_some" [])] },
    { ty := "OptionMapStorage", tr := "MapStorage", name := "get", recv := Recv.ref, params := [Pat.bind "key"],
      body := Expr.cases (Expr.path ["key"]) [(Pat.con ["Some"] [Pat.bind "key"], Expr.method (Expr.field (Expr.path ["self"]) "some") "get" [Expr.path ["key"]]), (Pat.con ["None"] [], Expr.method (Expr.field (Expr.path ["self"]) "none") "as_ref" [])] },
    { ty := "OptionMapStorage", tr := "MapStorage", name := "get_mut", recv := Recv.ref, params := [Pat.bind "key"],
      body := Expr.cases (Expr.path ["key"]) [(Pat.con ["Some"] [Pat.bind "key"], Expr.method (Expr.field (Expr.path ["self"]) "some") "get_mut" [Expr.path ["key"]]), (Pat.con ["None"] [], Expr.method (Expr.field (Expr.path ["self"]) "none") "as_mut" [])] },
    { ty := "OptionMapStorage", tr := "MapStorage", name := "remove", recv := Recv.ref, params := [Pat.bind "key"],
      body := Expr.cases (Expr.path ["key"]) [(Pat.con ["Some"] [Pat.bind "key"], Expr.method (Expr.field (Expr.path ["self"]) "some") "remove" [Expr.path ["key"]]), (Pat.con ["None"] [], Expr.method (Expr.field (Expr.path ["self"]) "none") "take" [])] },
    { ty := "OptionMapStorage", tr := "MapStorage", name := "retain", recv := Recv.ref, params := [Pat.bind "func"],
      body := Expr.seq (Expr.method (Expr.field (Expr.path ["self"]) "some") "retain" [Expr.lambda [Pat.bind "k", Pat.bind "v"] (Expr.call (Expr.path ["func"]) [Expr.call (Expr.path ["Some"]) [Expr.path ["k"]], Expr.path ["v"]])]) (Expr.cases (Expr.method (Expr.field (Expr.path ["self"]) "none") "as_mut" []) [(Pat.con ["Some"] [Pat.bind "none"], Expr.ite (Expr.un "!" (Expr.call (Expr.path ["func"]) [Expr.path ["None"], Expr.path ["none"]])) (Expr.seq (Expr.assign "=" (Expr.field (Expr.path ["self"]) "none") (Expr.path ["None"])) (Expr.unit)) (Expr.unit)), (Pat.wild, Expr.unit)]) },
    { ty := "OptionMapStorage", tr := "MapStorage", name := "clear", recv := Recv.ref, params := [],
      body := Expr.seq (Expr.method (Expr.field (Expr.path ["self"]) "some") "clear" []) (Expr.seq (Expr.assign "=" (Expr.field (Expr.path ["self"]) "none") (Expr.path ["None"])) (Expr.unit)) },
    { ty := "OptionMapStorage", tr := "MapStorage", name := "iter", recv := Recv.ref, params := [],
      body := Expr.letIn (Pat.bind "map") (Expr.lambda [Pat.tuple [Pat.bind "k", Pat.bind "b"]] (Expr.tuple [Expr.call (Expr.path ["Some"]) [Expr.path ["k"]], Expr.path ["b"]])) (Expr.letIn (Pat.bind "a") (Expr.method (Expr.method (Expr.field (Expr.path ["self"]) "some") "iter" []) "map" [Expr.path ["map"]]) (Expr.letIn (Pat.bind "map") (Expr.lambda [Pat.bind "v"] (Expr.tuple [Expr.path ["None"], Expr.path ["v"]])) (Expr.letIn (Pat.bind "b") (Expr.method (Expr.method (Expr.field (Expr.path ["self"]) "none") "iter" []) "map" [Expr.path ["map"]]) (Expr.method (Expr.path ["a"]) "chain" [Expr.path ["b"]])))) },
    { ty := "OptionMapStorage", tr := "MapStorage", name := "keys", recv := Recv.ref, params := [],
      body := Expr.letIn (Pat.bind "map") (Expr.lambda [Pat.bind "k"] (Expr.call (Expr.path ["Some"]) [Expr.path ["k"]])) (Expr.method (Expr.method (Expr.method (Expr.field (Expr.path ["self"]) "some") "keys" []) "map" [Expr.path ["map"]]) "chain" [Expr.method (Expr.method (Expr.field (Expr.path ["self"]) "none") "is_some" []) "then_some" [Expr.path ["None"]]]) },
    { ty := "OptionMapStorage", tr := "MapStorage", name := "values", recv := Recv.ref, params := [],
      body := Expr.method (Expr.method (Expr.field (Expr.path ["self"]) "some") "values" []) "chain" [Expr.method (Expr.field (Expr.path ["self"]) "none") "iter" []] },
    { ty := "OptionMapStorage", tr := "MapStorage", name := "iter_mut", recv := Recv.ref, params := [],
      body := Expr.letIn (Pat.bind "map") (Expr.lambda [Pat.tuple [Pat.bind "k", Pat.bind "b"]] (Expr.tuple [Expr.call (Expr.path ["Some"]) [Expr.path ["k"]], Expr.path ["b"]])) (Expr.letIn (Pat.bind "a") (Expr.method (Expr.method (Expr.field (Expr.path ["self"]) "some") "iter_mut" []) "map" [Expr.path ["map"]]) (Expr.letIn (Pat.bind "map") (Expr.lambda [Pat.bind "v"] (Expr.tuple [Expr.path ["None"], Expr.path ["v"]])) (Expr.letIn (Pat.bind "b") (Expr.method (Expr.method (Expr.field (Expr.path ["self"]) "none") "iter_mut" []) "map" [Expr.path ["map"]]) (Expr.method (Expr.path ["a"]) "chain" [Expr.path ["b"]])))) },
    { ty := "OptionMapStorage", tr := "MapStorage", name := "values_mut", recv := Recv.ref, params := [],
      body := Expr.method (Expr.method (Expr.field (Expr.path ["self"]) "some") "values_mut" []) "chain" [Expr.method (Expr.field (Expr.path ["self"]) "none") "iter_mut" []] },
    { ty := "OptionMapStorage", tr := "MapStorage", name := "into_iter", recv := Recv.value, params := [],
      body := Expr.letIn (Pat.bind "map") (Expr.lambda [Pat.tuple [Pat.bind "k", Pat.bind "b"]] (Expr.tuple [Expr.call (Expr.path ["Some"]) [Expr.path ["k"]], Expr.path ["b"]])) (Expr.letIn (Pat.bind "a") (Expr.method (Expr.method (Expr.field (Expr.path ["self"]) "some") "into_iter" []) "map" [Expr.path ["map"]]) (Expr.letIn (Pat.bind "map") (Expr.lambda [Pat.bind "v"] (Expr.tuple [Expr.path ["None"], Expr.path ["v"]])) (Expr.letIn (Pat.bind "b") (Expr.method (Expr.method (Expr.field (Expr.path ["self"]) "none") "into_iter" []) "map" [Expr.path ["map"]]) (Expr.method (Expr.path ["a"]) "chain" [Expr.path ["b"]])))) },
    { ty := "OptionMapStorage", tr := "MapStorage", name := "entry", recv := Recv.ref, params := [Pat.bind "key"],
      body := Expr.cases (Expr.path ["key"]) [(Pat.con ["Some"] [Pat.bind "key"], Expr.cases (Expr.method (Expr.field (Expr.path ["self"]) "some") "entry" [Expr.path ["key"]]) [(Pat.con ["Entry", "Occupied"] [Pat.bind "entry"], Expr.call (Expr.path ["Entry", "Occupied"]) [Expr.call (Expr.path ["Occupied", "Some"]) [Expr.path ["entry"]]]), (Pat.con ["Entry", "Vacant"] [Pat.bind "entry"], Expr.call (Expr.path ["Entry", "Vacant"]) [Expr.call (Expr.path ["Vacant", "Some"]) [Expr.path ["entry"]]])]), (Pat.con ["None"] [], Expr.cases (Expr.call (Expr.path ["OptionBucket", "new"]) [Expr.un "&" (Expr.field (Expr.path ["self"]) "none")]) [(Pat.con ["OptionBucket", "Some"] [Pat.bind "some"], Expr.call (Expr.path ["Entry", "Occupied"]) [Expr.call (Expr.path ["Occupied", "None"]) [Expr.path ["some"]]]), (Pat.con ["OptionBucket", "None"] [Pat.bind "none"], Expr.call (Expr.path ["Entry", "Vacant"]) [Expr.call (Expr.path ["Vacant", "None"]) [Expr.path ["none"]]])])] }],
  consts := [], derives := [] }

set_option maxRecDepth 10000 in
theorem mapOption_parsed : parseFile Text.mapOption = some mapOption := by kernel_rfl

def mapHashbrown : Prog := {
  fns := [
    { ty := "HashbrownMapStorage", tr := "Clone", name := "clone", recv := Recv.ref, params := [],
      body := Expr.struct ["Self"] [("inner", Expr.method (Expr.field (Expr.path ["self"]) "inner") "clone" [])] },
    { ty := "HashbrownMapStorage", tr := "PartialEq", name := "eq", recv := Recv.ref, params := [Pat.bind "other"],
      body := Expr.method (Expr.field (Expr.path ["self"]) "inner") "eq" [Expr.un "&" (Expr.field (Expr.path ["other"]) "inner")] },
    { ty := "Occupied", tr := "OccupiedEntry", name := "key", recv := Recv.ref, params := [],
      body := Expr.un "*" (Expr.method (Expr.path ["self"]) "key" []) },
    { ty := "Occupied", tr := "OccupiedEntry", name := "get", recv := Recv.ref, params := [],
      body := Expr.method (Expr.path ["self"]) "get" [] },
    { ty := "Occupied", tr := "OccupiedEntry", name := "get_mut", recv := Recv.ref, params := [],
      body := Expr.method (Expr.path ["self"]) "get_mut" [] },
    { ty := "Occupied", tr := "OccupiedEntry", name := "into_mut", recv := Recv.value, params := [],
      body := Expr.method (Expr.path ["self"]) "into_mut" [] },
    { ty := "Occupied", tr := "OccupiedEntry", name := "insert", recv := Recv.ref, params := [Pat.bind "value"],
      body := Expr.method (Expr.path ["self"]) "insert" [Expr.path ["value"]] },
    { ty := "Occupied", tr := "OccupiedEntry", name := "remove", recv := Recv.value, params := [],
      body := Expr.method (Expr.path ["self"]) "remove" [] },
    { ty := "Vacant", tr := "VacantEntry", name := "key", recv := Recv.ref, params := [],
      body := Expr.un "*" (Expr.method (Expr.path ["self"]) "key" []) },
    { ty := "Vacant", tr := "VacantEntry", name := "insert", recv := Recv.value, params := [Pat.bind "value"],
      body := Expr.method (Expr.path ["self"]) "insert" [Expr.path ["value"]] },
    { ty := "HashbrownMapStorage", tr := "MapStorage", name := "empty", recv := Recv.none, params := [],
      body := Expr.struct ["Self"] [("inner", Expr.call (Expr.path ["hashbrown", "HashMap", "new"]) [])] },
    { ty := "HashbrownMapStorage", tr := "MapStorage", name := "len", recv := Recv.ref, params := [],
      body := Expr.method (Expr.field (Expr.path ["self"]) "inner") "len" [] },
    { ty := "HashbrownMapStorage", tr := "MapStorage", name := "is_empty", recv := Recv.ref, params := [],
      body := Expr.method (Expr.field (Expr.path ["self"]) "inner") "is_empty" [] },
    { ty := "HashbrownMapStorage", tr := "MapStorage", name := "insert", recv := Recv.ref, params := [Pat.bind "key", Pat.bind "value"],
      body := Expr.method (Expr.field (Expr.path ["self"]) "inner") "insert" [Expr.path ["key"], Expr.path ["value"]] },
    { ty := "HashbrownMapStorage", tr := "MapStorage", name := "contains_key", recv := Recv.ref, params := [Pat.bind "key"],
      body := Expr.method (Expr.field (Expr.path ["self"]) "inner") "contains_key" [Expr.un "&" (Expr.path ["key"])] },
    { ty := "HashbrownMapStorage", tr := "MapStorage", name := "get", recv := Recv.ref, params := [Pat.bind "key"],
      body := Expr.method (Expr.field (Expr.path ["self"]) "inner") "get" [Expr.un "&" (Expr.path ["key"])] },
    { ty := "HashbrownMapStorage", tr := "MapStorage", name := "get_mut", recv := Recv.ref, params := [Pat.bind "key"],
      body := Expr.method (Expr.field (Expr.path ["self"]) "inner") "get_mut" [Expr.un "&" (Expr.path ["key"])] },
    { ty := "HashbrownMapStorage", tr := "MapStorage", name := "remove", recv := Recv.ref, params := [Pat.bind "key"],
      body := Expr.method (Expr.field (Expr.path ["self"]) "inner") "remove" [Expr.un "&" (Expr.path ["key"])] },
    { ty := "HashbrownMapStorage", tr := "MapStorage", name := "retain", recv := Recv.ref, params := [Pat.bind "func"],
      body := Expr.seq (Expr.method (Expr.field (Expr.path ["self"]) "inner") "retain" [Expr.lambda [Pat.deref (Pat.bind "k"), Pat.bind "v"] (Expr.call (Expr.path ["func"]) [Expr.path ["k"], Expr.path ["v"]])]) (Expr.unit) },
    { ty := "HashbrownMapStorage", tr := "MapStorage", name := "clear", recv := Recv.ref, params := [],
      body := Expr.seq (Expr.method (Expr.field (Expr.path ["self"]) "inner") "clear" []) (Expr.unit) },
    { ty := "HashbrownMapStorage", tr := "MapStorage", name := "iter", recv := Recv.ref, params := [],
      body := Expr.letIn (Pat.bind "map") (Expr.lambda [Pat.tuple [Pat.bind "k", Pat.bind "v"]] (Expr.tuple [Expr.un "*" (Expr.path ["k"]), Expr.path ["v"]])) (Expr.method (Expr.method (Expr.field (Expr.path ["self"]) "inner") "iter" []) "map" [Expr.path ["map"]]) },
    { ty := "HashbrownMapStorage", tr := "MapStorage", name := "keys", recv := Recv.ref, params := [],
      body := Expr.method (Expr.method (Expr.field (Expr.path ["self"]) "inner") "keys" []) "copied" [] },
    { ty := "HashbrownMapStorage", tr := "MapStorage", name := "values", recv := Recv.ref, params := [],
      body := Expr.method (Expr.field (Expr.path ["self"]) "inner") "values" [] },
    { ty := "HashbrownMapStorage", tr := "MapStorage", name := "iter_mut", recv := Recv.ref, params := [],
      body := Expr.letIn (Pat.bind "map") (Expr.lambda [Pat.tuple [Pat.bind "k", Pat.bind "v"]] (Expr.tuple [Expr.un "*" (Expr.path ["k"]), Expr.path ["v"]])) (Expr.method (Expr.method (Expr.field (Expr.path ["self"]) "inner") "iter_mut" []) "map" [Expr.path ["map"]]) },
    { ty := "HashbrownMapStorage", tr := "MapStorage", name := "values_mut", recv := Recv.ref, params := [],
      body := Expr.method (Expr.field (Expr.path ["self"]) "inner") "values_mut" [] },
    { ty := "HashbrownMapStorage", tr := "MapStorage", name := "into_iter", recv := Recv.value, params := [],
      body := Expr.method (Expr.field (Expr.path ["self"]) "inner") "into_iter" [] },
    { ty := "HashbrownMapStorage", tr := "MapStorage", name := "entry", recv := Recv.ref, params := [Pat.bind "key"],
      body := Expr.cases (Expr.method (Expr.field (Expr.path ["self"]) "inner") "entry" [Expr.path ["key"]]) [(Pat.con ["HashMapEntry", "Occupied"] [Pat.bind "entry"], Expr.call (Expr.path ["Entry", "Occupied"]) [Expr.path ["entry"]]), (Pat.con ["HashMapEntry", "Vacant"] [Pat.bind "entry"], Expr.call (Expr.path ["Entry", "Vacant"]) [Expr.path ["entry"]])] }],
  consts := [], derives := [] }

set_option maxRecDepth 10000 in
theorem mapHashbrown_parsed : parseFile Text.mapHashbrown = some mapHashbrown := by kernel_rfl

def setBoolean : Prog := {
  fns := [
    { ty := "Iter", tr := "Clone", name := "clone", recv := Recv.ref, params := [],
      body := Expr.struct ["Iter"] [("bits", Expr.field (Expr.path ["self"]) "bits")] },
    { ty := "Iter", tr := "Iterator", name := "next", recv := Recv.ref, params := [],
      body := Expr.seq (Expr.ite (Expr.bin "!=" (Expr.bin "&" (Expr.field (Expr.path ["self"]) "bits") (Expr.path ["TRUE_BIT"])) (Expr.int 0)) (Expr.seq (Expr.assign "&=" (Expr.field (Expr.path ["self"]) "bits") (Expr.un "!" (Expr.path ["TRUE_BIT"]))) (Expr.seq (Expr.ret (Expr.call (Expr.path ["Some"]) [Expr.bool true])) (Expr.unit))) (Expr.unit)) (Expr.seq (Expr.ite (Expr.bin "!=" (Expr.bin "&" (Expr.field (Expr.path ["self"]) "bits") (Expr.path ["FALSE_BIT"])) (Expr.int 0)) (Expr.seq (Expr.assign "&=" (Expr.field (Expr.path ["self"]) "bits") (Expr.un "!" (Expr.path ["FALSE_BIT"]))) (Expr.seq (Expr.ret (Expr.call (Expr.path ["Some"]) [Expr.bool false])) (Expr.unit))) (Expr.unit)) (Expr.path ["None"])) },
    { ty := "Iter", tr := "Iterator", name := "size_hint", recv := Recv.ref, params := [],
      body := Expr.letIn (Pat.bind "len") (Expr.cast (Expr.method (Expr.field (Expr.path ["self"]) "bits") "count_ones" []) "usize") (Expr.tuple [Expr.path ["len"], Expr.call (Expr.path ["Some"]) [Expr.path ["len"]]]) },
    { ty := "Iter", tr := "DoubleEndedIterator", name := "next_back", recv := Recv.ref, params := [],
      body := Expr.seq (Expr.ite (Expr.bin "!=" (Expr.bin "&" (Expr.field (Expr.path ["self"]) "bits") (Expr.path ["FALSE_BIT"])) (Expr.int 0)) (Expr.seq (Expr.assign "&=" (Expr.field (Expr.path ["self"]) "bits") (Expr.un "!" (Expr.path ["FALSE_BIT"]))) (Expr.seq (Expr.ret (Expr.call (Expr.path ["Some"]) [Expr.bool false])) (Expr.unit))) (Expr.unit)) (Expr.seq (Expr.ite (Expr.bin "!=" (Expr.bin "&" (Expr.field (Expr.path ["self"]) "bits") (Expr.path ["TRUE_BIT"])) (Expr.int 0)) (Expr.seq (Expr.assign "&=" (Expr.field (Expr.path ["self"]) "bits") (Expr.un "!" (Expr.path ["TRUE_BIT"]))) (Expr.seq (Expr.ret (Expr.call (Expr.path ["Some"]) [Expr.bool true])) (Expr.unit))) (Expr.unit)) (Expr.path ["None"])) },
    { ty := "Iter", tr := "ExactSizeIterator", name := "len", recv := Recv.ref, params := [],
      body := Expr.cast (Expr.method (Expr.field (Expr.path ["self"]) "bits") "count_ones" []) "usize" },
    { ty := "BooleanSetStorage", tr := "SetStorage", name := "empty", recv := Recv.none, params := [],
      body := Expr.struct ["Self"] [("bits", Expr.int 0)] },
    { ty := "BooleanSetStorage", tr := "SetStorage", name := "len", recv := Recv.ref, params := [],
      body := Expr.method (Expr.call (Expr.path ["usize", "from"]) [Expr.bin "!=" (Expr.bin "&" (Expr.field (Expr.path ["self"]) "bits") (Expr.path ["TRUE_BIT"])) (Expr.int 0)]) "saturating_add" [Expr.call (Expr.path ["usize", "from"]) [Expr.bin "!=" (Expr.bin "&" (Expr.field (Expr.path ["self"]) "bits") (Expr.path ["FALSE_BIT"])) (Expr.int 0)]] },
    { ty := "BooleanSetStorage", tr := "SetStorage", name := "is_empty", recv := Recv.ref, params := [],
      body := Expr.bin "==" (Expr.field (Expr.path ["self"]) "bits") (Expr.int 0) },
    { ty := "BooleanSetStorage", tr := "SetStorage", name := "insert", recv := Recv.ref, params := [Pat.bind "value"],
      body := Expr.letIn (Pat.bind "update") (Expr.bin "|" (Expr.field (Expr.path ["self"]) "bits") (Expr.call (Expr.path ["to_bits"]) [Expr.path ["value"]])) (Expr.call (Expr.path ["test"]) [Expr.call (Expr.path ["mem", "replace"]) [Expr.un "&" (Expr.field (Expr.path ["self"]) "bits"), Expr.path ["update"]], Expr.path ["value"]]) },
    { ty := "BooleanSetStorage", tr := "SetStorage", name := "contains", recv := Recv.ref, params := [Pat.bind "value"],
      body := Expr.call (Expr.path ["test"]) [Expr.field (Expr.path ["self"]) "bits", Expr.path ["value"]] },
    { ty := "BooleanSetStorage", tr := "SetStorage", name := "remove", recv := Recv.ref, params := [Pat.bind "value"],
      body := Expr.letIn (Pat.bind "value") (Expr.call (Expr.path ["to_bits"]) [Expr.path ["value"]]) (Expr.letIn (Pat.bind "update") (Expr.bin "&" (Expr.field (Expr.path ["self"]) "bits") (Expr.un "!" (Expr.path ["value"]))) (Expr.bin "!=" (Expr.call (Expr.path ["mem", "replace"]) [Expr.un "&" (Expr.field (Expr.path ["self"]) "bits"), Expr.path ["update"]]) (Expr.int 0))) },
    { ty := "BooleanSetStorage", tr := "SetStorage", name := "retain", recv := Recv.ref, params := [Pat.bind "f"],
      body := Expr.seq (Expr.ite (Expr.bin "&&" (Expr.call (Expr.path ["test"]) [Expr.field (Expr.path ["self"]) "bits", Expr.bool true]) (Expr.un "!" (Expr.call (Expr.path ["f"]) [Expr.bool true]))) (Expr.seq (Expr.assign "&=" (Expr.field (Expr.path ["self"]) "bits") (Expr.un "!" (Expr.path ["TRUE_BIT"]))) (Expr.unit)) (Expr.unit)) (Expr.ite (Expr.bin "&&" (Expr.call (Expr.path ["test"]) [Expr.field (Expr.path ["self"]) "bits", Expr.bool false]) (Expr.un "!" (Expr.call (Expr.path ["f"]) [Expr.bool false]))) (Expr.seq (Expr.assign "&=" (Expr.field (Expr.path ["self"]) "bits") (Expr.un "!" (Expr.path ["FALSE_BIT"]))) (Expr.unit)) (Expr.unit)) },
    { ty := "BooleanSetStorage", tr := "SetStorage", name := "clear", recv := Recv.ref, params := [],
      body := Expr.seq (Expr.assign "=" (Expr.field (Expr.path ["self"]) "bits") (Expr.int 0)) (Expr.unit) },
    { ty := "BooleanSetStorage", tr := "SetStorage", name := "iter", recv := Recv.ref, params := [],
      body := Expr.struct ["Iter"] [("bits", Expr.field (Expr.path ["self"]) "bits")] },
    { ty := "BooleanSetStorage", tr := "SetStorage", name := "into_iter", recv := Recv.value, params := [],
      body := Expr.struct ["Iter"] [("bits", Expr.field (Expr.path ["self"]) "bits")] },
    { ty := "", tr := "", name := "test", recv := Recv.none, params := [Pat.bind "bits", Pat.bind "value"],
      body := Expr.bin "!=" (Expr.bin "&" (Expr.path ["bits"]) (Expr.call (Expr.path ["to_bits"]) [Expr.path ["value"]])) (Expr.int 0) },
    { ty := "", tr := "", name := "to_bits", recv := Recv.none, params := [Pat.bind "value"],
      body := Expr.ite (Expr.path ["value"]) (Expr.path ["TRUE_BIT"]) (Expr.path ["FALSE_BIT"]) }],
  consts := [("TRUE_BIT", Expr.int 2), ("FALSE_BIT", Expr.int 1)], derives := [("BooleanSetStorage", ["Clone", "Copy", "PartialEq", "Eq"])] }

set_option maxRecDepth 10000 in
theorem setBoolean_parsed : parseFile Text.setBoolean = some setBoolean := by kernel_rfl

def setSingleton : Prog := {
  fns := [
    { ty := "SingletonSetStorage", tr := "SetStorage", name := "empty", recv := Recv.none, params := [],
      body := Expr.struct ["Self"] [("is_set", Expr.bool false)] },
    { ty := "SingletonSetStorage", tr := "SetStorage", name := "len", recv := Recv.ref, params := [],
      body := Expr.call (Expr.path ["usize", "from"]) [Expr.field (Expr.path ["self"]) "is_set"] },
    { ty := "SingletonSetStorage", tr := "SetStorage", name := "is_empty", recv := Recv.ref, params := [],
      body := Expr.un "!" (Expr.field (Expr.path ["self"]) "is_set") },
    { ty := "SingletonSetStorage", tr := "SetStorage", name := "insert", recv := Recv.ref, params := [Pat.wild],
      body := Expr.un "!" (Expr.call (Expr.path ["mem", "replace"]) [Expr.un "&" (Expr.field (Expr.path ["self"]) "is_set"), Expr.bool true]) },
    { ty := "SingletonSetStorage", tr := "SetStorage", name := "contains", recv := Recv.ref, params := [Pat.wild],
      body := Expr.field (Expr.path ["self"]) "is_set" },
    { ty := "SingletonSetStorage", tr := "SetStorage", name := "remove", recv := Recv.ref, params := [Pat.wild],
      body := Expr.call (Expr.path ["mem", "replace"]) [Expr.un "&" (Expr.field (Expr.path ["self"]) "is_set"), Expr.bool false] },
    { ty := "SingletonSetStorage", tr := "SetStorage", name := "retain", recv := Recv.ref, params := [Pat.bind "func"],
      body := Expr.seq (Expr.assign "=" (Expr.field (Expr.path ["self"]) "is_set") (Expr.call (Expr.path ["func"]) [Expr.call (Expr.path ["T", "default"]) []])) (Expr.unit) },
    { ty := "SingletonSetStorage", tr := "SetStorage", name := "clear", recv := Recv.ref, params := [],
      body := Expr.seq (Expr.assign "=" (Expr.field (Expr.path ["self"]) "is_set") (Expr.bool false)) (Expr.unit) },
    { ty := "SingletonSetStorage", tr := "SetStorage", name := "iter", recv := Recv.ref, params := [],
      body := Expr.method (Expr.method (Expr.field (Expr.path ["self"]) "is_set") "then_some" [Expr.call (Expr.path ["T", "default"]) []]) "into_iter" [] },
    { ty := "SingletonSetStorage", tr := "SetStorage", name := "into_iter", recv := Recv.value, params := [],
      body := Expr.method (Expr.method (Expr.field (Expr.path ["self"]) "is_set") "then_some" [Expr.call (Expr.path ["T", "default"]) []]) "into_iter" [] }],
  consts := [], derives := [("SingletonSetStorage", ["Clone", "Copy", "PartialEq", "Eq", "PartialOrd", "Ord", "Hash"])] }

set_option maxRecDepth 10000 in
theorem setSingleton_parsed : parseFile Text.setSingleton = some setSingleton := by kernel_rfl

def setOption : Prog := {
  fns := [
    { ty := "OptionSetStorage", tr := "Clone", name := "clone", recv := Recv.ref, params := [],
      body := Expr.struct ["Self"] [("some", Expr.method (Expr.field (Expr.path ["self"]) "some") "clone" []), ("none", Expr.field (Expr.path ["self"]) "none")] },
    { ty := "OptionSetStorage", tr := "PartialEq", name := "eq", recv := Recv.ref, params := [Pat.bind "other"],
      body := Expr.bin "&&" (Expr.bin "==" (Expr.field (Expr.path ["self"]) "none") (Expr.field (Expr.path ["other"]) "none")) (Expr.bin "==" (Expr.field (Expr.path ["self"]) "some") (Expr.field (Expr.path ["other"]) "some")) },
    { ty := "OptionSetStorage", tr := "SetStorage", name := "empty", recv := Recv.none, params := [],
      body := Expr.struct ["Self"] [("some", Expr.call (Expr.path ["T", "SetStorage", "empty"]) []), ("none", Expr.bool false)] },
    { ty := "OptionSetStorage", tr := "SetStorage", name := "len", recv := Recv.ref, params := [],
      body := Expr.bin "+" (Expr.method (Expr.field (Expr.path ["self"]) "some") "len" []) (Expr.call (Expr.path ["usize", "from"]) [Expr.field (Expr.path ["self"]) "none"]) },
    { ty := "OptionSetStorage", tr := "SetStorage", name := "is_empty", recv := Recv.ref, params := [],
      body := Expr.bin "&&" (Expr.method (Expr.field (Expr.path ["self"]) "some") "is_empty" []) (Expr.field (Expr.path ["self"]) "none") },
    { ty := "OptionSetStorage", tr := "SetStorage", name := "insert", recv := Recv.ref, params := [Pat.bind "value"],
      body := Expr.cases (Expr.path ["value"]) [(Pat.con ["Some"] [Pat.bind "value"], Expr.method (Expr.field (Expr.path ["self"]) "some") "insert" [Expr.path ["value"]]), (Pat.con ["None"] [], Expr.call (Expr.path ["mem", "replace"]) [Expr.un "&" (Expr.field (Expr.path ["self"]) "none"), Expr.bool true])] },
    { ty := "OptionSetStorage", tr := "SetStorage", name := "contains", recv := Recv.ref, params := [Pat.bind "value"],
      body := Expr.cases (Expr.path ["value"]) [(Pat.con ["Some"] [Pat.bind "key"], Expr.method (Expr.field (Expr.path ["self"]) "some") "contains" [Expr.path ["key"]]), (Pat.con ["None"] [], Expr.field (Expr.path ["self"]) "none")] },
    { ty := "OptionSetStorage", tr := "SetStorage", name := "remove", recv := Recv.ref, params := [Pat.bind "key"],
      body := Expr.cases (Expr.path ["key"]) [(Pat.con ["Some"] [Pat.bind "key"], Expr.method (Expr.field (Expr.path ["self"]) "some") "remove" [Expr.path ["key"]]), (Pat.con ["None"] [], Expr.call (Expr.path ["mem", "replace"]) [Expr.un "&" (Expr.field (Expr.path ["self"]) "none"), Expr.bool false])] },
    { ty := "OptionSetStorage", tr := "SetStorage", name := "retain", recv := Recv.ref, params := [Pat.bind "func"],
      body := Expr.seq (Expr.method (Expr.field (Expr.path ["self"]) "some") "retain" [Expr.lambda [Pat.bind "value"] (Expr.call (Expr.path ["func"]) [Expr.call (Expr.path ["Some"]) [Expr.path ["value"]]])]) (Expr.ite (Expr.field (Expr.path ["self"]) "none") (Expr.seq (Expr.assign "=" (Expr.field (Expr.path ["self"]) "none") (Expr.call (Expr.path ["func"]) [Expr.path ["None"]])) (Expr.unit)) (Expr.unit)) },
    { ty := "OptionSetStorage", tr := "SetStorage", name := "clear", recv := Recv.ref, params := [],
      body := Expr.seq (Expr.method (Expr.field (Expr.path ["self"]) "some") "clear" []) (Expr.seq (Expr.assign "=" (Expr.field (Expr.path ["self"]) "none") (Expr.bool false)) (Expr.unit)) },
    { ty := "OptionSetStorage", tr := "SetStorage", name := "iter", recv := Recv.ref, params := [],
      body := Expr.letIn (Pat.bind "map") (Expr.path ["Some"]) (Expr.method (Expr.method (Expr.method (Expr.field (Expr.path ["self"]) "some") "iter" []) "map" [Expr.path ["map"]]) "chain" [Expr.method (Expr.field (Expr.path ["self"]) "none") "then_some" [Expr.path ["None"]]]) },
    { ty := "OptionSetStorage", tr := "SetStorage", name := "into_iter", recv := Recv.value, params := [],
      body := Expr.letIn (Pat.bind "map") (Expr.path ["Some"]) (Expr.method (Expr.method (Expr.method (Expr.field (Expr.path ["self"]) "some") "into_iter" []) "map" [Expr.path ["map"]]) "chain" [Expr.method (Expr.field (Expr.path ["self"]) "none") "then_some" [Expr.path ["None"]]]) }],
  consts := [], derives := [] }

set_option maxRecDepth 10000 in
theorem setOption_parsed : parseFile Text.setOption = some setOption := by kernel_rfl

def setHashbrown : Prog := {
  fns := [
    { ty := "HashbrownSetStorage", tr := "Clone", name := "clone", recv := Recv.ref, params := [],
      body := Expr.struct ["HashbrownSetStorage"] [("inner", Expr.method (Expr.field (Expr.path ["self"]) "inner") "clone" [])] },
    { ty := "HashbrownSetStorage", tr := "PartialEq", name := "eq", recv := Recv.ref, params := [Pat.bind "other"],
      body := Expr.method (Expr.field (Expr.path ["self"]) "inner") "eq" [Expr.un "&" (Expr.field (Expr.path ["other"]) "inner")] },
    { ty := "HashbrownSetStorage", tr := "SetStorage", name := "empty", recv := Recv.none, params := [],
      body := Expr.struct ["Self"] [("inner", Expr.call (Expr.path ["hashbrown", "HashSet", "new"]) [])] },
    { ty := "HashbrownSetStorage", tr := "SetStorage", name := "len", recv := Recv.ref, params := [],
      body := Expr.method (Expr.field (Expr.path ["self"]) "inner") "len" [] },
    { ty := "HashbrownSetStorage", tr := "SetStorage", name := "is_empty", recv := Recv.ref, params := [],
      body := Expr.method (Expr.field (Expr.path ["self"]) "inner") "is_empty" [] },
    { ty := "HashbrownSetStorage", tr := "SetStorage", name := "insert", recv := Recv.ref, params := [Pat.bind "value"],
      body := Expr.method (Expr.field (Expr.path ["self"]) "inner") "insert" [Expr.path ["value"]] },
    { ty := "HashbrownSetStorage", tr := "SetStorage", name := "contains", recv := Recv.ref, params := [Pat.bind "value"],
      body := Expr.method (Expr.field (Expr.path ["self"]) "inner") "contains" [Expr.un "&" (Expr.path ["value"])] },
    { ty := "HashbrownSetStorage", tr := "SetStorage", name := "remove", recv := Recv.ref, params := [Pat.bind "value"],
      body := Expr.method (Expr.field (Expr.path ["self"]) "inner") "remove" [Expr.un "&" (Expr.path ["value"])] },
    { ty := "HashbrownSetStorage", tr := "SetStorage", name := "retain", recv := Recv.ref, params := [Pat.bind "func"],
      body := Expr.seq (Expr.method (Expr.field (Expr.path ["self"]) "inner") "retain" [Expr.lambda [Pat.deref (Pat.bind "value")] (Expr.call (Expr.path ["func"]) [Expr.path ["value"]])]) (Expr.unit) },
    { ty := "HashbrownSetStorage", tr := "SetStorage", name := "clear", recv := Recv.ref, params := [],
      body := Expr.seq (Expr.method (Expr.field (Expr.path ["self"]) "inner") "clear" []) (Expr.unit) },
    { ty := "HashbrownSetStorage", tr := "SetStorage", name := "iter", recv := Recv.ref, params := [],
      body := Expr.method (Expr.method (Expr.field (Expr.path ["self"]) "inner") "iter" []) "copied" [] },
    { ty := "HashbrownSetStorage", tr := "SetStorage", name := "into_iter", recv := Recv.value, params := [],
      body := Expr.method (Expr.field (Expr.path ["self"]) "inner") "into_iter" [] }],
  consts := [], derives := [] }

set_option maxRecDepth 10000 in
theorem setHashbrown_parsed : parseFile Text.setHashbrown = some setHashbrown := by kernel_rfl

def mapEntry : Prog := {
  fns := [
    { ty := "Entry", tr := "", name := "or_insert", recv := Recv.value, params := [Pat.bind "default"],
      body := Expr.cases (Expr.path ["self"]) [(Pat.con ["Entry", "Occupied"] [Pat.bind "entry"], Expr.method (Expr.path ["entry"]) "into_mut" []), (Pat.con ["Entry", "Vacant"] [Pat.bind "entry"], Expr.method (Expr.path ["entry"]) "insert" [Expr.path ["default"]])] },
    { ty := "Entry", tr := "", name := "or_insert_with", recv := Recv.value, params := [Pat.bind "default"],
      body := Expr.cases (Expr.path ["self"]) [(Pat.con ["Entry", "Occupied"] [Pat.bind "entry"], Expr.method (Expr.path ["entry"]) "into_mut" []), (Pat.con ["Entry", "Vacant"] [Pat.bind "entry"], Expr.method (Expr.path ["entry"]) "insert" [Expr.call (Expr.path ["default"]) []])] },
    { ty := "Entry", tr := "", name := "or_insert_with_key", recv := Recv.value, params := [Pat.bind "default"],
      body := Expr.cases (Expr.path ["self"]) [(Pat.con ["Entry", "Occupied"] [Pat.bind "entry"], Expr.method (Expr.path ["entry"]) "into_mut" []), (Pat.con ["Entry", "Vacant"] [Pat.bind "entry"], Expr.letIn (Pat.bind "value") (Expr.call (Expr.path ["default"]) [Expr.method (Expr.path ["entry"]) "key" []]) (Expr.method (Expr.path ["entry"]) "insert" [Expr.path ["value"]]))] },
    { ty := "Entry", tr := "", name := "key", recv := Recv.ref, params := [],
      body := Expr.cases (Expr.path ["self"]) [(Pat.con ["Entry", "Occupied"] [Pat.bind "entry"], Expr.method (Expr.path ["entry"]) "key" []), (Pat.con ["Entry", "Vacant"] [Pat.bind "entry"], Expr.method (Expr.path ["entry"]) "key" [])] },
    { ty := "Entry", tr := "", name := "and_modify", recv := Recv.value, params := [Pat.bind "f"],
      body := Expr.cases (Expr.path ["self"]) [(Pat.con ["Entry", "Occupied"] [Pat.bind "entry"], Expr.seq (Expr.call (Expr.path ["f"]) [Expr.method (Expr.path ["entry"]) "get_mut" []]) (Expr.call (Expr.path ["Entry", "Occupied"]) [Expr.path ["entry"]])), (Pat.con ["Entry", "Vacant"] [Pat.bind "entry"], Expr.call (Expr.path ["Entry", "Vacant"]) [Expr.path ["entry"]])] },
    { ty := "Entry", tr := "", name := "or_default", recv := Recv.value, params := [],
      body := Expr.cases (Expr.path ["self"]) [(Pat.con ["Entry", "Occupied"] [Pat.bind "entry"], Expr.method (Expr.path ["entry"]) "into_mut" []), (Pat.con ["Entry", "Vacant"] [Pat.bind "entry"], Expr.method (Expr.path ["entry"]) "insert" [Expr.call (Expr.path ["Default", "default"]) []])] }],
  consts := [], derives := [] }

set_option maxRecDepth 10000 in
theorem mapEntry_parsed : parseFile Text.mapEntry = some mapEntry := by kernel_rfl

def map : Prog := {
  fns := [
    { ty := "Map", tr := "", name := "new", recv := Recv.none, params := [],
      body := Expr.struct ["Map"] [("storage", Expr.call (Expr.path ["K", "MapStorage", "empty"]) [])] },
    { ty := "Map", tr := "", name := "iter", recv := Recv.ref, params := [],
      body := Expr.method (Expr.field (Expr.path ["self"]) "storage") "iter" [] },
    { ty := "Map", tr := "", name := "keys", recv := Recv.ref, params := [],
      body := Expr.method (Expr.field (Expr.path ["self"]) "storage") "keys" [] },
    { ty := "Map", tr := "", name := "values", recv := Recv.ref, params := [],
      body := Expr.method (Expr.field (Expr.path ["self"]) "storage") "values" [] },
    { ty := "Map", tr := "", name := "iter_mut", recv := Recv.ref, params := [],
      body := Expr.method (Expr.field (Expr.path ["self"]) "storage") "iter_mut" [] },
    { ty := "Map", tr := "", name := "values_mut", recv := Recv.ref, params := [],
      body := Expr.method (Expr.field (Expr.path ["self"]) "storage") "values_mut" [] },
    { ty := "Map", tr := "", name := "contains_key", recv := Recv.ref, params := [Pat.bind "key"],
      body := Expr.method (Expr.field (Expr.path ["self"]) "storage") "contains_key" [Expr.path ["key"]] },
    { ty := "Map", tr := "", name := "get", recv := Recv.ref, params := [Pat.bind "key"],
      body := Expr.method (Expr.field (Expr.path ["self"]) "storage") "get" [Expr.path ["key"]] },
    { ty := "Map", tr := "", name := "get_mut", recv := Recv.ref, params := [Pat.bind "key"],
      body := Expr.method (Expr.field (Expr.path ["self"]) "storage") "get_mut" [Expr.path ["key"]] },
    { ty := "Map", tr := "", name := "insert", recv := Recv.ref, params := [Pat.bind "key", Pat.bind "value"],
      body := Expr.method (Expr.field (Expr.path ["self"]) "storage") "insert" [Expr.path ["key"], Expr.path ["value"]] },
    { ty := "Map", tr := "", name := "remove", recv := Recv.ref, params := [Pat.bind "key"],
      body := Expr.method (Expr.field (Expr.path ["self"]) "storage") "remove" [Expr.path ["key"]] },
    { ty := "Map", tr := "", name := "retain", recv := Recv.ref, params := [Pat.bind "f"],
      body := Expr.seq (Expr.method (Expr.field (Expr.path ["self"]) "storage") "retain" [Expr.path ["f"]]) (Expr.unit) },
    { ty := "Map", tr := "", name := "clear", recv := Recv.ref, params := [],
      body := Expr.seq (Expr.method (Expr.field (Expr.path ["self"]) "storage") "clear" []) (Expr.unit) },
    { ty := "Map", tr := "", name := "is_empty", recv := Recv.ref, params := [],
      body := Expr.method (Expr.field (Expr.path ["self"]) "storage") "is_empty" [] },
    { ty := "Map", tr := "", name := "len", recv := Recv.ref, params := [],
      body := Expr.method (Expr.field (Expr.path ["self"]) "storage") "len" [] },
    { ty := "Map", tr := "", name := "entry", recv := Recv.ref, params := [Pat.bind "key"],
      body := Expr.call (Expr.path ["K", "MapStorage", "entry"]) [Expr.un "&" (Expr.field (Expr.path ["self"]) "storage"), Expr.path ["key"]] },
    { ty := "Map", tr := "Clone", name := "clone", recv := Recv.ref, params := [],
      body := Expr.struct ["Map"] [("storage", Expr.method (Expr.field (Expr.path ["self"]) "storage") "clone" [])] },
    { ty := "Map", tr := "Default", name := "default", recv := Recv.none, params := [],
      body := Expr.call (Expr.path ["Self", "new"]) [] },
    { ty := "Map", tr := "Debug", name := "fmt", recv := Recv.ref, params := [Pat.bind "f"],
      body := Expr.method (Expr.method (Expr.method (Expr.path ["f"]) "debug_map" []) "entries" [Expr.method (Expr.path ["self"]) "iter" []]) "finish" [] },
    { ty := "Map", tr := "PartialEq", name := "eq", recv := Recv.ref, params := [Pat.bind "other"],
      body := Expr.bin "==" (Expr.field (Expr.path ["self"]) "storage") (Expr.field (Expr.path ["other"]) "storage") },
    { ty := "Map", tr := "Hash", name := "hash", recv := Recv.ref, params := [Pat.bind "state"],
      body := Expr.seq (Expr.method (Expr.field (Expr.path ["self"]) "storage") "hash" [Expr.path ["state"]]) (Expr.unit) },
    { ty := "Map", tr := "PartialOrd", name := "partial_cmp", recv := Recv.ref, params := [Pat.bind "other"],
      body := Expr.method (Expr.field (Expr.path ["self"]) "storage") "partial_cmp" [Expr.un "&" (Expr.field (Expr.path ["other"]) "storage")] },
    { ty := "Map", tr := "PartialOrd", name := "lt", recv := Recv.ref, params := [Pat.bind "other"],
      body := Expr.method (Expr.field (Expr.path ["self"]) "storage") "lt" [Expr.un "&" (Expr.field (Expr.path ["other"]) "storage")] },
    { ty := "Map", tr := "PartialOrd", name := "le", recv := Recv.ref, params := [Pat.bind "other"],
      body := Expr.method (Expr.field (Expr.path ["self"]) "storage") "le" [Expr.un "&" (Expr.field (Expr.path ["other"]) "storage")] },
    { ty := "Map", tr := "PartialOrd", name := "gt", recv := Recv.ref, params := [Pat.bind "other"],
      body := Expr.method (Expr.field (Expr.path ["self"]) "storage") "gt" [Expr.un "&" (Expr.field (Expr.path ["other"]) "storage")] },
    { ty := "Map", tr := "PartialOrd", name := "ge", recv := Recv.ref, params := [Pat.bind "other"],
      body := Expr.method (Expr.field (Expr.path ["self"]) "storage") "ge" [Expr.un "&" (Expr.field (Expr.path ["other"]) "storage")] },
    { ty := "Map", tr := "Ord", name := "cmp", recv := Recv.ref, params := [Pat.bind "other"],
      body := Expr.method (Expr.field (Expr.path ["self"]) "storage") "cmp" [Expr.un "&" (Expr.field (Expr.path ["other"]) "storage")] },
    { ty := "Map", tr := "Ord", name := "max", recv := Recv.value, params := [Pat.bind "other"],
      body := Expr.struct ["Self"] [("storage", Expr.method (Expr.field (Expr.path ["self"]) "storage") "max" [Expr.field (Expr.path ["other"]) "storage"])] },
    { ty := "Map", tr := "Ord", name := "min", recv := Recv.value, params := [Pat.bind "other"],
      body := Expr.struct ["Self"] [("storage", Expr.method (Expr.field (Expr.path ["self"]) "storage") "min" [Expr.field (Expr.path ["other"]) "storage"])] },
    { ty := "Map", tr := "Ord", name := "clamp", recv := Recv.value, params := [Pat.bind "min", Pat.bind "max"],
      body := Expr.struct ["Self"] [("storage", Expr.method (Expr.field (Expr.path ["self"]) "storage") "clamp" [Expr.field (Expr.path ["min"]) "storage", Expr.field (Expr.path ["max"]) "storage"])] },
    { ty := "&Map", tr := "IntoIterator", name := "into_iter", recv := Recv.value, params := [],
      body := Expr.method (Expr.path ["self"]) "iter" [] },
    { ty := "&mut Map", tr := "IntoIterator", name := "into_iter", recv := Recv.value, params := [],
      body := Expr.method (Expr.path ["self"]) "iter_mut" [] },
    { ty := "Map", tr := "IntoIterator", name := "into_iter", recv := Recv.value, params := [],
      body := Expr.method (Expr.field (Expr.path ["self"]) "storage") "into_iter" [] },
    { ty := "Map", tr := "FromIterator", name := "from_iter", recv := Recv.none, params := [Pat.bind "iter"],
      body := Expr.letIn (Pat.bind "map") (Expr.call (Expr.path ["Self", "new"]) []) (Expr.seq (Expr.letIn (Pat.bind "for") (Expr.call (Expr.path ["IntoIterator", "into_iter"]) [Expr.path ["iter"]]) (Expr.whileLet (Pat.con ["Some"] [Pat.tuple [Pat.bind "k", Pat.bind "v"]]) (Expr.method (Expr.path ["for"]) "next" []) (Expr.seq (Expr.method (Expr.path ["map"]) "insert" [Expr.path ["k"], Expr.path ["v"]]) (Expr.unit)))) (Expr.path ["map"])) },
    { ty := "Map", tr := "Serialize", name := "serialize", recv := Recv.ref, params := [Pat.bind "serializer"],
      body := Expr.letIn (Pat.bind "map") (Expr.try (Expr.method (Expr.path ["serializer"]) "serialize_map" [Expr.call (Expr.path ["Some"]) [Expr.method (Expr.path ["self"]) "len" []]])) (Expr.seq (Expr.letIn (Pat.bind "for") (Expr.call (Expr.path ["IntoIterator", "into_iter"]) [Expr.path ["self"]]) (Expr.whileLet (Pat.con ["Some"] [Pat.tuple [Pat.bind "k", Pat.bind "v"]]) (Expr.method (Expr.path ["for"]) "next" []) (Expr.seq (Expr.try (Expr.method (Expr.path ["map"]) "serialize_entry" [Expr.un "&" (Expr.path ["k"]), Expr.path ["v"]])) (Expr.unit)))) (Expr.method (Expr.path ["map"]) "end" [])) },
    { ty := "Map", tr := "Deserialize", name := "deserialize", recv := Recv.none, params := [Pat.bind "deserializer"],
      body := Expr.method (Expr.path ["deserializer"]) "deserialize_map" [Expr.call (Expr.path ["MapVisitor"]) [Expr.path ["core", "marker", "PhantomData"]]] },
    { ty := "MapVisitor", tr := "Visitor", name := "expecting", recv := Recv.ref, params := [Pat.bind "formatter"],
      body := Expr.method (Expr.path ["formatter"]) "write_str" [Expr.str] },
    { ty := "MapVisitor", tr := "Visitor", name := "visit_map", recv := Recv.value, params := [Pat.bind "visitor"],
      body := Expr.letIn (Pat.bind "map") (Expr.call (Expr.path ["Map", "new"]) []) (Expr.seq (Expr.whileLet (Pat.con ["Some"] [Pat.tuple [Pat.bind "key", Pat.bind "value"]]) (Expr.try (Expr.method (Expr.path ["visitor"]) "next_entry" [])) (Expr.seq (Expr.method (Expr.path ["map"]) "insert" [Expr.path ["key"], Expr.path ["value"]]) (Expr.unit))) (Expr.call (Expr.path ["Ok"]) [Expr.path ["map"]])) }],
  consts := [], derives := [] }

set_option maxRecDepth 10000 in
theorem map_parsed : parseFile Text.map = some map := by kernel_rfl

def set : Prog := {
  fns := [
    { ty := "Set", tr := "", name := "new", recv := Recv.none, params := [],
      body := Expr.struct ["Set"] [("storage", Expr.call (Expr.path ["T", "SetStorage", "empty"]) [])] },
    { ty := "Set", tr := "", name := "iter", recv := Recv.ref, params := [],
      body := Expr.method (Expr.field (Expr.path ["self"]) "storage") "iter" [] },
    { ty := "Set", tr := "", name := "contains", recv := Recv.ref, params := [Pat.bind "value"],
      body := Expr.method (Expr.field (Expr.path ["self"]) "storage") "contains" [Expr.path ["value"]] },
    { ty := "Set", tr := "", name := "insert", recv := Recv.ref, params := [Pat.bind "value"],
      body := Expr.method (Expr.field (Expr.path ["self"]) "storage") "insert" [Expr.path ["value"]] },
    { ty := "Set", tr := "", name := "remove", recv := Recv.ref, params := [Pat.bind "value"],
      body := Expr.method (Expr.field (Expr.path ["self"]) "storage") "remove" [Expr.path ["value"]] },
    { ty := "Set", tr := "", name := "retain", recv := Recv.ref, params := [Pat.bind "f"],
      body := Expr.seq (Expr.method (Expr.field (Expr.path ["self"]) "storage") "retain" [Expr.path ["f"]]) (Expr.unit) },
    { ty := "Set", tr := "", name := "clear", recv := Recv.ref, params := [],
      body := Expr.seq (Expr.method (Expr.field (Expr.path ["self"]) "storage") "clear" []) (Expr.unit) },
    { ty := "Set", tr := "", name := "is_empty", recv := Recv.ref, params := [],
      body := Expr.method (Expr.field (Expr.path ["self"]) "storage") "is_empty" [] },
    { ty := "Set", tr := "", name := "len", recv := Recv.ref, params := [],
      body := Expr.method (Expr.field (Expr.path ["self"]) "storage") "len" [] },
    { ty := "Set", tr := "", name := "intersection", recv := Recv.ref, params := [Pat.bind "other"],
      body := Expr.ite (Expr.bin "<=" (Expr.method (Expr.path ["self"]) "len" []) (Expr.method (Expr.path ["other"]) "len" [])) (Expr.struct ["Intersection"] [("iter", Expr.method (Expr.path ["self"]) "iter" []), ("other", Expr.path ["other"])]) (Expr.struct ["Intersection"] [("iter", Expr.method (Expr.path ["other"]) "iter" []), ("other", Expr.path ["self"])]) },
    { ty := "Set", tr := "", name := "as_raw", recv := Recv.ref, params := [],
      body := Expr.method (Expr.field (Expr.path ["self"]) "storage") "as_raw" [] },
    { ty := "Set", tr := "", name := "from_raw", recv := Recv.none, params := [Pat.bind "raw"],
      body := Expr.struct ["Self"] [("storage", Expr.call (Expr.path ["T", "SetStorage", "from_raw"]) [Expr.path ["raw"]])] },
    { ty := "Set", tr := "Clone", name := "clone", recv := Recv.ref, params := [],
      body := Expr.struct ["Set"] [("storage", Expr.method (Expr.field (Expr.path ["self"]) "storage") "clone" [])] },
    { ty := "Set", tr := "Default", name := "default", recv := Recv.none, params := [],
      body := Expr.call (Expr.path ["Self", "new"]) [] },
    { ty := "Set", tr := "Debug", name := "fmt", recv := Recv.ref, params := [Pat.bind "f"],
      body := Expr.method (Expr.method (Expr.method (Expr.path ["f"]) "debug_set" []) "entries" [Expr.method (Expr.path ["self"]) "iter" []]) "finish" [] },
    { ty := "Set", tr := "PartialEq", name := "eq", recv := Recv.ref, params := [Pat.bind "other"],
      body := Expr.bin "==" (Expr.field (Expr.path ["self"]) "storage") (Expr.field (Expr.path ["other"]) "storage") },
    { ty := "Set", tr := "Hash", name := "hash", recv := Recv.ref, params := [Pat.bind "state"],
      body := Expr.seq (Expr.method (Expr.field (Expr.path ["self"]) "storage") "hash" [Expr.path ["state"]]) (Expr.unit) },
    { ty := "Set", tr := "PartialOrd", name := "partial_cmp", recv := Recv.ref, params := [Pat.bind "other"],
      body := Expr.method (Expr.field (Expr.path ["self"]) "storage") "partial_cmp" [Expr.un "&" (Expr.field (Expr.path ["other"]) "storage")] },
    { ty := "Set", tr := "PartialOrd", name := "lt", recv := Recv.ref, params := [Pat.bind "other"],
      body := Expr.method (Expr.field (Expr.path ["self"]) "storage") "lt" [Expr.un "&" (Expr.field (Expr.path ["other"]) "storage")] },
    { ty := "Set", tr := "PartialOrd", name := "le", recv := Recv.ref, params := [Pat.bind "other"],
      body := Expr.method (Expr.field (Expr.path ["self"]) "storage") "le" [Expr.un "&" (Expr.field (Expr.path ["other"]) "storage")] },
    { ty := "Set", tr := "PartialOrd", name := "gt", recv := Recv.ref, params := [Pat.bind "other"],
      body := Expr.method (Expr.field (Expr.path ["self"]) "storage") "gt" [Expr.un "&" (Expr.field (Expr.path ["other"]) "storage")] },
    { ty := "Set", tr := "PartialOrd", name := "ge", recv := Recv.ref, params := [Pat.bind "other"],
      body := Expr.method (Expr.field (Expr.path ["self"]) "storage") "ge" [Expr.un "&" (Expr.field (Expr.path ["other"]) "storage")] },
    { ty := "Set", tr := "Ord", name := "cmp", recv := Recv.ref, params := [Pat.bind "other"],
      body := Expr.method (Expr.field (Expr.path ["self"]) "storage") "cmp" [Expr.un "&" (Expr.field (Expr.path ["other"]) "storage")] },
    { ty := "Set", tr := "Ord", name := "max", recv := Recv.value, params := [Pat.bind "other"],
      body := Expr.struct ["Self"] [("storage", Expr.method (Expr.field (Expr.path ["self"]) "storage") "max" [Expr.field (Expr.path ["other"]) "storage"])] },
    { ty := "Set", tr := "Ord", name := "min", recv := Recv.value, params := [Pat.bind "other"],
      body := Expr.struct ["Self"] [("storage", Expr.method (Expr.field (Expr.path ["self"]) "storage") "min" [Expr.field (Expr.path ["other"]) "storage"])] },
    { ty := "Set", tr := "Ord", name := "clamp", recv := Recv.value, params := [Pat.bind "min", Pat.bind "max"],
      body := Expr.struct ["Self"] [("storage", Expr.method (Expr.field (Expr.path ["self"]) "storage") "clamp" [Expr.field (Expr.path ["min"]) "storage", Expr.field (Expr.path ["max"]) "storage"])] },
    { ty := "&Set", tr := "IntoIterator", name := "into_iter", recv := Recv.value, params := [],
      body := Expr.method (Expr.path ["self"]) "iter" [] },
    { ty := "Set", tr := "IntoIterator", name := "into_iter", recv := Recv.value, params := [],
      body := Expr.method (Expr.field (Expr.path ["self"]) "storage") "into_iter" [] },
    { ty := "Set", tr := "FromIterator", name := "from_iter", recv := Recv.none, params := [Pat.bind "iter"],
      body := Expr.letIn (Pat.bind "set") (Expr.call (Expr.path ["Self", "new"]) []) (Expr.seq (Expr.letIn (Pat.bind "for") (Expr.call (Expr.path ["IntoIterator", "into_iter"]) [Expr.path ["iter"]]) (Expr.whileLet (Pat.con ["Some"] [Pat.bind "value"]) (Expr.method (Expr.path ["for"]) "next" []) (Expr.seq (Expr.method (Expr.path ["set"]) "insert" [Expr.path ["value"]]) (Expr.unit)))) (Expr.path ["set"])) },
    { ty := "Set", tr := "Serialize", name := "serialize", recv := Recv.ref, params := [Pat.bind "serializer"],
      body := Expr.letIn (Pat.bind "seq") (Expr.try (Expr.method (Expr.path ["serializer"]) "serialize_seq" [Expr.call (Expr.path ["Some"]) [Expr.method (Expr.path ["self"]) "len" []]])) (Expr.seq (Expr.letIn (Pat.bind "for") (Expr.call (Expr.path ["IntoIterator", "into_iter"]) [Expr.path ["self"]]) (Expr.whileLet (Pat.con ["Some"] [Pat.bind "v"]) (Expr.method (Expr.path ["for"]) "next" []) (Expr.seq (Expr.try (Expr.method (Expr.path ["seq"]) "serialize_element" [Expr.un "&" (Expr.path ["v"])])) (Expr.unit)))) (Expr.method (Expr.path ["seq"]) "end" [])) },
    { ty := "Set", tr := "Deserialize", name := "deserialize", recv := Recv.none, params := [Pat.bind "deserializer"],
      body := Expr.method (Expr.path ["deserializer"]) "deserialize_seq" [Expr.call (Expr.path ["SeqVisitor"]) [Expr.path ["core", "marker", "PhantomData"]]] },
    { ty := "Set", tr := "From", name := "from", recv := Recv.none, params := [Pat.bind "arr"],
      body := Expr.call (Expr.path ["Self", "from_iter"]) [Expr.path ["arr"]] },
    { ty := "SeqVisitor", tr := "Visitor", name := "expecting", recv := Recv.ref, params := [Pat.bind "formatter"],
      body := Expr.method (Expr.path ["formatter"]) "write_str" [Expr.str] },
    { ty := "SeqVisitor", tr := "Visitor", name := "visit_seq", recv := Recv.value, params := [Pat.bind "visitor"],
      body := Expr.letIn (Pat.bind "set") (Expr.call (Expr.path ["Set", "new"]) []) (Expr.seq (Expr.whileLet (Pat.con ["Some"] [Pat.bind "elem"]) (Expr.try (Expr.method (Expr.path ["visitor"]) "next_element" [])) (Expr.seq (Expr.method (Expr.path ["set"]) "insert" [Expr.path ["elem"]]) (Expr.unit))) (Expr.call (Expr.path ["Ok"]) [Expr.path ["set"]])) }],
  consts := [], derives := [] }

set_option maxRecDepth 10000 in
theorem set_parsed : parseFile Text.set = some set := by kernel_rfl

def setIntersection : Prog := {
  fns := [
    { ty := "Intersection", tr := "Clone", name := "clone", recv := Recv.ref, params := [],
      body := Expr.structBase ["Intersection"] [("iter", Expr.method (Expr.field (Expr.path ["self"]) "iter") "clone" [])] (Expr.un "*" (Expr.path ["self"])) },
    { ty := "Intersection", tr := "Iterator", name := "next", recv := Recv.ref, params := [],
      body := Expr.loop (Expr.letIn (Pat.bind "elt") (Expr.try (Expr.method (Expr.field (Expr.path ["self"]) "iter") "next" [])) (Expr.ite (Expr.method (Expr.field (Expr.path ["self"]) "other") "contains" [Expr.path ["elt"]]) (Expr.seq (Expr.ret (Expr.call (Expr.path ["Some"]) [Expr.path ["elt"]])) (Expr.unit)) (Expr.unit))) },
    { ty := "Intersection", tr := "Iterator", name := "size_hint", recv := Recv.ref, params := [],
      body := Expr.letIn (Pat.tuple [Pat.wild, Pat.bind "upper"]) (Expr.method (Expr.field (Expr.path ["self"]) "iter") "size_hint" []) (Expr.tuple [Expr.int 0, Expr.path ["upper"]]) },
    { ty := "Intersection", tr := "Iterator", name := "fold", recv := Recv.value, params := [Pat.bind "init", Pat.bind "f"],
      body := Expr.method (Expr.field (Expr.path ["self"]) "iter") "fold" [Expr.path ["init"], Expr.lambda [Pat.bind "acc", Pat.bind "elt"] (Expr.ite (Expr.method (Expr.field (Expr.path ["self"]) "other") "contains" [Expr.path ["elt"]]) (Expr.call (Expr.path ["f"]) [Expr.path ["acc"], Expr.path ["elt"]]) (Expr.path ["acc"]))] },
    { ty := "Intersection", tr := "Debug", name := "fmt", recv := Recv.ref, params := [Pat.bind "f"],
      body := Expr.method (Expr.method (Expr.method (Expr.path ["f"]) "debug_list" []) "entries" [Expr.method (Expr.path ["self"]) "clone" []]) "finish" [] }],
  consts := [], derives := [] }

set_option maxRecDepth 10000 in
theorem setIntersection_parsed : parseFile Text.setIntersection = some setIntersection := by kernel_rfl

def macroSupport : Prog := {
  fns := [
    { ty := "", tr := "", name := "flatten", recv := Recv.none, params := [Pat.bind "value"],
      body := Expr.cases (Expr.path ["value"]) [(Pat.tuple [Pat.bind "index", Pat.con ["Some"] [Pat.bind "value"]], Expr.call (Expr.path ["Some"]) [Expr.tuple [Expr.path ["index"], Expr.path ["value"]]]), (Pat.wild, Expr.path ["None"])] },
    { ty := "", tr := "", name := "__storage_iterator_partial_cmp", recv := Recv.none, params := [Pat.bind "a", Pat.bind "b"],
      body := Expr.letIn (Pat.bind "a") (Expr.method (Expr.method (Expr.method (Expr.path ["a"]) "into_iter" []) "enumerate" []) "filter_map" [Expr.path ["flatten"]]) (Expr.letIn (Pat.bind "b") (Expr.method (Expr.method (Expr.method (Expr.path ["b"]) "into_iter" []) "enumerate" []) "filter_map" [Expr.path ["flatten"]]) (Expr.method (Expr.path ["a"]) "partial_cmp" [Expr.path ["b"]])) },
    { ty := "", tr := "", name := "__storage_iterator_cmp", recv := Recv.none, params := [Pat.bind "a", Pat.bind "b"],
      body := Expr.letIn (Pat.bind "a") (Expr.method (Expr.method (Expr.method (Expr.path ["a"]) "into_iter" []) "enumerate" []) "filter_map" [Expr.path ["flatten"]]) (Expr.letIn (Pat.bind "b") (Expr.method (Expr.method (Expr.method (Expr.path ["b"]) "into_iter" []) "enumerate" []) "filter_map" [Expr.path ["flatten"]]) (Expr.method (Expr.path ["a"]) "cmp" [Expr.path ["b"]])) },
    { ty := "", tr := "", name := "filter_bool", recv := Recv.none, params := [Pat.deref (Pat.tuple [Pat.wild, Pat.bind "value"])],
      body := Expr.un "*" (Expr.path ["value"]) },
    { ty := "", tr := "", name := "__storage_iterator_partial_cmp_bool", recv := Recv.none, params := [Pat.bind "a", Pat.bind "b"],
      body := Expr.letIn (Pat.bind "a") (Expr.method (Expr.method (Expr.method (Expr.path ["a"]) "into_iter" []) "enumerate" []) "filter" [Expr.path ["filter_bool"]]) (Expr.letIn (Pat.bind "b") (Expr.method (Expr.method (Expr.method (Expr.path ["b"]) "into_iter" []) "enumerate" []) "filter" [Expr.path ["filter_bool"]]) (Expr.method (Expr.path ["a"]) "partial_cmp" [Expr.path ["b"]])) },
    { ty := "", tr := "", name := "__storage_iterator_cmp_bool", recv := Recv.none, params := [Pat.bind "a", Pat.bind "b"],
      body := Expr.letIn (Pat.bind "a") (Expr.method (Expr.method (Expr.method (Expr.path ["a"]) "into_iter" []) "enumerate" []) "filter" [Expr.path ["filter_bool"]]) (Expr.letIn (Pat.bind "b") (Expr.method (Expr.method (Expr.method (Expr.path ["b"]) "into_iter" []) "enumerate" []) "filter" [Expr.path ["filter_bool"]]) (Expr.method (Expr.path ["a"]) "cmp" [Expr.path ["b"]])) }],
  consts := [], derives := [] }

set_option maxRecDepth 10000 in
theorem macroSupport_parsed : parseFile Text.macroSupport = some macroSupport := by kernel_rfl

end FixedMap.Rust.Progs
