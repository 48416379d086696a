import Verif.Model.DeriveSource

/-!
# The text of the derive, parsed

The results of `parsePiece` and `parsePaths` on the texts of DeriveSource.lean, written down by a script and checked by the kernel.
-/

set_option autoImplicit false
set_option maxRecDepth 10000

namespace FixedMap.DeriveText.Progs

open Emit.Quote (Tpl)

def paths : List (String × List String) := [("array_into_iter", ["core", "array", "IntoIter"]),
  ("bool_type", ["core", "primitive", "bool"]),
  ("clone_t", ["core", "clone", "Clone"]),
  ("copy_t", ["core", "marker", "Copy"]),
  ("double_ended_iterator_t", ["core", "iter", "DoubleEndedIterator"]),
  ("entry_enum", ["crate", "map", "Entry"]),
  ("eq_t", ["core", "cmp", "Eq"]),
  ("hash_t", ["core", "hash", "Hash"]),
  ("hasher_t", ["core", "hash", "Hasher"]),
  ("into_iterator_t", ["core", "iter", "IntoIterator"]),
  ("iterator_cmp", ["crate", "macro_support", "__storage_iterator_cmp"]),
  ("iterator_cmp_bool", ["crate", "macro_support", "__storage_iterator_cmp_bool"]),
  ("iterator_flat_map", ["core", "iter", "FlatMap"]),
  ("iterator_flatten", ["core", "iter", "Flatten"]),
  ("iterator_partial_cmp", ["crate", "macro_support", "__storage_iterator_partial_cmp"]),
  ("iterator_partial_cmp_bool", ["crate", "macro_support", "__storage_iterator_partial_cmp_bool"]),
  ("iterator_t", ["core", "iter", "Iterator"]),
  ("key_t", ["crate", "Key"]),
  ("mem", ["core", "mem"]),
  ("occupied_entry_t", ["crate", "map", "OccupiedEntry"]),
  ("option", ["core", "option", "Option"]),
  ("option_bucket_none", ["crate", "option_bucket", "NoneBucket"]),
  ("option_bucket_option", ["crate", "option_bucket", "OptionBucket"]),
  ("option_bucket_some", ["crate", "option_bucket", "SomeBucket"]),
  ("ord_t", ["core", "cmp", "Ord"]),
  ("ordering", ["core", "cmp", "Ordering"]),
  ("partial_eq_t", ["core", "cmp", "PartialEq"]),
  ("partial_ord_t", ["core", "cmp", "PartialOrd"]),
  ("slice_iter", ["core", "slice", "Iter"]),
  ("slice_iter_mut", ["core", "slice", "IterMut"]),
  ("map_storage_t", ["crate", "map", "MapStorage"]),
  ("set_storage_t", ["crate", "set", "SetStorage"]),
  ("raw_storage_t", ["crate", "raw", "RawStorage"]),
  ("vacant_entry_t", ["crate", "map", "VacantEntry"])]

theorem paths_parsed : parsePaths Text.paths = paths := by derive_rfl

def anyVariants1 : File := {
  fns := [],
  structs := [],
  consts := [("MAP_STORAGE", Ex.str "__MapStorage"), ("SET_STORAGE", Ex.str "__SetStorage")] }

theorem anyVariants1_parsed : parsePiece Text.anyVariants1 = some anyVariants1 := by derive_rfl

def anyVariants2 : File := {
  fns := [
    { ty := "", name := "implement", params := ["cx", "en"],
      body := Ex.letIn (Pat.bind "ident") (Ex.field (Ex.field (Ex.path ["cx"]) "ast") "ident") (Ex.letIn (Pat.bind "key_t") (Ex.method (Ex.field (Ex.path ["cx"]) "toks") "key_t" []) (Ex.letIn (Pat.bind "map_storage_t") (Ex.method (Ex.field (Ex.path ["cx"]) "toks") "map_storage_t" []) (Ex.letIn (Pat.bind "set_storage_t") (Ex.method (Ex.field (Ex.path ["cx"]) "toks") "set_storage_t" []) (Ex.letIn (Pat.bind "fields") (Ex.call ["Fields",
        "default"] []) (Ex.seq (Ex.for (Pat.tuple [Pat.bind "index", Pat.bind "variant"]) (Ex.method (Ex.method (Ex.field (Ex.path ["en"]) "variants") "iter" []) "enumerate" []) (Ex.letIn (Pat.bind "var") (Ex.field (Ex.path ["variant"]) "ident") (Ex.letIn (Pat.bind "name") (Ex.mac "format_ident" [Ex.str "_{}",
        Ex.path ["index"]]) (Ex.letIn (Pat.bind "kind") (Ex.cases (Ex.field (Ex.path ["variant"]) "fields") [(Pat.con ["syn", "Fields", "Unit"] [],
        Ex.seq (Ex.method (Ex.field (Ex.path ["fields"]) "patterns") "push" [Ex.call ["build_tuple_struct_pat"] [Ex.path ["ident"], Ex.path ["var"], Ex.path ["None"]]]) (Ex.path ["Kind", "Simple"])),
        (Pat.con ["syn", "Fields", "Unnamed"] [Pat.bind "unnamed"], Ex.seq (Ex.ite (Ex.gt (Ex.method (Ex.field (Ex.path ["unnamed"]) "unnamed") "len" []) (Ex.int 1)) (Ex.seq (Ex.method (Ex.path ["cx"]) "span_error" [Ex.method (Ex.field (Ex.path ["variant"]) "fields") "span" [],
        Ex.str "unnamed variants must have a single field"]) (Ex.seq (Ex.path ["continue"]) (Ex.unit))) (Ex.unit)) (Ex.letIn (Pat.bind "element") (Ex.method (Ex.method (Ex.field (Ex.path ["unnamed"]) "unnamed") "first" []) "expect" [Ex.str "Expected one element"]) (Ex.letIn (Pat.bind "map_storage") (Ex.quote [.tok "<",
        .var "element", .tok "as", .var "key_t", .tok ">", .tok "::", .tok "MapStorage", .tok "::", .tok "<", .tok "V", .tok ">"]) (Ex.letIn (Pat.bind "as_map_storage") (Ex.quote [.tok "<",
        .var "map_storage", .tok "as", .var "map_storage_t", .tok "<", .var "element", .tok ",", .tok "V", .tok ">", .tok ">"]) (Ex.letIn (Pat.bind "set_storage") (Ex.quote [.tok "<", .var "element",
        .tok "as", .var "key_t", .tok ">", .tok "::", .tok "SetStorage"]) (Ex.letIn (Pat.bind "as_set_storage") (Ex.quote [.tok "<", .var "set_storage", .tok "as", .var "set_storage_t", .tok "<",
        .var "element", .tok ">", .tok ">"]) (Ex.letIn (Pat.bind "pat") (Ex.call ["build_tuple_struct_pat"] [Ex.path ["ident"], Ex.path ["var"], Ex.call ["Some"] [Ex.call ["syn", "Ident",
        "new"] [Ex.str "v", Ex.method (Ex.path ["unnamed"]) "span" []]]]) (Ex.seq (Ex.method (Ex.field (Ex.path ["fields"]) "patterns") "push" [Ex.path ["pat"]]) (Ex.call ["Kind",
        "Complex"] [Ex.struct ["Complex"] [("element", Ex.path ["element"]), ("map_storage", Ex.path ["map_storage"]), ("as_map_storage", Ex.path ["as_map_storage"]), ("set_storage",
        Ex.path ["set_storage"]), ("as_set_storage", Ex.path ["as_set_storage"])]]))))))))), (Pat.con ["syn", "Fields", "Named"] [Pat.wild],
        Ex.seq (Ex.method (Ex.path ["cx"]) "span_error" [Ex.method (Ex.field (Ex.path ["variant"]) "fields") "span" [],
        Ex.str "named fields are not supported"]) (Ex.seq (Ex.path ["continue"]) (Ex.unit)))]) (Ex.seq (Ex.method (Ex.field (Ex.path ["fields"]) "fields") "push" [Ex.struct ["Field"] [("span",
        Ex.method (Ex.path ["variant"]) "span" []), ("index", Ex.path ["index"]), ("name", Ex.path ["name"]), ("var", Ex.path ["var"]), ("kind",
        Ex.path ["kind"])]]) (Ex.unit)))))) (Ex.letIn (Pat.tuple [Pat.bind "map_storage_type_name", Pat.bind "map_storage_impl"]) (Ex.try (Ex.call ["impl_map_storage"] [Ex.path ["cx"],
        Ex.path ["fields"]])) (Ex.letIn (Pat.tuple [Pat.bind "set_storage_type_name", Pat.bind "set_storage_impl"]) (Ex.try (Ex.call ["impl_set_storage"] [Ex.path ["cx"],
        Ex.path ["fields"]])) (Ex.call ["Ok"] [Ex.quote [.tok "const", .tok "_", .tok ":", .tok "(", .tok ")", .tok "=", .tok "{", .var "map_storage_impl", .var "set_storage_impl", .tok "#",
        .tok "[", .tok "automatically_derived", .tok "]", .tok "impl", .var "key_t", .tok "for", .var "ident", .tok "{", .tok "type", .tok "MapStorage", .tok "<", .tok "V", .tok ">", .tok "=",
        .var "map_storage_type_name", .tok "<", .tok "V", .tok ">", .tok ";", .tok "type", .tok "SetStorage", .tok "=", .var "set_storage_type_name", .tok ";", .tok "}", .tok "}", .tok ";"]])))))))) }],
  structs := [],
  consts := [] }

theorem anyVariants2_parsed : parsePiece Text.anyVariants2 = some anyVariants2 := by derive_rfl

def anyVariants3 : File := {
  fns := [
    { ty := "", name := "build_tuple_struct_pat", params := ["ident", "var", "arg"],
      body := Ex.letIn (Pat.bind "segments") (Ex.call ["Punctuated", "default"] []) (Ex.seq (Ex.method (Ex.path ["segments"]) "push" [Ex.struct ["syn", "PathSegment"] [("ident",
        Ex.method (Ex.path ["ident"]) "clone" []), ("arguments", Ex.path ["syn", "PathArguments", "None"])]]) (Ex.seq (Ex.method (Ex.path ["segments"]) "push" [Ex.struct ["syn",
        "PathSegment"] [("ident", Ex.method (Ex.path ["var"]) "clone" []), ("arguments", Ex.path ["syn", "PathArguments", "None"])]]) (Ex.letIn (Pat.bind "path") (Ex.struct ["syn",
        "Path"] [("leading_colon", Ex.path ["None"]), ("segments", Ex.path ["segments"])]) (Ex.cases (Ex.path ["arg"]) [(Pat.con ["Some"] [Pat.bind "arg"],
        Ex.letIn (Pat.bind "elems") (Ex.call ["Punctuated", "default"] []) (Ex.seq (Ex.method (Ex.path ["elems"]) "push" [Ex.call ["syn", "Pat", "Ident"] [Ex.struct ["syn", "PatIdent"] [("attrs",
        Ex.call ["Vec", "new"] []), ("by_ref", Ex.path ["None"]), ("mutability", Ex.path ["None"]), ("ident", Ex.path ["arg"]), ("subpat", Ex.path ["None"])]]]) (Ex.call ["syn", "Pat",
        "TupleStruct"] [Ex.struct ["syn", "PatTupleStruct"] [("attrs", Ex.call ["Vec", "default"] []), ("qself", Ex.path ["None"]), ("path", Ex.path ["path"]), ("paren_token", Ex.call ["syn",
        "token", "Paren", "default"] []), ("elems", Ex.path ["elems"])]]))), (Pat.wild, Ex.call ["syn", "Pat", "Path"] [Ex.struct ["syn", "PatPath"] [("attrs", Ex.call ["Vec", "default"] []),
        ("qself", Ex.path ["None"]), ("path", Ex.path ["path"])]])])))) }],
  structs := [],
  consts := [] }

theorem anyVariants3_parsed : parsePiece Text.anyVariants3 = some anyVariants3 := by derive_rfl

def anyVariants4 : File := {
  fns := [
    { ty := "", name := "impl_map_storage", params := ["cx", "fields"],
      body := Ex.letIn (Pat.bind "vis") (Ex.field (Ex.field (Ex.path ["cx"]) "ast") "vis") (Ex.letIn (Pat.bind "ident") (Ex.field (Ex.field (Ex.path ["cx"]) "ast") "ident") (Ex.letIn (Pat.bind "option") (Ex.method (Ex.field (Ex.path ["cx"]) "toks") "option" []) (Ex.letIn (Pat.bind "map_storage_t") (Ex.method (Ex.field (Ex.path ["cx"]) "toks") "map_storage_t" []) (Ex.letIn (Pat.bind "type_name") (Ex.mac "format_ident" [Ex.str "{MAP_STORAGE}"]) (Ex.letIn (Pat.bind "output") (Ex.call ["Output",
        "default"] []) (Ex.seq (Ex.try (Ex.call ["map_storage_iter"] [Ex.path ["cx"], Ex.str "Iter", Ex.path ["fields"],
        Ex.path ["output"]])) (Ex.seq (Ex.try (Ex.call ["map_storage_keys"] [Ex.path ["cx"], Ex.str "Keys", Ex.path ["fields"],
        Ex.path ["output"]])) (Ex.seq (Ex.try (Ex.call ["map_storage_values"] [Ex.path ["cx"], Ex.str "Values", Ex.path ["fields"],
        Ex.path ["output"]])) (Ex.seq (Ex.try (Ex.call ["map_storage_iter_mut"] [Ex.path ["cx"], Ex.str "IterMut", Ex.path ["fields"],
        Ex.path ["output"]])) (Ex.seq (Ex.try (Ex.call ["map_storage_values_mut"] [Ex.path ["cx"], Ex.str "ValuesMut", Ex.path ["fields"],
        Ex.path ["output"]])) (Ex.seq (Ex.try (Ex.call ["map_storage_into_iter"] [Ex.path ["cx"], Ex.str "IntoIter", Ex.path ["fields"],
        Ex.path ["output"]])) (Ex.seq (Ex.try (Ex.call ["map_storage_entry"] [Ex.path ["cx"], Ex.path ["fields"], Ex.path ["type_name"],
        Ex.path ["output"]])) (Ex.seq (Ex.letIn (Pat.bind "partial_eq_t") (Ex.method (Ex.field (Ex.path ["cx"]) "toks") "partial_eq_t" []) (Ex.letIn (Pat.bind "eq_t") (Ex.method (Ex.field (Ex.path ["cx"]) "toks") "eq_t" []) (Ex.letIn (Pat.bind "names") (Ex.method (Ex.path ["fields"]) "names" []) (Ex.seq (Ex.method (Ex.field (Ex.path ["output"]) "impls") "extend" [Ex.quote [.tok "#",
        .tok "[", .tok "automatically_derived", .tok "]", .tok "impl", .tok "<", .tok "V", .tok ">", .var "partial_eq_t", .tok "for", .var "type_name", .tok "<", .tok "V", .tok ">", .tok "where",
        .tok "V", .tok ":", .var "partial_eq_t", .tok "{", .tok "#", .tok "[", .tok "inline", .tok "]", .tok "fn", .tok "eq", .tok "(", .tok "&", .tok "self", .tok ",", .tok "other", .tok ":",
        .tok "&", .tok "Self", .tok ")", .tok "->", .tok "bool", .tok "{", .rep [.tok "if", .var "partial_eq_t", .tok "::", .tok "ne", .tok "(", .tok "&", .tok "self", .tok ".", .var "names",
        .tok ",", .tok "&", .tok "other", .tok ".", .var "names", .tok ")", .tok "{", .tok "return", .tok "false", .tok ";", .tok "}"] none, .tok "true", .tok "}", .tok "}", .tok "#", .tok "[",
        .tok "automatically_derived", .tok "]", .tok "impl", .tok "<", .tok "V", .tok ">", .var "eq_t", .tok "for", .var "type_name", .tok "<", .tok "V", .tok ">", .tok "where", .tok "V", .tok ":",
        .var "eq_t", .tok "{", .tok "}"]]) (Ex.unit))))) (Ex.seq (Ex.letIn (Pat.bind "clone_t") (Ex.method (Ex.field (Ex.path ["cx"]) "toks") "clone_t" []) (Ex.letIn (Pat.bind "copy_t") (Ex.method (Ex.field (Ex.path ["cx"]) "toks") "copy_t" []) (Ex.letIn (Pat.bind "bounds") (Ex.method (Ex.method (Ex.path ["fields"]) "complex" []) "map" [Ex.lambda [Pat.struct ["Complex"] ["map_storage"]] (Ex.path ["map_storage"])]) (Ex.letIn (Pat.bind "names") (Ex.method (Ex.path ["fields"]) "names" []) (Ex.seq (Ex.method (Ex.field (Ex.path ["output"]) "impls") "extend" [Ex.quote [.tok "#",
        .tok "[", .tok "automatically_derived", .tok "]", .tok "impl", .tok "<", .tok "V", .tok ">", .var "clone_t", .tok "for", .var "type_name", .tok "<", .tok "V", .tok ">", .tok "where",
        .tok "V", .tok ":", .var "clone_t", .tok "{", .tok "#", .tok "[", .tok "inline", .tok "]", .tok "fn", .tok "clone", .tok "(", .tok "&", .tok "self", .tok ")", .tok "->", .tok "Self",
        .tok "{", .tok "Self", .tok "{", .rep [.var "names", .tok ":", .var "clone_t", .tok "::", .tok "clone", .tok "(", .tok "&", .tok "self", .tok ".", .var "names", .tok ")", .tok ","] none,
        .tok "}", .tok "}", .tok "}", .tok "#", .tok "[", .tok "automatically_derived", .tok "]", .tok "impl", .tok "<", .tok "V", .tok ">", .var "copy_t", .tok "for", .var "type_name", .tok "<",
        .tok "V", .tok ">", .tok "where", .tok "V", .tok ":", .var "copy_t", .tok ",", .rep [.var "bounds", .tok ":", .var "copy_t", .tok ","] none, .tok "{",
        .tok "}"]]) (Ex.unit)))))) (Ex.seq (Ex.letIn (Pat.bind "inits") (Ex.method (Ex.method (Ex.path ["fields"]) "iter" []) "map" [Ex.lambda [Pat.bind "f"] (Ex.cases (Ex.field (Ex.path ["f"]) "kind") [(Pat.con ["Kind",
        "Complex"] [Pat.struct ["Complex"] ["as_map_storage"]], Ex.quote [.var "as_map_storage", .tok "::", .tok "empty", .tok "(", .tok ")"]), (Pat.con ["Kind", "Simple"] [],
        Ex.quote [.var "option", .tok "::", .tok "None"])])]) (Ex.letIn (Pat.bind "names") (Ex.method (Ex.path ["fields"]) "names" []) (Ex.seq (Ex.method (Ex.field (Ex.path ["output"]) "items") "extend" [Ex.quote [.tok "#",
        .tok "[", .tok "inline", .tok "]", .tok "fn", .tok "empty", .tok "(", .tok ")", .tok "->", .tok "Self", .tok "{", .tok "Self", .tok "{", .rep [.var "names", .tok ":", .var "inits",
        .tok ","] none, .tok "}", .tok "}"]]) (Ex.unit)))) (Ex.seq (Ex.letIn (Pat.bind "patterns") (Ex.field (Ex.path ["fields"]) "patterns") (Ex.letIn (Pat.bind "insert") (Ex.method (Ex.method (Ex.path ["fields"]) "iter" []) "map" [Ex.lambda [Pat.struct ["Field"] ["name",
        "kind"]] (Ex.cases (Ex.path ["kind"]) [(Pat.con ["Kind", "Complex"] [Pat.struct ["Complex"] ["as_map_storage"]], Ex.quote [.var "as_map_storage", .tok "::", .tok "insert", .tok "(", .tok "&",
        .tok "mut", .tok "self", .tok ".", .var "name", .tok ",", .tok "v", .tok ",", .tok "value", .tok ")"]), (Pat.con ["Kind", "Simple"] [], Ex.quote [.var "option", .tok "::", .tok "replace",
        .tok "(", .tok "&", .tok "mut", .tok "self", .tok ".", .var "name", .tok ",", .tok "value",
        .tok ")"])])]) (Ex.seq (Ex.method (Ex.field (Ex.path ["output"]) "items") "extend" [Ex.quote [.tok "#", .tok "[", .tok "inline", .tok "]", .tok "fn", .tok "insert", .tok "(", .tok "&",
        .tok "mut", .tok "self", .tok ",", .tok "key", .tok ":", .var "ident", .tok ",", .tok "value", .tok ":", .tok "V", .tok ")", .tok "->", .var "option", .tok "<", .tok "V", .tok ">", .tok "{",
        .tok "match", .tok "key", .tok "{", .rep [.var "patterns", .tok "=>", .var "insert", .tok ","] none, .tok "}",
        .tok "}"]]) (Ex.unit)))) (Ex.seq (Ex.letIn (Pat.bind "len") (Ex.method (Ex.method (Ex.path ["fields"]) "iter" []) "map" [Ex.lambda [Pat.struct ["Field"] ["name",
        "kind"]] (Ex.cases (Ex.path ["kind"]) [(Pat.con ["Kind", "Complex"] [Pat.struct ["Complex"] ["as_map_storage"]], Ex.quote [.var "as_map_storage", .tok "::", .tok "len", .tok "(", .tok "&",
        .tok "self", .tok ".", .var "name", .tok ")"]), (Pat.con ["Kind", "Simple"] [], Ex.quote [.tok "usize", .tok "::", .tok "from", .tok "(", .var "option", .tok "::", .tok "is_some", .tok "(",
        .tok "&", .tok "self", .tok ".", .var "name", .tok ")", .tok ")"])])]) (Ex.seq (Ex.method (Ex.field (Ex.path ["output"]) "items") "extend" [Ex.quote [.tok "#", .tok "[", .tok "inline",
        .tok "]", .tok "fn", .tok "len", .tok "(", .tok "&", .tok "self", .tok ")", .tok "->", .tok "usize", .tok "{", .tok "0", .rep [.tok "+", .var "len"] none,
        .tok "}"]]) (Ex.unit))) (Ex.seq (Ex.letIn (Pat.bind "is_empty") (Ex.method (Ex.method (Ex.path ["fields"]) "iter" []) "map" [Ex.lambda [Pat.struct ["Field"] ["name",
        "kind"]] (Ex.cases (Ex.path ["kind"]) [(Pat.con ["Kind", "Complex"] [Pat.struct ["Complex"] ["as_map_storage"]], Ex.quote [.var "as_map_storage", .tok "::", .tok "is_empty", .tok "(",
        .tok "&", .tok "self", .tok ".", .var "name", .tok ")"]), (Pat.con ["Kind", "Simple"] [], Ex.quote [.var "option", .tok "::", .tok "is_none", .tok "(", .tok "&", .tok "self", .tok ".",
        .var "name", .tok ")"])])]) (Ex.seq (Ex.method (Ex.field (Ex.path ["output"]) "items") "extend" [Ex.quote [.tok "#", .tok "[", .tok "inline", .tok "]", .tok "fn", .tok "is_empty", .tok "(",
        .tok "&", .tok "self", .tok ")", .tok "->", .tok "bool", .tok "{", .tok "true", .rep [.tok "&&", .var "is_empty"] none,
        .tok "}"]]) (Ex.unit))) (Ex.seq (Ex.letIn (Pat.bind "patterns") (Ex.field (Ex.path ["fields"]) "patterns") (Ex.letIn (Pat.bind "contains_key") (Ex.method (Ex.method (Ex.path ["fields"]) "iter" []) "map" [Ex.lambda [Pat.struct ["Field"] ["name",
        "kind"]] (Ex.cases (Ex.path ["kind"]) [(Pat.con ["Kind", "Complex"] [Pat.struct ["Complex"] ["as_map_storage"]], Ex.quote [.var "as_map_storage", .tok "::", .tok "contains_key", .tok "(",
        .tok "&", .tok "self", .tok ".", .var "name", .tok ",", .tok "v", .tok ")"]), (Pat.con ["Kind", "Simple"] [], Ex.quote [.var "option", .tok "::", .tok "is_some", .tok "(", .tok "&",
        .tok "self", .tok ".", .var "name", .tok ")"])])]) (Ex.seq (Ex.method (Ex.field (Ex.path ["output"]) "items") "extend" [Ex.quote [.tok "#", .tok "[", .tok "inline", .tok "]", .tok "fn",
        .tok "contains_key", .tok "(", .tok "&", .tok "self", .tok ",", .tok "value", .tok ":", .var "ident", .tok ")", .tok "->", .tok "bool", .tok "{", .tok "match", .tok "value", .tok "{",
        .rep [.var "patterns", .tok "=>", .var "contains_key", .tok ","] none, .tok "}",
        .tok "}"]]) (Ex.unit)))) (Ex.seq (Ex.letIn (Pat.bind "patterns") (Ex.field (Ex.path ["fields"]) "patterns") (Ex.letIn (Pat.bind "get") (Ex.method (Ex.method (Ex.path ["fields"]) "iter" []) "map" [Ex.lambda [Pat.struct ["Field"] ["name",
        "kind"]] (Ex.cases (Ex.path ["kind"]) [(Pat.con ["Kind", "Complex"] [Pat.struct ["Complex"] ["as_map_storage"]], Ex.quote [.var "as_map_storage", .tok "::", .tok "get", .tok "(", .tok "&",
        .tok "self", .tok ".", .var "name", .tok ",", .tok "v", .tok ")"]), (Pat.con ["Kind", "Simple"] [], Ex.quote [.var "option", .tok "::", .tok "as_ref", .tok "(", .tok "&", .tok "self",
        .tok ".", .var "name", .tok ")"])])]) (Ex.seq (Ex.method (Ex.field (Ex.path ["output"]) "items") "extend" [Ex.quote [.tok "#", .tok "[", .tok "inline", .tok "]", .tok "fn", .tok "get",
        .tok "(", .tok "&", .tok "self", .tok ",", .tok "value", .tok ":", .var "ident", .tok ")", .tok "->", .var "option", .tok "<", .tok "&", .tok "V", .tok ">", .tok "{", .tok "match",
        .tok "value", .tok "{", .rep [.var "patterns", .tok "=>", .var "get", .tok ","] none, .tok "}",
        .tok "}"]]) (Ex.unit)))) (Ex.seq (Ex.letIn (Pat.bind "patterns") (Ex.field (Ex.path ["fields"]) "patterns") (Ex.letIn (Pat.bind "get_mut") (Ex.method (Ex.method (Ex.path ["fields"]) "iter" []) "map" [Ex.lambda [Pat.struct ["Field"] ["name",
        "kind"]] (Ex.cases (Ex.path ["kind"]) [(Pat.con ["Kind", "Complex"] [Pat.struct ["Complex"] ["as_map_storage"]], Ex.quote [.var "as_map_storage", .tok "::", .tok "get_mut", .tok "(",
        .tok "&", .tok "mut", .tok "self", .tok ".", .var "name", .tok ",", .tok "v", .tok ")"]), (Pat.con ["Kind", "Simple"] [], Ex.quote [.var "option", .tok "::", .tok "as_mut", .tok "(",
        .tok "&", .tok "mut", .tok "self", .tok ".", .var "name", .tok ")"])])]) (Ex.seq (Ex.method (Ex.field (Ex.path ["output"]) "items") "extend" [Ex.quote [.tok "#", .tok "[", .tok "inline",
        .tok "]", .tok "fn", .tok "get_mut", .tok "(", .tok "&", .tok "mut", .tok "self", .tok ",", .tok "value", .tok ":", .var "ident", .tok ")", .tok "->", .var "option", .tok "<", .tok "&",
        .tok "mut", .tok "V", .tok ">", .tok "{", .tok "match", .tok "value", .tok "{", .rep [.var "patterns", .tok "=>", .var "get_mut", .tok ","] none, .tok "}",
        .tok "}"]]) (Ex.unit)))) (Ex.seq (Ex.letIn (Pat.bind "remove") (Ex.method (Ex.method (Ex.path ["fields"]) "iter" []) "map" [Ex.lambda [Pat.struct ["Field"] ["name",
        "kind"]] (Ex.cases (Ex.path ["kind"]) [(Pat.con ["Kind", "Complex"] [Pat.struct ["Complex"] ["as_map_storage"]], Ex.quote [.var "as_map_storage", .tok "::", .tok "remove", .tok "(", .tok "&",
        .tok "mut", .tok "self", .tok ".", .var "name", .tok ",", .tok "v", .tok ")"]), (Pat.con ["Kind", "Simple"] [], Ex.quote [.var "option", .tok "::", .tok "take", .tok "(", .tok "&",
        .tok "mut", .tok "self", .tok ".", .var "name", .tok ")"])])]) (Ex.letIn (Pat.bind "patterns") (Ex.field (Ex.path ["fields"]) "patterns") (Ex.seq (Ex.method (Ex.field (Ex.path ["output"]) "items") "extend" [Ex.quote [.tok "#",
        .tok "[", .tok "inline", .tok "]", .tok "fn", .tok "remove", .tok "(", .tok "&", .tok "mut", .tok "self", .tok ",", .tok "value", .tok ":", .var "ident", .tok ")", .tok "->", .var "option",
        .tok "<", .tok "V", .tok ">", .tok "{", .tok "match", .tok "value", .tok "{", .rep [.var "patterns", .tok "=>", .var "remove", .tok ","] none, .tok "}",
        .tok "}"]]) (Ex.unit)))) (Ex.seq (Ex.letIn (Pat.bind "retain") (Ex.method (Ex.method (Ex.path ["fields"]) "iter" []) "map" [Ex.lambda [Pat.struct ["Field"] ["var", "name",
        "kind"]] (Ex.cases (Ex.path ["kind"]) [(Pat.con ["Kind", "Complex"] [Pat.struct ["Complex"] ["as_map_storage"]], Ex.quote [.var "as_map_storage", .tok "::", .tok "retain", .tok "(", .tok "&",
        .tok "mut", .tok "self", .tok ".", .var "name", .tok ",", .tok "|", .tok "k", .tok ",", .tok "v", .tok "|", .tok "func", .tok "(", .var "ident", .tok "::", .var "var", .tok "(", .tok "k",
        .tok ")", .tok ",", .tok "v", .tok ")", .tok ")", .tok ";"]), (Pat.con ["Kind", "Simple"] [], Ex.quote [.tok "if", .tok "let", .var "option", .tok "::", .tok "Some", .tok "(", .tok "val",
        .tok ")", .tok "=", .var "option", .tok "::", .tok "as_mut", .tok "(", .tok "&", .tok "mut", .tok "self", .tok ".", .var "name", .tok ")", .tok "{", .tok "if", .tok "!", .tok "func",
        .tok "(", .var "ident", .tok "::", .var "var", .tok ",", .tok "val", .tok ")", .tok "{", .tok "self", .tok ".", .var "name", .tok "=", .tok "None", .tok ";", .tok "}",
        .tok "}"])])]) (Ex.seq (Ex.method (Ex.field (Ex.path ["output"]) "items") "extend" [Ex.quote [.tok "#", .tok "[", .tok "inline", .tok "]", .tok "fn", .tok "retain", .tok "<", .tok "F",
        .tok ">", .tok "(", .tok "&", .tok "mut", .tok "self", .tok ",", .tok "mut", .tok "func", .tok ":", .tok "F", .tok ")", .tok "where", .tok "F", .tok ":", .tok "FnMut", .tok "(", .var "ident",
        .tok ",", .tok "&", .tok "mut", .tok "V", .tok ")", .tok "->", .tok "bool", .tok "{", .rep [.var "retain", .tok ";"] none,
        .tok "}"]]) (Ex.unit))) (Ex.seq (Ex.letIn (Pat.bind "clear") (Ex.method (Ex.method (Ex.path ["fields"]) "iter" []) "map" [Ex.lambda [Pat.struct ["Field"] ["name",
        "kind"]] (Ex.cases (Ex.path ["kind"]) [(Pat.con ["Kind", "Complex"] [Pat.struct ["Complex"] ["as_map_storage"]], Ex.quote [.var "as_map_storage", .tok "::", .tok "clear", .tok "(", .tok "&",
        .tok "mut", .tok "self", .tok ".", .var "name", .tok ")"]), (Pat.con ["Kind", "Simple"] [], Ex.quote [.tok "self", .tok ".", .var "name", .tok "=", .var "option", .tok "::",
        .tok "None"])])]) (Ex.seq (Ex.method (Ex.field (Ex.path ["output"]) "items") "extend" [Ex.quote [.tok "#", .tok "[", .tok "inline", .tok "]", .tok "fn", .tok "clear", .tok "(", .tok "&",
        .tok "mut", .tok "self", .tok ")", .tok "{", .rep [.var "clear", .tok ";"] none,
        .tok "}"]]) (Ex.unit))) (Ex.letIn (Pat.bind "field_decls") (Ex.method (Ex.method (Ex.path ["fields"]) "iter" []) "map" [Ex.lambda [Pat.struct ["Field"] ["name",
        "kind"]] (Ex.cases (Ex.path ["kind"]) [(Pat.con ["Kind", "Complex"] [Pat.struct ["Complex"] ["map_storage"]], Ex.quote [.var "name", .tok ":", .var "map_storage"]), (Pat.con ["Kind",
        "Simple"] [], Ex.quote [.var "name", .tok ":", .var "option", .tok "<", .tok "V", .tok ">"])])]) (Ex.letIn (Pat.struct ["Output"] ["impls",
        "items"]) (Ex.path ["output"]) (Ex.letIn (Pat.bind "map_storage_impl") (Ex.quote [.var "vis", .tok "struct", .var "type_name", .tok "<", .tok "V", .tok ">", .tok "{",
        .rep [.var "field_decls", .tok ","] none, .tok "}", .tok "#", .tok "[", .tok "automatically_derived", .tok "]", .tok "impl", .tok "<", .tok "V", .tok ">", .var "map_storage_t", .tok "<",
        .var "ident", .tok ",", .tok "V", .tok ">", .tok "for", .var "type_name", .tok "<", .tok "V", .tok ">", .tok "{", .var "items", .tok "}",
        .var "impls"]) (Ex.call ["Ok"] [Ex.tuple [Ex.path ["type_name"], Ex.path ["map_storage_impl"]]])))))))))))))))))))))))))))) }],
  structs := [],
  consts := [] }

theorem anyVariants4_parsed : parsePiece Text.anyVariants4 = some anyVariants4 := by derive_rfl

def anyVariants5 : File := {
  fns := [
    { ty := "", name := "impl_set_storage", params := ["cx", "fields"],
      body := Ex.letIn (Pat.bind "vis") (Ex.field (Ex.field (Ex.path ["cx"]) "ast") "vis") (Ex.letIn (Pat.bind "ident") (Ex.field (Ex.field (Ex.path ["cx"]) "ast") "ident") (Ex.letIn (Pat.bind "mem") (Ex.method (Ex.field (Ex.path ["cx"]) "toks") "mem" []) (Ex.letIn (Pat.bind "set_storage_t") (Ex.method (Ex.field (Ex.path ["cx"]) "toks") "set_storage_t" []) (Ex.letIn (Pat.bind "type_name") (Ex.mac "format_ident" [Ex.str "{SET_STORAGE}"]) (Ex.letIn (Pat.bind "output") (Ex.call ["Output",
        "default"] []) (Ex.seq (Ex.try (Ex.call ["set_storage_iter"] [Ex.path ["cx"], Ex.str "Iter", Ex.path ["fields"],
        Ex.path ["output"]])) (Ex.seq (Ex.try (Ex.call ["set_storage_into_iter"] [Ex.path ["cx"], Ex.str "IntoIter", Ex.path ["fields"],
        Ex.path ["output"]])) (Ex.seq (Ex.letIn (Pat.bind "partial_eq_t") (Ex.method (Ex.field (Ex.path ["cx"]) "toks") "partial_eq_t" []) (Ex.letIn (Pat.bind "eq_t") (Ex.method (Ex.field (Ex.path ["cx"]) "toks") "eq_t" []) (Ex.letIn (Pat.bind "names") (Ex.method (Ex.path ["fields"]) "names" []) (Ex.seq (Ex.method (Ex.field (Ex.path ["output"]) "impls") "extend" [Ex.quote [.tok "#",
        .tok "[", .tok "automatically_derived", .tok "]", .tok "impl", .var "partial_eq_t", .tok "for", .var "type_name", .tok "{", .tok "#", .tok "[", .tok "inline", .tok "]", .tok "fn", .tok "eq",
        .tok "(", .tok "&", .tok "self", .tok ",", .tok "other", .tok ":", .tok "&", .tok "Self", .tok ")", .tok "->", .tok "bool", .tok "{", .rep [.tok "if", .var "partial_eq_t", .tok "::",
        .tok "ne", .tok "(", .tok "&", .tok "self", .tok ".", .var "names", .tok ",", .tok "&", .tok "other", .tok ".", .var "names", .tok ")", .tok "{", .tok "return", .tok "false", .tok ";",
        .tok "}"] none, .tok "true", .tok "}", .tok "}", .tok "#", .tok "[", .tok "automatically_derived", .tok "]", .tok "impl", .var "eq_t", .tok "for", .var "type_name", .tok "{",
        .tok "}"]]) (Ex.unit))))) (Ex.seq (Ex.letIn (Pat.bind "clone_t") (Ex.method (Ex.field (Ex.path ["cx"]) "toks") "clone_t" []) (Ex.letIn (Pat.bind "copy_t") (Ex.method (Ex.field (Ex.path ["cx"]) "toks") "copy_t" []) (Ex.letIn (Pat.bind "bounds") (Ex.method (Ex.method (Ex.method (Ex.path ["fields"]) "complex" []) "map" [Ex.lambda [Pat.struct ["Complex"] ["set_storage"]] (Ex.path ["set_storage"])]) "collect" []) (Ex.letIn (Pat.bind "names") (Ex.method (Ex.path ["fields"]) "names" []) (Ex.seq (Ex.method (Ex.field (Ex.path ["output"]) "impls") "extend" [Ex.quote [.tok "#",
        .tok "[", .tok "automatically_derived", .tok "]", .tok "impl", .var "clone_t", .tok "for", .var "type_name", .tok "where", .rep [.tok "for", .tok "<", .tok "'trivial_bounds", .tok ">",
        .var "bounds", .tok ":", .var "clone_t", .tok ","] none, .tok "{", .tok "#", .tok "[", .tok "inline", .tok "]", .tok "fn", .tok "clone", .tok "(", .tok "&", .tok "self", .tok ")", .tok "->",
        .tok "Self", .tok "{", .tok "Self", .tok "{", .rep [.var "names", .tok ":", .var "clone_t", .tok "::", .tok "clone", .tok "(", .tok "&", .tok "self", .tok ".", .var "names", .tok ")",
        .tok ","] none, .tok "}", .tok "}", .tok "}", .tok "#", .tok "[", .tok "automatically_derived", .tok "]", .tok "impl", .var "copy_t", .tok "for", .var "type_name", .tok "where",
        .rep [.tok "for", .tok "<", .tok "'trivial_bounds", .tok ">", .var "bounds", .tok ":", .var "copy_t", .tok ","] none, .tok "{",
        .tok "}"]]) (Ex.unit)))))) (Ex.seq (Ex.letIn (Pat.bind "inits") (Ex.method (Ex.method (Ex.path ["fields"]) "iter" []) "map" [Ex.lambda [Pat.bind "f"] (Ex.cases (Ex.field (Ex.path ["f"]) "kind") [(Pat.con ["Kind",
        "Complex"] [Pat.struct ["Complex"] ["as_set_storage"]], Ex.quote [.var "as_set_storage", .tok "::", .tok "empty", .tok "(", .tok ")"]), (Pat.con ["Kind", "Simple"] [],
        Ex.quote [.tok "false"])])]) (Ex.letIn (Pat.bind "names") (Ex.method (Ex.path ["fields"]) "names" []) (Ex.seq (Ex.method (Ex.field (Ex.path ["output"]) "items") "extend" [Ex.quote [.tok "#",
        .tok "[", .tok "inline", .tok "]", .tok "fn", .tok "empty", .tok "(", .tok ")", .tok "->", .tok "Self", .tok "{", .tok "Self", .tok "{", .rep [.var "names", .tok ":", .var "inits",
        .tok ","] none, .tok "}", .tok "}"]]) (Ex.unit)))) (Ex.seq (Ex.letIn (Pat.bind "patterns") (Ex.field (Ex.path ["fields"]) "patterns") (Ex.letIn (Pat.bind "insert") (Ex.method (Ex.method (Ex.path ["fields"]) "iter" []) "map" [Ex.lambda [Pat.struct ["Field"] ["name",
        "kind"]] (Ex.cases (Ex.path ["kind"]) [(Pat.con ["Kind", "Complex"] [Pat.struct ["Complex"] ["as_set_storage"]], Ex.quote [.var "as_set_storage", .tok "::", .tok "insert", .tok "(", .tok "&",
        .tok "mut", .tok "self", .tok ".", .var "name", .tok ",", .tok "v", .tok ")"]), (Pat.con ["Kind", "Simple"] [], Ex.quote [.tok "!", .var "mem", .tok "::", .tok "replace", .tok "(", .tok "&",
        .tok "mut", .tok "self", .tok ".", .var "name", .tok ",", .tok "true", .tok ")"])])]) (Ex.seq (Ex.method (Ex.field (Ex.path ["output"]) "items") "extend" [Ex.quote [.tok "#", .tok "[",
        .tok "inline", .tok "]", .tok "fn", .tok "insert", .tok "(", .tok "&", .tok "mut", .tok "self", .tok ",", .tok "key", .tok ":", .var "ident", .tok ")", .tok "->", .tok "bool", .tok "{",
        .tok "match", .tok "key", .tok "{", .rep [.var "patterns", .tok "=>", .var "insert", .tok ","] none, .tok "}",
        .tok "}"]]) (Ex.unit)))) (Ex.seq (Ex.letIn (Pat.bind "len") (Ex.method (Ex.method (Ex.path ["fields"]) "iter" []) "map" [Ex.lambda [Pat.struct ["Field"] ["name",
        "kind"]] (Ex.cases (Ex.path ["kind"]) [(Pat.con ["Kind", "Complex"] [Pat.struct ["Complex"] ["as_set_storage"]], Ex.quote [.var "as_set_storage", .tok "::", .tok "len", .tok "(", .tok "&",
        .tok "self", .tok ".", .var "name", .tok ")"]), (Pat.con ["Kind", "Simple"] [], Ex.quote [.tok "usize", .tok "::", .tok "from", .tok "(", .tok "self", .tok ".", .var "name",
        .tok ")"])])]) (Ex.seq (Ex.method (Ex.field (Ex.path ["output"]) "items") "extend" [Ex.quote [.tok "#", .tok "[", .tok "inline", .tok "]", .tok "fn", .tok "len", .tok "(", .tok "&",
        .tok "self", .tok ")", .tok "->", .tok "usize", .tok "{", .tok "0", .rep [.tok "+", .var "len"] none,
        .tok "}"]]) (Ex.unit))) (Ex.seq (Ex.letIn (Pat.bind "is_empty") (Ex.method (Ex.method (Ex.path ["fields"]) "iter" []) "map" [Ex.lambda [Pat.struct ["Field"] ["name",
        "kind"]] (Ex.cases (Ex.path ["kind"]) [(Pat.con ["Kind", "Complex"] [Pat.struct ["Complex"] ["as_set_storage"]], Ex.quote [.var "as_set_storage", .tok "::", .tok "is_empty", .tok "(",
        .tok "&", .tok "self", .tok ".", .var "name", .tok ")"]), (Pat.con ["Kind", "Simple"] [], Ex.quote [.tok "!", .tok "self", .tok ".",
        .var "name"])])]) (Ex.seq (Ex.method (Ex.field (Ex.path ["output"]) "items") "extend" [Ex.quote [.tok "#", .tok "[", .tok "inline", .tok "]", .tok "fn", .tok "is_empty", .tok "(", .tok "&",
        .tok "self", .tok ")", .tok "->", .tok "bool", .tok "{", .tok "true", .rep [.tok "&&", .var "is_empty"] none,
        .tok "}"]]) (Ex.unit))) (Ex.seq (Ex.letIn (Pat.bind "patterns") (Ex.field (Ex.path ["fields"]) "patterns") (Ex.letIn (Pat.bind "contains") (Ex.method (Ex.method (Ex.path ["fields"]) "iter" []) "map" [Ex.lambda [Pat.struct ["Field"] ["name",
        "kind"]] (Ex.cases (Ex.path ["kind"]) [(Pat.con ["Kind", "Complex"] [Pat.struct ["Complex"] ["as_set_storage"]], Ex.quote [.var "as_set_storage", .tok "::", .tok "contains", .tok "(",
        .tok "&", .tok "self", .tok ".", .var "name", .tok ",", .tok "v", .tok ")"]), (Pat.con ["Kind", "Simple"] [], Ex.quote [.tok "self", .tok ".",
        .var "name"])])]) (Ex.seq (Ex.method (Ex.field (Ex.path ["output"]) "items") "extend" [Ex.quote [.tok "#", .tok "[", .tok "inline", .tok "]", .tok "fn", .tok "contains", .tok "(", .tok "&",
        .tok "self", .tok ",", .tok "value", .tok ":", .var "ident", .tok ")", .tok "->", .tok "bool", .tok "{", .tok "match", .tok "value", .tok "{", .rep [.var "patterns", .tok "=>",
        .var "contains", .tok ","] none, .tok "}", .tok "}"]]) (Ex.unit)))) (Ex.seq (Ex.letIn (Pat.bind "remove") (Ex.method (Ex.method (Ex.path ["fields"]) "iter" []) "map" [Ex.lambda [Pat.struct ["Field"] ["name",
        "kind"]] (Ex.cases (Ex.path ["kind"]) [(Pat.con ["Kind", "Complex"] [Pat.struct ["Complex"] ["as_set_storage"]], Ex.quote [.var "as_set_storage", .tok "::", .tok "remove", .tok "(", .tok "&",
        .tok "mut", .tok "self", .tok ".", .var "name", .tok ",", .tok "v", .tok ")"]), (Pat.con ["Kind", "Simple"] [], Ex.quote [.var "mem", .tok "::", .tok "replace", .tok "(", .tok "&",
        .tok "mut", .tok "self", .tok ".", .var "name", .tok ",", .tok "false", .tok ")"])])]) (Ex.letIn (Pat.bind "patterns") (Ex.field (Ex.path ["fields"]) "patterns") (Ex.seq (Ex.method (Ex.field (Ex.path ["output"]) "items") "extend" [Ex.quote [.tok "#",
        .tok "[", .tok "inline", .tok "]", .tok "fn", .tok "remove", .tok "(", .tok "&", .tok "mut", .tok "self", .tok ",", .tok "value", .tok ":", .var "ident", .tok ")", .tok "->", .tok "bool",
        .tok "{", .tok "match", .tok "value", .tok "{", .rep [.var "patterns", .tok "=>", .var "remove", .tok ","] none, .tok "}",
        .tok "}"]]) (Ex.unit)))) (Ex.seq (Ex.letIn (Pat.bind "retain") (Ex.method (Ex.method (Ex.path ["fields"]) "iter" []) "map" [Ex.lambda [Pat.struct ["Field"] ["var", "name",
        "kind"]] (Ex.cases (Ex.path ["kind"]) [(Pat.con ["Kind", "Complex"] [Pat.struct ["Complex"] ["as_set_storage"]], Ex.quote [.var "as_set_storage", .tok "::", .tok "retain", .tok "(", .tok "&",
        .tok "mut", .tok "self", .tok ".", .var "name", .tok ",", .tok "|", .tok "k", .tok "|", .tok "func", .tok "(", .var "ident", .tok "::", .var "var", .tok "(", .tok "k", .tok ")", .tok ")",
        .tok ")", .tok ";"]), (Pat.con ["Kind", "Simple"] [], Ex.quote [.tok "if", .tok "self", .tok ".", .var "name", .tok "{", .tok "self", .tok ".", .var "name", .tok "=", .tok "func", .tok "(",
        .var "ident", .tok "::", .var "var", .tok ")", .tok ";", .tok "}"])])]) (Ex.seq (Ex.method (Ex.field (Ex.path ["output"]) "items") "extend" [Ex.quote [.tok "#", .tok "[", .tok "inline",
        .tok "]", .tok "fn", .tok "retain", .tok "<", .tok "F", .tok ">", .tok "(", .tok "&", .tok "mut", .tok "self", .tok ",", .tok "mut", .tok "func", .tok ":", .tok "F", .tok ")", .tok "where",
        .tok "F", .tok ":", .tok "FnMut", .tok "(", .var "ident", .tok ")", .tok "->", .tok "bool", .tok "{", .rep [.var "retain", .tok ";"] none,
        .tok "}"]]) (Ex.unit))) (Ex.seq (Ex.letIn (Pat.bind "clear") (Ex.method (Ex.method (Ex.path ["fields"]) "iter" []) "map" [Ex.lambda [Pat.struct ["Field"] ["name",
        "kind"]] (Ex.cases (Ex.path ["kind"]) [(Pat.con ["Kind", "Complex"] [Pat.struct ["Complex"] ["as_set_storage"]], Ex.quote [.var "as_set_storage", .tok "::", .tok "clear", .tok "(", .tok "&",
        .tok "mut", .tok "self", .tok ".", .var "name", .tok ")"]), (Pat.con ["Kind", "Simple"] [], Ex.quote [.tok "self", .tok ".", .var "name", .tok "=",
        .tok "false"])])]) (Ex.seq (Ex.method (Ex.field (Ex.path ["output"]) "items") "extend" [Ex.quote [.tok "#", .tok "[", .tok "inline", .tok "]", .tok "fn", .tok "clear", .tok "(", .tok "&",
        .tok "mut", .tok "self", .tok ")", .tok "{", .rep [.var "clear", .tok ";"] none,
        .tok "}"]]) (Ex.unit))) (Ex.letIn (Pat.bind "field_decls") (Ex.method (Ex.method (Ex.path ["fields"]) "iter" []) "map" [Ex.lambda [Pat.struct ["Field"] ["name",
        "kind"]] (Ex.cases (Ex.path ["kind"]) [(Pat.con ["Kind", "Complex"] [Pat.struct ["Complex"] ["set_storage"]], Ex.quote [.var "name", .tok ":", .var "set_storage"]), (Pat.con ["Kind",
        "Simple"] [], Ex.quote [.var "name", .tok ":", .tok "bool"])])]) (Ex.letIn (Pat.struct ["Output"] ["impls",
        "items"]) (Ex.path ["output"]) (Ex.letIn (Pat.bind "map_storage_impl") (Ex.quote [.var "vis", .tok "struct", .var "type_name", .tok "{", .rep [.var "field_decls", .tok ","] none, .tok "}",
        .tok "#", .tok "[", .tok "automatically_derived", .tok "]", .tok "impl", .var "set_storage_t", .tok "<", .var "ident", .tok ">", .tok "for", .var "type_name", .tok "{", .var "items",
        .tok "}", .var "impls"]) (Ex.call ["Ok"] [Ex.tuple [Ex.path ["type_name"], Ex.path ["map_storage_impl"]]]))))))))))))))))))))) }],
  structs := [],
  consts := [] }

theorem anyVariants5_parsed : parsePiece Text.anyVariants5 = some anyVariants5 := by derive_rfl

def anyVariants6 : File := {
  fns := [
    { ty := "", name := "build_iter_next", params := ["cx", "step_forward", "step_backward", "fields", "assoc_type", "lt"],
      body := Ex.letIn (Pat.bind "option") (Ex.method (Ex.field (Ex.path ["cx"]) "toks") "option" []) (Ex.letIn (Pat.bind "iterator_t") (Ex.method (Ex.field (Ex.path ["cx"]) "toks") "iterator_t" []) (Ex.letIn (Pat.bind "double_ended_iterator_t") (Ex.method (Ex.field (Ex.path ["cx"]) "toks") "double_ended_iterator_t" []) (Ex.letIn (Pat.bind "ident") (Ex.field (Ex.field (Ex.path ["cx"]) "ast") "ident") (Ex.seq (Ex.for (Pat.struct ["Field"] ["span",
        "index", "name", "var", "kind"]) (Ex.path ["fields"]) (Ex.cases (Ex.path ["kind"]) [(Pat.con ["Kind", "Simple"] [],
        Ex.seq (Ex.method (Ex.field (Ex.path ["step_forward"]) "next") "push" [Ex.quote [.var "index", .tok "=>", .tok "{", .tok "if", .tok "let", .var "option", .tok "::", .tok "Some", .tok "(",
        .tok "value", .tok ")", .tok "=", .var "option", .tok "::", .tok "take", .tok "(", .tok "&", .tok "mut", .tok "self", .tok ".", .var "name", .tok ")", .tok "{", .tok "return", .var "option",
        .tok "::", .tok "Some", .tok "(", .tok "(", .var "ident", .tok "::", .var "var", .tok ",", .tok "value", .tok ")", .tok ")", .tok ";", .tok "}",
        .tok "}"]]) (Ex.seq (Ex.method (Ex.field (Ex.path ["step_backward"]) "next") "push" [Ex.quote [.var "index", .tok "=>", .tok "{", .tok "if", .tok "let", .var "option", .tok "::", .tok "Some",
        .tok "(", .tok "value", .tok ")", .tok "=", .var "option", .tok "::", .tok "take", .tok "(", .tok "&", .tok "mut", .tok "self", .tok ".", .var "name", .tok ")", .tok "{", .tok "return",
        .var "option", .tok "::", .tok "Some", .tok "(", .tok "(", .var "ident", .tok "::", .var "var", .tok ",", .tok "value", .tok ")", .tok ")", .tok ";", .tok "}", .tok "}"]]) (Ex.unit))),
        (Pat.con ["Kind", "Complex"] [Pat.struct ["Complex"] ["as_map_storage"]], Ex.seq (Ex.method (Ex.field (Ex.path ["step_forward"]) "next") "push" [Ex.quote [.var "index", .tok "=>", .tok "{",
        .tok "if", .tok "let", .var "option", .tok "::", .tok "Some", .tok "(", .tok "(", .tok "key", .tok ",", .tok "value", .tok ")", .tok ")", .tok "=", .var "iterator_t", .tok "::", .tok "next",
        .tok "(", .tok "&", .tok "mut", .tok "self", .tok ".", .var "name", .tok ")", .tok "{", .tok "return", .var "option", .tok "::", .tok "Some", .tok "(", .tok "(", .var "ident", .tok "::",
        .var "var", .tok "(", .tok "key", .tok ")", .tok ",", .tok "value", .tok ")", .tok ")", .tok ";", .tok "}",
        .tok "}"]]) (Ex.seq (Ex.method (Ex.field (Ex.path ["step_backward"]) "next") "push" [Ex.quote [.var "index", .tok "=>", .tok "{", .tok "if", .tok "let", .var "option", .tok "::", .tok "Some",
        .tok "(", .tok "(", .tok "key", .tok ",", .tok "value", .tok ")", .tok ")", .tok "=", .var "double_ended_iterator_t", .tok "::", .tok "next_back", .tok "(", .tok "&", .tok "mut", .tok "self",
        .tok ".", .var "name", .tok ")", .tok "{", .tok "return", .var "option", .tok "::", .tok "Some", .tok "(", .tok "(", .var "ident", .tok "::", .var "var", .tok "(", .tok "key", .tok ")",
        .tok ",", .tok "value", .tok ")", .tok ")", .tok ";", .tok "}", .tok "}"]]) (Ex.letIn (Pat.bind "where_clause") (Ex.method (Ex.path ["step_backward"]) "make_where_clause" []) (Ex.letIn (Pat.bind "assoc_type") (Ex.cases (Ex.path ["lt"]) [(Pat.con ["Some"] [Pat.bind "lt"],
        Ex.quote [.var "as_map_storage", .tok "::", .var "assoc_type", .tok "<", .var "lt", .tok ">"]), (Pat.wild, Ex.quote [.var "as_map_storage", .tok "::",
        .var "assoc_type"])]) (Ex.seq (Ex.method (Ex.field (Ex.path ["where_clause"]) "predicates") "push" [Ex.try (Ex.method (Ex.path ["cx"]) "fallible" [Ex.lambda [] (Ex.call ["syn",
        "parse2"] [Ex.quote [.var "assoc_type", .tok ":", .var "double_ended_iterator_t", .tok "<", .tok "Item", .tok "=", .tok "<", .var "assoc_type", .tok "as", .var "iterator_t", .tok ">",
        .tok "::", .tok "Item", .tok ">"]])])]) (Ex.unit))))))])) (Ex.call ["Ok"] [Ex.unit]))))) }],
  structs := [],
  consts := [] }

theorem anyVariants6_parsed : parsePiece Text.anyVariants6 = some anyVariants6 := by derive_rfl

def anyVariants7 : File := {
  fns := [
    { ty := "", name := "map_storage_iter", params := ["cx", "assoc_type", "fields", "output"],
      body := Ex.letIn (Pat.bind "type_name") (Ex.mac "format_ident" [Ex.str "{MAP_STORAGE}{assoc_type}"]) (Ex.letIn (Pat.bind "assoc_type") (Ex.call ["syn", "Ident", "new"] [Ex.path ["assoc_type"],
        Ex.call ["Span", "call_site"] []]) (Ex.letIn (Pat.bind "lt") (Ex.field (Ex.path ["cx"]) "lt") (Ex.letIn (Pat.bind "ident") (Ex.field (Ex.field (Ex.path ["cx"]) "ast") "ident") (Ex.letIn (Pat.bind "vis") (Ex.field (Ex.field (Ex.path ["cx"]) "ast") "vis") (Ex.letIn (Pat.bind "option") (Ex.method (Ex.field (Ex.path ["cx"]) "toks") "option" []) (Ex.letIn (Pat.bind "iterator_t") (Ex.method (Ex.field (Ex.path ["cx"]) "toks") "iterator_t" []) (Ex.letIn (Pat.bind "double_ended_iterator_t") (Ex.method (Ex.field (Ex.path ["cx"]) "toks") "double_ended_iterator_t" []) (Ex.letIn (Pat.bind "clone_t") (Ex.method (Ex.field (Ex.path ["cx"]) "toks") "clone_t" []) (Ex.letIn (Pat.bind "step_forward") (Ex.call ["IteratorNext",
        "default"] []) (Ex.letIn (Pat.bind "step_backward") (Ex.call ["IteratorNextBack", "default"] []) (Ex.letIn (Pat.bind "field_decls") (Ex.call ["Vec",
        "new"] []) (Ex.letIn (Pat.bind "init") (Ex.call ["Vec", "new"] []) (Ex.seq (Ex.try (Ex.call ["build_iter_next"] [Ex.path ["cx"], Ex.path ["step_forward"], Ex.path ["step_backward"],
        Ex.path ["fields"], Ex.path ["assoc_type"], Ex.call ["Some"] [Ex.field (Ex.path ["cx"]) "lt"]])) (Ex.seq (Ex.for (Pat.struct ["Field"] ["name",
        "kind"]) (Ex.path ["fields"]) (Ex.cases (Ex.path ["kind"]) [(Pat.con ["Kind", "Simple"] [], Ex.seq (Ex.method (Ex.path ["field_decls"]) "push" [Ex.quote [.var "name", .tok ":", .var "option",
        .tok "<", .tok "&", .var "lt", .tok "V", .tok ">"]]) (Ex.seq (Ex.method (Ex.path ["init"]) "push" [Ex.quote [.var "name", .tok ":", .var "option", .tok "::", .tok "as_ref", .tok "(",
        .tok "&", .tok "self", .tok ".", .var "name", .tok ")"]]) (Ex.unit))), (Pat.con ["Kind", "Complex"] [Pat.struct ["Complex"] ["as_map_storage"]],
        Ex.seq (Ex.method (Ex.path ["field_decls"]) "push" [Ex.quote [.var "name", .tok ":", .var "as_map_storage", .tok "::", .tok "Iter", .tok "<", .var "lt",
        .tok ">"]]) (Ex.seq (Ex.method (Ex.path ["init"]) "push" [Ex.quote [.var "name", .tok ":", .var "as_map_storage", .tok "::", .tok "iter", .tok "(", .tok "&", .tok "self", .tok ".",
        .var "name", .tok ")"]]) (Ex.unit)))])) (Ex.seq (Ex.method (Ex.field (Ex.method (Ex.path ["step_backward"]) "make_where_clause" []) "predicates") "push" [Ex.try (Ex.method (Ex.path ["cx"]) "fallible" [Ex.lambda [] (Ex.call ["syn",
        "parse2"] [Ex.quote [.tok "V", .tok ":", .var "lt"]])])]) (Ex.letIn (Pat.bind "double_ended_where_clause") (Ex.field (Ex.path ["step_backward"]) "where_clause") (Ex.letIn (Pat.bind "names") (Ex.method (Ex.path ["fields"]) "names" []) (Ex.seq (Ex.method (Ex.field (Ex.path ["output"]) "impls") "extend" [Ex.quote [.var "vis",
        .tok "struct", .var "type_name", .tok "<", .var "lt", .tok ",", .tok "V", .tok ">", .tok "where", .tok "V", .tok ":", .var "lt", .tok "{", .tok "start", .tok ":", .tok "usize", .tok ",",
        .tok "end", .tok ":", .tok "usize", .tok ",", .rep [.var "field_decls", .tok ","] none, .tok "}", .tok "#", .tok "[", .tok "automatically_derived", .tok "]", .tok "impl", .tok "<", .var "lt",
        .tok ",", .tok "V", .tok ">", .var "clone_t", .tok "for", .var "type_name", .tok "<", .var "lt", .tok ",", .tok "V", .tok ">", .tok "where", .tok "V", .tok ":", .var "lt", .tok "{", .tok "#",
        .tok "[", .tok "inline", .tok "]", .tok "fn", .tok "clone", .tok "(", .tok "&", .tok "self", .tok ")", .tok "->", .tok "Self", .tok "{", .tok "Self", .tok "{", .tok "start", .tok ":",
        .tok "self", .tok ".", .tok "start", .tok ",", .tok "end", .tok ":", .tok "self", .tok ".", .tok "end", .tok ",", .rep [.var "names", .tok ":", .var "clone_t", .tok "::", .tok "clone",
        .tok "(", .tok "&", .tok "self", .tok ".", .var "names", .tok ")", .tok ","] none, .tok "}", .tok "}", .tok "}", .tok "#", .tok "[", .tok "automatically_derived", .tok "]", .tok "impl",
        .tok "<", .var "lt", .tok ",", .tok "V", .tok ">", .var "iterator_t", .tok "for", .var "type_name", .tok "<", .var "lt", .tok ",", .tok "V", .tok ">", .tok "where", .tok "V", .tok ":",
        .var "lt", .tok "{", .tok "type", .tok "Item", .tok "=", .tok "(", .var "ident", .tok ",", .tok "&", .var "lt", .tok "V", .tok ")", .tok ";", .tok "#", .tok "[", .tok "inline", .tok "]",
        .tok "fn", .tok "next", .tok "(", .tok "&", .tok "mut", .tok "self", .tok ")", .tok "->", .var "option", .tok "<", .tok "Self", .tok "::", .tok "Item", .tok ">", .tok "{",
        .var "step_forward", .var "option", .tok "::", .tok "None", .tok "}", .tok "}", .tok "#", .tok "[", .tok "automatically_derived", .tok "]", .tok "impl", .tok "<", .var "lt", .tok ",",
        .tok "V", .tok ">", .var "double_ended_iterator_t", .tok "for", .var "type_name", .tok "<", .var "lt", .tok ",", .tok "V", .tok ">", .var "double_ended_where_clause", .tok "{", .tok "#",
        .tok "[", .tok "inline", .tok "]", .tok "fn", .tok "next_back", .tok "(", .tok "&", .tok "mut", .tok "self", .tok ")", .tok "->", .var "option", .tok "<", .tok "Self", .tok "::", .tok "Item",
        .tok ">", .tok "{", .var "step_backward", .var "option", .tok "::", .tok "None", .tok "}",
        .tok "}"]]) (Ex.letIn (Pat.bind "end") (Ex.method (Ex.path ["fields"]) "len" []) (Ex.seq (Ex.method (Ex.field (Ex.path ["output"]) "items") "extend" [Ex.quote [.tok "type", .var "assoc_type",
        .tok "<", .var "lt", .tok ">", .tok "=", .var "type_name", .tok "<", .var "lt", .tok ",", .tok "V", .tok ">", .tok "where", .tok "V", .tok ":", .var "lt", .tok ";", .tok "#", .tok "[",
        .tok "inline", .tok "]", .tok "fn", .tok "iter", .tok "(", .tok "&", .tok "self", .tok ")", .tok "->", .tok "Self", .tok "::", .var "assoc_type", .tok "<", .tok "'_", .tok ">", .tok "{",
        .var "type_name", .tok "{", .tok "start", .tok ":", .tok "0", .tok ",", .tok "end", .tok ":", .var "end", .tok ",", .rep [.var "init", .tok ","] none, .tok "}",
        .tok "}"]]) (Ex.call ["Ok"] [Ex.unit]))))))))))))))))))))) }],
  structs := [],
  consts := [] }

theorem anyVariants7_parsed : parsePiece Text.anyVariants7 = some anyVariants7 := by derive_rfl

def anyVariants8 : File := {
  fns := [
    { ty := "", name := "map_storage_keys", params := ["cx", "assoc_type", "fields", "output"],
      body := Ex.letIn (Pat.bind "type_name") (Ex.mac "format_ident" [Ex.str "{MAP_STORAGE}{assoc_type}"]) (Ex.letIn (Pat.bind "assoc_type") (Ex.call ["syn", "Ident", "new"] [Ex.path ["assoc_type"],
        Ex.call ["Span", "call_site"] []]) (Ex.letIn (Pat.bind "lt") (Ex.field (Ex.path ["cx"]) "lt") (Ex.letIn (Pat.bind "ident") (Ex.field (Ex.field (Ex.path ["cx"]) "ast") "ident") (Ex.letIn (Pat.bind "vis") (Ex.field (Ex.field (Ex.path ["cx"]) "ast") "vis") (Ex.letIn (Pat.bind "bool_type") (Ex.method (Ex.field (Ex.path ["cx"]) "toks") "bool_type" []) (Ex.letIn (Pat.bind "clone_t") (Ex.method (Ex.field (Ex.path ["cx"]) "toks") "clone_t" []) (Ex.letIn (Pat.bind "double_ended_iterator_t") (Ex.method (Ex.field (Ex.path ["cx"]) "toks") "double_ended_iterator_t" []) (Ex.letIn (Pat.bind "iterator_t") (Ex.method (Ex.field (Ex.path ["cx"]) "toks") "iterator_t" []) (Ex.letIn (Pat.bind "mem") (Ex.method (Ex.field (Ex.path ["cx"]) "toks") "mem" []) (Ex.letIn (Pat.bind "option") (Ex.method (Ex.field (Ex.path ["cx"]) "toks") "option" []) (Ex.letIn (Pat.bind "step_forward") (Ex.call ["IteratorNext",
        "default"] []) (Ex.letIn (Pat.bind "step_backward") (Ex.call ["IteratorNextBack", "default"] []) (Ex.letIn (Pat.bind "field_decls") (Ex.call ["Vec",
        "new"] []) (Ex.letIn (Pat.bind "init") (Ex.call ["Vec", "new"] []) (Ex.seq (Ex.for (Pat.struct ["Field"] ["span", "index", "name", "var",
        "kind"]) (Ex.path ["fields"]) (Ex.cases (Ex.path ["kind"]) [(Pat.con ["Kind", "Simple"] [], Ex.seq (Ex.method (Ex.path ["field_decls"]) "push" [Ex.quote [.var "name", .tok ":",
        .var "bool_type"]]) (Ex.seq (Ex.method (Ex.path ["init"]) "push" [Ex.quote [.var "name", .tok ":", .var "option", .tok "::", .tok "is_some", .tok "(", .tok "&", .tok "self", .tok ".",
        .var "name", .tok ")"]]) (Ex.seq (Ex.method (Ex.field (Ex.path ["step_forward"]) "next") "push" [Ex.quote [.var "index", .tok "=>", .tok "{", .tok "if", .var "mem", .tok "::", .tok "take",
        .tok "(", .tok "&", .tok "mut", .tok "self", .tok ".", .var "name", .tok ")", .tok "{", .tok "return", .var "option", .tok "::", .tok "Some", .tok "(", .var "ident", .tok "::", .var "var",
        .tok ")", .tok ";", .tok "}", .tok "}"]]) (Ex.seq (Ex.method (Ex.field (Ex.path ["step_backward"]) "next") "push" [Ex.quote [.var "index", .tok "=>", .tok "{", .tok "if", .var "mem",
        .tok "::", .tok "take", .tok "(", .tok "&", .tok "mut", .tok "self", .tok ".", .var "name", .tok ")", .tok "{", .tok "return", .var "option", .tok "::", .tok "Some", .tok "(", .var "ident",
        .tok "::", .var "var", .tok ")", .tok ";", .tok "}", .tok "}"]]) (Ex.unit))))), (Pat.con ["Kind", "Complex"] [Pat.struct ["Complex"] ["as_map_storage"]],
        Ex.seq (Ex.method (Ex.path ["field_decls"]) "push" [Ex.quote [.var "name", .tok ":", .var "as_map_storage", .tok "::", .var "assoc_type", .tok "<", .var "lt",
        .tok ">"]]) (Ex.seq (Ex.method (Ex.path ["init"]) "push" [Ex.quote [.var "name", .tok ":", .var "as_map_storage", .tok "::", .tok "keys", .tok "(", .tok "&", .tok "self", .tok ".",
        .var "name", .tok ")"]]) (Ex.seq (Ex.method (Ex.field (Ex.path ["step_forward"]) "next") "push" [Ex.quote [.var "index", .tok "=>", .tok "{", .tok "if", .tok "let", .var "option", .tok "::",
        .tok "Some", .tok "(", .tok "key", .tok ")", .tok "=", .var "iterator_t", .tok "::", .tok "next", .tok "(", .tok "&", .tok "mut", .tok "self", .tok ".", .var "name", .tok ")", .tok "{",
        .tok "return", .var "option", .tok "::", .tok "Some", .tok "(", .var "ident", .tok "::", .var "var", .tok "(", .tok "key", .tok ")", .tok ")", .tok ";", .tok "}",
        .tok "}"]]) (Ex.seq (Ex.method (Ex.field (Ex.path ["step_backward"]) "next") "push" [Ex.quote [.var "index", .tok "=>", .tok "{", .tok "if", .tok "let", .var "option", .tok "::", .tok "Some",
        .tok "(", .tok "key", .tok ")", .tok "=", .var "double_ended_iterator_t", .tok "::", .tok "next_back", .tok "(", .tok "&", .tok "mut", .tok "self", .tok ".", .var "name", .tok ")", .tok "{",
        .tok "return", .var "option", .tok "::", .tok "Some", .tok "(", .var "ident", .tok "::", .var "var", .tok "(", .tok "key", .tok ")", .tok ")", .tok ";", .tok "}",
        .tok "}"]]) (Ex.letIn (Pat.bind "where_clause") (Ex.method (Ex.path ["step_backward"]) "make_where_clause" []) (Ex.letIn (Pat.bind "assoc_type") (Ex.quote [.var "as_map_storage", .tok "::",
        .var "assoc_type", .tok "<", .var "lt", .tok ">"]) (Ex.seq (Ex.method (Ex.field (Ex.path ["where_clause"]) "predicates") "push" [Ex.try (Ex.method (Ex.path ["cx"]) "fallible" [Ex.lambda [] (Ex.call ["syn",
        "parse2"] [Ex.quote [.var "assoc_type", .tok ":", .var "double_ended_iterator_t", .tok "<", .tok "Item", .tok "=", .tok "<", .var "assoc_type", .tok "as", .var "iterator_t", .tok ">",
        .tok "::", .tok "Item", .tok ">"]])])]) (Ex.unit))))))))])) (Ex.seq (Ex.method (Ex.field (Ex.method (Ex.path ["step_backward"]) "make_where_clause" []) "predicates") "push" [Ex.try (Ex.method (Ex.path ["cx"]) "fallible" [Ex.lambda [] (Ex.call ["syn",
        "parse2"] [Ex.quote [.tok "V", .tok ":", .var "lt"]])])]) (Ex.letIn (Pat.bind "double_ended_where_clause") (Ex.field (Ex.path ["step_backward"]) "where_clause") (Ex.letIn (Pat.bind "names") (Ex.method (Ex.path ["fields"]) "names" []) (Ex.seq (Ex.method (Ex.field (Ex.path ["output"]) "impls") "extend" [Ex.quote [.var "vis",
        .tok "struct", .var "type_name", .tok "<", .var "lt", .tok ",", .tok "V", .tok ">", .tok "where", .tok "V", .tok ":", .var "lt", .tok "{", .tok "start", .tok ":", .tok "usize", .tok ",",
        .tok "end", .tok ":", .tok "usize", .tok ",", .rep [.var "field_decls", .tok ","] none, .tok "}", .tok "#", .tok "[", .tok "automatically_derived", .tok "]", .tok "impl", .tok "<", .var "lt",
        .tok ",", .tok "V", .tok ">", .var "clone_t", .tok "for", .var "type_name", .tok "<", .var "lt", .tok ",", .tok "V", .tok ">", .tok "where", .tok "V", .tok ":", .var "lt", .tok "{", .tok "#",
        .tok "[", .tok "inline", .tok "]", .tok "fn", .tok "clone", .tok "(", .tok "&", .tok "self", .tok ")", .tok "->", .tok "Self", .tok "{", .tok "Self", .tok "{", .tok "start", .tok ":",
        .tok "self", .tok ".", .tok "start", .tok ",", .tok "end", .tok ":", .tok "self", .tok ".", .tok "end", .tok ",", .rep [.var "names", .tok ":", .var "clone_t", .tok "::", .tok "clone",
        .tok "(", .tok "&", .tok "self", .tok ".", .var "names", .tok ")", .tok ","] none, .tok "}", .tok "}", .tok "}", .tok "#", .tok "[", .tok "automatically_derived", .tok "]", .tok "impl",
        .tok "<", .var "lt", .tok ",", .tok "V", .tok ">", .var "iterator_t", .tok "for", .var "type_name", .tok "<", .var "lt", .tok ",", .tok "V", .tok ">", .tok "where", .tok "V", .tok ":",
        .var "lt", .tok "{", .tok "type", .tok "Item", .tok "=", .var "ident", .tok ";", .tok "#", .tok "[", .tok "inline", .tok "]", .tok "fn", .tok "next", .tok "(", .tok "&", .tok "mut",
        .tok "self", .tok ")", .tok "->", .var "option", .tok "<", .tok "Self", .tok "::", .tok "Item", .tok ">", .tok "{", .var "step_forward", .var "option", .tok "::", .tok "None", .tok "}",
        .tok "}", .tok "#", .tok "[", .tok "automatically_derived", .tok "]", .tok "impl", .tok "<", .var "lt", .tok ",", .tok "V", .tok ">", .var "double_ended_iterator_t", .tok "for",
        .var "type_name", .tok "<", .var "lt", .tok ",", .tok "V", .tok ">", .var "double_ended_where_clause", .tok "{", .tok "#", .tok "[", .tok "inline", .tok "]", .tok "fn", .tok "next_back",
        .tok "(", .tok "&", .tok "mut", .tok "self", .tok ")", .tok "->", .var "option", .tok "<", .tok "Self", .tok "::", .tok "Item", .tok ">", .tok "{", .var "step_backward", .var "option",
        .tok "::", .tok "None", .tok "}", .tok "}"]]) (Ex.letIn (Pat.bind "end") (Ex.method (Ex.path ["fields"]) "len" []) (Ex.seq (Ex.method (Ex.field (Ex.path ["output"]) "items") "extend" [Ex.quote [.tok "type",
        .var "assoc_type", .tok "<", .var "lt", .tok ">", .tok "=", .var "type_name", .tok "<", .var "lt", .tok ",", .tok "V", .tok ">", .tok "where", .tok "V", .tok ":", .var "lt", .tok ";",
        .tok "#", .tok "[", .tok "inline", .tok "]", .tok "fn", .tok "keys", .tok "(", .tok "&", .tok "self", .tok ")", .tok "->", .tok "Self", .tok "::", .var "assoc_type", .tok "<", .tok "'_",
        .tok ">", .tok "{", .var "type_name", .tok "{", .tok "start", .tok ":", .tok "0", .tok ",", .tok "end", .tok ":", .var "end", .tok ",", .rep [.var "init", .tok ","] none, .tok "}",
        .tok "}"]]) (Ex.call ["Ok"] [Ex.unit])))))))))))))))))))))) }],
  structs := [],
  consts := [] }

theorem anyVariants8_parsed : parsePiece Text.anyVariants8 = some anyVariants8 := by derive_rfl

def anyVariants9 : File := {
  fns := [
    { ty := "", name := "map_storage_values", params := ["cx", "assoc_type", "fields", "output"],
      body := Ex.letIn (Pat.bind "type_name") (Ex.mac "format_ident" [Ex.str "{MAP_STORAGE}{assoc_type}"]) (Ex.letIn (Pat.bind "assoc_type") (Ex.call ["syn", "Ident", "new"] [Ex.path ["assoc_type"],
        Ex.call ["Span", "call_site"] []]) (Ex.letIn (Pat.bind "lt") (Ex.field (Ex.path ["cx"]) "lt") (Ex.letIn (Pat.bind "vis") (Ex.field (Ex.field (Ex.path ["cx"]) "ast") "vis") (Ex.letIn (Pat.bind "clone_t") (Ex.method (Ex.field (Ex.path ["cx"]) "toks") "clone_t" []) (Ex.letIn (Pat.bind "double_ended_iterator_t") (Ex.method (Ex.field (Ex.path ["cx"]) "toks") "double_ended_iterator_t" []) (Ex.letIn (Pat.bind "iterator_t") (Ex.method (Ex.field (Ex.path ["cx"]) "toks") "iterator_t" []) (Ex.letIn (Pat.bind "option") (Ex.method (Ex.field (Ex.path ["cx"]) "toks") "option" []) (Ex.letIn (Pat.bind "step_forward") (Ex.call ["IteratorNext",
        "default"] []) (Ex.letIn (Pat.bind "step_backward") (Ex.call ["IteratorNextBack", "default"] []) (Ex.letIn (Pat.bind "field_decls") (Ex.call ["Vec",
        "new"] []) (Ex.letIn (Pat.bind "init") (Ex.call ["Vec", "new"] []) (Ex.seq (Ex.for (Pat.struct ["Field"] ["span", "index", "name",
        "kind"]) (Ex.path ["fields"]) (Ex.cases (Ex.path ["kind"]) [(Pat.con ["Kind", "Simple"] [], Ex.seq (Ex.method (Ex.path ["field_decls"]) "push" [Ex.quote [.var "name", .tok ":", .var "option",
        .tok "<", .tok "&", .var "lt", .tok "V", .tok ">"]]) (Ex.seq (Ex.method (Ex.path ["init"]) "push" [Ex.quote [.var "name", .tok ":", .var "option", .tok "::", .tok "as_ref", .tok "(",
        .tok "&", .tok "self", .tok ".", .var "name", .tok ")"]]) (Ex.seq (Ex.method (Ex.field (Ex.path ["step_forward"]) "next") "push" [Ex.quote [.var "index", .tok "=>", .tok "{", .tok "if",
        .tok "let", .var "option", .tok "::", .tok "Some", .tok "(", .tok "value", .tok ")", .tok "=", .var "option", .tok "::", .tok "take", .tok "(", .tok "&", .tok "mut", .tok "self", .tok ".",
        .var "name", .tok ")", .tok "{", .tok "return", .var "option", .tok "::", .tok "Some", .tok "(", .tok "value", .tok ")", .tok ";", .tok "}",
        .tok "}"]]) (Ex.seq (Ex.method (Ex.field (Ex.path ["step_backward"]) "next") "push" [Ex.quote [.var "index", .tok "=>", .tok "{", .tok "if", .tok "let", .var "option", .tok "::", .tok "Some",
        .tok "(", .tok "value", .tok ")", .tok "=", .var "option", .tok "::", .tok "take", .tok "(", .tok "&", .tok "mut", .tok "self", .tok ".", .var "name", .tok ")", .tok "{", .tok "return",
        .var "option", .tok "::", .tok "Some", .tok "(", .tok "value", .tok ")", .tok ";", .tok "}", .tok "}"]]) (Ex.unit))))), (Pat.con ["Kind",
        "Complex"] [Pat.struct ["Complex"] ["as_map_storage"]], Ex.seq (Ex.method (Ex.path ["field_decls"]) "push" [Ex.quote [.var "name", .tok ":", .var "as_map_storage", .tok "::",
        .var "assoc_type", .tok "<", .var "lt", .tok ">"]]) (Ex.seq (Ex.method (Ex.path ["init"]) "push" [Ex.quote [.var "name", .tok ":", .var "as_map_storage", .tok "::", .tok "values", .tok "(",
        .tok "&", .tok "self", .tok ".", .var "name", .tok ")"]]) (Ex.seq (Ex.method (Ex.field (Ex.path ["step_forward"]) "next") "push" [Ex.quote [.var "index", .tok "=>", .tok "{", .tok "if",
        .tok "let", .var "option", .tok "::", .tok "Some", .tok "(", .tok "value", .tok ")", .tok "=", .var "iterator_t", .tok "::", .tok "next", .tok "(", .tok "&", .tok "mut", .tok "self",
        .tok ".", .var "name", .tok ")", .tok "{", .tok "return", .var "option", .tok "::", .tok "Some", .tok "(", .tok "value", .tok ")", .tok ";", .tok "}",
        .tok "}"]]) (Ex.seq (Ex.method (Ex.field (Ex.path ["step_backward"]) "next") "push" [Ex.quote [.var "index", .tok "=>", .tok "{", .tok "if", .tok "let", .var "option", .tok "::", .tok "Some",
        .tok "(", .tok "value", .tok ")", .tok "=", .var "double_ended_iterator_t", .tok "::", .tok "next_back", .tok "(", .tok "&", .tok "mut", .tok "self", .tok ".", .var "name", .tok ")",
        .tok "{", .tok "return", .var "option", .tok "::", .tok "Some", .tok "(", .tok "value", .tok ")", .tok ";", .tok "}",
        .tok "}"]]) (Ex.letIn (Pat.bind "where_clause") (Ex.method (Ex.path ["step_backward"]) "make_where_clause" []) (Ex.letIn (Pat.bind "assoc_type") (Ex.quote [.var "as_map_storage", .tok "::",
        .var "assoc_type", .tok "<", .var "lt", .tok ">"]) (Ex.seq (Ex.method (Ex.field (Ex.path ["where_clause"]) "predicates") "push" [Ex.try (Ex.method (Ex.path ["cx"]) "fallible" [Ex.lambda [] (Ex.call ["syn",
        "parse2"] [Ex.quote [.var "assoc_type", .tok ":", .var "double_ended_iterator_t", .tok "<", .tok "Item", .tok "=", .tok "<", .var "assoc_type", .tok "as", .var "iterator_t", .tok ">",
        .tok "::", .tok "Item", .tok ">"]])])]) (Ex.unit))))))))])) (Ex.seq (Ex.method (Ex.field (Ex.method (Ex.path ["step_backward"]) "make_where_clause" []) "predicates") "push" [Ex.try (Ex.method (Ex.path ["cx"]) "fallible" [Ex.lambda [] (Ex.call ["syn",
        "parse2"] [Ex.quote [.tok "V", .tok ":", .var "lt"]])])]) (Ex.letIn (Pat.bind "double_ended_where_clause") (Ex.field (Ex.path ["step_backward"]) "where_clause") (Ex.letIn (Pat.bind "names") (Ex.method (Ex.path ["fields"]) "names" []) (Ex.seq (Ex.method (Ex.field (Ex.path ["output"]) "impls") "extend" [Ex.quote [.var "vis",
        .tok "struct", .var "type_name", .tok "<", .var "lt", .tok ",", .tok "V", .tok ">", .tok "where", .tok "V", .tok ":", .var "lt", .tok "{", .tok "start", .tok ":", .tok "usize", .tok ",",
        .tok "end", .tok ":", .tok "usize", .tok ",", .rep [.var "field_decls", .tok ","] none, .tok "}", .tok "#", .tok "[", .tok "automatically_derived", .tok "]", .tok "impl", .tok "<", .var "lt",
        .tok ",", .tok "V", .tok ">", .var "clone_t", .tok "for", .var "type_name", .tok "<", .var "lt", .tok ",", .tok "V", .tok ">", .tok "where", .tok "V", .tok ":", .var "lt", .tok "{", .tok "#",
        .tok "[", .tok "inline", .tok "]", .tok "fn", .tok "clone", .tok "(", .tok "&", .tok "self", .tok ")", .tok "->", .tok "Self", .tok "{", .tok "Self", .tok "{", .tok "start", .tok ":",
        .tok "self", .tok ".", .tok "start", .tok ",", .tok "end", .tok ":", .tok "self", .tok ".", .tok "end", .tok ",", .rep [.var "names", .tok ":", .var "clone_t", .tok "::", .tok "clone",
        .tok "(", .tok "&", .tok "self", .tok ".", .var "names", .tok ")", .tok ","] none, .tok "}", .tok "}", .tok "}", .tok "#", .tok "[", .tok "automatically_derived", .tok "]", .tok "impl",
        .tok "<", .var "lt", .tok ",", .tok "V", .tok ">", .var "iterator_t", .tok "for", .var "type_name", .tok "<", .var "lt", .tok ",", .tok "V", .tok ">", .tok "where", .tok "V", .tok ":",
        .var "lt", .tok "{", .tok "type", .tok "Item", .tok "=", .tok "&", .var "lt", .tok "V", .tok ";", .tok "#", .tok "[", .tok "inline", .tok "]", .tok "fn", .tok "next", .tok "(", .tok "&",
        .tok "mut", .tok "self", .tok ")", .tok "->", .var "option", .tok "<", .tok "Self", .tok "::", .tok "Item", .tok ">", .tok "{", .var "step_forward", .var "option", .tok "::", .tok "None",
        .tok "}", .tok "}", .tok "#", .tok "[", .tok "automatically_derived", .tok "]", .tok "impl", .tok "<", .var "lt", .tok ",", .tok "V", .tok ">", .var "double_ended_iterator_t", .tok "for",
        .var "type_name", .tok "<", .var "lt", .tok ",", .tok "V", .tok ">", .var "double_ended_where_clause", .tok "{", .tok "#", .tok "[", .tok "inline", .tok "]", .tok "fn", .tok "next_back",
        .tok "(", .tok "&", .tok "mut", .tok "self", .tok ")", .tok "->", .var "option", .tok "<", .tok "Self", .tok "::", .tok "Item", .tok ">", .tok "{", .var "step_backward", .var "option",
        .tok "::", .tok "None", .tok "}", .tok "}"]]) (Ex.letIn (Pat.bind "end") (Ex.method (Ex.path ["fields"]) "len" []) (Ex.seq (Ex.method (Ex.field (Ex.path ["output"]) "items") "extend" [Ex.quote [.tok "type",
        .var "assoc_type", .tok "<", .var "lt", .tok ">", .tok "=", .var "type_name", .tok "<", .var "lt", .tok ",", .tok "V", .tok ">", .tok "where", .tok "V", .tok ":", .var "lt", .tok ";",
        .tok "#", .tok "[", .tok "inline", .tok "]", .tok "fn", .tok "values", .tok "(", .tok "&", .tok "self", .tok ")", .tok "->", .tok "Self", .tok "::", .var "assoc_type", .tok "<", .tok "'_",
        .tok ">", .tok "{", .var "type_name", .tok "{", .tok "start", .tok ":", .tok "0", .tok ",", .tok "end", .tok ":", .var "end", .tok ",", .rep [.var "init", .tok ","] none, .tok "}",
        .tok "}"]]) (Ex.call ["Ok"] [Ex.unit]))))))))))))))))))) }],
  structs := [],
  consts := [] }

theorem anyVariants9_parsed : parsePiece Text.anyVariants9 = some anyVariants9 := by derive_rfl

def anyVariants10 : File := {
  fns := [
    { ty := "", name := "map_storage_iter_mut", params := ["cx", "assoc_type", "fields", "output"],
      body := Ex.letIn (Pat.bind "type_name") (Ex.mac "format_ident" [Ex.str "{MAP_STORAGE}{assoc_type}"]) (Ex.letIn (Pat.bind "assoc_type") (Ex.call ["syn", "Ident", "new"] [Ex.path ["assoc_type"],
        Ex.call ["Span", "call_site"] []]) (Ex.letIn (Pat.bind "ident") (Ex.field (Ex.field (Ex.path ["cx"]) "ast") "ident") (Ex.letIn (Pat.bind "lt") (Ex.field (Ex.path ["cx"]) "lt") (Ex.letIn (Pat.bind "vis") (Ex.field (Ex.field (Ex.path ["cx"]) "ast") "vis") (Ex.letIn (Pat.bind "double_ended_iterator_t") (Ex.method (Ex.field (Ex.path ["cx"]) "toks") "double_ended_iterator_t" []) (Ex.letIn (Pat.bind "iterator_t") (Ex.method (Ex.field (Ex.path ["cx"]) "toks") "iterator_t" []) (Ex.letIn (Pat.bind "option") (Ex.method (Ex.field (Ex.path ["cx"]) "toks") "option" []) (Ex.letIn (Pat.bind "step_forward") (Ex.call ["IteratorNext",
        "default"] []) (Ex.letIn (Pat.bind "step_backward") (Ex.call ["IteratorNextBack", "default"] []) (Ex.letIn (Pat.bind "field_decls") (Ex.call ["Vec",
        "new"] []) (Ex.letIn (Pat.bind "init") (Ex.call ["Vec", "new"] []) (Ex.seq (Ex.try (Ex.call ["build_iter_next"] [Ex.path ["cx"], Ex.path ["step_forward"], Ex.path ["step_backward"],
        Ex.path ["fields"], Ex.path ["assoc_type"], Ex.call ["Some"] [Ex.field (Ex.path ["cx"]) "lt"]])) (Ex.seq (Ex.for (Pat.struct ["Field"] ["name",
        "kind"]) (Ex.path ["fields"]) (Ex.cases (Ex.path ["kind"]) [(Pat.con ["Kind", "Simple"] [], Ex.seq (Ex.method (Ex.path ["field_decls"]) "push" [Ex.quote [.var "name", .tok ":", .var "option",
        .tok "<", .tok "&", .var "lt", .tok "mut", .tok "V", .tok ">"]]) (Ex.seq (Ex.method (Ex.path ["init"]) "push" [Ex.quote [.var "name", .tok ":", .var "option", .tok "::", .tok "as_mut",
        .tok "(", .tok "&", .tok "mut", .tok "self", .tok ".", .var "name", .tok ")"]]) (Ex.unit))), (Pat.con ["Kind", "Complex"] [Pat.struct ["Complex"] ["as_map_storage", "map_storage"]],
        Ex.seq (Ex.method (Ex.path ["field_decls"]) "push" [Ex.quote [.var "name", .tok ":", .var "as_map_storage", .tok "::", .var "assoc_type", .tok "<", .var "lt",
        .tok ">"]]) (Ex.seq (Ex.method (Ex.path ["init"]) "push" [Ex.quote [.var "name", .tok ":", .var "map_storage", .tok "::", .tok "iter_mut", .tok "(", .tok "&", .tok "mut", .tok "self",
        .tok ".", .var "name", .tok ")"]]) (Ex.unit)))])) (Ex.seq (Ex.method (Ex.field (Ex.method (Ex.path ["step_backward"]) "make_where_clause" []) "predicates") "push" [Ex.try (Ex.method (Ex.path ["cx"]) "fallible" [Ex.lambda [] (Ex.call ["syn",
        "parse2"] [Ex.quote [.tok "V", .tok ":", .var "lt"]])])]) (Ex.letIn (Pat.bind "double_ended_where") (Ex.field (Ex.path ["step_backward"]) "where_clause") (Ex.seq (Ex.method (Ex.field (Ex.path ["output"]) "impls") "extend" [Ex.quote [.var "vis",
        .tok "struct", .var "type_name", .tok "<", .var "lt", .tok ",", .tok "V", .tok ">", .tok "where", .tok "V", .tok ":", .var "lt", .tok "{", .tok "start", .tok ":", .tok "usize", .tok ",",
        .tok "end", .tok ":", .tok "usize", .tok ",", .rep [.var "field_decls", .tok ","] none, .tok "}", .tok "#", .tok "[", .tok "automatically_derived", .tok "]", .tok "impl", .tok "<", .var "lt",
        .tok ",", .tok "V", .tok ">", .var "iterator_t", .tok "for", .var "type_name", .tok "<", .var "lt", .tok ",", .tok "V", .tok ">", .tok "where", .tok "V", .tok ":", .var "lt", .tok "{",
        .tok "type", .tok "Item", .tok "=", .tok "(", .var "ident", .tok ",", .tok "&", .var "lt", .tok "mut", .tok "V", .tok ")", .tok ";", .tok "#", .tok "[", .tok "inline", .tok "]", .tok "fn",
        .tok "next", .tok "(", .tok "&", .tok "mut", .tok "self", .tok ")", .tok "->", .var "option", .tok "<", .tok "Self", .tok "::", .tok "Item", .tok ">", .tok "{", .var "step_forward",
        .var "option", .tok "::", .tok "None", .tok "}", .tok "}", .tok "#", .tok "[", .tok "automatically_derived", .tok "]", .tok "impl", .tok "<", .var "lt", .tok ",", .tok "V", .tok ">",
        .var "double_ended_iterator_t", .tok "for", .var "type_name", .tok "<", .var "lt", .tok ",", .tok "V", .tok ">", .var "double_ended_where", .tok "{", .tok "#", .tok "[", .tok "inline",
        .tok "]", .tok "fn", .tok "next_back", .tok "(", .tok "&", .tok "mut", .tok "self", .tok ")", .tok "->", .var "option", .tok "<", .tok "Self", .tok "::", .tok "Item", .tok ">", .tok "{",
        .var "step_backward", .var "option", .tok "::", .tok "None", .tok "}", .tok "}"]]) (Ex.letIn (Pat.bind "end") (Ex.method (Ex.path ["fields"]) "len" []) (Ex.seq (Ex.method (Ex.field (Ex.path ["output"]) "items") "extend" [Ex.quote [.tok "type",
        .var "assoc_type", .tok "<", .var "lt", .tok ">", .tok "=", .var "type_name", .tok "<", .var "lt", .tok ",", .tok "V", .tok ">", .tok "where", .tok "V", .tok ":", .var "lt", .tok ";",
        .tok "#", .tok "[", .tok "inline", .tok "]", .tok "fn", .tok "iter_mut", .tok "(", .tok "&", .tok "mut", .tok "self", .tok ")", .tok "->", .tok "Self", .tok "::", .var "assoc_type", .tok "<",
        .tok "'_", .tok ">", .tok "{", .var "type_name", .tok "{", .tok "start", .tok ":", .tok "0", .tok ",", .tok "end", .tok ":", .var "end", .tok ",", .rep [.var "init", .tok ","] none, .tok "}",
        .tok "}"]]) (Ex.call ["Ok"] [Ex.unit]))))))))))))))))))) }],
  structs := [],
  consts := [] }

theorem anyVariants10_parsed : parsePiece Text.anyVariants10 = some anyVariants10 := by derive_rfl

def anyVariants11 : File := {
  fns := [
    { ty := "", name := "map_storage_values_mut", params := ["cx", "assoc_type", "fields", "output"],
      body := Ex.letIn (Pat.bind "type_name") (Ex.mac "format_ident" [Ex.str "{MAP_STORAGE}{assoc_type}"]) (Ex.letIn (Pat.bind "assoc_type") (Ex.call ["syn", "Ident", "new"] [Ex.path ["assoc_type"],
        Ex.call ["Span", "call_site"] []]) (Ex.letIn (Pat.bind "lt") (Ex.field (Ex.path ["cx"]) "lt") (Ex.letIn (Pat.bind "vis") (Ex.field (Ex.field (Ex.path ["cx"]) "ast") "vis") (Ex.letIn (Pat.bind "option") (Ex.method (Ex.field (Ex.path ["cx"]) "toks") "option" []) (Ex.letIn (Pat.bind "iterator_t") (Ex.method (Ex.field (Ex.path ["cx"]) "toks") "iterator_t" []) (Ex.letIn (Pat.bind "double_ended_iterator_t") (Ex.method (Ex.field (Ex.path ["cx"]) "toks") "double_ended_iterator_t" []) (Ex.letIn (Pat.bind "step_forward") (Ex.call ["IteratorNext",
        "default"] []) (Ex.letIn (Pat.bind "step_backward") (Ex.call ["IteratorNextBack", "default"] []) (Ex.letIn (Pat.bind "field_decls") (Ex.call ["Vec",
        "new"] []) (Ex.letIn (Pat.bind "init") (Ex.call ["Vec", "new"] []) (Ex.seq (Ex.for (Pat.struct ["Field"] ["span", "index", "name",
        "kind"]) (Ex.path ["fields"]) (Ex.cases (Ex.path ["kind"]) [(Pat.con ["Kind", "Simple"] [], Ex.seq (Ex.method (Ex.path ["field_decls"]) "push" [Ex.quote [.var "name", .tok ":", .var "option",
        .tok "<", .tok "&", .var "lt", .tok "mut", .tok "V", .tok ">"]]) (Ex.seq (Ex.method (Ex.path ["init"]) "push" [Ex.quote [.var "name", .tok ":", .var "option", .tok "::", .tok "as_mut",
        .tok "(", .tok "&", .tok "mut", .tok "self", .tok ".", .var "name", .tok ")"]]) (Ex.seq (Ex.method (Ex.field (Ex.path ["step_forward"]) "next") "push" [Ex.quote [.var "index", .tok "=>",
        .tok "{", .tok "if", .tok "let", .var "option", .tok "::", .tok "Some", .tok "(", .tok "value", .tok ")", .tok "=", .var "option", .tok "::", .tok "take", .tok "(", .tok "&", .tok "mut",
        .tok "self", .tok ".", .var "name", .tok ")", .tok "{", .tok "return", .var "option", .tok "::", .tok "Some", .tok "(", .tok "value", .tok ")", .tok ";", .tok "}",
        .tok "}"]]) (Ex.seq (Ex.method (Ex.field (Ex.path ["step_backward"]) "next") "push" [Ex.quote [.var "index", .tok "=>", .tok "{", .tok "if", .tok "let", .var "option", .tok "::", .tok "Some",
        .tok "(", .tok "value", .tok ")", .tok "=", .var "option", .tok "::", .tok "take", .tok "(", .tok "&", .tok "mut", .tok "self", .tok ".", .var "name", .tok ")", .tok "{", .tok "return",
        .var "option", .tok "::", .tok "Some", .tok "(", .tok "value", .tok ")", .tok ";", .tok "}", .tok "}"]]) (Ex.unit))))), (Pat.con ["Kind",
        "Complex"] [Pat.struct ["Complex"] ["as_map_storage"]], Ex.seq (Ex.method (Ex.path ["field_decls"]) "push" [Ex.quote [.var "name", .tok ":", .var "as_map_storage", .tok "::",
        .var "assoc_type", .tok "<", .var "lt", .tok ">"]]) (Ex.seq (Ex.method (Ex.path ["init"]) "push" [Ex.quote [.var "name", .tok ":", .var "as_map_storage", .tok "::", .tok "values_mut",
        .tok "(", .tok "&", .tok "mut", .tok "self", .tok ".", .var "name", .tok ")"]]) (Ex.seq (Ex.method (Ex.field (Ex.path ["step_forward"]) "next") "push" [Ex.quote [.var "index", .tok "=>",
        .tok "{", .tok "if", .tok "let", .var "option", .tok "::", .tok "Some", .tok "(", .tok "value", .tok ")", .tok "=", .var "iterator_t", .tok "::", .tok "next", .tok "(", .tok "&", .tok "mut",
        .tok "self", .tok ".", .var "name", .tok ")", .tok "{", .tok "return", .var "option", .tok "::", .tok "Some", .tok "(", .tok "value", .tok ")", .tok ";", .tok "}",
        .tok "}"]]) (Ex.seq (Ex.method (Ex.field (Ex.path ["step_backward"]) "next") "push" [Ex.quote [.var "index", .tok "=>", .tok "{", .tok "if", .tok "let", .var "option", .tok "::", .tok "Some",
        .tok "(", .tok "value", .tok ")", .tok "=", .var "double_ended_iterator_t", .tok "::", .tok "next_back", .tok "(", .tok "&", .tok "mut", .tok "self", .tok ".", .var "name", .tok ")",
        .tok "{", .tok "return", .var "option", .tok "::", .tok "Some", .tok "(", .tok "value", .tok ")", .tok ";", .tok "}",
        .tok "}"]]) (Ex.letIn (Pat.bind "where_clause") (Ex.method (Ex.path ["step_backward"]) "make_where_clause" []) (Ex.letIn (Pat.bind "assoc_type") (Ex.quote [.var "as_map_storage", .tok "::",
        .var "assoc_type", .tok "<", .var "lt", .tok ">"]) (Ex.seq (Ex.method (Ex.field (Ex.path ["where_clause"]) "predicates") "push" [Ex.try (Ex.method (Ex.path ["cx"]) "fallible" [Ex.lambda [] (Ex.call ["syn",
        "parse2"] [Ex.quote [.var "assoc_type", .tok ":", .var "double_ended_iterator_t", .tok "<", .tok "Item", .tok "=", .tok "<", .var "assoc_type", .tok "as", .var "iterator_t", .tok ">",
        .tok "::", .tok "Item", .tok ">"]])])]) (Ex.unit))))))))])) (Ex.seq (Ex.method (Ex.field (Ex.method (Ex.path ["step_backward"]) "make_where_clause" []) "predicates") "push" [Ex.try (Ex.method (Ex.path ["cx"]) "fallible" [Ex.lambda [] (Ex.call ["syn",
        "parse2"] [Ex.quote [.tok "V", .tok ":", .var "lt"]])])]) (Ex.letIn (Pat.bind "double_ended_where_clause") (Ex.field (Ex.path ["step_backward"]) "where_clause") (Ex.seq (Ex.method (Ex.field (Ex.path ["output"]) "impls") "extend" [Ex.quote [.var "vis",
        .tok "struct", .var "type_name", .tok "<", .var "lt", .tok ",", .tok "V", .tok ">", .tok "where", .tok "V", .tok ":", .var "lt", .tok "{", .tok "start", .tok ":", .tok "usize", .tok ",",
        .tok "end", .tok ":", .tok "usize", .tok ",", .rep [.var "field_decls", .tok ","] none, .tok "}", .tok "#", .tok "[", .tok "automatically_derived", .tok "]", .tok "impl", .tok "<", .var "lt",
        .tok ",", .tok "V", .tok ">", .var "iterator_t", .tok "for", .var "type_name", .tok "<", .var "lt", .tok ",", .tok "V", .tok ">", .tok "where", .tok "V", .tok ":", .var "lt", .tok "{",
        .tok "type", .tok "Item", .tok "=", .tok "&", .var "lt", .tok "mut", .tok "V", .tok ";", .tok "#", .tok "[", .tok "inline", .tok "]", .tok "fn", .tok "next", .tok "(", .tok "&", .tok "mut",
        .tok "self", .tok ")", .tok "->", .var "option", .tok "<", .tok "Self", .tok "::", .tok "Item", .tok ">", .tok "{", .var "step_forward", .var "option", .tok "::", .tok "None", .tok "}",
        .tok "}", .tok "#", .tok "[", .tok "automatically_derived", .tok "]", .tok "impl", .tok "<", .var "lt", .tok ",", .tok "V", .tok ">", .var "double_ended_iterator_t", .tok "for",
        .var "type_name", .tok "<", .var "lt", .tok ",", .tok "V", .tok ">", .var "double_ended_where_clause", .tok "{", .tok "#", .tok "[", .tok "inline", .tok "]", .tok "fn", .tok "next_back",
        .tok "(", .tok "&", .tok "mut", .tok "self", .tok ")", .tok "->", .var "option", .tok "<", .tok "Self", .tok "::", .tok "Item", .tok ">", .tok "{", .var "step_backward", .var "option",
        .tok "::", .tok "None", .tok "}", .tok "}"]]) (Ex.letIn (Pat.bind "end") (Ex.method (Ex.path ["fields"]) "len" []) (Ex.seq (Ex.method (Ex.field (Ex.path ["output"]) "items") "extend" [Ex.quote [.tok "type",
        .var "assoc_type", .tok "<", .var "lt", .tok ">", .tok "=", .var "type_name", .tok "<", .var "lt", .tok ",", .tok "V", .tok ">", .tok "where", .tok "V", .tok ":", .var "lt", .tok ";",
        .tok "#", .tok "[", .tok "inline", .tok "]", .tok "fn", .tok "values_mut", .tok "(", .tok "&", .tok "mut", .tok "self", .tok ")", .tok "->", .tok "Self", .tok "::", .var "assoc_type",
        .tok "<", .tok "'_", .tok ">", .tok "{", .var "type_name", .tok "{", .tok "start", .tok ":", .tok "0", .tok ",", .tok "end", .tok ":", .var "end", .tok ",", .rep [.var "init", .tok ","] none,
        .tok "}", .tok "}"]]) (Ex.call ["Ok"] [Ex.unit]))))))))))))))))) }],
  structs := [],
  consts := [] }

theorem anyVariants11_parsed : parsePiece Text.anyVariants11 = some anyVariants11 := by derive_rfl

def anyVariants12 : File := {
  fns := [
    { ty := "", name := "map_storage_into_iter", params := ["cx", "assoc_type", "fields", "output"],
      body := Ex.letIn (Pat.bind "type_name") (Ex.mac "format_ident" [Ex.str "{MAP_STORAGE}{assoc_type}"]) (Ex.letIn (Pat.bind "assoc_type") (Ex.call ["syn", "Ident", "new"] [Ex.path ["assoc_type"],
        Ex.call ["Span", "call_site"] []]) (Ex.letIn (Pat.bind "ident") (Ex.field (Ex.field (Ex.path ["cx"]) "ast") "ident") (Ex.letIn (Pat.bind "vis") (Ex.field (Ex.field (Ex.path ["cx"]) "ast") "vis") (Ex.letIn (Pat.bind "option") (Ex.method (Ex.field (Ex.path ["cx"]) "toks") "option" []) (Ex.letIn (Pat.bind "clone_t") (Ex.method (Ex.field (Ex.path ["cx"]) "toks") "clone_t" []) (Ex.letIn (Pat.bind "iterator_t") (Ex.method (Ex.field (Ex.path ["cx"]) "toks") "iterator_t" []) (Ex.letIn (Pat.bind "double_ended_iterator_t") (Ex.method (Ex.field (Ex.path ["cx"]) "toks") "double_ended_iterator_t" []) (Ex.letIn (Pat.bind "step_forward") (Ex.call ["IteratorNext",
        "default"] []) (Ex.letIn (Pat.bind "step_backward") (Ex.call ["IteratorNextBack", "default"] []) (Ex.letIn (Pat.bind "field_decls") (Ex.call ["Vec",
        "new"] []) (Ex.letIn (Pat.bind "init") (Ex.call ["Vec", "new"] []) (Ex.seq (Ex.try (Ex.call ["build_iter_next"] [Ex.path ["cx"], Ex.path ["step_forward"], Ex.path ["step_backward"],
        Ex.path ["fields"], Ex.path ["assoc_type"], Ex.path ["None"]])) (Ex.seq (Ex.for (Pat.struct ["Field"] ["name", "kind"]) (Ex.path ["fields"]) (Ex.cases (Ex.path ["kind"]) [(Pat.con ["Kind",
        "Simple"] [], Ex.seq (Ex.method (Ex.path ["field_decls"]) "push" [Ex.quote [.var "name", .tok ":", .var "option", .tok "<", .tok "V",
        .tok ">"]]) (Ex.seq (Ex.method (Ex.path ["init"]) "push" [Ex.quote [.var "name", .tok ":", .tok "self", .tok ".", .var "name"]]) (Ex.unit))), (Pat.con ["Kind",
        "Complex"] [Pat.struct ["Complex"] ["as_map_storage", "map_storage"]], Ex.seq (Ex.method (Ex.path ["field_decls"]) "push" [Ex.quote [.var "name", .tok ":", .var "as_map_storage", .tok "::",
        .var "assoc_type"]]) (Ex.seq (Ex.method (Ex.path ["init"]) "push" [Ex.quote [.var "name", .tok ":", .var "map_storage", .tok "::", .tok "into_iter", .tok "(", .tok "self", .tok ".",
        .var "name", .tok ")"]]) (Ex.unit)))])) (Ex.letIn (Pat.bind "double_ended_where") (Ex.field (Ex.path ["step_backward"]) "where_clause") (Ex.letIn (Pat.bind "names") (Ex.method (Ex.path ["fields"]) "names" []) (Ex.letIn (Pat.bind "clone_bounds") (Ex.method (Ex.method (Ex.path ["fields"]) "complex" []) "map" [Ex.lambda [Pat.struct ["Complex"] ["as_map_storage"]] (Ex.quote [.var "as_map_storage",
        .tok "::", .var "assoc_type", .tok ":", .var "clone_t"])]) (Ex.seq (Ex.method (Ex.field (Ex.path ["output"]) "impls") "extend" [Ex.quote [.var "vis", .tok "struct", .var "type_name",
        .tok "<", .tok "V", .tok ">", .tok "{", .tok "start", .tok ":", .tok "usize", .tok ",", .tok "end", .tok ":", .tok "usize", .tok ",", .rep [.var "field_decls", .tok ","] none, .tok "}",
        .tok "#", .tok "[", .tok "automatically_derived", .tok "]", .tok "impl", .tok "<", .tok "V", .tok ">", .var "clone_t", .tok "for", .var "type_name", .tok "<", .tok "V", .tok ">",
        .tok "where", .tok "V", .tok ":", .tok "Clone", .tok ",", .rep [.var "clone_bounds", .tok ","] none, .tok "{", .tok "#", .tok "[", .tok "inline", .tok "]", .tok "fn", .tok "clone", .tok "(",
        .tok "&", .tok "self", .tok ")", .tok "->", .tok "Self", .tok "{", .tok "Self", .tok "{", .tok "start", .tok ":", .tok "self", .tok ".", .tok "start", .tok ",", .tok "end", .tok ":",
        .tok "self", .tok ".", .tok "end", .tok ",", .rep [.var "names", .tok ":", .var "clone_t", .tok "::", .tok "clone", .tok "(", .tok "&", .tok "self", .tok ".", .var "names", .tok ")",
        .tok ","] none, .tok "}", .tok "}", .tok "}", .tok "#", .tok "[", .tok "automatically_derived", .tok "]", .tok "impl", .tok "<", .tok "V", .tok ">", .var "iterator_t", .tok "for",
        .var "type_name", .tok "<", .tok "V", .tok ">", .tok "{", .tok "type", .tok "Item", .tok "=", .tok "(", .var "ident", .tok ",", .tok "V", .tok ")", .tok ";", .tok "#", .tok "[",
        .tok "inline", .tok "]", .tok "fn", .tok "next", .tok "(", .tok "&", .tok "mut", .tok "self", .tok ")", .tok "->", .tok "Option", .tok "<", .tok "Self", .tok "::", .tok "Item", .tok ">",
        .tok "{", .var "step_forward", .var "option", .tok "::", .tok "None", .tok "}", .tok "}", .tok "#", .tok "[", .tok "automatically_derived", .tok "]", .tok "impl", .tok "<", .tok "V",
        .tok ">", .var "double_ended_iterator_t", .tok "for", .var "type_name", .tok "<", .tok "V", .tok ">", .var "double_ended_where", .tok "{", .tok "#", .tok "[", .tok "inline", .tok "]",
        .tok "fn", .tok "next_back", .tok "(", .tok "&", .tok "mut", .tok "self", .tok ")", .tok "->", .var "option", .tok "<", .tok "Self", .tok "::", .tok "Item", .tok ">", .tok "{",
        .var "step_backward", .var "option", .tok "::", .tok "None", .tok "}", .tok "}"]]) (Ex.letIn (Pat.bind "end") (Ex.method (Ex.path ["fields"]) "len" []) (Ex.seq (Ex.method (Ex.field (Ex.path ["output"]) "items") "extend" [Ex.quote [.tok "type",
        .var "assoc_type", .tok "=", .var "type_name", .tok "<", .tok "V", .tok ">", .tok ";", .tok "#", .tok "[", .tok "inline", .tok "]", .tok "fn", .tok "into_iter", .tok "(", .tok "self",
        .tok ")", .tok "->", .tok "Self", .tok "::", .var "assoc_type", .tok "{", .var "type_name", .tok "{", .tok "start", .tok ":", .tok "0", .tok ",", .tok "end", .tok ":", .var "end", .tok ",",
        .rep [.var "init", .tok ","] none, .tok "}", .tok "}"]]) (Ex.call ["Ok"] [Ex.unit])))))))))))))))))))) }],
  structs := [],
  consts := [] }

theorem anyVariants12_parsed : parsePiece Text.anyVariants12 = some anyVariants12 := by derive_rfl

def anyVariants13 : File := {
  fns := [
    { ty := "", name := "set_storage_iter", params := ["cx", "assoc_type", "fields", "output"],
      body := Ex.letIn (Pat.bind "type_name") (Ex.mac "format_ident" [Ex.str "{SET_STORAGE}{assoc_type}"]) (Ex.letIn (Pat.bind "assoc_type") (Ex.call ["syn", "Ident", "new"] [Ex.path ["assoc_type"],
        Ex.call ["Span", "call_site"] []]) (Ex.letIn (Pat.bind "lt") (Ex.field (Ex.path ["cx"]) "lt") (Ex.letIn (Pat.bind "ident") (Ex.field (Ex.field (Ex.path ["cx"]) "ast") "ident") (Ex.letIn (Pat.bind "vis") (Ex.field (Ex.field (Ex.path ["cx"]) "ast") "vis") (Ex.letIn (Pat.bind "bool_type") (Ex.method (Ex.field (Ex.path ["cx"]) "toks") "bool_type" []) (Ex.letIn (Pat.bind "clone_t") (Ex.method (Ex.field (Ex.path ["cx"]) "toks") "clone_t" []) (Ex.letIn (Pat.bind "double_ended_iterator_t") (Ex.method (Ex.field (Ex.path ["cx"]) "toks") "double_ended_iterator_t" []) (Ex.letIn (Pat.bind "iterator_t") (Ex.method (Ex.field (Ex.path ["cx"]) "toks") "iterator_t" []) (Ex.letIn (Pat.bind "mem") (Ex.method (Ex.field (Ex.path ["cx"]) "toks") "mem" []) (Ex.letIn (Pat.bind "option") (Ex.method (Ex.field (Ex.path ["cx"]) "toks") "option" []) (Ex.letIn (Pat.bind "step_forward") (Ex.call ["IteratorNext",
        "default"] []) (Ex.letIn (Pat.bind "step_backward") (Ex.call ["IteratorNextBack", "default"] []) (Ex.letIn (Pat.bind "field_decls") (Ex.call ["Vec",
        "new"] []) (Ex.letIn (Pat.bind "init") (Ex.call ["Vec", "new"] []) (Ex.seq (Ex.for (Pat.struct ["Field"] ["span", "index", "name", "var",
        "kind"]) (Ex.path ["fields"]) (Ex.cases (Ex.path ["kind"]) [(Pat.con ["Kind", "Simple"] [], Ex.seq (Ex.method (Ex.path ["field_decls"]) "push" [Ex.quote [.var "name", .tok ":",
        .var "bool_type"]]) (Ex.seq (Ex.method (Ex.path ["init"]) "push" [Ex.quote [.var "name", .tok ":", .tok "self", .tok ".",
        .var "name"]]) (Ex.seq (Ex.method (Ex.field (Ex.path ["step_forward"]) "next") "push" [Ex.quote [.var "index", .tok "=>", .tok "{", .tok "if", .var "mem", .tok "::", .tok "take", .tok "(",
        .tok "&", .tok "mut", .tok "self", .tok ".", .var "name", .tok ")", .tok "{", .tok "return", .var "option", .tok "::", .tok "Some", .tok "(", .var "ident", .tok "::", .var "var", .tok ")",
        .tok ";", .tok "}", .tok "}"]]) (Ex.seq (Ex.method (Ex.field (Ex.path ["step_backward"]) "next") "push" [Ex.quote [.var "index", .tok "=>", .tok "{", .tok "if", .var "mem", .tok "::",
        .tok "take", .tok "(", .tok "&", .tok "mut", .tok "self", .tok ".", .var "name", .tok ")", .tok "{", .tok "return", .var "option", .tok "::", .tok "Some", .tok "(", .var "ident", .tok "::",
        .var "var", .tok ")", .tok ";", .tok "}", .tok "}"]]) (Ex.unit))))), (Pat.con ["Kind", "Complex"] [Pat.struct ["Complex"] ["as_set_storage"]],
        Ex.seq (Ex.method (Ex.path ["field_decls"]) "push" [Ex.quote [.var "name", .tok ":", .var "as_set_storage", .tok "::", .var "assoc_type", .tok "<", .var "lt",
        .tok ">"]]) (Ex.seq (Ex.method (Ex.path ["init"]) "push" [Ex.quote [.var "name", .tok ":", .var "as_set_storage", .tok "::", .tok "iter", .tok "(", .tok "&", .tok "self", .tok ".",
        .var "name", .tok ")"]]) (Ex.seq (Ex.method (Ex.field (Ex.path ["step_forward"]) "next") "push" [Ex.quote [.var "index", .tok "=>", .tok "{", .tok "if", .tok "let", .var "option", .tok "::",
        .tok "Some", .tok "(", .tok "key", .tok ")", .tok "=", .var "iterator_t", .tok "::", .tok "next", .tok "(", .tok "&", .tok "mut", .tok "self", .tok ".", .var "name", .tok ")", .tok "{",
        .tok "return", .var "option", .tok "::", .tok "Some", .tok "(", .var "ident", .tok "::", .var "var", .tok "(", .tok "key", .tok ")", .tok ")", .tok ";", .tok "}",
        .tok "}"]]) (Ex.seq (Ex.method (Ex.field (Ex.path ["step_backward"]) "next") "push" [Ex.quote [.var "index", .tok "=>", .tok "{", .tok "if", .tok "let", .var "option", .tok "::", .tok "Some",
        .tok "(", .tok "key", .tok ")", .tok "=", .var "double_ended_iterator_t", .tok "::", .tok "next_back", .tok "(", .tok "&", .tok "mut", .tok "self", .tok ".", .var "name", .tok ")", .tok "{",
        .tok "return", .var "option", .tok "::", .tok "Some", .tok "(", .var "ident", .tok "::", .var "var", .tok "(", .tok "key", .tok ")", .tok ")", .tok ";", .tok "}",
        .tok "}"]]) (Ex.letIn (Pat.bind "where_clause") (Ex.method (Ex.path ["step_backward"]) "make_where_clause" []) (Ex.letIn (Pat.bind "assoc_type") (Ex.quote [.var "as_set_storage", .tok "::",
        .var "assoc_type", .tok "<", .var "lt", .tok ">"]) (Ex.seq (Ex.method (Ex.field (Ex.path ["where_clause"]) "predicates") "push" [Ex.try (Ex.method (Ex.path ["cx"]) "fallible" [Ex.lambda [] (Ex.call ["syn",
        "parse2"] [Ex.quote [.var "assoc_type", .tok ":", .var "double_ended_iterator_t", .tok "<", .tok "Item", .tok "=", .tok "<", .var "assoc_type", .tok "as", .var "iterator_t", .tok ">",
        .tok "::", .tok "Item", .tok ">"]])])]) (Ex.unit))))))))])) (Ex.letIn (Pat.bind "double_ended_where_clause") (Ex.field (Ex.path ["step_backward"]) "where_clause") (Ex.letIn (Pat.bind "names") (Ex.method (Ex.path ["fields"]) "names" []) (Ex.seq (Ex.method (Ex.field (Ex.path ["output"]) "impls") "extend" [Ex.quote [.var "vis",
        .tok "struct", .var "type_name", .tok "<", .var "lt", .tok ">", .tok "{", .tok "start", .tok ":", .tok "usize", .tok ",", .tok "end", .tok ":", .tok "usize", .tok ",",
        .rep [.var "field_decls", .tok ","] none, .tok "}", .tok "#", .tok "[", .tok "automatically_derived", .tok "]", .tok "impl", .tok "<", .var "lt", .tok ">", .var "clone_t", .tok "for",
        .var "type_name", .tok "<", .var "lt", .tok ">", .tok "{", .tok "#", .tok "[", .tok "inline", .tok "]", .tok "fn", .tok "clone", .tok "(", .tok "&", .tok "self", .tok ")", .tok "->",
        .tok "Self", .tok "{", .tok "Self", .tok "{", .tok "start", .tok ":", .tok "self", .tok ".", .tok "start", .tok ",", .tok "end", .tok ":", .tok "self", .tok ".", .tok "end", .tok ",",
        .rep [.var "names", .tok ":", .var "clone_t", .tok "::", .tok "clone", .tok "(", .tok "&", .tok "self", .tok ".", .var "names", .tok ")", .tok ","] none, .tok "}", .tok "}", .tok "}",
        .tok "#", .tok "[", .tok "automatically_derived", .tok "]", .tok "impl", .tok "<", .var "lt", .tok ">", .var "iterator_t", .tok "for", .var "type_name", .tok "<", .var "lt", .tok ">",
        .tok "{", .tok "type", .tok "Item", .tok "=", .var "ident", .tok ";", .tok "#", .tok "[", .tok "inline", .tok "]", .tok "fn", .tok "next", .tok "(", .tok "&", .tok "mut", .tok "self",
        .tok ")", .tok "->", .var "option", .tok "<", .tok "Self", .tok "::", .tok "Item", .tok ">", .tok "{", .var "step_forward", .var "option", .tok "::", .tok "None", .tok "}", .tok "}",
        .tok "#", .tok "[", .tok "automatically_derived", .tok "]", .tok "impl", .tok "<", .var "lt", .tok ">", .var "double_ended_iterator_t", .tok "for", .var "type_name", .tok "<", .var "lt",
        .tok ">", .var "double_ended_where_clause", .tok "{", .tok "#", .tok "[", .tok "inline", .tok "]", .tok "fn", .tok "next_back", .tok "(", .tok "&", .tok "mut", .tok "self", .tok ")",
        .tok "->", .var "option", .tok "<", .tok "Self", .tok "::", .tok "Item", .tok ">", .tok "{", .var "step_backward", .var "option", .tok "::", .tok "None", .tok "}",
        .tok "}"]]) (Ex.letIn (Pat.bind "end") (Ex.method (Ex.path ["fields"]) "len" []) (Ex.seq (Ex.method (Ex.field (Ex.path ["output"]) "items") "extend" [Ex.quote [.tok "type", .var "assoc_type",
        .tok "<", .var "lt", .tok ">", .tok "=", .var "type_name", .tok "<", .var "lt", .tok ">", .tok ";", .tok "#", .tok "[", .tok "inline", .tok "]", .tok "fn", .tok "iter", .tok "(", .tok "&",
        .tok "self", .tok ")", .tok "->", .tok "Self", .tok "::", .var "assoc_type", .tok "<", .tok "'_", .tok ">", .tok "{", .var "type_name", .tok "{", .tok "start", .tok ":", .tok "0", .tok ",",
        .tok "end", .tok ":", .var "end", .tok ",", .rep [.var "init", .tok ","] none, .tok "}", .tok "}"]]) (Ex.call ["Ok"] [Ex.unit]))))))))))))))))))))) }],
  structs := [],
  consts := [] }

theorem anyVariants13_parsed : parsePiece Text.anyVariants13 = some anyVariants13 := by derive_rfl

def anyVariants14 : File := {
  fns := [
    { ty := "", name := "set_storage_into_iter", params := ["cx", "assoc_type", "fields", "output"],
      body := Ex.letIn (Pat.bind "type_name") (Ex.mac "format_ident" [Ex.str "{SET_STORAGE}{assoc_type}"]) (Ex.letIn (Pat.bind "assoc_type") (Ex.call ["syn", "Ident", "new"] [Ex.path ["assoc_type"],
        Ex.call ["Span", "call_site"] []]) (Ex.letIn (Pat.bind "ident") (Ex.field (Ex.field (Ex.path ["cx"]) "ast") "ident") (Ex.letIn (Pat.bind "vis") (Ex.field (Ex.field (Ex.path ["cx"]) "ast") "vis") (Ex.letIn (Pat.bind "bool_type") (Ex.method (Ex.field (Ex.path ["cx"]) "toks") "bool_type" []) (Ex.letIn (Pat.bind "clone_t") (Ex.method (Ex.field (Ex.path ["cx"]) "toks") "clone_t" []) (Ex.letIn (Pat.bind "double_ended_iterator_t") (Ex.method (Ex.field (Ex.path ["cx"]) "toks") "double_ended_iterator_t" []) (Ex.letIn (Pat.bind "iterator_t") (Ex.method (Ex.field (Ex.path ["cx"]) "toks") "iterator_t" []) (Ex.letIn (Pat.bind "mem") (Ex.method (Ex.field (Ex.path ["cx"]) "toks") "mem" []) (Ex.letIn (Pat.bind "option") (Ex.method (Ex.field (Ex.path ["cx"]) "toks") "option" []) (Ex.letIn (Pat.bind "step_forward") (Ex.call ["IteratorNext",
        "default"] []) (Ex.letIn (Pat.bind "step_backward") (Ex.call ["IteratorNextBack", "default"] []) (Ex.letIn (Pat.bind "field_decls") (Ex.call ["Vec",
        "new"] []) (Ex.letIn (Pat.bind "init") (Ex.call ["Vec", "new"] []) (Ex.seq (Ex.for (Pat.struct ["Field"] ["span", "index", "name", "var",
        "kind"]) (Ex.path ["fields"]) (Ex.cases (Ex.path ["kind"]) [(Pat.con ["Kind", "Simple"] [], Ex.seq (Ex.method (Ex.path ["field_decls"]) "push" [Ex.quote [.var "name", .tok ":",
        .var "bool_type"]]) (Ex.seq (Ex.method (Ex.path ["init"]) "push" [Ex.quote [.var "name", .tok ":", .tok "self", .tok ".",
        .var "name"]]) (Ex.seq (Ex.method (Ex.field (Ex.path ["step_forward"]) "next") "push" [Ex.quote [.var "index", .tok "=>", .tok "{", .tok "if", .var "mem", .tok "::", .tok "take", .tok "(",
        .tok "&", .tok "mut", .tok "self", .tok ".", .var "name", .tok ")", .tok "{", .tok "return", .var "option", .tok "::", .tok "Some", .tok "(", .var "ident", .tok "::", .var "var", .tok ")",
        .tok ";", .tok "}", .tok "}"]]) (Ex.seq (Ex.method (Ex.field (Ex.path ["step_backward"]) "next") "push" [Ex.quote [.var "index", .tok "=>", .tok "{", .tok "if", .var "mem", .tok "::",
        .tok "take", .tok "(", .tok "&", .tok "mut", .tok "self", .tok ".", .var "name", .tok ")", .tok "{", .tok "return", .var "option", .tok "::", .tok "Some", .tok "(", .var "ident", .tok "::",
        .var "var", .tok ")", .tok ";", .tok "}", .tok "}"]]) (Ex.unit))))), (Pat.con ["Kind", "Complex"] [Pat.struct ["Complex"] ["as_set_storage"]],
        Ex.seq (Ex.method (Ex.path ["field_decls"]) "push" [Ex.quote [.var "name", .tok ":", .var "as_set_storage", .tok "::",
        .var "assoc_type"]]) (Ex.seq (Ex.method (Ex.path ["init"]) "push" [Ex.quote [.var "name", .tok ":", .var "as_set_storage", .tok "::", .tok "into_iter", .tok "(", .tok "self", .tok ".",
        .var "name", .tok ")"]]) (Ex.seq (Ex.method (Ex.field (Ex.path ["step_forward"]) "next") "push" [Ex.quote [.var "index", .tok "=>", .tok "{", .tok "if", .tok "let", .var "option", .tok "::",
        .tok "Some", .tok "(", .tok "key", .tok ")", .tok "=", .var "iterator_t", .tok "::", .tok "next", .tok "(", .tok "&", .tok "mut", .tok "self", .tok ".", .var "name", .tok ")", .tok "{",
        .tok "return", .var "option", .tok "::", .tok "Some", .tok "(", .var "ident", .tok "::", .var "var", .tok "(", .tok "key", .tok ")", .tok ")", .tok ";", .tok "}",
        .tok "}"]]) (Ex.seq (Ex.method (Ex.field (Ex.path ["step_backward"]) "next") "push" [Ex.quote [.var "index", .tok "=>", .tok "{", .tok "if", .tok "let", .var "option", .tok "::", .tok "Some",
        .tok "(", .tok "key", .tok ")", .tok "=", .var "double_ended_iterator_t", .tok "::", .tok "next_back", .tok "(", .tok "&", .tok "mut", .tok "self", .tok ".", .var "name", .tok ")", .tok "{",
        .tok "return", .var "option", .tok "::", .tok "Some", .tok "(", .var "ident", .tok "::", .var "var", .tok "(", .tok "key", .tok ")", .tok ")", .tok ";", .tok "}",
        .tok "}"]]) (Ex.letIn (Pat.bind "where_clause") (Ex.method (Ex.path ["step_backward"]) "make_where_clause" []) (Ex.letIn (Pat.bind "assoc_type") (Ex.quote [.var "as_set_storage", .tok "::",
        .var "assoc_type"]) (Ex.seq (Ex.method (Ex.field (Ex.path ["where_clause"]) "predicates") "push" [Ex.try (Ex.method (Ex.path ["cx"]) "fallible" [Ex.lambda [] (Ex.call ["syn",
        "parse2"] [Ex.quote [.tok "for", .tok "<", .tok "'trivial_bounds", .tok ">", .var "assoc_type", .tok ":", .var "double_ended_iterator_t", .tok "<", .tok "Item", .tok "=", .tok "<",
        .var "assoc_type", .tok "as", .var "iterator_t", .tok ">", .tok "::", .tok "Item",
        .tok ">"]])])]) (Ex.unit))))))))])) (Ex.letIn (Pat.bind "names") (Ex.method (Ex.path ["fields"]) "names" []) (Ex.seq (Ex.method (Ex.field (Ex.path ["output"]) "impls") "extend" [Ex.quote [.var "vis",
        .tok "struct", .var "type_name", .tok "{", .tok "start", .tok ":", .tok "usize", .tok ",", .tok "end", .tok ":", .tok "usize", .tok ",", .rep [.var "field_decls", .tok ","] none,
        .tok "}"]]) (Ex.seq (Ex.letIn (Pat.bind "bounds") (Ex.method (Ex.method (Ex.path ["fields"]) "complex" []) "map" [Ex.lambda [Pat.struct ["Complex"] ["as_set_storage"]] (Ex.quote [.var "as_set_storage",
        .tok "::", .var "assoc_type"])]) (Ex.seq (Ex.method (Ex.field (Ex.path ["output"]) "impls") "extend" [Ex.quote [.tok "#", .tok "[", .tok "automatically_derived", .tok "]", .tok "impl",
        .var "clone_t", .tok "for", .var "type_name", .tok "where", .rep [.tok "for", .tok "<", .tok "'trivial_bounds", .tok ">", .var "bounds", .tok ":", .var "clone_t", .tok ","] none, .tok "{",
        .tok "#", .tok "[", .tok "inline", .tok "]", .tok "fn", .tok "clone", .tok "(", .tok "&", .tok "self", .tok ")", .tok "->", .tok "Self", .tok "{", .tok "Self", .tok "{", .tok "start",
        .tok ":", .tok "self", .tok ".", .tok "start", .tok ",", .tok "end", .tok ":", .tok "self", .tok ".", .tok "end", .tok ",", .rep [.var "names", .tok ":", .var "clone_t", .tok "::",
        .tok "clone", .tok "(", .tok "&", .tok "self", .tok ".", .var "names", .tok ")", .tok ","] none, .tok "}", .tok "}",
        .tok "}"]]) (Ex.unit))) (Ex.seq (Ex.method (Ex.field (Ex.path ["output"]) "impls") "extend" [Ex.quote [.tok "#", .tok "[", .tok "automatically_derived", .tok "]", .tok "impl",
        .var "iterator_t", .tok "for", .var "type_name", .tok "{", .tok "type", .tok "Item", .tok "=", .var "ident", .tok ";", .tok "#", .tok "[", .tok "inline", .tok "]", .tok "fn", .tok "next",
        .tok "(", .tok "&", .tok "mut", .tok "self", .tok ")", .tok "->", .var "option", .tok "<", .tok "Self", .tok "::", .tok "Item", .tok ">", .tok "{", .var "step_forward", .var "option",
        .tok "::", .tok "None", .tok "}", .tok "}"]]) (Ex.letIn (Pat.bind "double_ended_where_clause") (Ex.field (Ex.path ["step_backward"]) "where_clause") (Ex.seq (Ex.method (Ex.field (Ex.path ["output"]) "impls") "extend" [Ex.quote [.tok "#",
        .tok "[", .tok "automatically_derived", .tok "]", .tok "impl", .var "double_ended_iterator_t", .tok "for", .var "type_name", .var "double_ended_where_clause", .tok "{", .tok "#", .tok "[",
        .tok "inline", .tok "]", .tok "fn", .tok "next_back", .tok "(", .tok "&", .tok "mut", .tok "self", .tok ")", .tok "->", .var "option", .tok "<", .tok "Self", .tok "::", .tok "Item", .tok ">",
        .tok "{", .var "step_backward", .var "option", .tok "::", .tok "None", .tok "}",
        .tok "}"]]) (Ex.letIn (Pat.bind "end") (Ex.method (Ex.path ["fields"]) "len" []) (Ex.seq (Ex.method (Ex.field (Ex.path ["output"]) "items") "extend" [Ex.quote [.tok "type", .var "assoc_type",
        .tok "=", .var "type_name", .tok ";", .tok "#", .tok "[", .tok "inline", .tok "]", .tok "fn", .tok "into_iter", .tok "(", .tok "self", .tok ")", .tok "->", .tok "Self", .tok "::",
        .var "assoc_type", .tok "{", .var "type_name", .tok "{", .tok "start", .tok ":", .tok "0", .tok ",", .tok "end", .tok ":", .var "end", .tok ",", .rep [.var "init", .tok ","] none, .tok "}",
        .tok "}"]]) (Ex.call ["Ok"] [Ex.unit]))))))))))))))))))))))) }],
  structs := [],
  consts := [] }

theorem anyVariants14_parsed : parsePiece Text.anyVariants14 = some anyVariants14 := by derive_rfl

def anyVariants15 : File := {
  fns := [
    { ty := "IteratorNext", name := "to_tokens", params := ["self", "tokens"],
      body := Ex.letIn (Pat.bind "iter_next") (Ex.field (Ex.path ["self"]) "next") (Ex.seq (Ex.method (Ex.path ["tokens"]) "extend" [Ex.quote [.tok "while", .tok "self", .tok ".", .tok "start",
        .tok "<", .tok "self", .tok ".", .tok "end", .tok "{", .tok "match", .tok "self", .tok ".", .tok "start", .tok "{", .rep [.var "iter_next", .tok ","] none, .tok "_", .tok "=>", .tok "break",
        .tok ",", .tok "}", .tok "self", .tok ".", .tok "start", .tok "=", .tok "usize", .tok "::", .tok "min", .tok "(", .tok "self", .tok ".", .tok "start", .tok ".", .tok "wrapping_add", .tok "(",
        .tok "1", .tok ")", .tok ",", .tok "self", .tok ".", .tok "end", .tok ")", .tok ";", .tok "}"]]) (Ex.unit)) },
    { ty := "IteratorNextBack", name := "make_where_clause", params := ["self"],
      body := Ex.method (Ex.field (Ex.path ["self"]) "where_clause") "get_or_insert_with" [Ex.lambda [] (Ex.struct ["syn", "WhereClause"] [("where_token", Ex.call ["syn", "default"] []),
        ("predicates", Ex.call ["Punctuated", "new"] [])])] },
    { ty := "IteratorNextBack", name := "to_tokens", params := ["self", "tokens"],
      body := Ex.letIn (Pat.bind "iter_next") (Ex.field (Ex.path ["self"]) "next") (Ex.seq (Ex.method (Ex.path ["tokens"]) "extend" [Ex.quote [.tok "while", .tok "self", .tok ".", .tok "start",
        .tok "<", .tok "self", .tok ".", .tok "end", .tok "{", .tok "let", .tok "next", .tok "=", .tok "self", .tok ".", .tok "end", .tok ".", .tok "wrapping_sub", .tok "(", .tok "1", .tok ")",
        .tok ";", .tok "match", .tok "next", .tok "{", .rep [.var "iter_next", .tok ","] none, .tok "_", .tok "=>", .tok "break", .tok ",", .tok "}", .tok "self", .tok ".", .tok "end", .tok "=",
        .tok "usize", .tok "::", .tok "max", .tok "(", .tok "next", .tok ",", .tok "self", .tok ".", .tok "start", .tok ")", .tok ";", .tok "}"]]) (Ex.unit)) }],
  structs := [("IteratorNext", [("next", "Vec")]), ("IteratorNextBack", [("next", "Vec"), ("where_clause", "Option")])],
  consts := [] }

theorem anyVariants15_parsed : parsePiece Text.anyVariants15 = some anyVariants15 := by derive_rfl

def anyVariants16 : File := {
  fns := [
    { ty := "", name := "map_storage_entry", params := ["cx", "fields", "map_storage", "output"],
      body := Ex.letIn (Pat.bind "ident") (Ex.field (Ex.field (Ex.path ["cx"]) "ast") "ident") (Ex.letIn (Pat.bind "vis") (Ex.field (Ex.field (Ex.path ["cx"]) "ast") "vis") (Ex.letIn (Pat.bind "lt") (Ex.field (Ex.path ["cx"]) "lt") (Ex.letIn (Pat.bind "entry_enum") (Ex.method (Ex.field (Ex.path ["cx"]) "toks") "entry_enum" []) (Ex.letIn (Pat.bind "occupied_entry_t") (Ex.method (Ex.field (Ex.path ["cx"]) "toks") "occupied_entry_t" []) (Ex.letIn (Pat.bind "option") (Ex.method (Ex.field (Ex.path ["cx"]) "toks") "option" []) (Ex.letIn (Pat.bind "option_bucket_none") (Ex.method (Ex.field (Ex.path ["cx"]) "toks") "option_bucket_none" []) (Ex.letIn (Pat.bind "option_bucket_option") (Ex.method (Ex.field (Ex.path ["cx"]) "toks") "option_bucket_option" []) (Ex.letIn (Pat.bind "option_bucket_some") (Ex.method (Ex.field (Ex.path ["cx"]) "toks") "option_bucket_some" []) (Ex.letIn (Pat.bind "map_storage_t") (Ex.method (Ex.field (Ex.path ["cx"]) "toks") "map_storage_t" []) (Ex.letIn (Pat.bind "vacant_entry_t") (Ex.method (Ex.field (Ex.path ["cx"]) "toks") "vacant_entry_t" []) (Ex.letIn (Pat.bind "init") (Ex.call ["Vec",
        "new"] []) (Ex.letIn (Pat.bind "occupied_variant") (Ex.call ["Vec", "new"] []) (Ex.letIn (Pat.bind "vacant_variant") (Ex.call ["Vec",
        "new"] []) (Ex.letIn (Pat.bind "vacant_key") (Ex.call ["Vec", "new"] []) (Ex.letIn (Pat.bind "vacant_insert") (Ex.call ["Vec", "new"] []) (Ex.letIn (Pat.bind "occupied_key") (Ex.call ["Vec",
        "new"] []) (Ex.letIn (Pat.bind "occupied_get") (Ex.call ["Vec", "new"] []) (Ex.letIn (Pat.bind "occupied_get_mut") (Ex.call ["Vec",
        "new"] []) (Ex.letIn (Pat.bind "occupied_into_mut") (Ex.call ["Vec", "new"] []) (Ex.letIn (Pat.bind "occupied_insert") (Ex.call ["Vec",
        "new"] []) (Ex.letIn (Pat.bind "occupied_remove") (Ex.call ["Vec", "new"] []) (Ex.seq (Ex.for (Pat.struct ["Field"] ["name", "kind",
        "var"]) (Ex.path ["fields"]) (Ex.letIn (Pat.bind "pattern") (Ex.quote [.var "ident", .tok "::", .var "var"]) (Ex.cases (Ex.path ["kind"]) [(Pat.con ["Kind", "Simple"] [],
        Ex.seq (Ex.method (Ex.path ["init"]) "push" [Ex.quote [.var "pattern", .tok "=>", .tok "option_to_entry", .tok "(", .tok "&", .tok "mut", .tok "self", .tok ".", .var "name", .tok ",",
        .tok "key", .tok ")"]]) (Ex.unit)), (Pat.con ["Kind", "Complex"] [Pat.struct ["Complex"] ["element", "map_storage"]], Ex.letIn (Pat.bind "as_map_storage") (Ex.quote [.tok "<",
        .var "map_storage", .tok "as", .var "map_storage_t", .tok "<", .var "element", .tok ",", .tok "V", .tok ">",
        .tok ">"]) (Ex.seq (Ex.method (Ex.path ["occupied_variant"]) "push" [Ex.quote [.var "name", .tok "(", .var "as_map_storage", .tok "::", .tok "Occupied", .tok "<", .var "lt", .tok ">",
        .tok ")"]]) (Ex.seq (Ex.method (Ex.path ["vacant_variant"]) "push" [Ex.quote [.var "name", .tok "(", .var "as_map_storage", .tok "::", .tok "Vacant", .tok "<", .var "lt", .tok ">",
        .tok ")"]]) (Ex.seq (Ex.method (Ex.path ["init"]) "push" [Ex.quote [.var "pattern", .tok "(", .tok "key", .tok ")", .tok "=>", .tok "match", .var "map_storage_t", .tok "::", .tok "entry",
        .tok "(", .tok "&", .tok "mut", .tok "self", .tok ".", .var "name", .tok ",", .tok "key", .tok ")", .tok "{", .var "entry_enum", .tok "::", .tok "Occupied", .tok "(", .tok "entry", .tok ")",
        .tok "=>", .var "entry_enum", .tok "::", .tok "Occupied", .tok "(", .tok "OccupiedEntry", .tok "::", .var "name", .tok "(", .tok "entry", .tok ")", .tok ")", .tok ",", .var "entry_enum",
        .tok "::", .tok "Vacant", .tok "(", .tok "entry", .tok ")", .tok "=>", .var "entry_enum", .tok "::", .tok "Vacant", .tok "(", .tok "VacantEntry", .tok "::", .var "name", .tok "(",
        .tok "entry", .tok ")", .tok ")", .tok ",", .tok "}"]]) (Ex.letIn (Pat.bind "as_vacant_entry") (Ex.quote [.tok "<", .var "as_map_storage", .tok "::", .tok "Vacant", .tok "<", .var "lt",
        .tok ">", .tok "as", .var "vacant_entry_t", .tok "<", .var "lt", .tok ",", .var "element", .tok ",", .tok "V", .tok ">",
        .tok ">"]) (Ex.seq (Ex.method (Ex.path ["vacant_key"]) "push" [Ex.quote [.tok "VacantEntry", .tok "::", .var "name", .tok "(", .tok "entry", .tok ")", .tok "=>", .var "pattern", .tok "(",
        .var "as_vacant_entry", .tok "::", .tok "key", .tok "(", .tok "entry", .tok ")", .tok ")"]]) (Ex.seq (Ex.method (Ex.path ["vacant_insert"]) "push" [Ex.quote [.tok "VacantEntry", .tok "::",
        .var "name", .tok "(", .tok "entry", .tok ")", .tok "=>", .var "as_vacant_entry", .tok "::", .tok "insert", .tok "(", .tok "entry", .tok ",", .tok "value",
        .tok ")"]]) (Ex.letIn (Pat.bind "as_occupied_entry") (Ex.quote [.tok "<", .var "as_map_storage", .tok "::", .tok "Occupied", .tok "<", .var "lt", .tok ">", .tok "as", .var "occupied_entry_t",
        .tok "<", .var "lt", .tok ",", .var "element", .tok ",", .tok "V", .tok ">", .tok ">"]) (Ex.seq (Ex.method (Ex.path ["occupied_key"]) "push" [Ex.quote [.tok "OccupiedEntry", .tok "::",
        .var "name", .tok "(", .tok "entry", .tok ")", .tok "=>", .var "pattern", .tok "(", .var "as_occupied_entry", .tok "::", .tok "key", .tok "(", .tok "entry", .tok ")",
        .tok ")"]]) (Ex.seq (Ex.method (Ex.path ["occupied_get"]) "push" [Ex.quote [.tok "OccupiedEntry", .tok "::", .var "name", .tok "(", .tok "entry", .tok ")", .tok "=>",
        .var "as_occupied_entry", .tok "::", .tok "get", .tok "(", .tok "entry", .tok ")"]]) (Ex.seq (Ex.method (Ex.path ["occupied_get_mut"]) "push" [Ex.quote [.tok "OccupiedEntry", .tok "::",
        .var "name", .tok "(", .tok "entry", .tok ")", .tok "=>", .var "as_occupied_entry", .tok "::", .tok "get_mut", .tok "(", .tok "entry",
        .tok ")"]]) (Ex.seq (Ex.method (Ex.path ["occupied_into_mut"]) "push" [Ex.quote [.tok "OccupiedEntry", .tok "::", .var "name", .tok "(", .tok "entry", .tok ")", .tok "=>",
        .var "as_occupied_entry", .tok "::", .tok "into_mut", .tok "(", .tok "entry", .tok ")"]]) (Ex.seq (Ex.method (Ex.path ["occupied_insert"]) "push" [Ex.quote [.tok "OccupiedEntry", .tok "::",
        .var "name", .tok "(", .tok "entry", .tok ")", .tok "=>", .var "as_occupied_entry", .tok "::", .tok "insert", .tok "(", .tok "entry", .tok ",", .tok "value",
        .tok ")"]]) (Ex.seq (Ex.method (Ex.path ["occupied_remove"]) "push" [Ex.quote [.tok "OccupiedEntry", .tok "::", .var "name", .tok "(", .tok "entry", .tok ")", .tok "=>",
        .var "as_occupied_entry", .tok "::", .tok "remove", .tok "(", .tok "entry",
        .tok ")"]]) (Ex.unit)))))))))))))))]))) (Ex.seq (Ex.method (Ex.field (Ex.path ["output"]) "impls") "extend" [Ex.quote [.var "vis", .tok "struct", .tok "SimpleVacantEntry", .tok "<",
        .var "lt", .tok ",", .tok "V", .tok ">", .tok "{", .tok "key", .tok ":", .var "ident", .tok ",", .tok "inner", .tok ":", .var "option_bucket_none", .tok "<", .var "lt", .tok ",", .tok "V",
        .tok ">", .tok ",", .tok "}", .tok "impl", .tok "<", .var "lt", .tok ",", .tok "V", .tok ">", .tok "SimpleVacantEntry", .tok "<", .var "lt", .tok ",", .tok "V", .tok ">", .tok "{", .tok "#",
        .tok "[", .tok "inline", .tok "]", .tok "fn", .tok "insert", .tok "(", .tok "self", .tok ",", .tok "value", .tok ":", .tok "V", .tok ")", .tok "->", .tok "&", .var "lt", .tok "mut", .tok "V",
        .tok "{", .var "option_bucket_none", .tok "::", .tok "insert", .tok "(", .tok "self", .tok ".", .tok "inner", .tok ",", .tok "value", .tok ")", .tok "}", .tok "}", .var "vis", .tok "struct",
        .tok "SimpleOccupiedEntry", .tok "<", .var "lt", .tok ",", .tok "V", .tok ">", .tok "{", .tok "key", .tok ":", .var "ident", .tok ",", .tok "inner", .tok ":", .var "option_bucket_some",
        .tok "<", .var "lt", .tok ",", .tok "V", .tok ">", .tok ",", .tok "}", .tok "impl", .tok "<", .var "lt", .tok ",", .tok "V", .tok ">", .tok "SimpleOccupiedEntry", .tok "<", .var "lt",
        .tok ",", .tok "V", .tok ">", .tok "{", .tok "#", .tok "[", .tok "inline", .tok "]", .tok "fn", .tok "get", .tok "(", .tok "&", .tok "self", .tok ")", .tok "->", .tok "&", .tok "V", .tok "{",
        .var "option_bucket_some", .tok "::", .tok "as_ref", .tok "(", .tok "&", .tok "self", .tok ".", .tok "inner", .tok ")", .tok "}", .tok "#", .tok "[", .tok "inline", .tok "]", .tok "fn",
        .tok "get_mut", .tok "(", .tok "&", .tok "mut", .tok "self", .tok ")", .tok "->", .tok "&", .tok "mut", .tok "V", .tok "{", .var "option_bucket_some", .tok "::", .tok "as_mut", .tok "(",
        .tok "&", .tok "mut", .tok "self", .tok ".", .tok "inner", .tok ")", .tok "}", .tok "#", .tok "[", .tok "inline", .tok "]", .tok "fn", .tok "into_mut", .tok "(", .tok "self", .tok ")",
        .tok "->", .tok "&", .var "lt", .tok "mut", .tok "V", .tok "{", .var "option_bucket_some", .tok "::", .tok "into_mut", .tok "(", .tok "self", .tok ".", .tok "inner", .tok ")", .tok "}",
        .tok "#", .tok "[", .tok "inline", .tok "]", .tok "fn", .tok "insert", .tok "(", .tok "&", .tok "mut", .tok "self", .tok ",", .tok "value", .tok ":", .tok "V", .tok ")", .tok "->", .tok "V",
        .tok "{", .var "option_bucket_some", .tok "::", .tok "replace", .tok "(", .tok "&", .tok "mut", .tok "self", .tok ".", .tok "inner", .tok ",", .tok "value", .tok ")", .tok "}", .tok "#",
        .tok "[", .tok "inline", .tok "]", .tok "fn", .tok "remove", .tok "(", .tok "self", .tok ")", .tok "->", .tok "V", .tok "{", .var "option_bucket_some", .tok "::", .tok "take", .tok "(",
        .tok "self", .tok ".", .tok "inner", .tok ")", .tok "}", .tok "}", .var "vis", .tok "enum", .tok "VacantEntry", .tok "<", .var "lt", .tok ",", .tok "V", .tok ">", .tok "{", .tok "Simple",
        .tok "(", .tok "SimpleVacantEntry", .tok "<", .var "lt", .tok ",", .tok "V", .tok ">", .tok ")", .tok ",", .rep [.var "vacant_variant", .tok ","] none, .tok "}", .var "vis", .tok "enum",
        .tok "OccupiedEntry", .tok "<", .var "lt", .tok ",", .tok "V", .tok ">", .tok "{", .tok "Simple", .tok "(", .tok "SimpleOccupiedEntry", .tok "<", .var "lt", .tok ",", .tok "V", .tok ">",
        .tok ")", .tok ",", .rep [.var "occupied_variant", .tok ","] none, .tok "}", .tok "#", .tok "[", .tok "automatically_derived", .tok "]", .tok "impl", .tok "<", .var "lt", .tok ",", .tok "V",
        .tok ">", .var "vacant_entry_t", .tok "<", .var "lt", .tok ",", .var "ident", .tok ",", .tok "V", .tok ">", .tok "for", .tok "VacantEntry", .tok "<", .var "lt", .tok ",", .tok "V", .tok ">",
        .tok "{", .tok "#", .tok "[", .tok "inline", .tok "]", .tok "fn", .tok "key", .tok "(", .tok "&", .tok "self", .tok ")", .tok "->", .var "ident", .tok "{", .tok "match", .tok "self",
        .tok "{", .tok "VacantEntry", .tok "::", .tok "Simple", .tok "(", .tok "entry", .tok ")", .tok "=>", .tok "entry", .tok ".", .tok "key", .tok ",", .rep [.var "vacant_key", .tok ","] none,
        .tok "}", .tok "}", .tok "#", .tok "[", .tok "inline", .tok "]", .tok "fn", .tok "insert", .tok "(", .tok "self", .tok ",", .tok "value", .tok ":", .tok "V", .tok ")", .tok "->", .tok "&",
        .var "lt", .tok "mut", .tok "V", .tok "{", .tok "match", .tok "self", .tok "{", .tok "VacantEntry", .tok "::", .tok "Simple", .tok "(", .tok "entry", .tok ")", .tok "=>", .tok "entry",
        .tok ".", .tok "insert", .tok "(", .tok "value", .tok ")", .tok ",", .rep [.var "vacant_insert", .tok ","] none, .tok "}", .tok "}", .tok "}", .tok "#", .tok "[",
        .tok "automatically_derived", .tok "]", .tok "impl", .tok "<", .var "lt", .tok ",", .tok "V", .tok ">", .var "occupied_entry_t", .tok "<", .var "lt", .tok ",", .var "ident", .tok ",",
        .tok "V", .tok ">", .tok "for", .tok "OccupiedEntry", .tok "<", .var "lt", .tok ",", .tok "V", .tok ">", .tok "{", .tok "#", .tok "[", .tok "inline", .tok "]", .tok "fn", .tok "key",
        .tok "(", .tok "&", .tok "self", .tok ")", .tok "->", .var "ident", .tok "{", .tok "match", .tok "self", .tok "{", .tok "OccupiedEntry", .tok "::", .tok "Simple", .tok "(", .tok "entry",
        .tok ")", .tok "=>", .tok "entry", .tok ".", .tok "key", .tok ",", .rep [.var "occupied_key", .tok ","] none, .tok "}", .tok "}", .tok "#", .tok "[", .tok "inline", .tok "]", .tok "fn",
        .tok "get", .tok "(", .tok "&", .tok "self", .tok ")", .tok "->", .tok "&", .tok "V", .tok "{", .tok "match", .tok "self", .tok "{", .tok "OccupiedEntry", .tok "::", .tok "Simple", .tok "(",
        .tok "entry", .tok ")", .tok "=>", .tok "entry", .tok ".", .tok "get", .tok "(", .tok ")", .tok ",", .rep [.var "occupied_get", .tok ","] none, .tok "}", .tok "}", .tok "#", .tok "[",
        .tok "inline", .tok "]", .tok "fn", .tok "get_mut", .tok "(", .tok "&", .tok "mut", .tok "self", .tok ")", .tok "->", .tok "&", .tok "mut", .tok "V", .tok "{", .tok "match", .tok "self",
        .tok "{", .tok "OccupiedEntry", .tok "::", .tok "Simple", .tok "(", .tok "entry", .tok ")", .tok "=>", .tok "entry", .tok ".", .tok "get_mut", .tok "(", .tok ")", .tok ",",
        .rep [.var "occupied_get_mut", .tok ","] none, .tok "}", .tok "}", .tok "#", .tok "[", .tok "inline", .tok "]", .tok "fn", .tok "into_mut", .tok "(", .tok "self", .tok ")", .tok "->",
        .tok "&", .var "lt", .tok "mut", .tok "V", .tok "{", .tok "match", .tok "self", .tok "{", .tok "OccupiedEntry", .tok "::", .tok "Simple", .tok "(", .tok "entry", .tok ")", .tok "=>",
        .tok "entry", .tok ".", .tok "into_mut", .tok "(", .tok ")", .tok ",", .rep [.var "occupied_into_mut", .tok ","] none, .tok "}", .tok "}", .tok "#", .tok "[", .tok "inline", .tok "]",
        .tok "fn", .tok "insert", .tok "(", .tok "&", .tok "mut", .tok "self", .tok ",", .tok "value", .tok ":", .tok "V", .tok ")", .tok "->", .tok "V", .tok "{", .tok "match", .tok "self",
        .tok "{", .tok "OccupiedEntry", .tok "::", .tok "Simple", .tok "(", .tok "entry", .tok ")", .tok "=>", .tok "entry", .tok ".", .tok "insert", .tok "(", .tok "value", .tok ")", .tok ",",
        .rep [.var "occupied_insert", .tok ","] none, .tok "}", .tok "}", .tok "#", .tok "[", .tok "inline", .tok "]", .tok "fn", .tok "remove", .tok "(", .tok "self", .tok ")", .tok "->", .tok "V",
        .tok "{", .tok "match", .tok "self", .tok "{", .tok "OccupiedEntry", .tok "::", .tok "Simple", .tok "(", .tok "entry", .tok ")", .tok "=>", .tok "entry", .tok ".", .tok "remove", .tok "(",
        .tok ")", .tok ",", .rep [.var "occupied_remove", .tok ","] none, .tok "}", .tok "}", .tok "}", .tok "#", .tok "[", .tok "inline", .tok "]", .tok "fn", .tok "option_to_entry", .tok "<",
        .tok "V", .tok ">", .tok "(", .tok "opt", .tok ":", .tok "&", .tok "mut", .var "option", .tok "<", .tok "V", .tok ">", .tok ",", .tok "key", .tok ":", .var "ident", .tok ")", .tok "->",
        .var "entry_enum", .tok "<", .tok "'_", .tok ",", .var "map_storage", .tok "<", .tok "V", .tok ">", .tok ",", .var "ident", .tok ",", .tok "V", .tok ">", .tok "{", .tok "match",
        .var "option_bucket_option", .tok "::", .tok "new", .tok "(", .tok "opt", .tok ")", .tok "{", .var "option_bucket_option", .tok "::", .tok "Some", .tok "(", .tok "inner", .tok ")", .tok "=>",
        .var "entry_enum", .tok "::", .tok "Occupied", .tok "(", .tok "OccupiedEntry", .tok "::", .tok "Simple", .tok "(", .tok "SimpleOccupiedEntry", .tok "{", .tok "key", .tok ",", .tok "inner",
        .tok "}", .tok ")", .tok ")", .tok ",", .var "option_bucket_option", .tok "::", .tok "None", .tok "(", .tok "inner", .tok ")", .tok "=>", .var "entry_enum", .tok "::", .tok "Vacant",
        .tok "(", .tok "VacantEntry", .tok "::", .tok "Simple", .tok "(", .tok "SimpleVacantEntry", .tok "{", .tok "key", .tok ",", .tok "inner", .tok "}", .tok ")", .tok ")", .tok ",", .tok "}",
        .tok "}"]]) (Ex.seq (Ex.method (Ex.field (Ex.path ["output"]) "items") "extend" [Ex.quote [.tok "type", .tok "Occupied", .tok "<", .var "lt", .tok ">", .tok "=", .tok "OccupiedEntry",
        .tok "<", .var "lt", .tok ",", .tok "V", .tok ">", .tok "where", .tok "V", .tok ":", .var "lt", .tok ";", .tok "type", .tok "Vacant", .tok "<", .var "lt", .tok ">", .tok "=",
        .tok "VacantEntry", .tok "<", .var "lt", .tok ",", .tok "V", .tok ">", .tok "where", .tok "V", .tok ":", .var "lt", .tok ";", .tok "#", .tok "[", .tok "inline", .tok "]", .tok "fn",
        .tok "entry", .tok "(", .tok "&", .tok "mut", .tok "self", .tok ",", .tok "key", .tok ":", .var "ident", .tok ")", .tok "->", .var "entry_enum", .tok "<", .tok "'_", .tok ",", .tok "Self",
        .tok ",", .var "ident", .tok ",", .tok "V", .tok ">", .tok "{", .tok "match", .tok "key", .tok "{", .rep [.var "init", .tok ","] none, .tok "}", .tok "}"]]) (Ex.call ["Ok"] [Ex.unit]))))))))))))))))))))))))) }],
  structs := [],
  consts := [] }

theorem anyVariants16_parsed : parsePiece Text.anyVariants16 = some anyVariants16 := by derive_rfl

def anyVariants17 : File := {
  fns := [
    { ty := "Fields", name := "names", params := ["self"],
      body := Ex.method (Ex.method (Ex.field (Ex.path ["self"]) "fields") "iter" []) "map" [Ex.lambda [Pat.bind "f"] (Ex.field (Ex.path ["f"]) "name")] },
    { ty := "Fields", name := "complex", params := ["self"],
      body := Ex.method (Ex.method (Ex.field (Ex.path ["self"]) "fields") "iter" []) "filter_map" [Ex.lambda [Pat.bind "f"] (Ex.cases (Ex.field (Ex.path ["f"]) "kind") [(Pat.con ["Kind",
        "Complex"] [Pat.bind "c"], Ex.call ["Some"] [Ex.path ["c"]]), (Pat.con ["Kind", "Simple"] [], Ex.path ["None"])])] },
    { ty := "Fields", name := "iter", params := ["self"],
      body := Ex.method (Ex.field (Ex.path ["self"]) "fields") "iter" [] },
    { ty := "Fields", name := "len", params := ["self"],
      body := Ex.method (Ex.field (Ex.path ["self"]) "fields") "len" [] },
    { ty := "Fields", name := "into_iter", params := ["self"],
      body := Ex.method (Ex.field (Ex.path ["self"]) "fields") "iter" [] }],
  structs := [("Output", [("impls", "TokenStream"), ("items", "TokenStream")]), ("Field", [("span", "Span"), ("index", "usize"), ("name", "syn"), ("var", "&"), ("kind", "Kind")]), ("Complex",
        [("element", "&"), ("map_storage", "TokenStream"), ("as_map_storage", "TokenStream"), ("set_storage", "TokenStream"), ("as_set_storage", "TokenStream")]), ("Fields", [("fields", "Vec"), ("patterns", "Vec")])],
  consts := [] }

theorem anyVariants17_parsed : parsePiece Text.anyVariants17 = some anyVariants17 := by derive_rfl

def unitVariants1 : File := {
  fns := [],
  structs := [],
  consts := [] }

theorem unitVariants1_parsed : parsePiece Text.unitVariants1 = some unitVariants1 := by derive_rfl

def unitVariants2 : File := {
  fns := [
    { ty := "", name := "implement", params := ["cx", "opts", "en"],
      body := Ex.letIn (Pat.bind "map_storage") (Ex.mac "format_ident" [Ex.str "__MapStorage"]) (Ex.letIn (Pat.bind "set_storage") (Ex.mac "format_ident" [Ex.str "__SetStorage"]) (Ex.letIn (Pat.bind "count") (Ex.method (Ex.field (Ex.path ["en"]) "variants") "len" []) (Ex.letIn (Pat.bind "names") (Ex.call ["Vec",
        "with_capacity"] [Ex.path ["count"]]) (Ex.seq (Ex.for (Pat.tuple [Pat.bind "index",
        Pat.wild]) (Ex.method (Ex.method (Ex.field (Ex.path ["en"]) "variants") "iter" []) "enumerate" []) (Ex.seq (Ex.method (Ex.path ["names"]) "push" [Ex.mac "format_ident" [Ex.str "_{}",
        Ex.path ["index"]]]) (Ex.unit))) (Ex.letIn (Pat.bind "entry_impl") (Ex.try (Ex.call ["impl_entry"] [Ex.path ["cx"],
        Ex.path ["map_storage"]])) (Ex.letIn (Pat.bind "map_storage_impl") (Ex.try (Ex.call ["impl_map"] [Ex.path ["cx"], Ex.path ["en"], Ex.path ["map_storage"],
        Ex.path ["names"]])) (Ex.letIn (Pat.bind "set_storage_impl") (Ex.ite (Ex.method (Ex.field (Ex.path ["opts"]) "bitset") "is_some" []) (Ex.try (Ex.call ["impl_bitset"] [Ex.path ["cx"],
        Ex.path ["en"], Ex.path ["set_storage"]])) (Ex.try (Ex.call ["impl_set"] [Ex.path ["cx"], Ex.path ["en"], Ex.path ["set_storage"],
        Ex.path ["names"]]))) (Ex.letIn (Pat.bind "ident") (Ex.field (Ex.field (Ex.path ["cx"]) "ast") "ident") (Ex.letIn (Pat.bind "key_t") (Ex.method (Ex.field (Ex.path ["cx"]) "toks") "key_t" []) (Ex.call ["Ok"] [Ex.quote [.tok "const",
        .tok "_", .tok ":", .tok "(", .tok ")", .tok "=", .tok "{", .var "entry_impl", .var "map_storage_impl", .var "set_storage_impl", .tok "#", .tok "[", .tok "automatically_derived", .tok "]",
        .tok "impl", .var "key_t", .tok "for", .var "ident", .tok "{", .tok "type", .tok "MapStorage", .tok "<", .tok "V", .tok ">", .tok "=", .var "map_storage", .tok "<", .tok "V", .tok ">",
        .tok ";", .tok "type", .tok "SetStorage", .tok "=", .var "set_storage", .tok ";", .tok "}", .tok "}", .tok ";"]])))))))))) }],
  structs := [],
  consts := [] }

theorem unitVariants2_parsed : parsePiece Text.unitVariants2 = some unitVariants2 := by derive_rfl

def unitVariants3 : File := {
  fns := [
    { ty := "", name := "impl_entry", params := ["cx", "map_storage"],
      body := Ex.letIn (Pat.bind "ident") (Ex.field (Ex.field (Ex.path ["cx"]) "ast") "ident") (Ex.letIn (Pat.bind "lt") (Ex.field (Ex.path ["cx"]) "lt") (Ex.letIn (Pat.bind "vis") (Ex.field (Ex.field (Ex.path ["cx"]) "ast") "vis") (Ex.letIn (Pat.bind "vacant_entry_t") (Ex.method (Ex.field (Ex.path ["cx"]) "toks") "vacant_entry_t" []) (Ex.letIn (Pat.bind "occupied_entry_t") (Ex.method (Ex.field (Ex.path ["cx"]) "toks") "occupied_entry_t" []) (Ex.letIn (Pat.bind "option_bucket_none") (Ex.method (Ex.field (Ex.path ["cx"]) "toks") "option_bucket_none" []) (Ex.letIn (Pat.bind "option_bucket_option") (Ex.method (Ex.field (Ex.path ["cx"]) "toks") "option_bucket_option" []) (Ex.letIn (Pat.bind "option_bucket_some") (Ex.method (Ex.field (Ex.path ["cx"]) "toks") "option_bucket_some" []) (Ex.letIn (Pat.bind "option") (Ex.method (Ex.field (Ex.path ["cx"]) "toks") "option" []) (Ex.letIn (Pat.bind "entry_enum") (Ex.method (Ex.field (Ex.path ["cx"]) "toks") "entry_enum" []) (Ex.call ["Ok"] [Ex.quote [.var "vis",
        .tok "struct", .tok "VacantEntry", .tok "<", .var "lt", .tok ",", .tok "V", .tok ">", .tok "{", .tok "key", .tok ":", .var "ident", .tok ",", .tok "inner", .tok ":",
        .var "option_bucket_none", .tok "<", .var "lt", .tok ",", .tok "V", .tok ">", .tok ",", .tok "}", .tok "#", .tok "[", .tok "automatically_derived", .tok "]", .tok "impl", .tok "<", .var "lt",
        .tok ",", .tok "V", .tok ">", .var "vacant_entry_t", .tok "<", .var "lt", .tok ",", .var "ident", .tok ",", .tok "V", .tok ">", .tok "for", .tok "VacantEntry", .tok "<", .var "lt", .tok ",",
        .tok "V", .tok ">", .tok "{", .tok "#", .tok "[", .tok "inline", .tok "]", .tok "fn", .tok "key", .tok "(", .tok "&", .tok "self", .tok ")", .tok "->", .var "ident", .tok "{", .tok "self",
        .tok ".", .tok "key", .tok "}", .tok "#", .tok "[", .tok "inline", .tok "]", .tok "fn", .tok "insert", .tok "(", .tok "self", .tok ",", .tok "value", .tok ":", .tok "V", .tok ")", .tok "->",
        .tok "&", .var "lt", .tok "mut", .tok "V", .tok "{", .var "option_bucket_none", .tok "::", .tok "insert", .tok "(", .tok "self", .tok ".", .tok "inner", .tok ",", .tok "value", .tok ")",
        .tok "}", .tok "}", .var "vis", .tok "struct", .tok "OccupiedEntry", .tok "<", .var "lt", .tok ",", .tok "V", .tok ">", .tok "{", .tok "key", .tok ":", .var "ident", .tok ",", .tok "inner",
        .tok ":", .var "option_bucket_some", .tok "<", .var "lt", .tok ",", .tok "V", .tok ">", .tok ",", .tok "}", .tok "#", .tok "[", .tok "automatically_derived", .tok "]", .tok "impl", .tok "<",
        .var "lt", .tok ",", .tok "V", .tok ">", .var "occupied_entry_t", .tok "<", .var "lt", .tok ",", .var "ident", .tok ",", .tok "V", .tok ">", .tok "for", .tok "OccupiedEntry", .tok "<",
        .var "lt", .tok ",", .tok "V", .tok ">", .tok "{", .tok "#", .tok "[", .tok "inline", .tok "]", .tok "fn", .tok "key", .tok "(", .tok "&", .tok "self", .tok ")", .tok "->", .var "ident",
        .tok "{", .tok "self", .tok ".", .tok "key", .tok "}", .tok "#", .tok "[", .tok "inline", .tok "]", .tok "fn", .tok "get", .tok "(", .tok "&", .tok "self", .tok ")", .tok "->", .tok "&",
        .tok "V", .tok "{", .var "option_bucket_some", .tok "::", .tok "as_ref", .tok "(", .tok "&", .tok "self", .tok ".", .tok "inner", .tok ")", .tok "}", .tok "#", .tok "[", .tok "inline",
        .tok "]", .tok "fn", .tok "get_mut", .tok "(", .tok "&", .tok "mut", .tok "self", .tok ")", .tok "->", .tok "&", .tok "mut", .tok "V", .tok "{", .var "option_bucket_some", .tok "::",
        .tok "as_mut", .tok "(", .tok "&", .tok "mut", .tok "self", .tok ".", .tok "inner", .tok ")", .tok "}", .tok "#", .tok "[", .tok "inline", .tok "]", .tok "fn", .tok "into_mut", .tok "(",
        .tok "self", .tok ")", .tok "->", .tok "&", .var "lt", .tok "mut", .tok "V", .tok "{", .var "option_bucket_some", .tok "::", .tok "into_mut", .tok "(", .tok "self", .tok ".", .tok "inner",
        .tok ")", .tok "}", .tok "#", .tok "[", .tok "inline", .tok "]", .tok "fn", .tok "insert", .tok "(", .tok "&", .tok "mut", .tok "self", .tok ",", .tok "value", .tok ":", .tok "V", .tok ")",
        .tok "->", .tok "V", .tok "{", .var "option_bucket_some", .tok "::", .tok "replace", .tok "(", .tok "&", .tok "mut", .tok "self", .tok ".", .tok "inner", .tok ",", .tok "value", .tok ")",
        .tok "}", .tok "#", .tok "[", .tok "inline", .tok "]", .tok "fn", .tok "remove", .tok "(", .tok "self", .tok ")", .tok "->", .tok "V", .tok "{", .var "option_bucket_some", .tok "::",
        .tok "take", .tok "(", .tok "self", .tok ".", .tok "inner", .tok ")", .tok "}", .tok "}", .tok "#", .tok "[", .tok "inline", .tok "]", .tok "fn", .tok "option_to_entry", .tok "<", .tok "V",
        .tok ">", .tok "(", .tok "opt", .tok ":", .tok "&", .tok "mut", .var "option", .tok "<", .tok "V", .tok ">", .tok ",", .tok "key", .tok ":", .var "ident", .tok ")", .tok "->",
        .var "entry_enum", .tok "<", .tok "'_", .tok ",", .var "map_storage", .tok "<", .tok "V", .tok ">", .tok ",", .var "ident", .tok ",", .tok "V", .tok ">", .tok "{", .tok "match",
        .var "option_bucket_option", .tok "::", .tok "new", .tok "(", .tok "opt", .tok ")", .tok "{", .var "option_bucket_option", .tok "::", .tok "Some", .tok "(", .tok "inner", .tok ")", .tok "=>",
        .var "entry_enum", .tok "::", .tok "Occupied", .tok "(", .tok "OccupiedEntry", .tok "{", .tok "key", .tok ",", .tok "inner", .tok "}", .tok ")", .tok ",", .var "option_bucket_option",
        .tok "::", .tok "None", .tok "(", .tok "inner", .tok ")", .tok "=>", .var "entry_enum", .tok "::", .tok "Vacant", .tok "(", .tok "VacantEntry", .tok "{", .tok "key", .tok ",", .tok "inner",
        .tok "}", .tok ")", .tok ",", .tok "}", .tok "}"]])))))))))) }],
  structs := [],
  consts := [] }

theorem unitVariants3_parsed : parsePiece Text.unitVariants3 = some unitVariants3 := by derive_rfl

def unitVariants4 : File := {
  fns := [
    { ty := "", name := "impl_map", params := ["cx", "en", "map_storage", "names"],
      body := Ex.letIn (Pat.bind "ident") (Ex.field (Ex.field (Ex.path ["cx"]) "ast") "ident") (Ex.letIn (Pat.bind "lt") (Ex.field (Ex.path ["cx"]) "lt") (Ex.letIn (Pat.bind "vis") (Ex.field (Ex.field (Ex.path ["cx"]) "ast") "vis") (Ex.letIn (Pat.bind "iterator_t") (Ex.method (Ex.field (Ex.path ["cx"]) "toks") "iterator_t" []) (Ex.letIn (Pat.bind "into_iterator_t") (Ex.method (Ex.field (Ex.path ["cx"]) "toks") "into_iterator_t" []) (Ex.letIn (Pat.bind "array_into_iter") (Ex.method (Ex.field (Ex.path ["cx"]) "toks") "array_into_iter" []) (Ex.letIn (Pat.bind "clone_t") (Ex.method (Ex.field (Ex.path ["cx"]) "toks") "clone_t" []) (Ex.letIn (Pat.bind "copy_t") (Ex.method (Ex.field (Ex.path ["cx"]) "toks") "copy_t" []) (Ex.letIn (Pat.bind "entry_enum") (Ex.method (Ex.field (Ex.path ["cx"]) "toks") "entry_enum" []) (Ex.letIn (Pat.bind "eq_t") (Ex.method (Ex.field (Ex.path ["cx"]) "toks") "eq_t" []) (Ex.letIn (Pat.bind "hash_t") (Ex.method (Ex.field (Ex.path ["cx"]) "toks") "hash_t" []) (Ex.letIn (Pat.bind "hasher_t") (Ex.method (Ex.field (Ex.path ["cx"]) "toks") "hasher_t" []) (Ex.letIn (Pat.bind "iterator_cmp") (Ex.method (Ex.field (Ex.path ["cx"]) "toks") "iterator_cmp" []) (Ex.letIn (Pat.bind "iterator_flat_map") (Ex.method (Ex.field (Ex.path ["cx"]) "toks") "iterator_flat_map" []) (Ex.letIn (Pat.bind "iterator_flatten") (Ex.method (Ex.field (Ex.path ["cx"]) "toks") "iterator_flatten" []) (Ex.letIn (Pat.bind "iterator_partial_cmp") (Ex.method (Ex.field (Ex.path ["cx"]) "toks") "iterator_partial_cmp" []) (Ex.letIn (Pat.bind "mem") (Ex.method (Ex.field (Ex.path ["cx"]) "toks") "mem" []) (Ex.letIn (Pat.bind "option") (Ex.method (Ex.field (Ex.path ["cx"]) "toks") "option" []) (Ex.letIn (Pat.bind "ord_t") (Ex.method (Ex.field (Ex.path ["cx"]) "toks") "ord_t" []) (Ex.letIn (Pat.bind "ordering") (Ex.method (Ex.field (Ex.path ["cx"]) "toks") "ordering" []) (Ex.letIn (Pat.bind "partial_eq_t") (Ex.method (Ex.field (Ex.path ["cx"]) "toks") "partial_eq_t" []) (Ex.letIn (Pat.bind "partial_ord_t") (Ex.method (Ex.field (Ex.path ["cx"]) "toks") "partial_ord_t" []) (Ex.letIn (Pat.bind "slice_iter") (Ex.method (Ex.field (Ex.path ["cx"]) "toks") "slice_iter" []) (Ex.letIn (Pat.bind "slice_iter_mut") (Ex.method (Ex.field (Ex.path ["cx"]) "toks") "slice_iter_mut" []) (Ex.letIn (Pat.bind "map_storage_t") (Ex.method (Ex.field (Ex.path ["cx"]) "toks") "map_storage_t" []) (Ex.letIn (Pat.bind "variants") (Ex.method (Ex.method (Ex.method (Ex.field (Ex.path ["en"]) "variants") "iter" []) "map" [Ex.lambda [Pat.bind "v"] (Ex.field (Ex.path ["v"]) "ident")]) "collect" []) (Ex.letIn (Pat.bind "init") (Ex.method (Ex.method (Ex.method (Ex.field (Ex.path ["en"]) "variants") "iter" []) "map" [Ex.lambda [Pat.wild] (Ex.quote [.var "option",
        .tok "::", .tok "None"])]) "collect" []) (Ex.letIn (Pat.bind "count") (Ex.method (Ex.field (Ex.path ["en"]) "variants") "len" []) (Ex.call ["Ok"] [Ex.quote [.tok "#", .tok "[", .tok "repr",
        .tok "(", .tok "transparent", .tok ")", .tok "]", .var "vis", .tok "struct", .var "map_storage", .tok "<", .tok "V", .tok ">", .tok "{", .tok "data", .tok ":", .tok "[", .var "option",
        .tok "<", .tok "V", .tok ">", .tok ";", .var "count", .tok "]", .tok ",", .tok "}", .tok "#", .tok "[", .tok "automatically_derived", .tok "]", .tok "impl", .tok "<", .tok "V", .tok ">",
        .var "clone_t", .tok "for", .var "map_storage", .tok "<", .tok "V", .tok ">", .tok "where", .tok "V", .tok ":", .var "clone_t", .tok "{", .tok "#", .tok "[", .tok "inline", .tok "]",
        .tok "fn", .tok "clone", .tok "(", .tok "&", .tok "self", .tok ")", .tok "->", .tok "Self", .tok "{", .tok "Self", .tok "{", .tok "data", .tok ":", .var "clone_t", .tok "::", .tok "clone",
        .tok "(", .tok "&", .tok "self", .tok ".", .tok "data", .tok ")", .tok ",", .tok "}", .tok "}", .tok "}", .tok "#", .tok "[", .tok "automatically_derived", .tok "]", .tok "impl", .tok "<",
        .tok "V", .tok ">", .var "copy_t", .tok "for", .var "map_storage", .tok "<", .tok "V", .tok ">", .tok "where", .tok "V", .tok ":", .var "copy_t", .tok "{", .tok "}", .tok "#", .tok "[",
        .tok "automatically_derived", .tok "]", .tok "impl", .tok "<", .tok "V", .tok ">", .var "partial_eq_t", .tok "for", .var "map_storage", .tok "<", .tok "V", .tok ">", .tok "where", .tok "V",
        .tok ":", .var "partial_eq_t", .tok "{", .tok "#", .tok "[", .tok "inline", .tok "]", .tok "fn", .tok "eq", .tok "(", .tok "&", .tok "self", .tok ",", .tok "other", .tok ":", .tok "&",
        .tok "Self", .tok ")", .tok "->", .tok "bool", .tok "{", .var "partial_eq_t", .tok "::", .tok "eq", .tok "(", .tok "&", .tok "self", .tok ".", .tok "data", .tok ",", .tok "&", .tok "other",
        .tok ".", .tok "data", .tok ")", .tok "}", .tok "}", .tok "#", .tok "[", .tok "automatically_derived", .tok "]", .tok "impl", .tok "<", .tok "V", .tok ">", .var "eq_t", .tok "for",
        .var "map_storage", .tok "<", .tok "V", .tok ">", .tok "where", .tok "V", .tok ":", .var "eq_t", .tok "{", .tok "}", .tok "#", .tok "[", .tok "automatically_derived", .tok "]", .tok "impl",
        .tok "<", .tok "V", .tok ">", .var "hash_t", .tok "for", .var "map_storage", .tok "<", .tok "V", .tok ">", .tok "where", .tok "V", .tok ":", .var "hash_t", .tok "{", .tok "#", .tok "[",
        .tok "inline", .tok "]", .tok "fn", .tok "hash", .tok "<", .tok "H", .tok ">", .tok "(", .tok "&", .tok "self", .tok ",", .tok "state", .tok ":", .tok "&", .tok "mut", .tok "H", .tok ")",
        .tok "where", .tok "H", .tok ":", .var "hasher_t", .tok ",", .tok "{", .var "hash_t", .tok "::", .tok "hash", .tok "(", .tok "&", .tok "self", .tok ".", .tok "data", .tok ",", .tok "state",
        .tok ")", .tok ";", .tok "}", .tok "}", .tok "#", .tok "[", .tok "automatically_derived", .tok "]", .tok "impl", .tok "<", .tok "V", .tok ">", .var "partial_ord_t", .tok "for",
        .var "map_storage", .tok "<", .tok "V", .tok ">", .tok "where", .tok "V", .tok ":", .var "partial_ord_t", .tok "{", .tok "#", .tok "[", .tok "inline", .tok "]", .tok "fn", .tok "partial_cmp",
        .tok "(", .tok "&", .tok "self", .tok ",", .tok "other", .tok ":", .tok "&", .tok "Self", .tok ")", .tok "->", .tok "Option", .tok "<", .var "ordering", .tok ">", .tok "{",
        .var "iterator_partial_cmp", .tok "(", .tok "&", .tok "self", .tok ".", .tok "data", .tok ",", .tok "&", .tok "other", .tok ".", .tok "data", .tok ")", .tok "}", .tok "}", .tok "#", .tok "[",
        .tok "automatically_derived", .tok "]", .tok "impl", .tok "<", .tok "V", .tok ">", .var "ord_t", .tok "for", .var "map_storage", .tok "<", .tok "V", .tok ">", .tok "where", .tok "V",
        .tok ":", .var "ord_t", .tok "{", .tok "#", .tok "[", .tok "inline", .tok "]", .tok "fn", .tok "cmp", .tok "(", .tok "&", .tok "self", .tok ",", .tok "other", .tok ":", .tok "&", .tok "Self",
        .tok ")", .tok "->", .var "ordering", .tok "{", .var "iterator_cmp", .tok "(", .tok "&", .tok "self", .tok ".", .tok "data", .tok ",", .tok "&", .tok "other", .tok ".", .tok "data", .tok ")",
        .tok "}", .tok "}", .tok "#", .tok "[", .tok "automatically_derived", .tok "]", .tok "impl", .tok "<", .tok "V", .tok ">", .var "map_storage_t", .tok "<", .var "ident", .tok ",", .tok "V",
        .tok ">", .tok "for", .var "map_storage", .tok "<", .tok "V", .tok ">", .tok "{", .tok "type", .tok "Iter", .tok "<", .var "lt", .tok ">", .tok "=", .var "iterator_flat_map", .tok "<",
        .var "array_into_iter", .tok "<", .tok "(", .var "ident", .tok ",", .tok "&", .var "lt", .var "option", .tok "<", .tok "V", .tok ">", .tok ")", .tok ",", .var "count", .tok ">", .tok ",",
        .var "option", .tok "<", .tok "(", .var "ident", .tok ",", .tok "&", .var "lt", .tok "V", .tok ")", .tok ">", .tok ",", .tok "fn", .tok "(", .tok "(", .var "ident", .tok ",", .tok "&",
        .var "lt", .var "option", .tok "<", .tok "V", .tok ">", .tok ")", .tok ")", .tok "->", .var "option", .tok "<", .tok "(", .var "ident", .tok ",", .tok "&", .var "lt", .tok "V", .tok ")",
        .tok ">", .tok ">", .tok "where", .tok "V", .tok ":", .var "lt", .tok ";", .tok "type", .tok "Keys", .tok "<", .var "lt", .tok ">", .tok "=", .var "iterator_flatten", .tok "<",
        .var "array_into_iter", .tok "<", .var "option", .tok "<", .var "ident", .tok ">", .tok ",", .var "count", .tok ">", .tok ">", .tok "where", .tok "V", .tok ":", .var "lt", .tok ";",
        .tok "type", .tok "Values", .tok "<", .var "lt", .tok ">", .tok "=", .var "iterator_flatten", .tok "<", .var "slice_iter", .tok "<", .var "lt", .tok ",", .var "option", .tok "<", .tok "V",
        .tok ">", .tok ">", .tok ">", .tok "where", .tok "V", .tok ":", .var "lt", .tok ";", .tok "type", .tok "IterMut", .tok "<", .var "lt", .tok ">", .tok "=", .var "iterator_flat_map", .tok "<",
        .var "array_into_iter", .tok "<", .tok "(", .var "ident", .tok ",", .tok "&", .var "lt", .tok "mut", .var "option", .tok "<", .tok "V", .tok ">", .tok ")", .tok ",", .var "count", .tok ">",
        .tok ",", .var "option", .tok "<", .tok "(", .var "ident", .tok ",", .tok "&", .var "lt", .tok "mut", .tok "V", .tok ")", .tok ">", .tok ",", .tok "fn", .tok "(", .tok "(", .var "ident",
        .tok ",", .tok "&", .var "lt", .tok "mut", .var "option", .tok "<", .tok "V", .tok ">", .tok ")", .tok ")", .tok "->", .var "option", .tok "<", .tok "(", .var "ident", .tok ",", .tok "&",
        .var "lt", .tok "mut", .tok "V", .tok ")", .tok ">", .tok ">", .tok "where", .tok "V", .tok ":", .var "lt", .tok ";", .tok "type", .tok "ValuesMut", .tok "<", .var "lt", .tok ">", .tok "=",
        .var "iterator_flatten", .tok "<", .var "slice_iter_mut", .tok "<", .var "lt", .tok ",", .var "option", .tok "<", .tok "V", .tok ">", .tok ">", .tok ">", .tok "where", .tok "V", .tok ":",
        .var "lt", .tok ";", .tok "type", .tok "IntoIter", .tok "=", .var "iterator_flat_map", .tok "<", .var "array_into_iter", .tok "<", .tok "(", .var "ident", .tok ",", .var "option", .tok "<",
        .tok "V", .tok ">", .tok ")", .tok ",", .var "count", .tok ">", .tok ",", .var "option", .tok "<", .tok "(", .var "ident", .tok ",", .tok "V", .tok ")", .tok ">", .tok ",", .tok "fn",
        .tok "(", .tok "(", .var "ident", .tok ",", .var "option", .tok "<", .tok "V", .tok ">", .tok ")", .tok ")", .tok "->", .var "option", .tok "<", .tok "(", .var "ident", .tok ",", .tok "V",
        .tok ")", .tok ">", .tok ">", .tok ";", .tok "type", .tok "Occupied", .tok "<", .var "lt", .tok ">", .tok "=", .tok "OccupiedEntry", .tok "<", .var "lt", .tok ",", .tok "V", .tok ">",
        .tok "where", .tok "V", .tok ":", .var "lt", .tok ";", .tok "type", .tok "Vacant", .tok "<", .var "lt", .tok ">", .tok "=", .tok "VacantEntry", .tok "<", .var "lt", .tok ",", .tok "V",
        .tok ">", .tok "where", .tok "V", .tok ":", .var "lt", .tok ";", .tok "#", .tok "[", .tok "inline", .tok "]", .tok "fn", .tok "empty", .tok "(", .tok ")", .tok "->", .tok "Self", .tok "{",
        .tok "Self", .tok "{", .tok "data", .tok ":", .tok "[", .rep [.var "init"] (some ","), .tok "]", .tok ",", .tok "}", .tok "}", .tok "#", .tok "[", .tok "inline", .tok "]", .tok "fn",
        .tok "len", .tok "(", .tok "&", .tok "self", .tok ")", .tok "->", .tok "usize", .tok "{", .tok "let", .tok "[", .rep [.var "names"] (some ","), .tok "]", .tok "=", .tok "&", .tok "self",
        .tok ".", .tok "data", .tok ";", .tok "0", .rep [.tok "+", .tok "usize", .tok "::", .tok "from", .tok "(", .var "option", .tok "::", .tok "is_some", .tok "(", .var "names", .tok ")",
        .tok ")"] none, .tok "}", .tok "#", .tok "[", .tok "inline", .tok "]", .tok "fn", .tok "is_empty", .tok "(", .tok "&", .tok "self", .tok ")", .tok "->", .tok "bool", .tok "{", .tok "let",
        .tok "[", .rep [.var "names"] (some ","), .tok "]", .tok "=", .tok "&", .tok "self", .tok ".", .tok "data", .tok ";", .tok "true", .rep [.tok "&&", .var "option", .tok "::", .tok "is_none",
        .tok "(", .var "names", .tok ")"] none, .tok "}", .tok "#", .tok "[", .tok "inline", .tok "]", .tok "fn", .tok "insert", .tok "(", .tok "&", .tok "mut", .tok "self", .tok ",", .tok "key",
        .tok ":", .var "ident", .tok ",", .tok "value", .tok ":", .tok "V", .tok ")", .tok "->", .var "option", .tok "<", .tok "V", .tok ">", .tok "{", .tok "let", .tok "[",
        .rep [.var "names"] (some ","), .tok "]", .tok "=", .tok "&", .tok "mut", .tok "self", .tok ".", .tok "data", .tok ";", .tok "match", .tok "key", .tok "{", .rep [.var "ident", .tok "::",
        .var "variants", .tok "=>", .var "option", .tok "::", .tok "replace", .tok "(", .var "names", .tok ",", .tok "value", .tok ")", .tok ","] none, .tok "}", .tok "}", .tok "#", .tok "[",
        .tok "inline", .tok "]", .tok "fn", .tok "contains_key", .tok "(", .tok "&", .tok "self", .tok ",", .tok "value", .tok ":", .var "ident", .tok ")", .tok "->", .tok "bool", .tok "{",
        .tok "let", .tok "[", .rep [.var "names"] (some ","), .tok "]", .tok "=", .tok "&", .tok "self", .tok ".", .tok "data", .tok ";", .tok "match", .tok "value", .tok "{", .rep [.var "ident",
        .tok "::", .var "variants", .tok "=>", .var "option", .tok "::", .tok "is_some", .tok "(", .var "names", .tok ")", .tok ","] none, .tok "}", .tok "}", .tok "#", .tok "[", .tok "inline",
        .tok "]", .tok "fn", .tok "get", .tok "(", .tok "&", .tok "self", .tok ",", .tok "value", .tok ":", .var "ident", .tok ")", .tok "->", .var "option", .tok "<", .tok "&", .tok "V", .tok ">",
        .tok "{", .tok "let", .tok "[", .rep [.var "names"] (some ","), .tok "]", .tok "=", .tok "&", .tok "self", .tok ".", .tok "data", .tok ";", .tok "match", .tok "value", .tok "{",
        .rep [.var "ident", .tok "::", .var "variants", .tok "=>", .var "option", .tok "::", .tok "as_ref", .tok "(", .var "names", .tok ")", .tok ","] none, .tok "}", .tok "}", .tok "#", .tok "[",
        .tok "inline", .tok "]", .tok "fn", .tok "get_mut", .tok "(", .tok "&", .tok "mut", .tok "self", .tok ",", .tok "value", .tok ":", .var "ident", .tok ")", .tok "->", .var "option", .tok "<",
        .tok "&", .tok "mut", .tok "V", .tok ">", .tok "{", .tok "let", .tok "[", .rep [.var "names"] (some ","), .tok "]", .tok "=", .tok "&", .tok "mut", .tok "self", .tok ".", .tok "data",
        .tok ";", .tok "match", .tok "value", .tok "{", .rep [.var "ident", .tok "::", .var "variants", .tok "=>", .var "option", .tok "::", .tok "as_mut", .tok "(", .var "names", .tok ")",
        .tok ","] none, .tok "}", .tok "}", .tok "#", .tok "[", .tok "inline", .tok "]", .tok "fn", .tok "remove", .tok "(", .tok "&", .tok "mut", .tok "self", .tok ",", .tok "value", .tok ":",
        .var "ident", .tok ")", .tok "->", .var "option", .tok "<", .tok "V", .tok ">", .tok "{", .tok "let", .tok "[", .rep [.var "names"] (some ","), .tok "]", .tok "=", .tok "&", .tok "mut",
        .tok "self", .tok ".", .tok "data", .tok ";", .tok "match", .tok "value", .tok "{", .rep [.var "ident", .tok "::", .var "variants", .tok "=>", .var "mem", .tok "::", .tok "take", .tok "(",
        .var "names", .tok ")", .tok ","] none, .tok "}", .tok "}", .tok "#", .tok "[", .tok "inline", .tok "]", .tok "fn", .tok "retain", .tok "<", .tok "F", .tok ">", .tok "(", .tok "&",
        .tok "mut", .tok "self", .tok ",", .tok "mut", .tok "func", .tok ":", .tok "F", .tok ")", .tok "where", .tok "F", .tok ":", .tok "FnMut", .tok "(", .var "ident", .tok ",", .tok "&",
        .tok "mut", .tok "V", .tok ")", .tok "->", .tok "bool", .tok "{", .tok "let", .tok "[", .rep [.var "names"] (some ","), .tok "]", .tok "=", .tok "&", .tok "mut", .tok "self", .tok ".",
        .tok "data", .tok ";", .rep [.tok "if", .tok "let", .var "option", .tok "::", .tok "Some", .tok "(", .tok "val", .tok ")", .tok "=", .var "option", .tok "::", .tok "as_mut", .tok "(",
        .var "names", .tok ")", .tok "{", .tok "if", .tok "!", .tok "func", .tok "(", .var "ident", .tok "::", .var "variants", .tok ",", .tok "val", .tok ")", .tok "{", .tok "*", .var "names",
        .tok "=", .tok "None", .tok ";", .tok "}", .tok "}"] none, .tok "}", .tok "#", .tok "[", .tok "inline", .tok "]", .tok "fn", .tok "clear", .tok "(", .tok "&", .tok "mut", .tok "self",
        .tok ")", .tok "{", .tok "self", .tok ".", .tok "data", .tok "=", .tok "[", .rep [.var "init"] (some ","), .tok "]", .tok ";", .tok "}", .tok "#", .tok "[", .tok "inline", .tok "]",
        .tok "fn", .tok "iter", .tok "(", .tok "&", .tok "self", .tok ")", .tok "->", .tok "Self", .tok "::", .tok "Iter", .tok "<", .tok "'_", .tok ">", .tok "{", .tok "let", .tok "[",
        .rep [.var "names"] (some ","), .tok "]", .tok "=", .tok "&", .tok "self", .tok ".", .tok "data", .tok ";", .var "iterator_t", .tok "::", .tok "flat_map", .tok "(", .var "into_iterator_t",
        .tok "::", .tok "into_iter", .tok "(", .tok "[", .rep [.tok "(", .var "ident", .tok "::", .var "variants", .tok ",", .var "names", .tok ")"] (some ","), .tok "]", .tok ")", .tok ",",
        .tok "|", .tok "(", .tok "k", .tok ",", .tok "v", .tok ")", .tok "|", .var "option", .tok "::", .tok "Some", .tok "(", .tok "(", .tok "k", .tok ",", .var "option", .tok "::", .tok "as_ref",
        .tok "(", .tok "v", .tok ")", .tok "?", .tok ")", .tok ")", .tok ")", .tok "}", .tok "#", .tok "[", .tok "inline", .tok "]", .tok "fn", .tok "keys", .tok "(", .tok "&", .tok "self", .tok ")",
        .tok "->", .tok "Self", .tok "::", .tok "Keys", .tok "<", .tok "'_", .tok ">", .tok "{", .tok "let", .tok "[", .rep [.var "names"] (some ","), .tok "]", .tok "=", .tok "&", .tok "self",
        .tok ".", .tok "data", .tok ";", .var "iterator_t", .tok "::", .tok "flatten", .tok "(", .var "into_iterator_t", .tok "::", .tok "into_iter", .tok "(", .tok "[", .rep [.tok "if",
        .var "names", .tok ".", .tok "is_some", .tok "(", .tok ")", .tok "{", .tok "Some", .tok "(", .var "ident", .tok "::", .var "variants", .tok ")", .tok "}", .tok "else", .tok "{", .tok "None",
        .tok "}"] (some ","), .tok "]", .tok ")", .tok ")", .tok "}", .tok "#", .tok "[", .tok "inline", .tok "]", .tok "fn", .tok "values", .tok "(", .tok "&", .tok "self", .tok ")", .tok "->",
        .tok "Self", .tok "::", .tok "Values", .tok "<", .tok "'_", .tok ">", .tok "{", .var "iterator_t", .tok "::", .tok "flatten", .tok "(", .var "into_iterator_t", .tok "::", .tok "into_iter",
        .tok "(", .tok "&", .tok "self", .tok ".", .tok "data", .tok ")", .tok ")", .tok "}", .tok "#", .tok "[", .tok "inline", .tok "]", .tok "fn", .tok "iter_mut", .tok "(", .tok "&", .tok "mut",
        .tok "self", .tok ")", .tok "->", .tok "Self", .tok "::", .tok "IterMut", .tok "<", .tok "'_", .tok ">", .tok "{", .tok "let", .tok "[", .rep [.var "names"] (some ","), .tok "]", .tok "=",
        .tok "&", .tok "mut", .tok "self", .tok ".", .tok "data", .tok ";", .var "iterator_t", .tok "::", .tok "flat_map", .tok "(", .var "into_iterator_t", .tok "::", .tok "into_iter", .tok "(",
        .tok "[", .rep [.tok "(", .var "ident", .tok "::", .var "variants", .tok ",", .var "names", .tok ")"] (some ","), .tok "]", .tok ")", .tok ",", .tok "|", .tok "(", .tok "k", .tok ",",
        .tok "v", .tok ")", .tok "|", .var "option", .tok "::", .tok "Some", .tok "(", .tok "(", .tok "k", .tok ",", .var "option", .tok "::", .tok "as_mut", .tok "(", .tok "v", .tok ")", .tok "?",
        .tok ")", .tok ")", .tok ")", .tok "}", .tok "#", .tok "[", .tok "inline", .tok "]", .tok "fn", .tok "values_mut", .tok "(", .tok "&", .tok "mut", .tok "self", .tok ")", .tok "->",
        .tok "Self", .tok "::", .tok "ValuesMut", .tok "<", .tok "'_", .tok ">", .tok "{", .var "iterator_t", .tok "::", .tok "flatten", .tok "(", .var "into_iterator_t", .tok "::", .tok "into_iter",
        .tok "(", .tok "&", .tok "mut", .tok "self", .tok ".", .tok "data", .tok ")", .tok ")", .tok "}", .tok "#", .tok "[", .tok "inline", .tok "]", .tok "fn", .tok "into_iter", .tok "(",
        .tok "self", .tok ")", .tok "->", .tok "Self", .tok "::", .tok "IntoIter", .tok "{", .tok "let", .tok "[", .rep [.var "names"] (some ","), .tok "]", .tok "=", .tok "self", .tok ".",
        .tok "data", .tok ";", .var "iterator_t", .tok "::", .tok "flat_map", .tok "(", .var "into_iterator_t", .tok "::", .tok "into_iter", .tok "(", .tok "[", .rep [.tok "(", .var "ident",
        .tok "::", .var "variants", .tok ",", .var "names", .tok ")"] (some ","), .tok "]", .tok ")", .tok ",", .tok "|", .tok "(", .tok "k", .tok ",", .tok "v", .tok ")", .tok "|", .var "option",
        .tok "::", .tok "Some", .tok "(", .tok "(", .tok "k", .tok ",", .tok "v", .tok "?", .tok ")", .tok ")", .tok ")", .tok "}", .tok "#", .tok "[", .tok "inline", .tok "]", .tok "fn",
        .tok "entry", .tok "(", .tok "&", .tok "mut", .tok "self", .tok ",", .tok "key", .tok ":", .var "ident", .tok ")", .tok "->", .var "entry_enum", .tok "<", .tok "'_", .tok ",", .tok "Self",
        .tok ",", .var "ident", .tok ",", .tok "V", .tok ">", .tok "{", .tok "let", .tok "[", .rep [.var "names"] (some ","), .tok "]", .tok "=", .tok "&", .tok "mut", .tok "self", .tok ".",
        .tok "data", .tok ";", .tok "match", .tok "key", .tok "{", .rep [.var "ident", .tok "::", .var "variants", .tok "=>", .tok "option_to_entry", .tok "(", .var "names", .tok ",", .tok "key",
        .tok ")", .tok ","] none, .tok "}", .tok "}", .tok "}"]])))))))))))))))))))))))))))) }],
  structs := [],
  consts := [] }

theorem unitVariants4_parsed : parsePiece Text.unitVariants4 = some unitVariants4 := by derive_rfl

def unitVariants5 : File := {
  fns := [
    { ty := "", name := "impl_bitset", params := ["cx", "en", "set_storage"],
      body := Ex.letIn (Pat.tuple [Pat.bind "ty", Pat.wild]) (Ex.try (Ex.call ["determine_bits"] [Ex.path ["cx"],
        Ex.path ["en"]])) (Ex.letIn (Pat.bind "vis") (Ex.field (Ex.field (Ex.path ["cx"]) "ast") "vis") (Ex.letIn (Pat.bind "ident") (Ex.field (Ex.field (Ex.path ["cx"]) "ast") "ident") (Ex.letIn (Pat.bind "lt") (Ex.field (Ex.path ["cx"]) "lt") (Ex.letIn (Pat.bind "iterator_t") (Ex.method (Ex.field (Ex.path ["cx"]) "toks") "iterator_t" []) (Ex.letIn (Pat.bind "count") (Ex.method (Ex.field (Ex.path ["en"]) "variants") "len" []) (Ex.letIn (Pat.bind "into_iterator_t") (Ex.method (Ex.field (Ex.path ["cx"]) "toks") "into_iterator_t" []) (Ex.letIn (Pat.bind "array_into_iter") (Ex.method (Ex.field (Ex.path ["cx"]) "toks") "array_into_iter" []) (Ex.letIn (Pat.bind "clone_t") (Ex.method (Ex.field (Ex.path ["cx"]) "toks") "clone_t" []) (Ex.letIn (Pat.bind "copy_t") (Ex.method (Ex.field (Ex.path ["cx"]) "toks") "copy_t" []) (Ex.letIn (Pat.bind "eq_t") (Ex.method (Ex.field (Ex.path ["cx"]) "toks") "eq_t" []) (Ex.letIn (Pat.bind "hash_t") (Ex.method (Ex.field (Ex.path ["cx"]) "toks") "hash_t" []) (Ex.letIn (Pat.bind "iterator_flatten") (Ex.method (Ex.field (Ex.path ["cx"]) "toks") "iterator_flatten" []) (Ex.letIn (Pat.bind "mem") (Ex.method (Ex.field (Ex.path ["cx"]) "toks") "mem" []) (Ex.letIn (Pat.bind "option") (Ex.method (Ex.field (Ex.path ["cx"]) "toks") "option" []) (Ex.letIn (Pat.bind "ord_t") (Ex.method (Ex.field (Ex.path ["cx"]) "toks") "ord_t" []) (Ex.letIn (Pat.bind "ordering") (Ex.method (Ex.field (Ex.path ["cx"]) "toks") "ordering" []) (Ex.letIn (Pat.bind "partial_eq_t") (Ex.method (Ex.field (Ex.path ["cx"]) "toks") "partial_eq_t" []) (Ex.letIn (Pat.bind "partial_ord_t") (Ex.method (Ex.field (Ex.path ["cx"]) "toks") "partial_ord_t" []) (Ex.letIn (Pat.bind "set_storage_t") (Ex.method (Ex.field (Ex.path ["cx"]) "toks") "set_storage_t" []) (Ex.letIn (Pat.bind "raw_storage_t") (Ex.method (Ex.field (Ex.path ["cx"]) "toks") "raw_storage_t" []) (Ex.letIn (Pat.bind "variants") (Ex.method (Ex.method (Ex.method (Ex.field (Ex.path ["en"]) "variants") "iter" []) "map" [Ex.lambda [Pat.bind "v"] (Ex.field (Ex.path ["v"]) "ident")]) "collect" []) (Ex.letIn (Pat.bind "numbers") (Ex.method (Ex.method (Ex.method (Ex.method (Ex.field (Ex.path ["en"]) "variants") "iter" []) "enumerate" []) "map" [Ex.lambda [Pat.tuple [Pat.bind "n",
        Pat.bind "v"]] (Ex.call ["LitInt", "new"] [Ex.mac "format" [Ex.str "{}", Ex.shl (Ex.int 1) (Ex.path ["n"])],
        Ex.method (Ex.path ["v"]) "span" []])]) "collect" []) (Ex.call ["Ok"] [Ex.quote [.tok "#", .tok "[", .tok "inline", .tok "]", .tok "const", .tok "fn", .tok "to_bits", .tok "(", .tok "value",
        .tok ":", .var "ident", .tok ")", .tok "->", .var "ty", .tok "{", .tok "match", .tok "value", .tok "{", .rep [.var "ident", .tok "::", .var "variants", .tok "=>", .var "numbers",
        .tok ","] none, .tok "}", .tok "}", .tok "#", .tok "[", .tok "repr", .tok "(", .tok "transparent", .tok ")", .tok "]", .tok "#", .tok "[", .tok "derive", .tok "(", .var "clone_t", .tok ",",
        .var "copy_t", .tok ",", .var "partial_eq_t", .tok ",", .var "eq_t", .tok ",", .var "hash_t", .tok ")", .tok "]", .var "vis", .tok "struct", .var "set_storage", .tok "{", .tok "data",
        .tok ":", .var "ty", .tok ",", .tok "}", .tok "#", .tok "[", .tok "automatically_derived", .tok "]", .tok "impl", .var "partial_ord_t", .tok "for", .var "set_storage", .tok "{", .tok "#",
        .tok "[", .tok "inline", .tok "]", .tok "fn", .tok "partial_cmp", .tok "(", .tok "&", .tok "self", .tok ",", .tok "other", .tok ":", .tok "&", .tok "Self", .tok ")", .tok "->", .tok "Option",
        .tok "<", .var "ordering", .tok ">", .tok "{", .var "partial_ord_t", .tok "::", .tok "partial_cmp", .tok "(", .tok "&", .tok "self", .tok ".", .tok "data", .tok ",", .tok "&", .tok "other",
        .tok ".", .tok "data", .tok ")", .tok "}", .tok "}", .tok "#", .tok "[", .tok "automatically_derived", .tok "]", .tok "impl", .var "ord_t", .tok "for", .var "set_storage", .tok "{", .tok "#",
        .tok "[", .tok "inline", .tok "]", .tok "fn", .tok "cmp", .tok "(", .tok "&", .tok "self", .tok ",", .tok "other", .tok ":", .tok "&", .tok "Self", .tok ")", .tok "->", .var "ordering",
        .tok "{", .var "ord_t", .tok "::", .tok "cmp", .tok "(", .tok "&", .tok "self", .tok ".", .tok "data", .tok ",", .tok "&", .tok "other", .tok ".", .tok "data", .tok ")", .tok "}", .tok "}",
        .tok "#", .tok "[", .tok "automatically_derived", .tok "]", .tok "impl", .var "set_storage_t", .tok "<", .var "ident", .tok ">", .tok "for", .var "set_storage", .tok "{", .tok "type",
        .tok "Iter", .tok "<", .var "lt", .tok ">", .tok "=", .var "iterator_flatten", .tok "<", .var "array_into_iter", .tok "<", .var "option", .tok "<", .var "ident", .tok ">", .tok ",",
        .var "count", .tok ">", .tok ">", .tok ";", .tok "type", .tok "IntoIter", .tok "=", .var "iterator_flatten", .tok "<", .var "array_into_iter", .tok "<", .var "option", .tok "<", .var "ident",
        .tok ">", .tok ",", .var "count", .tok ">", .tok ">", .tok ";", .tok "#", .tok "[", .tok "inline", .tok "]", .tok "fn", .tok "empty", .tok "(", .tok ")", .tok "->", .tok "Self", .tok "{",
        .tok "Self", .tok "{", .tok "data", .tok ":", .tok "0", .tok ",", .tok "}", .tok "}", .tok "#", .tok "[", .tok "inline", .tok "]", .tok "fn", .tok "len", .tok "(", .tok "&", .tok "self",
        .tok ")", .tok "->", .tok "usize", .tok "{", .tok "<", .var "ty", .tok ">", .tok "::", .tok "count_ones", .tok "(", .tok "self", .tok ".", .tok "data", .tok ")", .tok "as", .tok "usize",
        .tok "}", .tok "#", .tok "[", .tok "inline", .tok "]", .tok "fn", .tok "is_empty", .tok "(", .tok "&", .tok "self", .tok ")", .tok "->", .tok "bool", .tok "{", .tok "self", .tok ".",
        .tok "data", .tok "==", .tok "0", .tok "}", .tok "#", .tok "[", .tok "inline", .tok "]", .tok "fn", .tok "insert", .tok "(", .tok "&", .tok "mut", .tok "self", .tok ",", .tok "value",
        .tok ":", .var "ident", .tok ")", .tok "->", .tok "bool", .tok "{", .tok "let", .tok "mask", .tok "=", .tok "to_bits", .tok "(", .tok "value", .tok ")", .tok ";", .tok "let", .tok "update",
        .tok "=", .tok "self", .tok ".", .tok "data", .tok "|", .tok "mask", .tok ";", .var "mem", .tok "::", .tok "replace", .tok "(", .tok "&", .tok "mut", .tok "self", .tok ".", .tok "data",
        .tok ",", .tok "update", .tok ")", .tok "&", .tok "mask", .tok "==", .tok "0", .tok "}", .tok "#", .tok "[", .tok "inline", .tok "]", .tok "fn", .tok "contains", .tok "(", .tok "&",
        .tok "self", .tok ",", .tok "value", .tok ":", .var "ident", .tok ")", .tok "->", .tok "bool", .tok "{", .tok "self", .tok ".", .tok "data", .tok "&", .tok "to_bits", .tok "(", .tok "value",
        .tok ")", .tok "!=", .tok "0", .tok "}", .tok "#", .tok "[", .tok "inline", .tok "]", .tok "fn", .tok "remove", .tok "(", .tok "&", .tok "mut", .tok "self", .tok ",", .tok "value", .tok ":",
        .var "ident", .tok ")", .tok "->", .tok "bool", .tok "{", .tok "let", .tok "mask", .tok "=", .tok "to_bits", .tok "(", .tok "value", .tok ")", .tok ";", .tok "let", .tok "update", .tok "=",
        .tok "self", .tok ".", .tok "data", .tok "&", .tok "!", .tok "mask", .tok ";", .var "mem", .tok "::", .tok "replace", .tok "(", .tok "&", .tok "mut", .tok "self", .tok ".", .tok "data",
        .tok ",", .tok "update", .tok ")", .tok "&", .tok "mask", .tok "!=", .tok "0", .tok "}", .tok "#", .tok "[", .tok "inline", .tok "]", .tok "fn", .tok "retain", .tok "<", .tok "F", .tok ">",
        .tok "(", .tok "&", .tok "mut", .tok "self", .tok ",", .tok "mut", .tok "f", .tok ":", .tok "F", .tok ")", .tok "where", .tok "F", .tok ":", .tok "FnMut", .tok "(", .var "ident", .tok ")",
        .tok "->", .tok "bool", .tok "{", .tok "let", .tok "mut", .tok "update", .tok "=", .tok "0", .tok ";", .rep [.tok "if", .tok "self", .tok ".", .tok "data", .tok "&", .var "numbers",
        .tok "!=", .tok "0", .tok "{", .tok "if", .tok "f", .tok "(", .var "ident", .tok "::", .var "variants", .tok ")", .tok "{", .tok "update", .tok "|=", .var "numbers", .tok ";", .tok "}",
        .tok "}"] none, .tok "self", .tok ".", .tok "data", .tok "=", .tok "update", .tok ";", .tok "}", .tok "#", .tok "[", .tok "inline", .tok "]", .tok "fn", .tok "clear", .tok "(", .tok "&",
        .tok "mut", .tok "self", .tok ")", .tok "{", .tok "self", .tok ".", .tok "data", .tok "=", .tok "0", .tok ";", .tok "}", .tok "#", .tok "[", .tok "inline", .tok "]", .tok "fn", .tok "iter",
        .tok "(", .tok "&", .tok "self", .tok ")", .tok "->", .tok "Self", .tok "::", .tok "Iter", .tok "<", .tok "'_", .tok ">", .tok "{", .var "iterator_t", .tok "::", .tok "flatten", .tok "(",
        .var "into_iterator_t", .tok "::", .tok "into_iter", .tok "(", .tok "[", .rep [.tok "if", .tok "self", .tok ".", .tok "data", .tok "&", .var "numbers", .tok "!=", .tok "0", .tok "{",
        .tok "Some", .tok "(", .var "ident", .tok "::", .var "variants", .tok ")", .tok "}", .tok "else", .tok "{", .tok "None", .tok "}"] (some ","), .tok "]", .tok ")", .tok ")", .tok "}",
        .tok "#", .tok "[", .tok "inline", .tok "]", .tok "fn", .tok "into_iter", .tok "(", .tok "self", .tok ")", .tok "->", .tok "Self", .tok "::", .tok "IntoIter", .tok "{", .var "iterator_t",
        .tok "::", .tok "flatten", .tok "(", .var "into_iterator_t", .tok "::", .tok "into_iter", .tok "(", .tok "[", .rep [.tok "if", .tok "self", .tok ".", .tok "data", .tok "&", .var "numbers",
        .tok "!=", .tok "0", .tok "{", .tok "Some", .tok "(", .var "ident", .tok "::", .var "variants", .tok ")", .tok "}", .tok "else", .tok "{", .tok "None", .tok "}"] (some ","), .tok "]",
        .tok ")", .tok ")", .tok "}", .tok "}", .tok "#", .tok "[", .tok "automatically_derived", .tok "]", .tok "impl", .var "raw_storage_t", .tok "for", .var "set_storage", .tok "{", .tok "type",
        .tok "Value", .tok "=", .var "ty", .tok ";", .tok "#", .tok "[", .tok "inline", .tok "]", .tok "fn", .tok "as_raw", .tok "(", .tok "&", .tok "self", .tok ")", .tok "->", .var "ty", .tok "{",
        .tok "self", .tok ".", .tok "data", .tok "}", .tok "#", .tok "[", .tok "inline", .tok "]", .tok "fn", .tok "from_raw", .tok "(", .tok "data", .tok ":", .var "ty", .tok ")", .tok "->",
        .var "set_storage", .tok "{", .var "set_storage", .tok "{", .tok "data", .tok "}", .tok "}", .tok "}"]]))))))))))))))))))))))) }],
  structs := [],
  consts := [] }

theorem unitVariants5_parsed : parsePiece Text.unitVariants5 = some unitVariants5 := by derive_rfl

def unitVariants6 : File := {
  fns := [
    { ty := "", name := "determine_bits", params := ["cx", "en"],
      body := Ex.call ["Ok"] [Ex.cases (Ex.method (Ex.field (Ex.path ["en"]) "variants") "len" []) [(Pat.range 0 8, Ex.tuple [Ex.call ["Ident", "new"] [Ex.str "u8", Ex.call ["Span", "call_site"] []],
        Ex.int 8]), (Pat.range 9 16, Ex.tuple [Ex.call ["Ident", "new"] [Ex.str "u16", Ex.call ["Span", "call_site"] []], Ex.int 16]), (Pat.range 17 32, Ex.tuple [Ex.call ["Ident",
        "new"] [Ex.str "u32", Ex.call ["Span", "call_site"] []], Ex.int 32]), (Pat.range 33 64, Ex.tuple [Ex.call ["Ident", "new"] [Ex.str "u64", Ex.call ["Span", "call_site"] []], Ex.int 64]),
        (Pat.range 65 128, Ex.tuple [Ex.call ["Ident", "new"] [Ex.str "u128", Ex.call ["Span", "call_site"] []], Ex.int 128]), (Pat.bind "other",
        Ex.seq (Ex.method (Ex.path ["cx"]) "span_error" [Ex.method (Ex.field (Ex.field (Ex.path ["cx"]) "ast") "ident") "span" [],
        Ex.mac "format_args" [Ex.str "only support up until 128 variants, got {other}"]]) (Ex.seq (Ex.ret (Ex.call ["Err"] [Ex.unit])) (Ex.unit)))]] }],
  structs := [],
  consts := [] }

theorem unitVariants6_parsed : parsePiece Text.unitVariants6 = some unitVariants6 := by derive_rfl

def unitVariants7 : File := {
  fns := [
    { ty := "", name := "impl_set", params := ["cx", "en", "set_storage", "names"],
      body := Ex.letIn (Pat.bind "vis") (Ex.field (Ex.field (Ex.path ["cx"]) "ast") "vis") (Ex.letIn (Pat.bind "ident") (Ex.field (Ex.field (Ex.path ["cx"]) "ast") "ident") (Ex.letIn (Pat.bind "lt") (Ex.field (Ex.path ["cx"]) "lt") (Ex.letIn (Pat.bind "iterator_t") (Ex.method (Ex.field (Ex.path ["cx"]) "toks") "iterator_t" []) (Ex.letIn (Pat.bind "count") (Ex.method (Ex.field (Ex.path ["en"]) "variants") "len" []) (Ex.letIn (Pat.bind "into_iterator_t") (Ex.method (Ex.field (Ex.path ["cx"]) "toks") "into_iterator_t" []) (Ex.letIn (Pat.bind "array_into_iter") (Ex.method (Ex.field (Ex.path ["cx"]) "toks") "array_into_iter" []) (Ex.letIn (Pat.bind "clone_t") (Ex.method (Ex.field (Ex.path ["cx"]) "toks") "clone_t" []) (Ex.letIn (Pat.bind "copy_t") (Ex.method (Ex.field (Ex.path ["cx"]) "toks") "copy_t" []) (Ex.letIn (Pat.bind "eq_t") (Ex.method (Ex.field (Ex.path ["cx"]) "toks") "eq_t" []) (Ex.letIn (Pat.bind "hash_t") (Ex.method (Ex.field (Ex.path ["cx"]) "toks") "hash_t" []) (Ex.letIn (Pat.bind "iterator_cmp_bool") (Ex.method (Ex.field (Ex.path ["cx"]) "toks") "iterator_cmp_bool" []) (Ex.letIn (Pat.bind "iterator_flatten") (Ex.method (Ex.field (Ex.path ["cx"]) "toks") "iterator_flatten" []) (Ex.letIn (Pat.bind "iterator_partial_cmp_bool") (Ex.method (Ex.field (Ex.path ["cx"]) "toks") "iterator_partial_cmp_bool" []) (Ex.letIn (Pat.bind "mem") (Ex.method (Ex.field (Ex.path ["cx"]) "toks") "mem" []) (Ex.letIn (Pat.bind "option") (Ex.method (Ex.field (Ex.path ["cx"]) "toks") "option" []) (Ex.letIn (Pat.bind "ord_t") (Ex.method (Ex.field (Ex.path ["cx"]) "toks") "ord_t" []) (Ex.letIn (Pat.bind "ordering") (Ex.method (Ex.field (Ex.path ["cx"]) "toks") "ordering" []) (Ex.letIn (Pat.bind "partial_eq_t") (Ex.method (Ex.field (Ex.path ["cx"]) "toks") "partial_eq_t" []) (Ex.letIn (Pat.bind "partial_ord_t") (Ex.method (Ex.field (Ex.path ["cx"]) "toks") "partial_ord_t" []) (Ex.letIn (Pat.bind "set_storage_t") (Ex.method (Ex.field (Ex.path ["cx"]) "toks") "set_storage_t" []) (Ex.letIn (Pat.bind "variants") (Ex.method (Ex.method (Ex.method (Ex.field (Ex.path ["en"]) "variants") "iter" []) "map" [Ex.lambda [Pat.bind "v"] (Ex.field (Ex.path ["v"]) "ident")]) "collect" []) (Ex.letIn (Pat.bind "init") (Ex.method (Ex.method (Ex.method (Ex.field (Ex.path ["en"]) "variants") "iter" []) "map" [Ex.lambda [Pat.wild] (Ex.quote [.tok "false"])]) "collect" []) (Ex.call ["Ok"] [Ex.quote [.tok "#",
        .tok "[", .tok "repr", .tok "(", .tok "transparent", .tok ")", .tok "]", .tok "#", .tok "[", .tok "derive", .tok "(", .var "clone_t", .tok ",", .var "copy_t", .tok ",", .var "partial_eq_t",
        .tok ",", .var "eq_t", .tok ",", .var "hash_t", .tok ")", .tok "]", .var "vis", .tok "struct", .var "set_storage", .tok "{", .tok "data", .tok ":", .tok "[", .tok "bool", .tok ";",
        .var "count", .tok "]", .tok ",", .tok "}", .tok "#", .tok "[", .tok "automatically_derived", .tok "]", .tok "impl", .var "partial_ord_t", .tok "for", .var "set_storage", .tok "{", .tok "#",
        .tok "[", .tok "inline", .tok "]", .tok "fn", .tok "partial_cmp", .tok "(", .tok "&", .tok "self", .tok ",", .tok "other", .tok ":", .tok "&", .tok "Self", .tok ")", .tok "->", .tok "Option",
        .tok "<", .var "ordering", .tok ">", .tok "{", .var "iterator_partial_cmp_bool", .tok "(", .tok "&", .tok "self", .tok ".", .tok "data", .tok ",", .tok "&", .tok "other", .tok ".",
        .tok "data", .tok ")", .tok "}", .tok "}", .tok "#", .tok "[", .tok "automatically_derived", .tok "]", .tok "impl", .var "ord_t", .tok "for", .var "set_storage", .tok "{", .tok "#", .tok "[",
        .tok "inline", .tok "]", .tok "fn", .tok "cmp", .tok "(", .tok "&", .tok "self", .tok ",", .tok "other", .tok ":", .tok "&", .tok "Self", .tok ")", .tok "->", .var "ordering", .tok "{",
        .var "iterator_cmp_bool", .tok "(", .tok "&", .tok "self", .tok ".", .tok "data", .tok ",", .tok "&", .tok "other", .tok ".", .tok "data", .tok ")", .tok "}", .tok "}", .tok "#", .tok "[",
        .tok "automatically_derived", .tok "]", .tok "impl", .var "set_storage_t", .tok "<", .var "ident", .tok ">", .tok "for", .var "set_storage", .tok "{", .tok "type", .tok "Iter", .tok "<",
        .var "lt", .tok ">", .tok "=", .var "iterator_flatten", .tok "<", .var "array_into_iter", .tok "<", .var "option", .tok "<", .var "ident", .tok ">", .tok ",", .var "count", .tok ">",
        .tok ">", .tok ";", .tok "type", .tok "IntoIter", .tok "=", .var "iterator_flatten", .tok "<", .var "array_into_iter", .tok "<", .var "option", .tok "<", .var "ident", .tok ">", .tok ",",
        .var "count", .tok ">", .tok ">", .tok ";", .tok "#", .tok "[", .tok "inline", .tok "]", .tok "fn", .tok "empty", .tok "(", .tok ")", .tok "->", .tok "Self", .tok "{", .tok "Self", .tok "{",
        .tok "data", .tok ":", .tok "[", .rep [.var "init"] (some ","), .tok "]", .tok ",", .tok "}", .tok "}", .tok "#", .tok "[", .tok "inline", .tok "]", .tok "fn", .tok "len", .tok "(", .tok "&",
        .tok "self", .tok ")", .tok "->", .tok "usize", .tok "{", .tok "let", .tok "[", .rep [.var "names"] (some ","), .tok "]", .tok "=", .tok "&", .tok "self", .tok ".", .tok "data", .tok ";",
        .tok "0", .rep [.tok "+", .tok "usize", .tok "::", .tok "from", .tok "(", .tok "*", .var "names", .tok ")"] none, .tok "}", .tok "#", .tok "[", .tok "inline", .tok "]", .tok "fn",
        .tok "is_empty", .tok "(", .tok "&", .tok "self", .tok ")", .tok "->", .tok "bool", .tok "{", .tok "let", .tok "[", .rep [.var "names"] (some ","), .tok "]", .tok "=", .tok "&", .tok "self",
        .tok ".", .tok "data", .tok ";", .tok "true", .rep [.tok "&&", .tok "!", .tok "*", .var "names"] none, .tok "}", .tok "#", .tok "[", .tok "inline", .tok "]", .tok "fn", .tok "insert",
        .tok "(", .tok "&", .tok "mut", .tok "self", .tok ",", .tok "value", .tok ":", .var "ident", .tok ")", .tok "->", .tok "bool", .tok "{", .tok "let", .tok "[", .rep [.var "names"] (some ","),
        .tok "]", .tok "=", .tok "&", .tok "mut", .tok "self", .tok ".", .tok "data", .tok ";", .tok "match", .tok "value", .tok "{", .rep [.var "ident", .tok "::", .var "variants", .tok "=>",
        .tok "!", .var "mem", .tok "::", .tok "replace", .tok "(", .var "names", .tok ",", .tok "true", .tok ")", .tok ","] none, .tok "}", .tok "}", .tok "#", .tok "[", .tok "inline", .tok "]",
        .tok "fn", .tok "contains", .tok "(", .tok "&", .tok "self", .tok ",", .tok "value", .tok ":", .var "ident", .tok ")", .tok "->", .tok "bool", .tok "{", .tok "let", .tok "[",
        .rep [.var "names"] (some ","), .tok "]", .tok "=", .tok "&", .tok "self", .tok ".", .tok "data", .tok ";", .tok "match", .tok "value", .tok "{", .rep [.var "ident", .tok "::",
        .var "variants", .tok "=>", .tok "*", .var "names", .tok ","] none, .tok "}", .tok "}", .tok "#", .tok "[", .tok "inline", .tok "]", .tok "fn", .tok "remove", .tok "(", .tok "&", .tok "mut",
        .tok "self", .tok ",", .tok "value", .tok ":", .var "ident", .tok ")", .tok "->", .tok "bool", .tok "{", .tok "let", .tok "[", .rep [.var "names"] (some ","), .tok "]", .tok "=", .tok "&",
        .tok "mut", .tok "self", .tok ".", .tok "data", .tok ";", .tok "match", .tok "value", .tok "{", .rep [.var "ident", .tok "::", .var "variants", .tok "=>", .var "mem", .tok "::",
        .tok "replace", .tok "(", .var "names", .tok ",", .tok "false", .tok ")", .tok ","] none, .tok "}", .tok "}", .tok "#", .tok "[", .tok "inline", .tok "]", .tok "fn", .tok "retain", .tok "<",
        .tok "F", .tok ">", .tok "(", .tok "&", .tok "mut", .tok "self", .tok ",", .tok "mut", .tok "f", .tok ":", .tok "F", .tok ")", .tok "where", .tok "F", .tok ":", .tok "FnMut", .tok "(",
        .var "ident", .tok ")", .tok "->", .tok "bool", .tok "{", .tok "let", .tok "[", .rep [.var "names"] (some ","), .tok "]", .tok "=", .tok "&", .tok "mut", .tok "self", .tok ".", .tok "data",
        .tok ";", .rep [.tok "if", .tok "*", .var "names", .tok "{", .tok "*", .var "names", .tok "=", .tok "f", .tok "(", .var "ident", .tok "::", .var "variants", .tok ")", .tok ";",
        .tok "}"] none, .tok "}", .tok "#", .tok "[", .tok "inline", .tok "]", .tok "fn", .tok "clear", .tok "(", .tok "&", .tok "mut", .tok "self", .tok ")", .tok "{", .tok "self", .tok ".",
        .tok "data", .tok "=", .tok "[", .rep [.var "init"] (some ","), .tok "]", .tok ";", .tok "}", .tok "#", .tok "[", .tok "inline", .tok "]", .tok "fn", .tok "iter", .tok "(", .tok "&",
        .tok "self", .tok ")", .tok "->", .tok "Self", .tok "::", .tok "Iter", .tok "<", .tok "'_", .tok ">", .tok "{", .tok "let", .tok "[", .rep [.var "names"] (some ","), .tok "]", .tok "=",
        .tok "&", .tok "self", .tok ".", .tok "data", .tok ";", .var "iterator_t", .tok "::", .tok "flatten", .tok "(", .var "into_iterator_t", .tok "::", .tok "into_iter", .tok "(", .tok "[",
        .rep [.tok "if", .tok "*", .var "names", .tok "{", .tok "Some", .tok "(", .var "ident", .tok "::", .var "variants", .tok ")", .tok "}", .tok "else", .tok "{", .tok "None",
        .tok "}"] (some ","), .tok "]", .tok ")", .tok ")", .tok "}", .tok "#", .tok "[", .tok "inline", .tok "]", .tok "fn", .tok "into_iter", .tok "(", .tok "self", .tok ")", .tok "->",
        .tok "Self", .tok "::", .tok "IntoIter", .tok "{", .tok "let", .tok "[", .rep [.var "names"] (some ","), .tok "]", .tok "=", .tok "&", .tok "self", .tok ".", .tok "data", .tok ";",
        .var "iterator_t", .tok "::", .tok "flatten", .tok "(", .var "into_iterator_t", .tok "::", .tok "into_iter", .tok "(", .tok "[", .rep [.tok "if", .tok "*", .var "names", .tok "{",
        .tok "Some", .tok "(", .var "ident", .tok "::", .var "variants", .tok ")", .tok "}", .tok "else", .tok "{", .tok "None", .tok "}"] (some ","), .tok "]", .tok ")", .tok ")", .tok "}",
        .tok "}"]]))))))))))))))))))))))) }],
  structs := [],
  consts := [] }

theorem unitVariants7_parsed : parsePiece Text.unitVariants7 = some unitVariants7 := by derive_rfl

/-- any_variants.rs -/
def anyVariants : File := anyVariants1.and (anyVariants2.and (anyVariants3.and (anyVariants4.and (anyVariants5.and (anyVariants6.and (anyVariants7.and (anyVariants8.and (anyVariants9.and (anyVariants10.and (anyVariants11.and (anyVariants12.and (anyVariants13.and (anyVariants14.and (anyVariants15.and (anyVariants16.and (anyVariants17.and ⟨[], [], []⟩))))))))))))))))

theorem anyVariants_parsed : parseFile Text.anyVariants = some anyVariants := by
  simp only [Text.anyVariants, parseFile, anyVariants1_parsed, anyVariants2_parsed, anyVariants3_parsed, anyVariants4_parsed, anyVariants5_parsed, anyVariants6_parsed, anyVariants7_parsed, anyVariants8_parsed, anyVariants9_parsed, anyVariants10_parsed, anyVariants11_parsed, anyVariants12_parsed, anyVariants13_parsed, anyVariants14_parsed, anyVariants15_parsed, anyVariants16_parsed, anyVariants17_parsed, anyVariants]

/-- unit_variants.rs -/
def unitVariants : File := unitVariants1.and (unitVariants2.and (unitVariants3.and (unitVariants4.and (unitVariants5.and (unitVariants6.and (unitVariants7.and ⟨[], [], []⟩))))))

theorem unitVariants_parsed : parseFile Text.unitVariants = some unitVariants := by
  simp only [Text.unitVariants, parseFile, unitVariants1_parsed, unitVariants2_parsed, unitVariants3_parsed, unitVariants4_parsed, unitVariants5_parsed, unitVariants6_parsed, unitVariants7_parsed, unitVariants]

/-- `impl_storage` and `is_all_unit_variants` of lib.rs -/
def lib : File := {
  fns := [
    { ty := "", name := "impl_storage", params := ["cx"],
      body := Ex.letIn (Pat.bind "opts") (Ex.try (Ex.call ["attrs", "parse"] [Ex.path ["cx"]])) (Ex.cases (Ex.field (Ex.field
        (Ex.path ["cx"]) "ast") "data") [(Pat.con ["Data", "Enum"] [Pat.bind "en"], Ex.ite (Ex.call ["is_all_unit_variants"] [Ex.path ["en"]])
        (Ex.call ["unit_variants", "implement"] [Ex.path ["cx"], Ex.path ["opts"], Ex.path ["en"]]) (Ex.call ["any_variants", "implement"] [Ex.path ["cx"], Ex.path ["en"]])), (Pat.wild, Ex.seq
        (Ex.method (Ex.path ["cx"]) "span_error" [Ex.method (Ex.field (Ex.path ["cx"]) "ast") "span" [], Ex.str "named fields are not supported"]) (Ex.call ["Err"] [Ex.unit]))]) },
    { ty := "", name := "is_all_unit_variants", params := ["en"],
      body := Ex.seq (Ex.for (Pat.bind "v") (Ex.field (Ex.path ["en"]) "variants") (Ex.ite (Ex.call ["!"] [Ex.mac "matches" [Ex.field (Ex.path ["v"]) "fields", Ex.path ["Fields", "Unit"]]]) (Ex.seq
        (Ex.ret (Ex.path ["false"])) (Ex.unit)) (Ex.unit))) (Ex.path ["true"]) }],
  structs := [],
  consts := [] }

theorem lib_parsed : parsePiece Text.lib = some lib := by derive_rfl

end FixedMap.DeriveText.Progs
