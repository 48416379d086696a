import Verif.Model.DeriveAttrsSource

/-!
# The text of attrs.rs, symbol.rs and the paths of context.rs, parsed

Written down by a script and checked by the kernel.
-/

set_option autoImplicit false
set_option maxRecDepth 10000

namespace FixedMap.DeriveText.Progs

def attrs : File := {
  fns := [
    { ty := "", name := "parse", params := ["cx"],
      body := Ex.letIn (Pat.bind "opts") (Ex.call ["Opts", "default"] []) (Ex.seq (Ex.for (Pat.bind "attr") (Ex.field (Ex.field (Ex.path ["cx"]) "ast") "attrs") (Ex.seq (Ex.ite
        (Ex.call ["!="] [Ex.method (Ex.path ["attr"]) "path" [], Ex.path ["symbol", "KEY"]]) (Ex.seq (Ex.path ["continue"]) (Ex.unit)) (Ex.unit)) (Ex.letIn (Pat.bind "result")
        (Ex.method (Ex.path ["attr"]) "parse_nested_meta" [Ex.lambda [Pat.bind "input"] (Ex.seq (Ex.ite (Ex.call ["=="] [Ex.field
        (Ex.path ["input"]) "path", Ex.path ["symbol", "BITSET"]]) (Ex.seq (Ex.call ["="] [Ex.field (Ex.path ["opts"]) "bitset", Ex.call ["Some"] [Ex.method (Ex.field
        (Ex.path ["input"]) "input") "span" []]]) (Ex.unit)) (Ex.seq (Ex.ret (Ex.call ["Err"] [Ex.call ["syn", "Error", "new"] [Ex.method (Ex.field
        (Ex.path ["input"]) "input") "span" [], Ex.str "Unsupported attribute"]])) (Ex.unit))) (Ex.call ["Ok"] [Ex.unit]))]) (Ex.cases
        (Ex.path ["result"]) [(Pat.con ["Err"] [Pat.bind "error"], Ex.seq (Ex.method (Ex.path ["cx"]) "error" [Ex.path ["error"]]) (Ex.unit)), (Pat.wild, Ex.unit)]))))
        (Ex.call ["Ok"] [Ex.path ["opts"]])) }],
  structs := [],
  consts := [] }

theorem attrs_parsed : parsePiece Text.attrs = some attrs := by derive_rfl

def symbol : File := {
  fns := [
    { ty := "Ident", name := "eq", params := ["self", "word"],
      body := Ex.call ["=="] [Ex.path ["self"], Ex.field (Ex.path ["word"]) "0"] },
    { ty := "Ident", name := "eq", params := ["self", "word"],
      body := Ex.call ["=="] [Ex.path ["self"], Ex.field (Ex.path ["word"]) "0"] },
    { ty := "Path", name := "eq", params := ["self", "word"],
      body := Ex.method (Ex.path ["self"]) "is_ident" [Ex.field (Ex.path ["word"]) "0"] },
    { ty := "Path", name := "eq", params := ["self", "word"],
      body := Ex.method (Ex.path ["self"]) "is_ident" [Ex.field (Ex.path ["word"]) "0"] }],
  structs := [],
  consts := [("KEY", Ex.call ["Symbol"] [Ex.str "key"]), ("BITSET", Ex.call ["Symbol"] [Ex.str "bitset"])] }

theorem symbol_parsed : parsePiece Text.symbol = some symbol := by derive_rfl

def pathFns : File := {
  fns := [
    { ty := "", name := "leading_path", params := ["parts"],
      body := Ex.letIn (Pat.bind "path") (Ex.struct ["Path"] [("leading_colon", Ex.call ["Some"] [Ex.call ["syn", "default"] []]),
        ("segments", Ex.call ["syn", "punctuated", "Punctuated", "default"] [])]) (Ex.seq (Ex.for (Pat.bind "part") (Ex.path ["parts"]) (Ex.letIn (Pat.bind "segment")
        (Ex.call ["syn", "PathSegment", "from"] [Ex.call ["syn", "Ident", "new"] [Ex.path ["part"], Ex.call ["Span", "call_site"] []]]) (Ex.seq (Ex.method (Ex.field
        (Ex.path ["path"]) "segments") "push" [Ex.path ["segment"]]) (Ex.unit)))) (Ex.path ["path"])) },
    { ty := "", name := "suffixed", params := ["prefix", "parts"],
      body := Ex.letIn (Pat.bind "path") (Ex.method (Ex.path ["prefix"]) "clone" []) (Ex.seq (Ex.for (Pat.bind "part") (Ex.path ["parts"]) (Ex.letIn (Pat.bind "segment")
        (Ex.call ["syn", "PathSegment", "from"] [Ex.call ["syn", "Ident", "new"] [Ex.path ["part"], Ex.call ["Span", "call_site"] []]]) (Ex.seq (Ex.method (Ex.field
        (Ex.path ["path"]) "segments") "push" [Ex.path ["segment"]]) (Ex.unit)))) (Ex.path ["path"])) }],
  structs := [],
  consts := [] }

theorem pathFns_parsed : parsePiece Text.pathFns = some pathFns := by derive_rfl

end FixedMap.DeriveText.Progs
