import Verif.Model.DeriveMainSource

/-!
# The text of storage_derive and of the methods of Ctxt, parsed

Written down by a script and checked by the kernel.
-/

set_option autoImplicit false
set_option maxRecDepth 10000

namespace FixedMap.DeriveText.Progs

def ctxt : File := {
  fns := [
    { ty := "Ctxt", name := "new", params := ["tokens", "ast", "lt"],
      body := Ex.struct ["Self"] [("errors", Ex.call ["RefCell", "new"] [Ex.call ["Vec", "new"] []]), ("toks", Ex.path ["tokens"]), ("ast", Ex.path ["ast"]), ("lt", Ex.path ["lt"])] },
    { ty := "Ctxt", name := "error", params := ["self", "error"],
      body := Ex.seq (Ex.method (Ex.method (Ex.field (Ex.path ["self"]) "errors") "borrow_mut" []) "push" [Ex.path ["error"]]) (Ex.unit) },
    { ty := "Ctxt", name := "span_error", params := ["self", "span", "message"],
      body := Ex.seq (Ex.method (Ex.path ["self"]) "error" [Ex.call ["syn", "Error", "new"] [Ex.path ["span"], Ex.path ["message"]]]) (Ex.unit) },
    { ty := "Ctxt", name := "into_errors", params := ["self"],
      body := Ex.method (Ex.field (Ex.path ["self"]) "errors") "into_inner" [] },
    { ty := "Ctxt", name := "fallible", params := ["self", "op"],
      body := Ex.cases (Ex.call ["op"] []) [(Pat.con ["Ok"] [Pat.bind "output"], Ex.call ["Ok"] [Ex.path ["output"]]), (Pat.con ["Err"] [Pat.bind "error"], Ex.seq (Ex.method
        (Ex.method (Ex.field (Ex.path ["self"]) "errors") "borrow_mut" []) "push" [Ex.path ["error"]]) (Ex.call ["Err"] [Ex.unit]))] }],
  structs := [],
  consts := [] }

theorem ctxt_parsed : parsePiece Text.ctxt = some ctxt := by derive_rfl

def storageDerive : File := {
  fns := [
    { ty := "", name := "storage_derive", params := ["input"],
      body := Ex.letIn (Pat.bind "ast") (Ex.mac "parse_macro_input" [Ex.path ["input"]]) (Ex.letIn (Pat.bind "lt") (Ex.call ["syn", "Lifetime", "new"] [Ex.str "'a", Ex.method
        (Ex.path ["ast"]) "span" []]) (Ex.letIn (Pat.bind "crate_prefix") (Ex.call ["context", "leading_path"] [Ex.call ["[]"] [Ex.str "fixed_map"]]) (Ex.letIn
        (Pat.bind "tokens") (Ex.call ["context", "Toks", "new"] [Ex.path ["crate_prefix"]]) (Ex.letIn (Pat.bind "cx")
        (Ex.call ["context", "Ctxt", "new"] [Ex.path ["tokens"], Ex.path ["ast"], Ex.path ["lt"]]) (Ex.letIn (Pat.bind "result") (Ex.call ["impl_storage"] [Ex.path ["cx"]])
        (Ex.seq (Ex.cases (Ex.path ["result"]) [(Pat.con ["Ok"] [Pat.bind "g"], Ex.seq (Ex.ret (Ex.method (Ex.path ["g"]) "into" [])) (Ex.unit)), (Pat.wild, Ex.unit)]) (Ex.letIn
        (Pat.bind "errors") (Ex.method (Ex.path ["cx"]) "into_errors" []) (Ex.letIn (Pat.bind "compile_errors") (Ex.method (Ex.method
        (Ex.path ["errors"]) "iter" []) "map" [Ex.path ["syn", "Error", "to_compile_error"]]) (Ex.method
        (Ex.quote [Emit.Quote.Tpl.rep [Emit.Quote.Tpl.var "compile_errors"] none]) "into" []))))))))) }],
  structs := [],
  consts := [] }

theorem storageDerive_parsed : parsePiece Text.storageDerive = some storageDerive := by derive_rfl

end FixedMap.DeriveText.Progs
