import Verif.Spec.DeriveMain

/-!
# Running the text of storage_derive
-/

set_option autoImplicit false

namespace FixedMap.DeriveText.Main

open Emit (Toks)
open Emit.Macro (Path Ast)

local macro "drfl" : tactic => `(tactic| (show _ = _; derive_rfl))

def mainBody : Ex :=
  match Progs.storageDerive.fns with
  | [f] => f.body
  | _ => .unit

/-- What comes after `let result = ..`. -/
def afterImpl : Ex :=
  match mainBody with
  | .letIn _ _ (.letIn _ _ (.letIn _ _ (.letIn _ _ (.letIn _ _ (.letIn _ _ e))))) => e
  | _ => .unit

def varsAfter (ast : Ast) : List (String × DVal) :=
  [("cx", .ctxt ⟨true, ["fixed_map"]⟩ ast "'a"), ("tokens", .table ⟨true, ["fixed_map"]⟩), ("crate_prefix", .path ⟨true, ["fixed_map"]⟩), ("lt", .lifetime "'a"), ("ast", .ast ast),
    ("input", .input (.ok ast))]

/-- Up to `impl_storage`. -/
theorem main_begin (E : Emit.Macro.Env) (impl : Ast → String → Option Emit.Macro.Result) (ast : Ast) (n : Nat) :
    run ⟨E, fun l => some ⟨true, l⟩, impl⟩ Progs.ctxt (n + 100) mainBody ⟨[("input", .input (.ok ast))], none⟩ =
      (implFlow (impl ast "'a") ⟨varsAfter ast, some []⟩).bind fun v s => run ⟨E, fun l => some ⟨true, l⟩, impl⟩ Progs.ctxt (n + 94) afterImpl ⟨("result", v) :: s.vars, s.errs⟩ := by
  drfl

theorem main_ok (X : Ext) (ast : Ast) (t : Toks) (n : Nat) :
    ∃ s, run X Progs.ctxt (n + 94) afterImpl ⟨("result", .ok (.toks t)) :: varsAfter ast, none⟩ = .ret (.toks t) s := by
  refine ⟨⟨("g", .toks t) :: ("result", .ok (.toks t)) :: varsAfter ast, none⟩, ?_⟩
  drfl

theorem main_err (X : Ext) (ast : Ast) (l : List String) (n : Nat) :
    ∃ s, run X Progs.ctxt (n + 94) afterImpl ⟨("result", .err .unit) :: varsAfter ast, some l⟩ = .val (.toks (l.map (Emit.Macro.toCompileError X.E)).flatten) s := by
  refine ⟨⟨("compile_errors", .stream (l.map (Emit.Macro.toCompileError X.E))) :: ("errors", .errors l) :: ("result", .err .unit) :: varsAfter ast, some l⟩, ?_⟩
  have h : run X Progs.ctxt (n + 94) afterImpl ⟨("result", .err .unit) :: varsAfter ast, some l⟩ =
      .val (.toks ((l.map (Emit.Macro.toCompileError X.E)).map fun t => t).flatten)
        ⟨("compile_errors", .stream (l.map (Emit.Macro.toCompileError X.E))) :: ("errors", .errors l) :: ("result", .err .unit) :: varsAfter ast, some l⟩ := by drfl
  rw [h, List.map_id']

def fallibleArms : List (Pat × Ex) :=
  match (Progs.ctxt.fns.find? fun f => f.ty == "Ctxt" && f.name == "fallible").map (fun f => f.body) with
  | some (Ex.cases _ arms) => arms
  | _ => []

theorem fallible_begin (X : Ext) (c : DVal) (f : List String → List String × Except String Toks) (l : List String) (n : Nat) :
    method Progs.ctxt (run X Progs.ctxt (n + 20)) "fallible" [c, .op f] ⟨[], some l⟩ =
      leave [] ((opFlow [("self", c), ("op", .op f)] (f l)).bind (casesFlow (run X Progs.ctxt (n + 19)) fallibleArms)) := by drfl

end FixedMap.DeriveText.Main
