import Verif.Model.DeriveSem
import Verif.Model.Macro
import Verif.Model.DeriveMainProgs

/-!
# Running storage_derive and the methods of Ctxt

A third interpreter, for the outermost function of the derive. There is one `Ctxt`, whose errors are part of the state; they are not known any more after `impl_storage` has returned
`Ok`, and reading them then is wrong.

Assumed of syn and quote: `parse_macro_input!` returns the tokens of a `compile_error!` from the function if the input cannot be parsed; `Error::new`, `Lifetime::new` keep what
they are given; `RefCell` is the value inside. Assumed of context.rs: `Toks::new` (a macro) keeps the prefix.
-/

set_option autoImplicit false

namespace FixedMap.DeriveText.Main

open Emit (Toks)
open Emit.Macro (Path Ast)

inductive DVal where
  | unit
  | str (s : String)
  | span
  /-- the input: what syn makes of it -/
  | input (r : Except String Ast)
  | ast (a : Ast)
  | lifetime (s : String)
  | parts (l : List String)
  | path (p : Path)
  /-- `Toks`, by its `crate_prefix` -/
  | table (p : Path)
  | ctxt (prefixPath : Path) (a : Ast) (lt : String)
  | error (m : String)
  /-- `Vec<syn::Error>`, in a `RefCell` or not -/
  | errors (l : List String)
  | toks (t : Toks)
  | stream (l : List Toks)
  | ok (v : DVal)
  | err (v : DVal)
  /-- A closure that changes the errors and returns tokens or fails. -/
  | op (f : List String → List String × Except String Toks)

structure St where
  vars : List (String × DVal)
  errs : Option (List String)

inductive Flow where
  | val (v : DVal) (s : St)
  | ret (v : DVal) (s : St)
  | panic
  | wrong

def Flow.bind (r : Flow) (f : DVal → St → Flow) : Flow :=
  match r with
  | .val v s => f v s
  | r => r

/-- What the text calls: `leading_path`, and `impl_storage` with a context without errors, for an item and a lifetime. -/
structure Ext where
  E : Emit.Macro.Env
  leading : List String → Option Path
  /-- `none`: the text is wrong -/
  impl : Ast → String → Option Emit.Macro.Result

/-- What `impl_storage` returns. -/
def implFlow (r : Option Emit.Macro.Result) (s : St) : Flow :=
  match r with
  | some (.ok t) => .val (.ok (.toks t)) ⟨s.vars, none⟩
  | some (.err l) => .val (.err .unit) ⟨s.vars, some l⟩
  | some .panic => .panic
  | none => .wrong

def get (x : String) : List (String × DVal) → Option DVal
  | [] => none
  | (y, v) :: l => if x == y then some v else get x l

/-- The arm of a match, and the variable that it binds. -/
def arm (v : DVal) : List (Pat × Ex) → Option (List (String × DVal) × Ex)
  | [] => none
  | (.wild, e) :: _ => some ([], e)
  | (.con ["Ok"] [.bind x], e) :: l =>
    match v with
    | .ok w => some ([(x, w)], e)
    | _ => arm v l
  | (.con ["Err"] [.bind x], e) :: l =>
    match v with
    | .err w => some ([(x, w)], e)
    | _ => arm v l
  | _ => none

/-- The end of a call, which forgets the variables of the function. -/
def leave (vars : List (String × DVal)) : Flow → Flow
  | .val v s => .val v ⟨vars, s.errs⟩
  | .ret v s => .val v ⟨vars, s.errs⟩
  | r => r

def casesFlow (ev : Ex → St → Flow) (arms : List (Pat × Ex)) (v : DVal) (s : St) : Flow :=
  match arm v arms with
  | some (vs, b) => (ev b ⟨vs ++ s.vars, s.errs⟩).bind fun v s' => .val v ⟨s.vars, s'.errs⟩
  | none => .wrong

/-- What the closure of `fallible` returns. -/
def opFlow (vars : List (String × DVal)) : List String × Except String Toks → Flow
  | (l, .ok t) => .val (.ok (.toks t)) ⟨vars, some l⟩
  | (l, .error m) => .val (.err (.error m)) ⟨vars, some l⟩

/-- Run the body of a method of `Ctxt`. -/
def method (F : File) (ev : Ex → St → Flow) (name : String) (args : List DVal) (s : St) : Flow :=
  match F.fns.find? fun f => f.ty == "Ctxt" && f.name == name with
  | some f =>
    if f.params.length == args.length then leave s.vars (ev f.body ⟨f.params.zip args, s.errs⟩) else .wrong
  | none => .wrong

/-- Evaluate to depth `n`. `F` has the methods of `Ctxt`. -/
def run (X : Ext) (F : File) : Nat → Ex → St → Flow
  | 0, _, _ => .wrong
  | n + 1, e, s =>
    let ev := run X F n
    match e with
    | .unit => .val .unit s
    | .str t => .val (.str t) s
    | .path [x] =>
      match get x s.vars with
      | some v => .val v s
      | none => .wrong
    | .seq a b => (ev a s).bind fun _ s => ev b s
    | .letIn (.bind x) e b => (ev e s).bind fun v s => ev b ⟨(x, v) :: s.vars, s.errs⟩
    | .ret e => (ev e s).bind fun v s => .ret v s
    | .cases e arms => (ev e s).bind (casesFlow ev arms)
    | .mac "parse_macro_input" [e] => (ev e s).bind fun v s =>
      match v with
      | .input (.ok a) => .val (.ast a) s
      | .input (.error m) => .ret (.toks (Emit.Macro.toCompileError X.E m)) s
      | _ => .wrong
    | .quote t =>
      .val (.toks (fill 1000 (fun x => match get x s.vars with | some (.toks t) => t | _ => ["?"]) (fun x => match get x s.vars with | some (.stream l) => some l | _ => none) t)) s
    | .struct ["Self"] [("errors", a), ("toks", b), ("ast", c), ("lt", d)] =>
      (ev a s).bind fun a s => (ev b s).bind fun b s => (ev c s).bind fun c s => (ev d s).bind fun d s =>
        match a, b, c, d with
        | .errors l, .table p, .ast c, .lifetime t => .val (.ctxt p c t) ⟨s.vars, some l⟩
        | _, _, _, _ => .wrong
    | .call ["Vec", "new"] [] => .val (.errors []) s
    | .call ["RefCell", "new"] [e] => ev e s
    | .call ["[]"] [.str t] => .val (.parts [t]) s
    | .call ["Ok"] [e] => (ev e s).bind fun v s => .val (.ok v) s
    | .call ["Err"] [e] => (ev e s).bind fun v s => .val (.err v) s
    | .call ["op"] [] =>
      match get "op" s.vars, s.errs with
      | some (.op f), some l => opFlow s.vars (f l)
      | _, _ => .wrong
    | .call ["syn", "Error", "new"] [a, b] => (ev a s).bind fun _ s => (ev b s).bind fun v s =>
      match v with
      | .str m => .val (.error m) s
      | _ => .wrong
    | .call ["syn", "Lifetime", "new"] [a, b] => (ev a s).bind fun v s => (ev b s).bind fun _ s =>
      match v with
      | .str m => .val (.lifetime m) s
      | _ => .wrong
    | .call ["context", "leading_path"] [e] => (ev e s).bind fun v s =>
      match v with
      | .parts l =>
        match X.leading l with
        | some p => .val (.path p) s
        | none => .wrong
      | _ => .wrong
    | .call ["context", "Toks", "new"] [e] => (ev e s).bind fun v s =>
      match v with
      | .path p => .val (.table p) s
      | _ => .wrong
    | .call ["context", "Ctxt", "new"] [a, b, c] => (ev a s).bind fun a s => (ev b s).bind fun b s => (ev c s).bind fun c s => method F ev "new" [a, b, c] s
    | .call ["impl_storage"] [e] => (ev e s).bind fun v s =>
      match v, s.errs with
      | .ctxt p a lt, some [] =>
        if p = ⟨true, ["fixed_map"]⟩ then implFlow (X.impl a lt) s else .wrong
      | _, _ => .wrong
    | .method (.field (.path ["self"]) "errors") "into_inner" [] =>
      match get "self" s.vars, s.errs with
      | some (.ctxt _ _ _), some l => .val (.errors l) s
      | _, _ => .wrong
    | .method (.method (.field (.path ["self"]) "errors") "borrow_mut" []) "push" [e] => (ev e s).bind fun v s =>
      match get "self" s.vars, v, s.errs with
      | some (.ctxt _ _ _), .error m, some l => .val .unit ⟨s.vars, some (l ++ [m])⟩
      | _, _, _ => .wrong
    | .method e "map" [.path ["syn", "Error", "to_compile_error"]] => (ev e s).bind fun v s =>
      match v with
      | .errors l => .val (.stream (l.map (Emit.Macro.toCompileError X.E))) s
      | _ => .wrong
    | .method e m [] => (ev e s).bind fun v s =>
      match v with
      | .ctxt p a lt => method F ev m [.ctxt p a lt] s
      | .ast _ => if m == "span" then .val .span s else .wrong
      | .toks t => if m == "into" then .val (.toks t) s else .wrong
      | .errors l => if m == "iter" then .val (.errors l) s else .wrong
      | _ => .wrong
    | .method e m [a] => (ev e s).bind fun v s => (ev a s).bind fun a s =>
      match v with
      | .ctxt p c lt => method F ev m [.ctxt p c lt, a] s
      | _ => .wrong
    | _ => .wrong

end FixedMap.DeriveText.Main
