import Verif.Model.Macro
import Verif.Model.DeriveAttrsProgs

/-!
# Running attrs.rs and the paths of context.rs

A second interpreter for the Rust of DeriveSyntax.lean, for functions that change variables and give closures to syn.

* A run has the variables and the errors in `cx` as state. A block forgets the variables that it has declared.
* `Attribute::parse_nested_meta` is syn's parser of Macro.lean, with the closure as a parameter: `nestedWith`.
* Assumed: `#[derive(Default)]` for `Opts` gives `bitset: None`; `cx.error` adds to the errors (context.rs 144-146); `syn::Error::new` keeps the message; `PathSegment::from` an
  identifier prints as the identifier; `Punctuated::default()` is empty; `clone`.
-/

set_option autoImplicit false

namespace FixedMap.DeriveText.Attrs

open Emit (Toks)
open Emit.Macro (Path Attr Args)

inductive AVal where
  | unit
  | bool (b : Bool)
  | str (s : String)
  | some (v : AVal)
  /-- `Ok`, `Err` -/
  | ok (v : AVal)
  | err (v : AVal)
  /-- `syn::Error` -/
  | error (m : String)
  | symbol (s : String)
  /-- `Opts`, by `bitset.is_some()` -/
  | opts (bitset : Bool)
  /-- `cx`, `cx.ast` -/
  | cx (l : List Attr)
  | attrs (l : List Attr)
  | attr (a : Attr)
  /-- the argument of the closure, `ParseNestedMeta` -/
  | input (p : Path)
  | path (p : Path)
  | span
  | segment (s : String)
  | segments (l : List String)
  /-- an array of strings -/
  | parts (l : List String)

/-- The variables, and the errors in `cx`. -/
structure St where
  vars : List (String × AVal)
  errs : List String

/-- How a run ends: with a value, at `continue`, at `return`, or wrongly. -/
inductive Flow where
  | val (v : AVal) (s : St)
  | cont (s : St)
  | ret (v : AVal) (s : St)
  | wrong

def Flow.bind (r : Flow) (f : AVal → St → Flow) : Flow :=
  match r with
  | .val v s => f v s
  | r => r

def get (x : String) : List (String × AVal) → Option AVal
  | [] => none
  | (y, v) :: l => if x == y then some v else get x l

/-- Declare or change a variable. -/
def set (x : String) (v : AVal) : List (String × AVal) → List (String × AVal)
  | [] => [(x, v)]
  | (y, w) :: l => if x == y then (y, v) :: l else (y, w) :: set x v l

def St.set (s : St) (x : String) (v : AVal) : St := ⟨Attrs.set x v s.vars, s.errs⟩

/-- Forget the variables from the `n`th on. -/
def St.cut (s : St) (n : Nat) : St := ⟨s.vars.take n, s.errs⟩

/-- `parse_nested_meta` with a closure that gives `none` for `Ok`, or the message of its error; `none` if the closure is wrong. -/
def nestedWith (E : Emit.Macro.Env) (f : Path → St → Option (St × Option String)) : Nat → Toks → St → Option (St × Option String)
  | 0, _, _ => none
  | n + 1, ts, s =>
    match Emit.Macro.metaPath E ts with
    | .error e => some (s, some e)
    | .ok (path, rest) =>
      match f path s with
      | none => none
      | some (s, some e) => some (s, some e)
      | some (s, none) =>
        match Emit.Macro.afterItem E rest with
        | .error e => some (s, some e)
        | .ok none => some (s, none)
        | .ok (some rest) => nestedWith E f n rest s

/-- `Attribute::parse_nested_meta` -/
def parseWith (E : Emit.Macro.Env) (f : Path → St → Option (St × Option String)) (args : Args) (s : St) : Option (St × Option String) :=
  match args with
  | .list [] => some (s, none)
  | .list (t :: ts) => nestedWith E f (ts.length + 2) (t :: ts) s
  | .none => some (s, some (E.synError []))
  | .nameValue value => some (s, some (E.synError value))

/-- Go through a list; `continue` goes on with the next, and variables of the body are forgotten. -/
def each {α : Type} (body : α → St → Flow) (n : Nat) : List α → St → Flow
  | [], s => .val .unit s
  | a :: l, s =>
    match body a s with
    | .val _ s => each body n l (s.cut n)
    | .cont s => each body n l (s.cut n)
    | r => r

/-- `==` between a path and a symbol: the `eq` for `Path` of symbol.rs. -/
def eqWith (Y : File) (ev : Ex → St → Flow) (a b : AVal) (s : St) : Flow :=
  match a, b with
  | .path p, .symbol w =>
    match Y.fns.find? fun f => f.ty == "Path" && f.name == "eq" with
    | some f =>
      match f.params, ev f.body ⟨f.params.zip [.path p, .symbol w], []⟩ with
      | [_, _], .val v _ => .val v s
      | _, _ => .wrong
    | none => .wrong
  | _, _ => .wrong

/-- What the closure of `parse_nested_meta` has returned; its variables are forgotten. -/
def returned (n : Nat) : Flow → Option (St × Option String)
  | .val (.ok _) s => some (s.cut n, none)
  | .val (.err (.error m)) s => some (s.cut n, some m)
  | .ret (.ok _) s => some (s.cut n, none)
  | .ret (.err (.error m)) s => some (s.cut n, some m)
  | _ => none

/-- Evaluate to depth `n`. `Y` is symbol.rs. -/
def run (E : Emit.Macro.Env) (Y : File) : Nat → Ex → St → Flow
  | 0, _, _ => .wrong
  | n + 1, e, s =>
    let ev := run E Y n
    match e with
    | .unit => .val .unit s
    | .str t => .val (.str t) s
    | .path [x] =>
      match get x s.vars with
      | some v => .val v s
      | none => if x == "continue" then .cont s else .wrong
    | .path ["symbol", x] =>
      match Y.consts.find? (·.1 == x) with
      | some (_, .call ["Symbol"] [.str t]) => .val (.symbol t) s
      | _ => .wrong
    | .seq a b => (ev a s).bind fun _ s => ev b s
    | .letIn (.bind x) e b => (ev e s).bind fun v s => ev b (s.set x v)
    | .ite c a b => (ev c s).bind fun c s =>
      match c with
      | .bool true => ev a s
      | .bool false => ev b s
      | _ => .wrong
    | .ret e => (ev e s).bind fun v s => .ret v s
    | .cases e [(.con ["Err"] [.bind x], a), (.wild, b)] => (ev e s).bind fun v s' =>
      match v with
      | .err m => (ev a (s'.set x m)).bind fun v s'' => .val v (s''.cut s'.vars.length)
      | .ok _ => ev b s'
      | _ => .wrong
    | .for (.bind x) e b => (ev e s).bind fun v s =>
      match v with
      | .attrs l => each (fun a s => ev b (s.set x (.attr a))) s.vars.length l s
      | .parts l => each (fun t s => ev b (s.set x (.str t))) s.vars.length l s
      | _ => .wrong
    | .call ["=="] [a, b] => (ev a s).bind fun a s => (ev b s).bind fun b s => eqWith Y ev a b s
    | .call ["!="] [a, b] => (ev a s).bind fun a s => (ev b s).bind fun b s => (eqWith Y ev a b s).bind fun v s =>
      match v with
      | .bool c => .val (.bool (!c)) s
      | _ => .wrong
    | .call ["="] [.field (.path [x]) "bitset", e] => (ev e s).bind fun v s =>
      match get x s.vars, v with
      | some (.opts _), .some .span => .val .unit (s.set x (.opts true))
      | _, _ => .wrong
    | .call ["Opts", "default"] [] => .val (.opts false) s
    | .call ["syn", "default"] [] => .val .unit s
    | .call ["syn", "punctuated", "Punctuated", "default"] [] => .val (.segments []) s
    | .call ["Span", "call_site"] [] => .val .span s
    | .call ["Some"] [e] => (ev e s).bind fun v s => .val (.some v) s
    | .call ["Ok"] [e] => (ev e s).bind fun v s => .val (.ok v) s
    | .call ["Err"] [e] => (ev e s).bind fun v s => .val (.err v) s
    | .call ["syn", "Error", "new"] [a, b] => (ev a s).bind fun _ s => (ev b s).bind fun v s =>
      match v with
      | .str m => .val (.error m) s
      | _ => .wrong
    | .call ["syn", "Ident", "new"] [a, b] => (ev b s).bind fun _ s => ev a s
    | .call ["syn", "PathSegment", "from"] [e] => (ev e s).bind fun v s =>
      match v with
      | .str t => .val (.segment t) s
      | _ => .wrong
    | .struct ["Path"] [("leading_colon", a), ("segments", b)] => (ev a s).bind fun a s => (ev b s).bind fun b s =>
      match a, b with
      | .some _, .segments l => .val (.path ⟨true, l⟩) s
      | _, _ => .wrong
    | .field e f => (ev e s).bind fun v s =>
      match v with
      | .cx l => if f == "ast" then .val (.cx l) s else if f == "attrs" then .val (.attrs l) s else .wrong
      | .input p => if f == "path" then .val (.path p) s else if f == "input" then .val .unit s else .wrong
      | .symbol t => if f == "0" then .val (.str t) s else .wrong
      | _ => .wrong
    | .method (.field (.path [x]) "segments") "push" [e] => (ev e s).bind fun v s =>
      match get x s.vars, v with
      | some (.path p), .segment t => .val .unit (s.set x (.path ⟨p.leading, p.segments ++ [t]⟩))
      | _, _ => .wrong
    | .method e "parse_nested_meta" [.lambda [.bind x] b] => (ev e s).bind fun v s =>
      match v with
      | .attr a =>
        match parseWith E (fun p s => returned s.vars.length (ev b (s.set x (.input p)))) a.args s with
        | some (s, none) => .val (.ok .unit) s
        | some (s, some m) => .val (.err (.error m)) s
        | none => .wrong
      | _ => .wrong
    | .method e "path" [] => (ev e s).bind fun v s =>
      match v with
      | .attr a => .val (.path a.path) s
      | _ => .wrong
    | .method e "span" [] => (ev e s).bind fun _ s => .val .span s
    | .method e "clone" [] => ev e s
    | .method e "is_ident" [w] => (ev e s).bind fun v s => (ev w s).bind fun w s =>
      match v, w with
      | .path p, .str w => .val (.bool (p.isIdent w)) s
      | _, _ => .wrong
    | .method e "error" [m] => (ev e s).bind fun v s => (ev m s).bind fun m s =>
      match v, m with
      | .cx _, .error m => .val .unit ⟨s.vars, s.errs ++ [m]⟩
      | _, _ => .wrong
    | _ => .wrong

/-- Call a function of a file. -/
def call (E : Emit.Macro.Env) (Y F : File) (depth : Nat) (name : String) (args : List AVal) (errs : List String) : Flow :=
  match F.fns.find? fun f => f.ty == "" && f.name == name with
  | some f =>
    match run E Y depth f.body ⟨f.params.zip args, errs⟩ with
    | .ret v s => .val v s
    | .cont _ => .wrong
    | r => r
  | none => .wrong

end FixedMap.DeriveText.Attrs
