import Verif.Model.DeriveSem

/-!
# What the text of the derive does

The text of the files of the derive is read, and `implement` or `impl_storage` is run.
-/

set_option autoImplicit false

namespace FixedMap.DeriveText

open Emit (Toks Cx)

inductive Outcome where
  /-- `Ok(tokens)` -/
  | tokens (t : Toks)
  /-- `Err(())`, with the errors in the context -/
  | refused (errors : List String)
  | panic
  /-- The text cannot be read, or running it fails: something is not defined or has the wrong type. -/
  | wrong

def stopped : Stop → Outcome
  | .err e => .refused e
  | .panic => .panic
  | _ => .wrong

def finished (v : Val) (_ : Heap) : Outcome :=
  match v with
  | .toks t => .tokens t
  | _ => .wrong

/-- Read the file `file` (its pieces) and the table of paths `paths`, and run `implement(args)` to the given depth. -/
def outcome (file : List Toks) (paths : Toks) (depth : Nat) (args : List Val) : Outcome :=
  match parseFile file with
  | none => .wrong
  | some F => runFn ⟨F, parsePaths paths, .none⟩ ⟨forLoop, forVariants⟩ depth Outcome stopped "implement" args ⟨[], ⟨[], []⟩, []⟩ finished

/-- any_variants.rs on an enum. -/
def anyOutcome (cx : Cx) (vs : List Emit.Macro.Variant) (depth : Nat) : Outcome := outcome Text.anyVariants Text.paths depth [.cx cx (.enum vs), .en vs]

/-- unit_variants.rs on an enum, with `#[key(bitset)]` or without. -/
def unitOutcome (cx : Cx) (bitset : Bool) (en : List String) (depth : Nat) : Outcome :=
  outcome Text.unitVariants Text.paths depth [.cx cx (.enum (en.map fun v => ⟨v, .unit⟩)), .opts bitset, .unitEnum en]

/-- A variant without payload or with one field, as syn has it. -/
def shape (v : Emit.Variant) : Emit.Macro.Variant :=
  ⟨v.ident, match v.element with | none => .unit | some t => .unnamed [t]⟩

/-! ## The macro -/

/-- `attrs::parse(cx)`, as in Macro.lean. -/
def attrsExternal (E : Emit.Macro.Env) (attrs : List Emit.Macro.Attr) : External := fun _ err vs h k =>
  match vs with
  | [.cx _ _] => k (.opts (Emit.Macro.parse E attrs ⟨false, h.errs⟩).bitset) ⟨h.cells, h.flds, (Emit.Macro.parse E attrs ⟨false, h.errs⟩).errors⟩
  | _ => err .wrong

/-- `unit_variants::implement(cx, &opts, en)`, from the text `U`; wrong for enums with payloads. -/
def unitsExternal (U : File) (paths : List (String × List String)) (depth : Nat) : External := fun R err vs h k =>
  match vs with
  | [c, o, .en l] =>
    match Emit.Macro.isAllUnitVariants l with
    | true => runFn ⟨U, paths, .none⟩ ⟨forLoop, forVariants⟩ depth R err "implement" [c, o, .unitEnum (l.map (·.ident))] h k
    | false => err .wrong
  | _ => err .wrong

/-- `any_variants::implement(cx, en)`, from the text `A`. -/
def anyExternal (A : File) (paths : List (String × List String)) (depth : Nat) : External := fun R err vs h k =>
  runFn ⟨A, paths, .none⟩ ⟨forLoop, forVariants⟩ depth R err "implement" vs h k

def externals (E : Emit.Macro.Env) (attrs : List Emit.Macro.Attr) (U A : File) (paths : List (String × List String)) (depth : Nat) : Externals :=
  ⟨attrsExternal E attrs, unitsExternal U paths depth, anyExternal A paths depth⟩

/-- `impl_storage(&cx)` on any input: lib.rs, and what it calls of unit_variants.rs and any_variants.rs. -/
def macroOutcome (E : Emit.Macro.Env) (cx : Cx) (ast : Emit.Macro.Ast) (depth : Nat) : Outcome :=
  match parsePiece Text.lib, parseFile Text.unitVariants, parseFile Text.anyVariants with
  | some L, some U, some A =>
    runFn ⟨L, parsePaths Text.paths, externals E ast.attrs U A (parsePaths Text.paths) depth⟩ ⟨forLoop, forVariants⟩ depth Outcome stopped "impl_storage" [.cx cx ast.data]
      ⟨[], ⟨[], []⟩, []⟩ finished
  | _, _, _ => .wrong

/-- What `storage_derive` makes of it: the tokens, or a `compile_error!` for each error. `none`: a panic. -/
def written (E : Emit.Macro.Env) : Outcome → Option Toks
  | .tokens t => some t
  | .refused errors => some (errors.flatMap fun m => ["::", "core", "::", "compile_error", "!", "{", E.lit m, "}"])
  | .panic => none
  | .wrong => none

end FixedMap.DeriveText
