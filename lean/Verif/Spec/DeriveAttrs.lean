import Verif.Model.DeriveAttrs
import Verif.Spec.DeriveText

/-!
# What the text of attrs.rs and of the paths does
-/

set_option autoImplicit false

namespace FixedMap.DeriveText

open Emit (Toks Cx)
open Attrs (AVal Flow)

/-- Read attrs.rs and symbol.rs and run `parse(cx)` to the given depth: whether `opts.bitset` is set, and the errors in `cx`. `none`: the text cannot be read or run. -/
def attrsOutcome (E : Emit.Macro.Env) (attrs : List Emit.Macro.Attr) (errs : List String) (depth : Nat) : Option (Bool × List String) :=
  match parsePiece Text.attrs, parsePiece Text.symbol with
  | some A, some Y =>
    match Attrs.call E Y A depth "parse" [.cx attrs] errs with
    | .val (.ok (.opts b)) s => some (b, s.errs)
    | _ => none
  | _, _ => none

/-- `attrs::parse(cx)`, from the text. -/
def attrsText (E : Emit.Macro.Env) (attrs : List Emit.Macro.Attr) (depth : Nat) : External := fun _ err vs h k =>
  match vs with
  | [.cx _ _] =>
    match attrsOutcome E attrs h.errs depth with
    | some (b, errs) => k (.opts b) ⟨h.cells, h.flds, errs⟩
    | none => err .wrong
  | _ => err .wrong

/-- `impl_storage(&cx)` on any input: lib.rs and all that it calls of attrs.rs, unit_variants.rs and any_variants.rs, from the text. -/
def derived (E : Emit.Macro.Env) (cx : Cx) (ast : Emit.Macro.Ast) (depth : Nat) : Outcome :=
  match parsePiece Text.lib, parseFile Text.unitVariants, parseFile Text.anyVariants with
  | some L, some U, some A =>
    runFn ⟨L, parsePaths Text.paths, ⟨attrsText E ast.attrs depth, unitsExternal U (parsePaths Text.paths) depth, anyExternal A (parsePaths Text.paths) depth⟩⟩
      ⟨forLoop, forVariants⟩ depth Outcome stopped "impl_storage" [.cx cx ast.data] ⟨[], ⟨[], []⟩, []⟩ finished
  | _, _, _ => .wrong

/-! ## Paths -/

/-- Read `leading_path` and `suffixed`, and run one of them. -/
def pathOutcome (E : Emit.Macro.Env) (name : String) (args : List AVal) (depth : Nat) : Option Emit.Macro.Path :=
  match parsePiece Text.pathFns, parsePiece Text.symbol with
  | some F, some Y =>
    match Attrs.call E Y F depth name args [] with
    | .val (.path p) _ => some p
    | _ => none
  | _, _ => none

/-- `suffixed(&leading_path(first), rest)` -/
def suffixedPath (E : Emit.Macro.Env) (first rest : List String) (depth : Nat) : Option Emit.Macro.Path :=
  match pathOutcome E "leading_path" [.parts first] depth with
  | some p => pathOutcome E "suffixed" [.path p, .parts rest] depth
  | none => none

/-- `ToTokens` for paths without generic arguments: the segments with `::` between. -/
def printSegments : List String → Toks
  | [] => []
  | [s] => [s]
  | s :: t :: l => s :: "::" :: printSegments (t :: l)

def pathTokens (p : Emit.Macro.Path) : Toks := if p.leading then "::" :: printSegments p.segments else printSegments p.segments

end FixedMap.DeriveText
