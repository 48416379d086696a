import Verif.Model.DeriveMain
import Verif.Spec.DeriveAttrs

/-!
# What the text of storage_derive does
-/

set_option autoImplicit false

namespace FixedMap.DeriveText

open Emit (Toks)
open Emit.Macro (Ast Path)
open Main (DVal)

def Outcome.result : Outcome → Option Emit.Macro.Result
  | .tokens t => some (.ok t)
  | .refused e => some (.err e)
  | .panic => some .panic
  | .wrong => none

/-- What a derive macro can do. -/
inductive Expansion where
  | tokens (t : Toks)
  | panic
  /-- The text cannot be read or run. -/
  | wrong

/-- The functions that storage_derive calls, from their text. -/
def called (E : Emit.Macro.Env) (depth : Nat) : Main.Ext :=
  ⟨E, fun l => pathOutcome E "leading_path" [.parts l] depth, fun a lt => (derived E ⟨a.ident, a.vis, [lt]⟩ a depth).result⟩

/-- `storage_derive(input)`: read and run the text of the derive. `input` is what syn makes of the tokens: an item, or the message of an error. -/
def expansion (E : Emit.Macro.Env) (input : Except String Ast) (depth : Nat) : Expansion :=
  match parsePiece Text.storageDerive, parsePiece Text.ctxt with
  | some D, some C =>
    match D.fns with
    | [f] =>
      match Main.run (called E depth) C depth f.body ⟨f.params.zip [.input input], none⟩ with
      | .val (.toks t) _ => .tokens t
      | .ret (.toks t) _ => .tokens t
      | .panic => .panic
      | _ => .wrong
    | _ => .wrong
  | _, _ => .wrong

/-- Call a method of a `Ctxt` with errors: the value, and the errors afterwards. -/
def ctxtCall (X : Main.Ext) (depth : Nat) (name : String) (args : List DVal) (errs : Option (List String)) : Option (DVal × List String) :=
  match parsePiece Text.ctxt with
  | some C =>
    match Main.method C (Main.run X C depth) name args ⟨[], errs⟩ with
    | .val v s =>
      match s.errs with
      | some l => some (v, l)
      | none => none
    | _ => none
  | none => none

end FixedMap.DeriveText
