import Verif.Model.Text

/-!
# Decisions of `#[derive(Key)]`: fixed-map-derive/src/{lib,attrs,unit_variants,any_variants}.rs

Tokens and spans are abstracted away: the input is the shape of the item, the output is the shape of the
generated code, a list of diagnostics, or a panic of the macro.
-/

set_option autoImplicit false

namespace FixedMap.Derive

/-- One comma separated item inside `#[key(..)]`. -/
inductive Meta where
  | bitset
  | unsupported
  | syntaxError
deriving DecidableEq, Repr

/-- A `#[key..]` attribute: `#[key(items)]`, or `#[key]`/`#[key = ..]`, which `parse_nested_meta` rejects. -/
inductive KeyAttr where
  | list (items : List Meta)
  | notAList
deriving DecidableEq, Repr

/-- `syn::Fields` of a variant with the number of fields. -/
inductive VariantFields where
  | unit
  | unnamed (n : Nat)
  | named (n : Nat)
deriving DecidableEq, Repr

/-- `syn::Data`. -/
inductive Data where
  | enum (variants : List VariantFields)
  | struct
  | union
deriving DecidableEq, Repr

/-- `syn::DeriveInput` (attributes other than `key` are skipped, attrs.rs 9-11). -/
structure Input where
  attrs : List KeyAttr
  data : Data
deriving DecidableEq, Repr

/-- Messages pushed to `Ctxt::errors`. -/
inductive Diag where
  | attribute
  | tooManyVariants
  | notAnEnum
  | notASingleField
  | namedFields
deriving DecidableEq, Repr

/-- The storage generated for one variant (any_variants.rs `Kind`). -/
inductive Kind where
  | simple
  | complex
deriving DecidableEq, Repr

/-- The generated code. -/
inductive Code where
  /-- `unit_variants::implement`: number of variants; integer width when a bitset. -/
  | units (count : Nat) (bitset : Option Nat)
  /-- `any_variants::implement`: the variants (declaration index, kind) the generated matches cover. -/
  | any (fields : List (Nat × Kind))
deriving DecidableEq, Repr

/-- What the macro does. -/
inductive Out where
  | code (c : Code)
  | compileErrors (l : List Diag)
  | panic
deriving DecidableEq, Repr

/-- `Opts { bitset: Option<Span> }`, context.rs 117-122, and the errors collected so far. -/
structure Cx where
  bitset : Bool
  errors : List Diag
deriving DecidableEq, Repr

/-- `attr.parse_nested_meta(..)`, attrs.rs 13-25: items are handled in order, the first error stops the
attribute and is pushed to the context. -/
def parseItems : List Meta → Cx → Cx
  | [], cx => cx
  | .bitset :: l, cx => parseItems l { cx with bitset := true }
  | .unsupported :: _, cx => { cx with errors := cx.errors ++ [.attribute] }
  | .syntaxError :: _, cx => { cx with errors := cx.errors ++ [.attribute] }

/-- `attrs::parse`, attrs.rs 5-29; it always returns `Ok(opts)`. -/
def parseAttrs : List KeyAttr → Cx → Cx
  | [], cx => cx
  | .list items :: l, cx => parseAttrs l (parseItems items cx)
  | .notAList :: l, cx => parseAttrs l { cx with errors := cx.errors ++ [.attribute] }

/-- `is_all_unit_variants`, lib.rs 65-73. -/
def isAllUnitVariants : List VariantFields → Bool
  | [] => true
  | .unit :: l => isAllUnitVariants l
  | _ :: _ => false

/-- `unit_variants::implement`, unit_variants.rs 9-44: `Err(())` with the pushed errors, or the code. -/
def implementUnits (cx : Cx) (count : Nat) : Except (List Diag) Code :=
  if cx.bitset then
    match determineBits count with
    | some w => .ok (.units count (some w))
    | none => .error (cx.errors ++ [.tooManyVariants])
  else .ok (.units count none)

/-- The loop of `any_variants::implement`, any_variants.rs 21-73. `none` = the `.expect("Expected one element")`
panic of line 41. Skipped variants push an error and `continue`. -/
def collectFields : Nat → List VariantFields → List Diag → Option (List (Nat × Kind) × List Diag)
  | _, [], errs => some ([], errs)
  | i, .unit :: l, errs => (collectFields (i + 1) l errs).map fun p => ((i, .simple) :: p.1, p.2)
  | i, .unnamed n :: l, errs =>
    if n > 1 then collectFields (i + 1) l (errs ++ [.notASingleField])
    else if n = 0 then none
    else (collectFields (i + 1) l errs).map fun p => ((i, .complex) :: p.1, p.2)
  | i, .named _ :: l, errs => collectFields (i + 1) l (errs ++ [.namedFields])

/-- `storage_derive` and `impl_storage`, lib.rs 31-63: when code generation returns `Ok`, the collected errors are
not looked at. -/
def derive (input : Input) : Out :=
  let cx := parseAttrs input.attrs ⟨false, []⟩
  match input.data with
  | .enum variants =>
    if isAllUnitVariants variants then
      match implementUnits cx variants.length with
      | .ok c => .code c
      | .error errs => .compileErrors errs
    else
      match collectFields 0 variants cx.errors with
      | some (fields, _) => .code (.any fields)
      | none => .panic
  | _ => .compileErrors (cx.errors ++ [.notAnEnum])

/-- Whether rustc accepts the generated code: every generated `match key { .. }` (e.g. any_variants.rs 238-242) must
cover all variants; omitted variants give error E0004 (for inhabited payloads). -/
def exhaustive (variants : List VariantFields) : Code → Bool
  | .units count _ => count == variants.length
  | .any fields => (List.range variants.length).all fun i => fields.any fun f => f.1 == i

end FixedMap.Derive
