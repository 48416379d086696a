import Verif.Model.Derive
import Verif.Model.GenIter
import Verif.Model.GenEntry
import Verif.Model.GenUnits

/-!
# The whole derive: from the item to the emitted code

`Model/Derive.lean` decides what kind of code is emitted and `Model/Gen*.lean` emits it for supported variants. Here the two are
put together as in fixed-map-derive/src/lib.rs: the input is the item with the names of its variants and the types of
their fields, the output is the emitted code, a list of diagnostics, or a panic of the macro.

A field type is given by the key type it denotes; for field types that do not implement `Key`, rustc rejects the
emitted code.
-/

set_option autoImplicit false

namespace FixedMap.Derive

open Gen (Variant FieldSet Pat fieldName)

/-- `syn::Fields` with the types of the fields. -/
inductive SynFields where
  | unit
  | unnamed (elems : List KeyTy)
  | named (fields : List (String × KeyTy))

/-- `syn::Variant`. -/
structure SynVariant where
  ident : String
  fields : SynFields

/-- `syn::Data`. -/
inductive SynData where
  | enum (variants : List SynVariant)
  | struct
  | union

/-- `syn::DeriveInput`. -/
structure Ast where
  attrs : List KeyAttr
  data : SynData

/-- The items inside the emitted `const _: () = { .. };`. -/
inductive Items where
  /-- `unit_variants::implement` without `bitset` -/
  | units (map : GenUnits.MapCode) (set : GenUnits.SetCode)
  /-- `unit_variants::implement` with `bitset` -/
  | bits (map : GenUnits.MapCode) (set : GenUnits.BitsetCode)
  /-- `any_variants::implement` -/
  | any (map : Gen.MapCode) (mapIter : Gen.MapIt → Gen.IterCode) (entry : Gen.EntryCode)
      (set : Gen.SetCode) (setIter : Gen.SetIt → Gen.IterCode)

/-- The outcome of the macro. -/
inductive Expansion where
  | items (i : Items)
  | compileErrors (l : List Diag)
  | panic

/-- `matches!(&v.fields, Fields::Unit)`, lib.rs 67. -/
def SynFields.isUnit : SynFields → Bool
  | .unit => true
  | _ => false

/-- `is_all_unit_variants`, lib.rs 65-73. -/
def allUnit : List SynVariant → Bool
  | [] => true
  | v :: vs => if !v.fields.isUnit then false else allUnit vs

/-- `unit_variants::implement`, unit_variants.rs 9-44. -/
def expandUnits (cx : Cx) (variants : List SynVariant) : Except (List Diag) Items :=
  let names := variants.map (·.ident)
  if cx.bitset then
    match GenUnits.genBitset names with
    | some set => .ok (.bits (GenUnits.genMap names) set)
    | none => .error (cx.errors ++ [.tooManyVariants])
  else .ok (.units (GenUnits.genMap names) (GenUnits.genSet names))

/-- The loop of `any_variants::implement`, any_variants.rs 21-73, on all variants. `none` is the panic of line 41. -/
def collectLoop : Nat → List SynVariant → FieldSet → List Diag → Option (FieldSet × List Diag)
  | _, [], F, errs => some (F, errs)
  | index, v :: vs, F, errs =>
    let name := fieldName index
    match v.fields with
    -- 26-31
    | .unit =>
      let F : FieldSet := { F with patterns := F.patterns ++ [Pat.path v.ident] }
      collectLoop (index + 1) vs { F with fields := F.fields ++ [⟨index, name, v.ident, none⟩] } errs
    | .unnamed elems =>
      -- 33-39
      if elems.length > 1 then collectLoop (index + 1) vs F (errs ++ [.notASingleField])
      else match elems.head? with
        | none => none
        -- 41-59
        | some κ =>
          let F : FieldSet := { F with patterns := F.patterns ++ [Pat.tuple v.ident "v"] }
          collectLoop (index + 1) vs { F with fields := F.fields ++ [⟨index, name, v.ident, some κ⟩] } errs
    -- 60-63
    | .named _ => collectLoop (index + 1) vs F (errs ++ [.namedFields])

/-- `any_variants::implement`, 75-90. -/
def anyItems (F : FieldSet) : Items :=
  .any (Gen.genMap F) (Gen.genMapIter F) (Gen.genEntry F) (Gen.genSet F) (Gen.genSetIter F)

/-- `storage_derive` and `impl_storage`, lib.rs 31-63. -/
def expand (ast : Ast) : Expansion :=
  let cx := parseAttrs ast.attrs ⟨false, []⟩
  match ast.data with
  | .enum variants =>
    if allUnit variants then
      match expandUnits cx variants with
      | .ok items => .items items
      | .error errs => .compileErrors errs
    else
      match collectLoop 0 variants ⟨[], []⟩ cx.errors with
      | some (F, _) => .items (anyItems F)
      | none => .panic
  | _ => .compileErrors (cx.errors ++ [.notAnEnum])

end FixedMap.Derive
