import Verif.Model.EmitUnits
import Verif.Model.Expand

/-!
# The macro as a function from tokens to tokens: fixed-map-derive/src/{lib,attrs,symbol}.rs

`Model/Expand.lean` says what code the derive decides on, `Model/Emit*.lean` writes code for accepted variants. Here is the macro itself: the
attributes are read from their tokens, the loop of `any_variants::implement` skips what it does not support, and what comes out is a token stream, with the text of the
diagnostics, or a panic.

Of syn, these are modelled: `Attribute::parse_nested_meta`, `Path::is_ident`, `Error::to_compile_error`. Its parser of items is not: the input is a `DeriveInput`.
-/

set_option autoImplicit false

namespace FixedMap.Emit.Macro

open FixedMap.Derive (SynData)

/-- What is left to the token library: which tokens are identifiers (keywords too), how a string literal is written, and what syn reports when the remaining tokens of an
attribute are not as expected. -/
structure Env where
  isIdent : String → Bool
  lit : String → String
  synError : Toks → String

/-- `syn::Path` without generic arguments. -/
structure Path where
  leading : Bool
  segments : List String
deriving DecidableEq

/-- `Path::is_ident` -/
def Path.isIdent (p : Path) (word : String) : Bool := !p.leading && p.segments == [word]

/-- `syn::Meta` of an attribute after its path. -/
inductive Args where
  /-- `#[key]` -/
  | none
  /-- `#[key = ..]` -/
  | nameValue (value : Toks)
  /-- `#[key(..)]` -/
  | list (tokens : Toks)

/-- `syn::Attribute` -/
structure Attr where
  path : Path
  args : Args

/-- `syn::Fields` -/
inductive Fields where
  | unit
  | unnamed (elems : List Toks)
  | named (fields : List (String × Toks))

/-- `syn::Variant` -/
structure Variant where
  ident : String
  fields : Fields

/-- `syn::Data` -/
inductive Data where
  | enum (variants : List Variant)
  | struct
  | union

/-- `syn::DeriveInput` -/
structure Ast where
  ident : Toks
  vis : Toks
  attrs : List Attr
  data : Data

/-! ## Attributes -/

/-- The segments of a path after the first one, syn's `parse_meta_path`. -/
def moreSegments (E : Env) : Toks → Except String (List String × Toks)
  | "::" :: t :: rest =>
    if E.isIdent t then (moreSegments E rest).map fun (l, r) => (t :: l, r) else .error (E.synError (t :: rest))
  | ["::"] => .error (E.synError [])
  | ts => .ok ([], ts)

/-- syn's `parse_meta_path` after the leading colons. -/
def segments (E : Env) (leading : Bool) : Toks → Except String (Path × Toks)
  | t :: rest => if E.isIdent t then (moreSegments E rest).map fun (l, r) => (⟨leading, t :: l⟩, r) else .error (E.synError (t :: rest))
  | [] => .error (E.synError [])

/-- syn's `parse_meta_path` -/
def metaPath (E : Env) : Toks → Except String (Path × Toks)
  | "::" :: ts => segments E true ts
  | ts => segments E false ts

theorem moreSegments_le (E : Env) (ts : Toks) (l : List String) (r : Toks) (h : moreSegments E ts = .ok (l, r)) : r.length ≤ ts.length := by
  induction ts using moreSegments.induct E generalizing l r with
  | case1 t rest hi ih =>
    rw [moreSegments, if_pos hi] at h
    cases hm : moreSegments E rest with
    | error e =>
      rw [hm] at h
      cases h
    | ok p =>
      rw [hm] at h
      simp only [Except.map, Except.ok.injEq, Prod.mk.injEq] at h
      have := ih p.1 p.2 hm
      simp only [List.length_cons]
      rw [← h.2]
      omega
  | case2 t rest hi =>
    rw [moreSegments, if_neg hi] at h
    cases h
  | case3 => cases h
  | case4 ts h1 h2 =>
    rw [moreSegments] at h
    · simp only [Except.ok.injEq, Prod.mk.injEq] at h
      rw [h.2]
      exact Nat.le_refl _
    · exact h1
    · exact h2

theorem segments_lt (E : Env) (b : Bool) (ts : Toks) (p : Path) (r : Toks) (h : segments E b ts = .ok (p, r)) : r.length < ts.length := by
  cases ts with
  | nil => cases h
  | cons t rest =>
    rw [segments] at h
    split at h
    · cases hm : moreSegments E rest with
      | error e =>
        rw [hm] at h
        cases h
      | ok q =>
        rw [hm] at h
        simp only [Except.map, Except.ok.injEq, Prod.mk.injEq] at h
        have := moreSegments_le E rest q.1 q.2 hm
        rw [← h.2, List.length_cons]
        omega
    · cases h

theorem metaPath_lt (E : Env) (ts : Toks) (p : Path) (r : Toks) (h : metaPath E ts = .ok (p, r)) : r.length < ts.length := by
  unfold metaPath at h
  split at h
  · exact Nat.lt_succ_of_lt (segments_lt E _ _ _ _ h)
  · exact segments_lt E _ _ _ _ h

/-- `Opts` and the errors in `Ctxt`, context.rs 117-131. -/
structure State where
  bitset : Bool
  errors : List String
deriving DecidableEq

/-- The closure, attrs.rs 14-21. -/
def logic (path : Path) (st : State) : Except String State :=
  if path.isIdent "bitset" then .ok { st with bitset := true } else .error "Unsupported attribute"

/-- What follows an item: the end, or a comma and possibly more items. -/
def afterItem (E : Env) : Toks → Except String (Option Toks)
  | [] => .ok none
  | t :: rest => if t = "," then .ok (if rest.isEmpty then none else some rest) else .error (E.synError (t :: rest))

theorem afterItem_le (E : Env) (ts us : Toks) (h : afterItem E ts = .ok (some us)) : us.length ≤ ts.length := by
  cases ts with
  | nil => cases h
  | cons t rest =>
    rw [afterItem] at h
    split at h
    · split at h
      · cases h
      · cases h
        exact Nat.le_succ _
    · cases h

/-- syn's `parse_nested_meta` with the closure; the state is kept when it fails. -/
def nestedMeta (E : Env) (ts : Toks) (st : State) : State × Option String :=
  match _h : metaPath E ts with
  | .error e => (st, some e)
  | .ok (path, rest) =>
    match logic path st with
    | .error e => (st, some e)
    | .ok st =>
      match _hr : afterItem E rest with
      | .error e => (st, some e)
      | .ok none => (st, none)
      | .ok (some rest) => nestedMeta E rest st
termination_by ts.length
decreasing_by exact Nat.lt_of_le_of_lt (afterItem_le E _ _ _hr) (metaPath_lt E ts path _ _h)

/-- `Attribute::parse_nested_meta` -/
def parseNestedMeta (E : Env) (args : Args) (st : State) : State × Option String :=
  match args with
  | .list [] => (st, none)
  | .list ts => nestedMeta E ts st
  | .none => (st, some (E.synError []))
  | .nameValue value => (st, some (E.synError value))

/-- `attrs::parse`, attrs.rs 5-29. -/
def parse (E : Env) : List Attr → State → State
  | [], st => st
  | attr :: attrs, st =>
    -- 9-11
    if !attr.path.isIdent "key" then parse E attrs st
    else
      let (st, result) := parseNestedMeta E attr.args st
      -- 23-25
      parse E attrs (match result with
        | some error => { st with errors := st.errors ++ [error] }
        | none => st)

/-! ## Variants with payloads -/

/-- The loop of `any_variants::implement`, any_variants.rs 21-73. `none` is the panic of line 41. -/
def loop (cx : Cx) : Nat → List Variant → Emit.Fields → List String → Option (Emit.Fields × List String)
  | _, [], F, errs => some (F, errs)
  | index, v :: vs, F, errs =>
    match v.fields with
    | .unit =>
      let F : Emit.Fields := { F with patterns := F.patterns ++ [buildTupleStructPat cx.ident [v.ident] none] }
      loop cx (index + 1) vs { F with fields := F.fields ++ [⟨index, fieldName index, [v.ident], none⟩] } errs
    | .unnamed elems =>
      if elems.length > 1 then loop cx (index + 1) vs F (errs ++ ["unnamed variants must have a single field"])
      else match elems.head? with
        | none => none
        | some element =>
          let F : Emit.Fields := { F with patterns := F.patterns ++ [buildTupleStructPat cx.ident [v.ident] (some ["v"])] }
          loop cx (index + 1) vs { F with fields := F.fields ++ [⟨index, fieldName index, [v.ident], some (complexOf cx element)⟩] } errs
    | .named _ => loop cx (index + 1) vs F (errs ++ ["named fields are not supported"])

/-! ## The macro -/

/-- `is_all_unit_variants`, lib.rs 65-73. -/
def isAllUnitVariants : List Variant → Bool
  | [] => true
  | v :: vs =>
    match v.fields with
    | .unit => isAllUnitVariants vs
    | _ => false

/-- What `impl_storage` comes to: tokens, `Err(())` with the errors in the context, or a panic. -/
inductive Result where
  | ok (tokens : Toks)
  | err (errors : List String)
  | panic

/-- `unit_variants::implement`, unit_variants.rs 9-45, with the error of 541-546. -/
def units (cx : Cx) (st : State) (variants : List Variant) : Result :=
  match Units.implement cx st.bitset (variants.map (·.ident)) with
  | some tokens => .ok tokens
  | none => .err (st.errors ++ ["only support up until 128 variants, got " ++ Nat.repr variants.length])

/-- `any_variants::implement`, any_variants.rs 12-90; it always returns `Ok`. -/
def any (cx : Cx) (st : State) (variants : List Variant) : Result :=
  match loop cx 0 variants ⟨[], []⟩ st.errors with
  | some (fields, _) => .ok (emit cx fields)
  | none => .panic

/-- `impl_storage`, lib.rs 50-63. -/
def implStorage (E : Env) (cx : Cx) (ast : Ast) : Result :=
  let st := parse E ast.attrs ⟨false, []⟩
  match ast.data with
  | .enum variants => if isAllUnitVariants variants then units cx st variants else any cx st variants
  | _ => .err (st.errors ++ ["named fields are not supported"])

/-- `syn::Error::to_compile_error` for an error with one message. -/
def toCompileError (E : Env) (message : String) : Toks := ["::", "core", "::", "compile_error", "!", "{", E.lit message, "}"]

/-- `storage_derive`, lib.rs 31-48; `none` is a panic. -/
def storageDerive (E : Env) (ast : Ast) : Option Toks :=
  match implStorage E ⟨ast.ident, ast.vis, ["'a"]⟩ ast with
  | .ok tokens => some tokens
  -- 45-47
  | .err errors =>
    let compile_errors := errors.map (toCompileError E)
    some compile_errors.flatten
  | .panic => none

end FixedMap.Emit.Macro
