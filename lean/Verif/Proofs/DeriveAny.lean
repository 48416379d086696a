import Verif.Spec.DeriveText
import Verif.Proofs.DeriveLoop

/-!
# The text of any_variants.rs writes the tokens of the model

`implement`, run on any list of accepted variants, against Emit.lean.
-/

set_option autoImplicit false
set_option linter.unusedSimpArgs false
set_option linter.unusedVariables false

namespace FixedMap.DeriveText

open Emit (Toks Cx Complex Field)

open Lean Elab Term Meta in
/-- The `n + 1` operands of a chain of `++`, from the left. -/
def operands : Nat → Lean.Expr → List Lean.Expr → List Lean.Expr
  | 0, e, acc => e :: acc
  | n + 1, e, acc => if e.isAppOfArity ``HAppend.hAppend 6 then operands n (e.getArg! 4) (e.getArg! 5 :: acc) else e :: acc

open Lean Elab Term Meta in
/-- The parts of a definition that is a chain of `++`. -/
elab "append_parts% " n:num t:term : term => do
  let e ← elabTermAndSynthesize t none
  let some e ← unfoldDefinition? e | throwError "append_parts%: not a definition"
  let e ← zetaReduce e
  mkListLit (mkConst ``Emit.Toks) (operands (n.getNat - 1) e [])

open Lean Elab Term Meta in
/-- The same for the `impls` of an `Output`. -/
elab "impls_parts% " n:num t:term : term => do
  let e ← elabTermAndSynthesize t none
  let some e ← unfoldDefinition? e | throwError "impls_parts%: not a definition"
  let e ← zetaReduce e
  unless e.isAppOfArity ``Emit.Output.mk 2 do throwError "impls_parts%: not an output {e}"
  mkListLit (mkConst ``Emit.Toks) (operands (n.getNat - 1) (e.getArg! 0) [])

/-! ## What is written one after the other -/

def mapImplParts (cx : Cx) (fields : Emit.Fields) : List Toks := append_parts% 2 (Emit.mapImpls cx fields (Emit.mapName ""))
def mapFnParts (cx : Cx) (fields : Emit.Fields) : List Toks := append_parts% 10 (Emit.mapFns cx fields)
def setImplParts (cx : Cx) (fields : Emit.Fields) : List Toks := append_parts% 2 (Emit.setImpls cx fields (Emit.setName ""))
def setFnParts (cx : Cx) (fields : Emit.Fields) : List Toks := append_parts% 8 (Emit.setFns cx fields)
def setIntoParts (cx : Cx) (fields : Emit.Fields) : List Toks := impls_parts% 4 (Emit.set_storage_into_iter cx "IntoIter" fields)

theorem joinToks_flatten : ∀ l : List Toks, joinToks l = l.flatten
  | [] => rfl
  | [t] => by simp [joinToks]
  | t :: s :: l => by rw [joinToks, joinToks_flatten (s :: l)]; simp

theorem mapImplParts_flatten (cx : Cx) (fields : Emit.Fields) : (mapImplParts cx fields).flatten = Emit.mapImpls cx fields (Emit.mapName "") := by
  show _ = _ ++ _
  simp only [mapImplParts, List.flatten_cons, List.flatten_nil, List.append_nil]

theorem foldl_parts : ∀ (l : List Toks) (t : Toks), (t :: l).flatten = l.foldl (· ++ ·) t
  | [], t => by simp
  | s :: l, t => by
    rw [List.foldl_cons, ← foldl_parts l (t ++ s)]
    simp

theorem mapFnParts_flatten (cx : Cx) (fields : Emit.Fields) : (mapFnParts cx fields).flatten = Emit.mapFns cx fields :=
  (foldl_parts _ _).trans rfl

theorem setImplParts_flatten (cx : Cx) (fields : Emit.Fields) : (setImplParts cx fields).flatten = Emit.setImpls cx fields (Emit.setName "") :=
  (foldl_parts _ _).trans rfl

theorem setFnParts_flatten (cx : Cx) (fields : Emit.Fields) : (setFnParts cx fields).flatten = Emit.setFns cx fields :=
  (foldl_parts _ _).trans rfl

theorem setIntoParts_flatten (cx : Cx) (fields : Emit.Fields) : (setIntoParts cx fields).flatten = (Emit.set_storage_into_iter cx "IntoIter" fields).impls :=
  (foldl_parts _ _).trans rfl

/-! ## `impl_map_storage` and `impl_set_storage` -/

def mapImplsWritten (cx : Cx) (fields : Emit.Fields) : List Toks :=
  [(Emit.map_storage_iter cx "Iter" fields).impls, (Emit.map_storage_keys cx "Keys" fields).impls, (Emit.map_storage_values cx "Values" fields).impls,
    (Emit.map_storage_iter_mut cx "IterMut" fields).impls, (Emit.map_storage_values_mut cx "ValuesMut" fields).impls,
    (Emit.map_storage_into_iter cx "IntoIter" fields).impls, (Emit.map_storage_entry cx fields (Emit.mapName "")).impls] ++ mapImplParts cx fields

def mapItemsWritten (cx : Cx) (fields : Emit.Fields) : List Toks :=
  [(Emit.map_storage_iter cx "Iter" fields).items, (Emit.map_storage_keys cx "Keys" fields).items, (Emit.map_storage_values cx "Values" fields).items,
    (Emit.map_storage_iter_mut cx "IterMut" fields).items, (Emit.map_storage_values_mut cx "ValuesMut" fields).items,
    (Emit.map_storage_into_iter cx "IntoIter" fields).items, (Emit.map_storage_entry cx fields (Emit.mapName "")).items] ++ mapFnParts cx fields

def setImplsWritten (cx : Cx) (fields : Emit.Fields) : List Toks :=
  [(Emit.set_storage_iter cx "Iter" fields).impls] ++ setIntoParts cx fields ++ setImplParts cx fields

def setItemsWritten (cx : Cx) (fields : Emit.Fields) : List Toks :=
  [(Emit.set_storage_iter cx "Iter" fields).items, (Emit.set_storage_into_iter cx "IntoIter" fields).items] ++ setFnParts cx fields

/-- The last template of `impl_map_storage`. -/
def mapStorageWith (cx : Cx) (fields : Emit.Fields) (impls items : Toks) : Toks :=
  let type_name := Emit.mapName ""
  let field_decls := fields.fields.map fun ⟨_, name, _, kind⟩ =>
    match kind with
    | some ⟨_, map_storage, _, _, _⟩ => quote! "#name: #map_storage"
    | none => quote! "#name: #option<V>"
  quote! "
      #vis struct #type_name<V> {
          #(#field_decls,)*
      }

      #[automatically_derived]
      impl<V> #map_storage_t<#ident, V> for #type_name<V> {
          #items
      }

      #impls"

/-- The last template of `impl_set_storage`. -/
def setStorageWith (cx : Cx) (fields : Emit.Fields) (impls items : Toks) : Toks :=
  let type_name := Emit.setName ""
  let field_decls := fields.fields.map fun ⟨_, name, _, kind⟩ =>
    match kind with
    | some ⟨_, _, _, set_storage, _⟩ => quote! "#name: #set_storage"
    | none => quote! "#name: bool"
  quote! "
      #vis struct #type_name {
          #(#field_decls,)*
      }

      #[automatically_derived]
      impl #set_storage_t<#ident> for #type_name {
          #items
      }

      #impls"

theorem mapStorageWith_eq (cx : Cx) (fields : Emit.Fields) :
    Emit.impl_map_storage cx fields = (Emit.mapName "", mapStorageWith cx fields (joinToks (mapImplsWritten cx fields)) (joinToks (mapItemsWritten cx fields))) := by
  rw [joinToks_flatten, joinToks_flatten, mapImplsWritten, mapItemsWritten, List.flatten_append, List.flatten_append, mapImplParts_flatten, mapFnParts_flatten]
  rfl

theorem setStorageWith_eq (cx : Cx) (fields : Emit.Fields) :
    Emit.impl_set_storage cx fields = (Emit.setName "", setStorageWith cx fields (joinToks (setImplsWritten cx fields)) (joinToks (setItemsWritten cx fields))) := by
  rw [joinToks_flatten, joinToks_flatten, setImplsWritten, setItemsWritten, List.flatten_append, List.flatten_append, List.flatten_append, setImplParts_flatten, setFnParts_flatten,
    setIntoParts_flatten]
  have e : ∀ a b c : Toks, [a].flatten ++ b ++ c = [a, b].flatten ++ c := by intro a b c; simp
  rw [e]
  rfl

/-! ## `implement` -/

/-- The template of `implement`. -/
def emitWith (cx : Cx) (map_storage_impl set_storage_impl : Toks) : Toks :=
  let map_storage_type_name := Emit.mapName ""
  let set_storage_type_name := Emit.setName ""
  quote! "
      const _: () = {
          #map_storage_impl
          #set_storage_impl

          #[automatically_derived]
          impl #key_t for #ident {
              type MapStorage<V> = #map_storage_type_name<V>;
              type SetStorage = #set_storage_type_name;
          }
      };"

theorem emitWith_eq (cx : Cx) (fields : Emit.Fields) : Emit.emit cx fields =
    emitWith cx (mapStorageWith cx fields (joinToks (mapImplsWritten cx fields)) (joinToks (mapItemsWritten cx fields)))
      (setStorageWith cx fields (joinToks (setImplsWritten cx fields)) (joinToks (setItemsWritten cx fields))) := by
  rw [Emit.emit, mapStorageWith_eq, setStorageWith_eq]
  rfl

theorem implement_run (cx : Cx) (data : Emit.Macro.Data) (vs : List Emit.Macro.Variant) (R : Type) (err : Stop → R) (k : Val → Heap → R) (n : Nat) (F : Emit.Fields) (e : List String)
    {loops : Loops} (hL : loops = ⟨forLoop, forVariants⟩) : runFn anyProgram loops (n + 100) R err "implement" [.cx cx data, .en vs] ⟨[], F, e⟩ k =
      match Emit.Macro.loop cx 0 vs ⟨[], []⟩ e with
      | some (F, e) => k (.toks (Emit.emit cx F)) ⟨[], F, e⟩
      | none => err .panic := by
  dexpose
  refine implement_rule hL cx ⟨[], []⟩ e (by derive_rfl) ?_ ?_
  · rintro i ⟨ident, _ | (_ | ⟨a, _ | ⟨b, l⟩⟩) | fs⟩ F e k <;> derive_rfl
  · cases Emit.Macro.loop cx 0 vs ⟨[], []⟩ e with
    | none => rfl
    | some p =>
      rcases p with ⟨fields, e⟩
      show _ = k (.toks (Emit.emit cx fields)) ⟨[], fields, e⟩
      rw [emitWith_eq]
      dloop hL 7 [2, 3] [4] []
      dloop hL 7 [5, 6] [] []
      dloop hL 7 [2, 3, 5, 6] [4] []
      dloop hL 7 [2, 3, 5, 6] [4] []
      dloop hL 7 [2, 3] [4] []
      dloop hL 7 [5, 6] [] []
      dloop hL 7 [2, 3, 5, 6] [4] []
      dloop hL 7 [2, 3] [4] []
      dloop hL 7 [5, 6] [] []
      dloop hL 13 [2] [] [3, 4, 5, 6, 7, 8, 9, 10, 11, 12]
      dloop hL 7 [2, 3, 5, 6] [4] []
      dloop hL 7 [2, 3, 5, 6] [4] []
      derive_rfl

/-! ## Accepted variants -/

theorem fieldsOf_snoc (cx : Cx) (pre : List Emit.Variant) (v : Emit.Variant) : Emit.fieldsOf cx (pre ++ [v]) =
    ⟨(Emit.fieldsOf cx pre).fields ++ [⟨pre.length, Emit.fieldName pre.length, [v.ident], v.element.map (Emit.complexOf cx)⟩],
      (Emit.fieldsOf cx pre).patterns ++ [Emit.buildTupleStructPat cx.ident [v.ident] (v.element.map fun _ => ["v"])]⟩ := by
  simp [Emit.fieldsOf, List.zipIdx_append]

theorem loop_accepted (cx : Cx) (e : List String) : ∀ vs pre : List Emit.Variant,
    Emit.Macro.loop cx pre.length (vs.map shape) (Emit.fieldsOf cx pre) e = some (Emit.fieldsOf cx (pre ++ vs), e) := by
  intro vs
  induction vs with
  | nil => intro pre; rw [List.append_nil]; rfl
  | cons v vs ih =>
    intro pre
    have := ih (pre ++ [v])
    rw [List.length_append, List.append_assoc, fieldsOf_snoc] at this
    rw [List.map_cons, loop_cons]
    rcases v with ⟨ident, _ | element⟩ <;> exact this

end FixedMap.DeriveText
