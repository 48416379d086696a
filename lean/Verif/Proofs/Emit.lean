import Verif.Proofs.EmitIter

set_option autoImplicit false
set_option linter.unusedSimpArgs false
set_option linter.unusedVariables false

namespace FixedMap.Emit

variable (cx : Cx) (el : KeyTy → Toks) (F : Gen.FieldSet)

/-! ## Entries -/

set_option maxRecDepth 20000 in
theorem map_entry : map_storage_entry cx (toks cx el F) (mapName "") = ⟨Print.entryItems cx el (Gen.genEntry F), Print.entryFns cx (Gen.genEntry F)⟩ := by
  simp only [map_storage_entry]
  congr 1 <;> toks_eq

/-! ## Functions -/

theorem expr_add (l : List Gen.Expr) (e : Gen.Expr) : Print.expr el (l.foldl .add e) = Print.expr el e ++ l.flatMap fun x => "+" :: Print.expr el x := by
  induction l generalizing e with
  | nil => simp
  | cons a l ih => simp [ih, Print.expr]

theorem expr_and (l : List Gen.Expr) (e : Gen.Expr) : Print.expr el (l.foldl .and e) = Print.expr el e ++ l.flatMap fun x => "&&" :: Print.expr el x := by
  induction l generalizing e with
  | nil => simp
  | cons a l ih => simp [ih, Print.expr]

theorem expr_zero : Print.expr el .zero = ["0"] := by simp only [Print.expr]

theorem expr_tt : Print.expr el .tt = ["true"] := by simp only [Print.expr]

set_option maxRecDepth 20000 in
theorem map_fns : mapFns cx (toks cx el F) = Print.mapFns cx el (Gen.genMap F) := by
  simp only [mapFns, Print.mapFns, expr_add, expr_and, expr_zero, expr_tt, Gen.genMap]
  toks_eq

set_option maxRecDepth 20000 in
theorem set_fns : setFns cx (toks cx el F) = Print.setFns cx el (Gen.genSet F) := by
  simp only [setFns, Print.setFns, expr_add, expr_and, expr_zero, expr_tt, Gen.genSet]
  toks_eq

/-! ## Storages -/

theorem map_decl : (codeOf F).decl .mapStorage = ⟨.mapStorage, [.value], false, (Gen.genMap F).decls.map fun d => d.2.ty⟩ := rfl

theorem map_storage_impl : (codeOf F).storage .mapStorage = ⟨[.value], .storage, .mapStorage, [.value], []⟩ := rfl

theorem map_others : (codeOf F).others .mapStorage = (Gen.mapStorageImpls F).drop 1 := rfl

theorem set_decl : (codeOf F).decl .setStorage = ⟨.setStorage, [], false, (Gen.genSet F).decls.map fun d => d.2.ty⟩ := rfl

theorem set_storage_impl : (codeOf F).storage .setStorage = ⟨[], .storage, .setStorage, [], []⟩ := rfl

theorem set_others : (codeOf F).others .setStorage = (Gen.setStorageImpls F).drop 1 := rfl

theorem map_impls : mapImpls cx (toks cx el F) (mapName "") =
    ((codeOf F).others .mapStorage).flatMap (Print.impl cx el (Print.basicBody (Gen.genMap F).eq (Gen.genMap F).clone)) := by
  rw [map_others]
  simp only [mapImpls, Gen.mapStorageImpls]
  toks_eq

theorem set_impls : setImpls cx (toks cx el F) (setName "") =
    ((codeOf F).others .setStorage).flatMap (Print.impl cx el (Print.basicBody (Gen.genSet F).eq (Gen.genSet F).clone)) := by
  rw [set_others]
  simp only [setImpls, Gen.setStorageImpls]
  toks_eq

theorem map_storage : impl_map_storage cx (toks cx el F) = (mapName "", Print.mapCode cx el (codeOf F)) := by
  simp only [impl_map_storage, map_iter, map_keys, map_values, map_iter_mut, map_values_mut, map_into_iter, map_entry, map_fns, map_impls, Print.mapCode, Gen.mapIts, map_decl,
    map_storage_impl, flatten_map]
  congr 1
  generalize Print.mapIter cx el = a
  generalize Print.mapIterFn cx el = b
  generalize Print.entryItems cx el = c
  generalize Print.entryFns cx = d
  generalize Print.mapFns cx el = e
  generalize (codeOf F).others = o
  simp only [codeOf]
  toks_eq

theorem set_storage : impl_set_storage cx (toks cx el F) = (setName "", Print.setCode cx el (codeOf F)) := by
  simp only [impl_set_storage, set_iter, set_into_iter, set_fns, set_impls, Print.setCode, Gen.setIts, set_decl, set_storage_impl, flatten_map]
  congr 1
  generalize Print.setIter cx el = a
  generalize Print.setIterFn cx el = b
  generalize Print.setFns cx el = e
  generalize (codeOf F).others = o
  simp only [codeOf]
  toks_eq

theorem fields_from (vs : List Gen.Variant) (i : Nat) :
    ((variantsOf el vs).zipIdx i).map (fun (v, index) => (⟨index, fieldName index, [v.ident], v.element.map (complexOf cx)⟩ : Field)) =
      (Gen.fieldsFrom i vs).map (fieldToks cx el) := by
  induction vs generalizing i with
  | nil => rfl
  | cons v vs ih =>
    have h := ih (i + 1)
    simp only [variantsOf, List.map_cons, List.zipIdx_cons, Gen.fieldsFrom] at h ⊢
    rw [h]
    simp [fieldToks, Gen.fieldAt, fieldName, Gen.fieldName, Function.comp_def]

theorem toks_of (vs : List Gen.Variant) : fieldsOf cx (variantsOf el vs) = toks cx el (Gen.collect vs) := by
  simp only [fieldsOf, toks, Gen.collect_fields, Gen.collect_patterns]
  congr 1
  · exact fields_from cx el vs 0
  · simp only [variantsOf, List.map_map]
    refine List.map_congr_left fun v _ => ?_
    obtain ⟨x, e⟩ := v
    cases e <;> simp [buildTupleStructPat, Gen.patOf, Print.pat, Print.variant, Print.variantOf]

theorem emit_eq (F : Gen.FieldSet) : emit cx (toks cx el F) = Print.code cx el (codeOf F) := by
  simp only [emit, map_storage, set_storage, Print.code]
  rfl

theorem implement_eq (vs : List Gen.Variant) : implement cx (variantsOf el vs) = Print.code cx el (codeOf (Gen.collect vs)) := by
  rw [implement, toks_of, emit_eq]

end FixedMap.Emit
