import Verif.Spec.Emit
import Verif.Proofs.Gen

set_option autoImplicit false
set_option linter.unusedSimpArgs false
set_option linter.unusedVariables false

namespace FixedMap.Emit

/-! ## The fields -/

def fieldToks (cx : Cx) (el : KeyTy → Toks) (f : Gen.Field) : Field := ⟨f.index, [f.name], [f.var], f.kind.map fun κ => complexOf cx (el κ)⟩

def toks (cx : Cx) (el : KeyTy → Toks) (F : Gen.FieldSet) : Fields := ⟨F.fields.map (fieldToks cx el), F.patterns.map (Print.pat cx)⟩

theorem toks_complex (cx : Cx) (el : KeyTy → Toks) (F : Gen.FieldSet) : (toks cx el F).complex = F.complex.map fun κ => complexOf cx (el κ) := by
  simp only [toks, Fields.complex, Gen.FieldSet.complex, List.filterMap_map, List.map_filterMap]
  rfl

theorem toks_fields (cx : Cx) (el : KeyTy → Toks) (F : Gen.FieldSet) : (toks cx el F).fields = F.fields.map (fieldToks cx el) := rfl

theorem toks_patterns (cx : Cx) (el : KeyTy → Toks) (F : Gen.FieldSet) : (toks cx el F).patterns = F.patterns.map (Print.pat cx) := rfl

/-! ## Lists of tokens -/

theorem flatten_map {α : Type} (f : α → Toks) (l : List α) : (l.map f).flatten = l.flatMap f := by simp [List.flatMap]

theorem flatten_filterMap {α : Type} (f : α → Option Toks) (l : List α) : (l.filterMap f).flatten = l.flatMap fun x => (f x).getD [] := by
  induction l with
  | nil => rfl
  | cons a l ih => cases h : f a <;> simp [List.filterMap_cons, h, ih]

theorem map_zip {α β γ : Type} (f : α × β → γ) (l : List α) (m : List β) : (l.zip m).map f = List.zipWith (fun a b => f (a, b)) l m := by
  simp [List.zip, List.map_zipWith]

theorem peel_cons (a : String) {l m : Toks} (h : l = m) : a :: l = a :: m := by rw [h]

theorem peel_app (x : Toks) {l m : Toks} (h : l = m) : x ++ l = x ++ m := by rw [h]

theorem peel_block {α : Type} (l : List α) {f g : α → Toks} (h : ∀ x, f x = g x) {t u : Toks} (ht : t = u) : l.flatMap f ++ t = l.flatMap g ++ u := by
  rw [funext h, ht]

theorem peel_zip {α β : Type} (l : List α) (m : List β) {f g : α → β → Toks} (h : ∀ x y, f x y = g x y) {t u : Toks} (ht : t = u) :
    (List.zipWith f l m).flatten ++ t = (List.zipWith g l m).flatten ++ u := by
  rw [funext fun x => funext (h x), ht]

theorem peel_where {p q : List Toks} (h : p = q) {t u : Toks} (ht : t = u) : whereClause p ++ t = whereClause q ++ u := by rw [h, ht]

theorem peel_map {α : Type} (l : List α) {f g : α → Toks} (h : ∀ x, f x = g x) : l.map f = l.map g := by rw [funext h]

theorem peel_map_app {α : Type} (l : List α) {f g : α → Toks} (h : ∀ x, f x = g x) {t u : List Toks} (ht : t = u) : l.map f ++ t = l.map g ++ u := by
  rw [funext h, ht]

/-- The styles of `where` clauses. -/
theorem preds_eq (cx : Cx) (el : KeyTy → Toks) (h : Gen.Impl) : Print.preds cx el h =
    if Print.commas h.item h.tr then "where" :: (h.preds.map fun p => Print.pred cx el h.item p ++ [","]).flatten
    else whereClause (h.preds.map (Print.pred cx el h.item)) := by
  simp [Print.preds, whereClause]

theorem where_one (p : Toks) : whereClause [p] = "where" :: p := rfl

theorem where_nil : whereClause [] = [] := rfl

theorem ty_value (cx : Cx) (el : KeyTy → Toks) : Print.ty cx el .value = ["V"] := rfl

theorem ne_iter : (Gen.MapIt.iter != .intoIter) = true := rfl
theorem ne_keys : (Gen.MapIt.keys != .intoIter) = true := rfl
theorem ne_values : (Gen.MapIt.values != .intoIter) = true := rfl
theorem ne_iterMut : (Gen.MapIt.iterMut != .intoIter) = true := rfl
theorem ne_valuesMut : (Gen.MapIt.valuesMut != .intoIter) = true := rfl
theorem ne_intoIter : (Gen.MapIt.intoIter != .intoIter) = false := rfl
theorem ne_set_iter : (Gen.SetIt.iter != .intoIter) = true := rfl
theorem ne_set_intoIter : (Gen.SetIt.intoIter != .intoIter) = false := rfl
theorem has_lt : ([.lt, .value] : List Gen.Param).contains .lt = true := rfl
theorem has_lt' : ([.lt] : List Gen.Param).contains .lt = true := rfl
theorem no_lt : ([.value] : List Gen.Param).contains .lt = false := rfl

/-- Normal form: literal tokens in front, repetitions as `flatMap`. -/
macro "toks_norm" : tactic => `(tactic| simp only [ty_value, ne_iter, ne_keys, ne_values, ne_iterMut, ne_valuesMut, ne_intoIter, ne_set_iter, ne_set_intoIter, has_lt, has_lt', no_lt, toks_fields, toks_patterns, toks_complex, preds_eq, where_one, where_nil, Fields.names, Fields.len, Gen.FieldSet.names, iteratorNext, iteratorNextBack,
  mapName, setName, iterNext, iterNextBack, iterPreds, Gen.mapBackPreds, Gen.mapIterParams, Gen.setIterParams, Print.isMap,
  Print.mapIter, Print.mapIterFn, Print.setIter, Print.setIterFn, Print.struct, Print.impl, Print.item, Print.mapAssoc, Print.setAssoc, Print.params, Print.param,
  Print.lifetime, Print.iterFields, Print.iterBody, Print.itemTy, Print.mapShape, Print.basicBody,
  Print.trait, Print.commas, Print.pred, Print.cloned, Print.named, Print.borrow,
  Print.matchFn, Print.mapFns, Print.setFns, Print.stmts, Print.someFn, Print.entryMatch, Print.entryVariants, Print.entryItems, Print.entryFns,
  Print.occBody, Print.vacBody, Print.occMeth, Print.commaArgs,
  Cx.option, Cx.clone_t, Cx.copy_t, Cx.partial_eq_t, Cx.eq_t, Cx.iterator_t, Cx.double_ended_iterator_t, Cx.key_t, Cx.map_storage_t, Cx.set_storage_t, Cx.bool_type, Cx.mem,
  Cx.entry_enum, Cx.occupied_entry_t, Cx.vacant_entry_t, Cx.option_bucket_none, Cx.option_bucket_some, Cx.option_bucket_option, core, crate,
  Gen.genMapIter, Gen.genSetIter, Gen.genMap, Gen.genSet, Gen.genEntry, Gen.complexArms,
  List.map_map, Function.comp_def, List.flatten_cons, List.flatten_nil, List.flatten_append, flatten_map, flatten_filterMap, List.flatMap_map, List.flatMap_cons, List.flatMap_nil,
  List.filterMap_map, List.map_filterMap, Option.map_map, map_zip, List.map_zipWith,
  List.zipWith_map, List.zipWith_map_left, List.zipWith_map_right, List.zipWith_self, List.zipWith_cons_cons, List.zipWith_nil_left, List.length_map,
  List.drop_succ_cons, List.drop_zero, List.map_append, List.map_cons, List.map_nil,
  List.isEmpty_cons, List.isEmpty_nil, List.contains_nil, List.append_assoc, List.cons_append, List.nil_append, List.append_nil, sepBy, if_true, if_false,
  Bool.false_eq_true, ↓reduceIte, String.reduceAppend, reduceCtorEq, and_false, false_and, and_true, true_and, Bool.or_false, beq_self_eq_true, Bool.or_true, Bool.true_or])

/-- Normal form of what is repeated. -/
macro "toks_block" : tactic => `(tactic| simp only [fieldToks, complexOf, Option.map_some, Option.map_none, Option.getD_some, Option.getD_none,
  Print.keyMap, Print.asMap, Print.keySet, Print.asSet, Print.ty, Print.named, Print.borrow, Print.mapAssoc, Print.setAssoc, Print.lifetime, Print.iterArm, Print.itemPat,
  Print.stepFn, Print.retExpr, Print.keyExpr, Print.variant, Print.variantOf, Print.iterInit, Print.fieldTy, Print.init, Print.expr, Print.fn, Print.isMut, Print.optFn,
  Print.mapFn, Print.setFn, Print.arg, Print.stmt, Print.pat, Print.asOcc, Print.asVac, Print.entryBody, Print.occBody, Print.vacBody, Print.occMeth, Print.commaArgs,
  Print.params, Print.param, Print.trait, Print.pred, Print.isMap,
  Gen.mapIterDecl, Gen.mapIterTy, Gen.mapIterInit, Gen.mapIterArm, Gen.setIterDecl, Gen.setIterTy, Gen.setIterInit, Gen.setIterArm,
  Cx.option, Cx.clone_t, Cx.copy_t, Cx.partial_eq_t, Cx.eq_t, Cx.iterator_t, Cx.double_ended_iterator_t, Cx.key_t, Cx.map_storage_t, Cx.set_storage_t, Cx.bool_type, Cx.mem,
  Cx.entry_enum, Cx.occupied_entry_t, Cx.vacant_entry_t, core, crate,
  List.flatMap_cons, List.flatMap_nil, List.map_cons, List.map_nil,
  List.append_assoc, List.cons_append, List.nil_append, List.append_nil, if_true, if_false, ↓reduceIte, Bool.false_eq_true, ne_iter, ne_keys, ne_values, ne_iterMut, ne_valuesMut, ne_intoIter, ne_set_iter, ne_set_intoIter, reduceCtorEq, and_false, false_and,
  List.isEmpty_cons, sepBy])

macro "toks_peel" : tactic => `(tactic| repeat' first
  | with_reducible rfl
  | with_reducible refine peel_cons _ ?_
  | with_reducible refine peel_block _ (fun x => ?_) ?_
  | with_reducible refine peel_zip _ _ (fun x y => ?_) ?_
  | with_reducible refine peel_where ?_ ?_
  | with_reducible refine peel_app _ ?_
  | with_reducible refine peel_map_app _ (fun x => ?_) ?_
  | with_reducible refine peel_map _ (fun x => ?_))

macro "toks_field" : tactic => `(tactic| (first
  | rfl
  | (toks_block; done)
  | (toks_block; rfl)
  | (rename Gen.Field => f; obtain ⟨i, n, v, k⟩ := f; cases k <;> first | rfl | (toks_block; done) | (toks_block; rfl))))

macro "toks_eq" : tactic => `(tactic| (toks_norm; toks_peel <;> toks_field))

variable (cx : Cx) (el : KeyTy → Toks) (F : Gen.FieldSet)

/-! ## Iterators of maps -/

theorem decl_mapIter (q : Gen.MapIt) : (codeOf F).decl (.mapIter q) =
    ⟨.mapIter q, Gen.mapIterParams q, q != .intoIter, .plain :: .plain :: (Gen.genMapIter F q).decls.map fun d => Gen.mapIterTy q d.2⟩ := by
  cases q <;> rfl

theorem impls_mapIter (q : Gen.MapIt) : (codeOf F).others (.mapIter q) = Gen.mapIterImpls F q := by cases q <;> rfl

theorem map_iter : map_storage_iter cx "Iter" (toks cx el F) =
    ⟨Print.mapIter cx el ((codeOf F).decl (.mapIter .iter)) ((codeOf F).others (.mapIter .iter)) .iter (Gen.genMapIter F .iter),
      Print.mapIterFn cx el ((codeOf F).decl (.mapIter .iter)) .iter (Gen.genMapIter F .iter)⟩ := by
  rw [decl_mapIter, impls_mapIter]
  simp only [map_storage_iter, Gen.mapIterImpls]
  congr 1 <;> toks_eq

theorem map_keys : map_storage_keys cx "Keys" (toks cx el F) =
    ⟨Print.mapIter cx el ((codeOf F).decl (.mapIter .keys)) ((codeOf F).others (.mapIter .keys)) .keys (Gen.genMapIter F .keys),
      Print.mapIterFn cx el ((codeOf F).decl (.mapIter .keys)) .keys (Gen.genMapIter F .keys)⟩ := by
  rw [decl_mapIter, impls_mapIter]
  simp only [map_storage_keys, Gen.mapIterImpls]
  congr 1 <;> toks_eq

theorem map_values : map_storage_values cx "Values" (toks cx el F) =
    ⟨Print.mapIter cx el ((codeOf F).decl (.mapIter .values)) ((codeOf F).others (.mapIter .values)) .values (Gen.genMapIter F .values),
      Print.mapIterFn cx el ((codeOf F).decl (.mapIter .values)) .values (Gen.genMapIter F .values)⟩ := by
  rw [decl_mapIter, impls_mapIter]
  simp only [map_storage_values, Gen.mapIterImpls]
  congr 1 <;> toks_eq

theorem map_iter_mut : map_storage_iter_mut cx "IterMut" (toks cx el F) =
    ⟨Print.mapIter cx el ((codeOf F).decl (.mapIter .iterMut)) ((codeOf F).others (.mapIter .iterMut)) .iterMut (Gen.genMapIter F .iterMut),
      Print.mapIterFn cx el ((codeOf F).decl (.mapIter .iterMut)) .iterMut (Gen.genMapIter F .iterMut)⟩ := by
  rw [decl_mapIter, impls_mapIter]
  simp only [map_storage_iter_mut, Gen.mapIterImpls]
  congr 1 <;> toks_eq

theorem map_values_mut : map_storage_values_mut cx "ValuesMut" (toks cx el F) =
    ⟨Print.mapIter cx el ((codeOf F).decl (.mapIter .valuesMut)) ((codeOf F).others (.mapIter .valuesMut)) .valuesMut (Gen.genMapIter F .valuesMut),
      Print.mapIterFn cx el ((codeOf F).decl (.mapIter .valuesMut)) .valuesMut (Gen.genMapIter F .valuesMut)⟩ := by
  rw [decl_mapIter, impls_mapIter]
  simp only [map_storage_values_mut, Gen.mapIterImpls]
  congr 1 <;> toks_eq

set_option maxRecDepth 4000 in
theorem map_into_iter : map_storage_into_iter cx "IntoIter" (toks cx el F) =
    ⟨Print.mapIter cx el ((codeOf F).decl (.mapIter .intoIter)) ((codeOf F).others (.mapIter .intoIter)) .intoIter (Gen.genMapIter F .intoIter),
      Print.mapIterFn cx el ((codeOf F).decl (.mapIter .intoIter)) .intoIter (Gen.genMapIter F .intoIter)⟩ := by
  rw [decl_mapIter, impls_mapIter]
  simp only [map_storage_into_iter, Gen.mapIterImpls]
  congr 1 <;> toks_eq

/-! ## Iterators of sets -/

theorem decl_setIter (q : Gen.SetIt) : (codeOf F).decl (.setIter q) =
    ⟨.setIter q, Gen.setIterParams q, false, .plain :: .plain :: (Gen.genSetIter F q).decls.map fun d => Gen.setIterTy q d.2⟩ := by
  cases q <;> rfl

theorem impls_setIter (q : Gen.SetIt) : (codeOf F).others (.setIter q) = Gen.setIterImpls F q := by cases q <;> rfl

theorem set_iter : set_storage_iter cx "Iter" (toks cx el F) =
    ⟨Print.setIter cx el ((codeOf F).decl (.setIter .iter)) ((codeOf F).others (.setIter .iter)) .iter (Gen.genSetIter F .iter),
      Print.setIterFn cx el ((codeOf F).decl (.setIter .iter)) .iter (Gen.genSetIter F .iter)⟩ := by
  rw [decl_setIter, impls_setIter]
  simp only [set_storage_iter, Gen.setIterImpls]
  congr 1 <;> toks_eq

theorem set_into_iter : set_storage_into_iter cx "IntoIter" (toks cx el F) =
    ⟨Print.setIter cx el ((codeOf F).decl (.setIter .intoIter)) ((codeOf F).others (.setIter .intoIter)) .intoIter (Gen.genSetIter F .intoIter),
      Print.setIterFn cx el ((codeOf F).decl (.setIter .intoIter)) .intoIter (Gen.genSetIter F .intoIter)⟩ := by
  rw [decl_setIter, impls_setIter]
  simp only [set_storage_into_iter, Gen.setIterImpls]
  congr 1 <;> toks_eq

end FixedMap.Emit
