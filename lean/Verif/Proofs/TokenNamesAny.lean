import Verif.Proofs.TokenNames

/-! # The names in the code emitted for enums with payloads -/

set_option autoImplicit false
set_option linter.unusedSimpArgs false
set_option linter.unusedVariables false
set_option linter.unusedSectionVars false
set_option maxRecDepth 20000

namespace FixedMap.Emit.Scan

/-! ## The fields -/

variable {cx : Cx} {vs : List Variant}

theorem of_fields : (fieldsOf cx vs).fields = vs.zipIdx.map fun x => ⟨x.2, fieldName x.2, [x.1.ident], x.1.element.map (complexOf cx)⟩ := rfl

theorem of_complex : (fieldsOf cx vs).complex = vs.filterMap fun v => v.element.map (complexOf cx) := by
  rw [Fields.complex, of_fields]
  conv => rhs; rw [← List.zipIdx_map_fst 0 vs]
  rw [List.filterMap_map, List.filterMap_map]
  rfl

theorem of_patterns : (fieldsOf cx vs).patterns = vs.map fun v => buildTupleStructPat cx.ident [v.ident] (v.element.map fun _ => ["v"]) := rfl

theorem of_names : (fieldsOf cx vs).names = vs.zipIdx.map fun x => fieldName x.2 := by
  rw [Fields.names, of_fields, List.map_map]; rfl

theorem of_len : (fieldsOf cx vs).len = vs.length := by
  rw [Fields.len, of_fields, List.length_map, List.length_zipIdx]

theorem zip_idx {α β γ : Type} (l : List α) (f : α → β → γ) (b : α × Nat → β) :
    List.zipWith f l (l.zipIdx.map b) = l.zipIdx.map fun x => f x.1 (b x) := by
  conv => lhs; arg 2; rw [← List.zipIdx_map_fst 0 l]
  rw [List.zipWith_map_left, List.zipWith_map_right, List.zipWith_self]

theorem zip_idx0 {α γ : Type} (l : List α) (f : α → α × Nat → γ) : List.zipWith f l l.zipIdx = l.zipIdx.map fun x => f x.1 x := by
  have := zip_idx l f id
  rwa [List.map_id] at this

theorem scan_for_where (l : List Toks) (r : Toks) : scan "for" ("__SetStorageIntoIter" :: (whereClause l ++ "{" :: r)) =
    "__SetStorageIntoIter" :: scan "__SetStorageIntoIter" (whereClause l ++ "{" :: r) := by
  rw [scan]
  unfold whereClause
  split
  · rw [List.nil_append, List.headD_cons, if_pos (by decide)]
  · rw [List.cons_append, List.headD_cons, if_pos (by decide)]

/-! ## The names in `Model/GenNames.lean` -/

theorem leaves_nil : leaves [] = [] := by simp only [leaves]
theorem leaves_cons (c : Names.Code) (l : List Names.Code) : leaves (c :: l) = leaf c ++ leaves l := by simp only [leaves]
theorem leaves_append (l m : List Names.Code) : leaves (l ++ m) = leaves l ++ leaves m := by
  induction l with
  | nil => simp [leaves_nil]
  | cons c l ih => simp [leaves_cons, ih]
theorem leaf_std (ns : Names.Ns) (n : String) : leaf (.std ns n) = [n] := by simp only [leaf]
theorem leaf_own (ns : Names.Ns) (n : String) : leaf (.own ns n) = [n] := by simp only [leaf]
theorem leaf_loc (ns : Names.Ns) (n : String) : leaf (.loc ns n) = [n] := by simp only [leaf]
theorem leaf_user (n : String) : leaf (.user n) = [n] := by simp only [leaf]
theorem leaf_tparam (n : String) : leaf (.tparam n) = [n] := by simp only [leaf]
theorem leaf_pat (n : String) : leaf (.pat n) = [n] := by simp only [leaf]
theorem leaf_scope (l : List Names.Code) : leaf (.scope l) = leaves l := by simp only [leaf]

theorem leaves_scopes {α : Type} (f : α → List Names.Code) (l : List α) : leaves (l.map fun x => .scope (f x)) = l.flatMap fun x => leaves (f x) := by
  induction l with
  | nil => simp [leaves_nil]
  | cons c l ih => simp [leaves_cons, leaf_scope, ih]

theorem leaves_elem (hs : List String) : leaves (Names.Any.elem hs) = hs := by
  unfold Names.Any.elem
  induction hs with
  | nil => simp [leaves_nil]
  | cons c l ih => simp [leaves_cons, leaf_user, ih]

theorem leaves_each (s : List Names.Code) (c : List String → List Names.Code) :
    leaves (Names.Any.each (heads vs) s c) = vs.flatMap fun v => v.element.elim (leaves s) fun e => leaves (c (namesIn e)) := by
  unfold Names.Any.each heads
  rw [leaves_scopes, List.flatMap_map]
  congr 1
  funext v
  cases v.element <;> rfl

/-! ## Tactics -/

theorem flatten_map {α : Type} (f : α → Toks) (l : List α) : (l.map f).flatten = l.flatMap f := by simp [List.flatMap]
theorem flatten_filterMap {α : Type} (f : α → Option Toks) (l : List α) : (l.filterMap f).flatten = l.flatMap fun x => (f x).elim [] id := by
  induction l with
  | nil => rfl
  | cons a l ih => cases h : f a <;> simp [List.filterMap_cons, h, ih]

theorem peel_cons (a : String) {l m : Toks} (h : l = m) : a :: l = a :: m := by rw [h]

/-- Normal form of the tokens. -/
macro "emit_norm" : tactic => `(tactic| simp only [(‹Plain _ _›).ident, (‹Plain _ _›).lt,
  of_fields, of_complex, of_patterns, of_names, of_len, iteratorNext, iteratorNextBack, iterNext, iterNextBack, iterPreds, mapName, setName, usizeLit, fieldName,
  Cx.option, Cx.clone_t, Cx.copy_t, Cx.partial_eq_t, Cx.eq_t, Cx.iterator_t, Cx.double_ended_iterator_t, Cx.key_t, Cx.map_storage_t, Cx.set_storage_t, Cx.bool_type, Cx.mem,
  Cx.entry_enum, Cx.occupied_entry_t, Cx.vacant_entry_t, Cx.option_bucket_none, Cx.option_bucket_some, Cx.option_bucket_option, core, crate,
  List.map_map, Function.comp_def, flatten_map, flatten_filterMap, List.flatMap_map, List.flatMap_cons, List.flatMap_nil, flatMap_filterMap, where_snoc, where_snoc_filter,
  List.filterMap_map, List.map_filterMap, Option.map_map, zip_idx, zip_idx0, List.zipWith_map, List.zipWith_map_left, List.zipWith_map_right, List.zipWith_self,
  List.append_assoc, List.cons_append, List.nil_append, List.append_nil, String.reduceAppend])

/-- Normal form of the names. -/
macro "names_norm" : tactic => `(tactic| simp only [leaves_nil, leaves_cons, leaves_append, leaf_std, leaf_own, leaf_loc, leaf_user, leaf_tparam, leaf_pat, leaf_scope, leaves_elem, leaves_each,
  Names.V, Names.usize, Names.bool, Names.var, Names.retainHead, Names.Any.mapSt, Names.Any.asMap, Names.Any.asSet, Names.Any.arms, Names.Any.steps, Names.Any.next, Names.Any.nextBack, Names.Any.itemTy,
  Names.Any.mapIter, Names.Any.mapIterFn, Names.Any.mapIntoIter, Names.Any.mapIntoIterFn, Names.Any.asEntry, Names.Any.entryFn, Names.Any.entryItems, Names.Any.entryFns, Names.Any.mapFns,
  Names.Any.setIter, Names.Any.setIterFn, Names.Any.setFns, List.append_assoc, List.cons_append, List.nil_append, List.append_nil, if_true, if_false, ↓reduceIte, Bool.false_eq_true])

/-- Read tokens as far as possible. -/
macro "scan_norm" : tactic => `(tactic| simp only [scanLit, scan_path, scan_dot, scan_for_where, scan_count, scan_field_open, scan_field_comma, scan_variant_comma,
  scan_enum (‹Plain _ _›).isIdent, scan_vis_struct ‹Plain _ _›, scan_vis_enum ‹Plain _ _›, identLit, plainlyLit, betweenLit,
  List.append_assoc, List.cons_append, List.nil_append, List.append_nil])

/-- Normal form of what is repeated. -/
macro "block_norm" : tactic => `(tactic| simp only [Option.map_some, Option.map_none, Option.elim_some, Option.elim_none, complexOf, buildTupleStructPat, id,
  Cx.option, Cx.clone_t, Cx.copy_t, Cx.partial_eq_t, Cx.eq_t, Cx.iterator_t, Cx.double_ended_iterator_t, Cx.key_t, Cx.map_storage_t, Cx.set_storage_t, Cx.bool_type, Cx.mem,
  Cx.entry_enum, Cx.occupied_entry_t, Cx.vacant_entry_t, core, crate, List.flatMap_cons, List.flatMap_nil, (‹Plain _ _›).ident, (‹Plain _ _›).lt,
  leaves_nil, leaves_cons, leaves_append, leaf_std, leaf_own, leaf_loc, leaf_user, leaf_tparam, leaf_pat, leaf_scope, leaves_elem,
  List.append_assoc, List.cons_append, List.nil_append, List.append_nil])

/-- Read tokens, those of a payload included. -/
macro "scan_all" he:term : tactic => `(tactic| repeat (first | (simp only [scan_payload $he, betweenLit]) | scan_norm))

/-- What is repeated, for one variant. -/
macro "scan_variant" v:ident hv:ident : tactic => `(tactic| (
  intro p r s hr
  obtain ⟨name, element⟩ := $v
  cases element with
  | none =>
    block_norm
    try scan_norm
    all_goals first | rfl | exact hr _ | (simp only [hr]; done)
  | some e =>
    have he := ‹AllPayload _› _ $hv _ rfl
    block_norm
    scan_all he
    all_goals first | rfl | exact hr _ | (simp only [hr]; done)))

macro "scan_block_list" v:ident hv:ident : tactic => `(tactic| (
  intro p hp r s hr
  simp only [List.mem_cons, List.not_mem_nil, or_false] at hp
  obtain ⟨name, element⟩ := $v
  cases element with
  | none =>
    block_norm
    rcases hp with hp | hp <;> subst hp <;> (try scan_norm) <;> first | rfl | exact hr _ (by simp) | (simp only [hr "," (by simp)]; done)
  | some e =>
    have he := ‹AllPayload _› _ $hv _ rfl
    block_norm
    rcases hp with hp | hp <;> subst hp <;> (scan_all he) <;> first | rfl | exact hr _ (by simp) | (simp only [hr "," (by simp)]; done)))

/-- What comes after a repetition, whatever is before. -/
macro "scan_rest" : tactic => `(tactic| (intro p; first | (scan_norm; done) | (scan_norm; with_reducible rfl)))
macro "scan_rest_list" : tactic => `(tactic| (
  intro p hp
  simp only [List.mem_cons, List.not_mem_nil, or_false] at hp
  rcases hp with hp | hp <;> subst hp <;> scan_norm <;> with_reducible rfl))

macro "scan_peel" : tactic => `(tactic| repeat' first
  | with_reducible rfl
  | with_reducible refine peel_cons _ ?_
  | ((with_reducible apply find_rep_idx); (focus scan_rest); (focus (intro v hv' i; scan_variant v hv')))
  | ((with_reducible apply find_rep); (focus scan_rest); (focus (intro v hv'; scan_variant v hv')))
  | ((with_reducible apply find_where_filter); (focus scan_rest); (focus (intro v hv'; scan_variant v hv')))
  | ((with_reducible apply find_list_idx ["{", ","]); (focus scan_rest_list); (focus (simp; done)); (focus (intro v hv' i; scan_block_list v hv')))
  | ((with_reducible apply find_list_idx [",", ","]); (focus scan_rest_list); (focus (simp; done)); (focus (intro v hv' i; scan_block_list v hv')))
  | ((with_reducible apply find_list ["{", ","]); (focus scan_rest_list); (focus (simp; done)); (focus (intro v hv'; scan_block_list v hv')))
  | ((with_reducible apply find_list ["where", ","]); (focus scan_rest_list); (focus (simp; done)); (focus (intro v hv'; scan_block_list v hv')))
  | ((with_reducible apply find_none_idx ["{", ","]); (focus scan_rest_list); (focus (simp; done)); (focus (intro v hv' i; scan_block_list v hv')))
  | fail)

variable {E : String} (hx : Plain cx E) (hv : AllPayload vs)
include hx hv

theorem names_map_iter (p : String) (r : Toks) : scan p ((map_storage_iter cx "Iter" (fieldsOf cx vs)).impls ++ r) =
    leaves (Names.Any.mapIter E (heads vs) "__MapStorageIter" .entries true) ++ scan "}" r := by
  simp only [map_storage_iter]
  emit_norm
  names_norm
  scan_norm
  scan_peel

theorem names_map_iter_items (p : String) (r : Toks) : scan p ((map_storage_iter cx "Iter" (fieldsOf cx vs)).items ++ r) =
    leaves (Names.Any.mapIterFn (heads vs) "__MapStorageIter" Names.Any.asMap) ++ scan "}" r := by
  simp only [map_storage_iter]
  emit_norm
  names_norm
  scan_norm
  scan_peel

theorem names_map_keys (p : String) (r : Toks) : scan p ((map_storage_keys cx "Keys" (fieldsOf cx vs)).impls ++ r) =
    leaves (Names.Any.mapIter E (heads vs) "__MapStorageKeys" .keys true) ++ scan "}" r := by
  simp only [map_storage_keys]
  emit_norm
  names_norm
  scan_norm
  scan_peel

theorem names_map_keys_items (p : String) (r : Toks) : scan p ((map_storage_keys cx "Keys" (fieldsOf cx vs)).items ++ r) =
    leaves (Names.Any.mapIterFn (heads vs) "__MapStorageKeys" Names.Any.asMap) ++ scan "}" r := by
  simp only [map_storage_keys]
  emit_norm
  names_norm
  scan_norm
  scan_peel

theorem names_map_values (p : String) (r : Toks) : scan p ((map_storage_values cx "Values" (fieldsOf cx vs)).impls ++ r) =
    leaves (Names.Any.mapIter E (heads vs) "__MapStorageValues" .values true) ++ scan "}" r := by
  simp only [map_storage_values]
  emit_norm
  names_norm
  scan_norm
  scan_peel

theorem names_map_values_items (p : String) (r : Toks) : scan p ((map_storage_values cx "Values" (fieldsOf cx vs)).items ++ r) =
    leaves (Names.Any.mapIterFn (heads vs) "__MapStorageValues" Names.Any.asMap) ++ scan "}" r := by
  simp only [map_storage_values]
  emit_norm
  names_norm
  scan_norm
  scan_peel

theorem names_map_iter_mut (p : String) (r : Toks) : scan p ((map_storage_iter_mut cx "IterMut" (fieldsOf cx vs)).impls ++ r) =
    leaves (Names.Any.mapIter E (heads vs) "__MapStorageIterMut" .entries false) ++ scan "}" r := by
  simp only [map_storage_iter_mut]
  emit_norm
  names_norm
  scan_norm
  scan_peel

theorem names_map_iter_mut_items (p : String) (r : Toks) : scan p ((map_storage_iter_mut cx "IterMut" (fieldsOf cx vs)).items ++ r) =
    leaves (Names.Any.mapIterFn (heads vs) "__MapStorageIterMut" Names.Any.mapSt) ++ scan "}" r := by
  simp only [map_storage_iter_mut]
  emit_norm
  names_norm
  scan_norm
  scan_peel

theorem names_map_values_mut (p : String) (r : Toks) : scan p ((map_storage_values_mut cx "ValuesMut" (fieldsOf cx vs)).impls ++ r) =
    leaves (Names.Any.mapIter E (heads vs) "__MapStorageValuesMut" .values false) ++ scan "}" r := by
  simp only [map_storage_values_mut]
  emit_norm
  names_norm
  scan_norm
  scan_peel

theorem names_map_values_mut_items (p : String) (r : Toks) : scan p ((map_storage_values_mut cx "ValuesMut" (fieldsOf cx vs)).items ++ r) =
    leaves (Names.Any.mapIterFn (heads vs) "__MapStorageValuesMut" Names.Any.asMap) ++ scan "}" r := by
  simp only [map_storage_values_mut]
  emit_norm
  names_norm
  scan_norm
  scan_peel

theorem names_map_into_iter (p : String) (r : Toks) : scan p ((map_storage_into_iter cx "IntoIter" (fieldsOf cx vs)).impls ++ r) =
    leaves (Names.Any.mapIntoIter E (heads vs)) ++ scan "}" r := by
  simp only [map_storage_into_iter]
  emit_norm
  names_norm
  scan_norm
  scan_peel

theorem names_map_into_iter_items (p : String) (r : Toks) : scan p ((map_storage_into_iter cx "IntoIter" (fieldsOf cx vs)).items ++ r) =
    leaves (Names.Any.mapIntoIterFn (heads vs)) ++ scan "}" r := by
  simp only [map_storage_into_iter]
  emit_norm
  names_norm
  scan_norm
  scan_peel

theorem names_set_iter (p : String) (r : Toks) : scan p ((set_storage_iter cx "Iter" (fieldsOf cx vs)).impls ++ r) =
    leaves (Names.Any.setIter E (heads vs) "__SetStorageIter" false) ++ scan "}" r := by
  simp only [set_storage_iter]
  emit_norm
  names_norm
  scan_norm
  scan_peel

theorem names_set_iter_items (p : String) (r : Toks) : scan p ((set_storage_iter cx "Iter" (fieldsOf cx vs)).items ++ r) =
    leaves (Names.Any.setIterFn (heads vs) "__SetStorageIter") ++ scan "}" r := by
  simp only [set_storage_iter]
  emit_norm
  names_norm
  scan_norm
  scan_peel

theorem names_set_into_iter (p : String) (r : Toks) : scan p ((set_storage_into_iter cx "IntoIter" (fieldsOf cx vs)).impls ++ r) =
    leaves (Names.Any.setIter E (heads vs) "__SetStorageIntoIter" true) ++ scan "}" r := by
  simp only [set_storage_into_iter]
  emit_norm
  names_norm
  scan_norm
  scan_peel

theorem names_set_into_iter_items (p : String) (r : Toks) : scan p ((set_storage_into_iter cx "IntoIter" (fieldsOf cx vs)).items ++ r) =
    leaves (Names.Any.setIterFn (heads vs) "__SetStorageIntoIter") ++ scan "}" r := by
  simp only [set_storage_into_iter]
  emit_norm
  names_norm
  scan_norm
  scan_peel

theorem names_entry (p : String) (r : Toks) : scan p ((map_storage_entry cx (fieldsOf cx vs) (mapName "")).impls ++ r) =
    leaves (Names.Any.entryItems E (heads vs)) ++ scan "}" r := by
  simp only [map_storage_entry]
  emit_norm
  names_norm
  scan_norm
  scan_peel

theorem names_entry_items (p : String) (r : Toks) : scan p ((map_storage_entry cx (fieldsOf cx vs) (mapName "")).items ++ r) =
    leaves (Names.Any.entryFns E (heads vs)) ++ scan "}" r := by
  simp only [map_storage_entry]
  emit_norm
  names_norm
  scan_norm
  scan_peel

theorem names_map_fns (p : String) (r : Toks) : scan p (mapFns cx (fieldsOf cx vs) ++ r) =
    leaves (Names.Any.mapFns E (heads vs)) ++ scan "}" r := by
  simp only [mapFns]
  emit_norm
  names_norm
  scan_norm
  scan_peel

theorem names_set_fns (p : String) (r : Toks) : scan p (setFns cx (fieldsOf cx vs) ++ r) =
    leaves (Names.Any.setFns E (heads vs)) ++ scan "}" r := by
  simp only [setFns]
  emit_norm
  names_norm
  scan_norm
  scan_peel

theorem names_map_impls (p : String) (r : Toks) : scan p (mapImpls cx (fieldsOf cx vs) (mapName "") ++ r) =
    leaves [.scope [.tparam "V", .own .type "__MapStorage", Names.V, Names.V,
        .scope ([.pat "other", Names.bool] ++ Names.Any.each (heads vs) [Names.var "other"] fun _ => [Names.var "other"])],
      .scope [.tparam "V", .own .type "__MapStorage", Names.V, Names.V],
      .scope [.tparam "V", .own .type "__MapStorage", Names.V, Names.V],
      .scope ([.tparam "V", .own .type "__MapStorage", Names.V, Names.V] ++ Names.Any.each (heads vs) [] Names.Any.mapSt)] ++ scan "}" r := by
  simp only [mapImpls]
  emit_norm
  names_norm
  scan_norm
  scan_peel

theorem names_set_impls (p : String) (r : Toks) : scan p (setImpls cx (fieldsOf cx vs) (setName "") ++ r) =
    leaves [.scope [.own .type "__SetStorage", .scope ([.pat "other", Names.bool] ++ Names.Any.each (heads vs) [Names.var "other"] fun _ => [Names.var "other"])],
      .scope [.own .type "__SetStorage"],
      .scope (.own .type "__SetStorage" :: Names.Any.each (heads vs) [] Names.Any.elem),
      .scope (.own .type "__SetStorage" :: Names.Any.each (heads vs) [] Names.Any.elem)] ++ scan "}" r := by
  simp only [setImpls]
  emit_norm
  names_norm
  scan_norm
  scan_peel

theorem names_map_storage (p : String) (r : Toks) : scan p ((impl_map_storage cx (fieldsOf cx vs)).2 ++ r) =
    leaves (Names.Any.mapStorage E (heads vs)) ++ scan "}" r := by
  simp only [impl_map_storage, List.flatMap_cons, List.flatMap_nil]
  have h0 := names_map_iter_items hx hv
  generalize (map_storage_iter cx "Iter" (fieldsOf cx vs)).items = X0 at h0 ⊢
  have h1 := names_map_iter hx hv
  generalize (map_storage_iter cx "Iter" (fieldsOf cx vs)).impls = X1 at h1 ⊢
  have h2 := names_map_keys_items hx hv
  generalize (map_storage_keys cx "Keys" (fieldsOf cx vs)).items = X2 at h2 ⊢
  have h3 := names_map_keys hx hv
  generalize (map_storage_keys cx "Keys" (fieldsOf cx vs)).impls = X3 at h3 ⊢
  have h4 := names_map_values_items hx hv
  generalize (map_storage_values cx "Values" (fieldsOf cx vs)).items = X4 at h4 ⊢
  have h5 := names_map_values hx hv
  generalize (map_storage_values cx "Values" (fieldsOf cx vs)).impls = X5 at h5 ⊢
  have h6 := names_map_iter_mut_items hx hv
  generalize (map_storage_iter_mut cx "IterMut" (fieldsOf cx vs)).items = X6 at h6 ⊢
  have h7 := names_map_iter_mut hx hv
  generalize (map_storage_iter_mut cx "IterMut" (fieldsOf cx vs)).impls = X7 at h7 ⊢
  have h8 := names_map_values_mut_items hx hv
  generalize (map_storage_values_mut cx "ValuesMut" (fieldsOf cx vs)).items = X8 at h8 ⊢
  have h9 := names_map_values_mut hx hv
  generalize (map_storage_values_mut cx "ValuesMut" (fieldsOf cx vs)).impls = X9 at h9 ⊢
  have h10 := names_map_into_iter_items hx hv
  generalize (map_storage_into_iter cx "IntoIter" (fieldsOf cx vs)).items = X10 at h10 ⊢
  have h11 := names_map_into_iter hx hv
  generalize (map_storage_into_iter cx "IntoIter" (fieldsOf cx vs)).impls = X11 at h11 ⊢
  have h12 := names_entry_items hx hv
  generalize (map_storage_entry cx (fieldsOf cx vs) (mapName "")).items = X12 at h12 ⊢
  have h13 := names_entry hx hv
  generalize (map_storage_entry cx (fieldsOf cx vs) (mapName "")).impls = X13 at h13 ⊢
  have h14 := names_map_fns hx hv
  generalize mapFns cx (fieldsOf cx vs) = X14 at h14 ⊢
  have h15 := names_map_impls hx hv
  generalize mapImpls cx (fieldsOf cx vs) (mapName "") = X15 at h15 ⊢
  emit_norm
  simp only [Names.Any.mapStorage, leaves_nil, leaves_cons, leaves_append, leaf_std, leaf_own, leaf_loc, leaf_user, leaf_tparam, leaf_pat, leaf_scope, List.append_assoc, List.cons_append, List.nil_append, List.append_nil]
  simp only [leaves_each, leaves_elem, leaves_nil, leaves_cons, leaves_append, leaf_std, leaf_own, leaf_loc, leaf_user, leaf_tparam, leaf_pat, leaf_scope, Names.V, Names.bool, Names.Any.mapSt]
  scan_norm
  scan_peel
  simp only [h0, h1, h2, h3, h4, h5, h6, h7, h8, h9, h10, h11, h12, h13, h14, h15, scanLit, List.append_assoc, List.cons_append, List.nil_append, List.append_nil]
  simp only [leaves_each, leaves_elem, leaves_nil, leaves_cons, leaves_append, leaf_std, leaf_own, leaf_loc, leaf_user, leaf_tparam, leaf_pat, leaf_scope, Names.V, Names.bool, Names.Any.mapSt, Names.var, List.append_assoc, List.cons_append, List.nil_append, List.append_nil]

theorem names_set_storage (p : String) (r : Toks) : scan p ((impl_set_storage cx (fieldsOf cx vs)).2 ++ r) =
    leaves (Names.Any.setStorage E (heads vs)) ++ scan "}" r := by
  simp only [impl_set_storage, List.flatMap_cons, List.flatMap_nil]
  have h0 := names_set_iter_items hx hv
  generalize (set_storage_iter cx "Iter" (fieldsOf cx vs)).items = X0 at h0 ⊢
  have h1 := names_set_iter hx hv
  generalize (set_storage_iter cx "Iter" (fieldsOf cx vs)).impls = X1 at h1 ⊢
  have h2 := names_set_into_iter_items hx hv
  generalize (set_storage_into_iter cx "IntoIter" (fieldsOf cx vs)).items = X2 at h2 ⊢
  have h3 := names_set_into_iter hx hv
  generalize (set_storage_into_iter cx "IntoIter" (fieldsOf cx vs)).impls = X3 at h3 ⊢
  have h4 := names_set_fns hx hv
  generalize setFns cx (fieldsOf cx vs) = X4 at h4 ⊢
  have h5 := names_set_impls hx hv
  generalize setImpls cx (fieldsOf cx vs) (setName "") = X5 at h5 ⊢
  emit_norm
  simp only [Names.Any.setStorage, leaves_nil, leaves_cons, leaves_append, leaf_std, leaf_own, leaf_loc, leaf_user, leaf_tparam, leaf_pat, leaf_scope, List.append_assoc, List.cons_append, List.nil_append, List.append_nil]
  simp only [leaves_each, leaves_elem, leaves_nil, leaves_cons, leaves_append, leaf_std, leaf_own, leaf_loc, leaf_user, leaf_tparam, leaf_pat, leaf_scope, Names.V, Names.bool, Names.Any.mapSt]
  scan_norm
  scan_peel
  simp only [h0, h1, h2, h3, h4, h5, scanLit, List.append_assoc, List.cons_append, List.nil_append, List.append_nil]
  simp only [leaves_each, leaves_elem, leaves_nil, leaves_cons, leaves_append, leaf_std, leaf_own, leaf_loc, leaf_user, leaf_tparam, leaf_pat, leaf_scope, Names.V, Names.bool, Names.Any.mapSt, Names.var, List.append_assoc, List.cons_append, List.nil_append, List.append_nil]

theorem names_implement : namesIn (implement cx vs) = leaves (Names.Any.code E (heads vs)) := by
  unfold namesIn
  have h1 := names_map_storage hx hv
  have h2 := names_set_storage hx hv
  simp only [implement, emit, Names.Any.code]
  generalize (impl_map_storage cx (fieldsOf cx vs)).2 = X1 at h1 ⊢
  generalize (impl_set_storage cx (fieldsOf cx vs)).2 = X2 at h2 ⊢
  simp only [impl_map_storage, impl_set_storage]
  emit_norm
  simp only [leaves_nil, leaves_cons, leaves_append, leaf_std, leaf_own, leaf_loc, leaf_user, leaf_tparam, leaf_pat, leaf_scope, Names.V, List.append_assoc, List.cons_append, List.nil_append, List.append_nil]
  scan_norm
  simp only [h1, h2, scanLit]
  scan_norm
  rfl

end FixedMap.Emit.Scan
