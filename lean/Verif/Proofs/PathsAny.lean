import Verif.Proofs.Paths

/-! # The paths in the code emitted for enums with payloads -/

set_option autoImplicit false
set_option linter.unusedSimpArgs false
set_option linter.unusedVariables false
set_option linter.unusedSectionVars false
set_option maxRecDepth 20000

namespace FixedMap.Paths.Any

open FixedMap.Emit FixedMap.Emit.Scan

/-- Fields for variants at given positions; those between can have been skipped. -/
def fieldsAt (cx : Cx) (vs : List (Variant × Nat)) : Fields where
  fields := vs.map fun x => ⟨x.2, fieldName x.2, [x.1.ident], x.1.element.map (complexOf cx)⟩
  patterns := vs.map fun x => buildTupleStructPat cx.ident [x.1.ident] (x.1.element.map fun _ => ["v"])

theorem at_fields (cx : Cx) (vs : List (Variant × Nat)) : (fieldsAt cx vs).fields = vs.map fun x => ⟨x.2, fieldName x.2, [x.1.ident], x.1.element.map (complexOf cx)⟩ := rfl
theorem at_complex (cx : Cx) (vs : List (Variant × Nat)) : (fieldsAt cx vs).complex = vs.filterMap fun x => x.1.element.map (complexOf cx) := by
  rw [Fields.complex, at_fields, List.filterMap_map]; rfl
theorem at_patterns (cx : Cx) (vs : List (Variant × Nat)) : (fieldsAt cx vs).patterns = vs.map fun x => buildTupleStructPat cx.ident [x.1.ident] (x.1.element.map fun _ => ["v"]) := rfl
theorem at_names (cx : Cx) (vs : List (Variant × Nat)) : (fieldsAt cx vs).names = vs.map fun x => fieldName x.2 := by
  rw [Fields.names, at_fields, List.map_map]; rfl
theorem at_len (cx : Cx) (vs : List (Variant × Nat)) : (fieldsAt cx vs).len = vs.length := by
  rw [Fields.len, at_fields, List.length_map]

theorem zip_first {α γ β : Type} (l : List α) (f : α → β → γ) (b : α → β) : List.zipWith f l (l.map b) = l.map fun x => f x (b x) := by
  rw [List.zipWith_map_right, List.zipWith_self]

/-- Normal form of the tokens. -/
macro "paths_norm" : tactic => `(tactic| simp only [(‹Input _ _›).ident, (‹Input _ _›).lt,
  at_fields, at_complex, at_patterns, at_names, at_len, iteratorNext, iteratorNextBack, iterNext, iterNextBack, iterPreds, mapName, setName, usizeLit, fieldName,
  Cx.option, Cx.clone_t, Cx.copy_t, Cx.partial_eq_t, Cx.eq_t, Cx.iterator_t, Cx.double_ended_iterator_t, Cx.key_t, Cx.map_storage_t, Cx.set_storage_t, Cx.bool_type, Cx.mem,
  Cx.entry_enum, Cx.occupied_entry_t, Cx.vacant_entry_t, Cx.option_bucket_none, Cx.option_bucket_some, Cx.option_bucket_option, Emit.core, Emit.crate,
  List.map_map, Function.comp_def, flatten_map, flatten_filterMap, List.flatMap_map, List.flatMap_cons, List.flatMap_nil, flatMap_filterMap, where_snoc, where_snoc_filter,
  List.filterMap_map, List.map_filterMap, Option.map_map, zip_first, List.zipWith_map, List.zipWith_map_left, List.zipWith_map_right, List.zipWith_self,
  List.append_assoc, List.cons_append, List.nil_append, List.append_nil, String.reduceAppend])

/-- Normal form of what is repeated. -/
macro "pblock_norm" : tactic => `(tactic| simp only [Option.map_some, Option.map_none, Option.elim_some, Option.elim_none, complexOf, buildTupleStructPat, id,
  Cx.option, Cx.clone_t, Cx.copy_t, Cx.partial_eq_t, Cx.eq_t, Cx.iterator_t, Cx.double_ended_iterator_t, Cx.key_t, Cx.map_storage_t, Cx.set_storage_t, Cx.bool_type, Cx.mem,
  Cx.entry_enum, Cx.occupied_entry_t, Cx.vacant_entry_t, Emit.core, Emit.crate, List.flatMap_cons, List.flatMap_nil, (‹Input _ _›).ident, (‹Input _ _›).lt,
  List.append_assoc, List.cons_append, List.nil_append, List.append_nil])

/-- Read tokens as far as possible. -/
macro "ok_norm" : tactic => `(tactic| simp only [okLit, ok_word (‹Input _ _›).isIdent, ok_field, ok_dot_field, ok_count,
  ok_closed (‹Input _ _›).vis ‹∀ u, Own (Cx.vis _) u → _›, followsLit, noDerive_nil, noDerive_args, noDerive_qualified, free_other, free_word, free_rel, free_impl, free_args, free_params,
  List.append_assoc, List.cons_append, List.nil_append, List.append_nil])

macro "ok_variant" v:ident hv:ident : tactic => `(tactic| (
  intro r hr
  obtain ⟨⟨name, element⟩, i⟩ := $v
  have hn := ‹∀ x ∈ _, cls (Prod.fst x).ident = .word› _ $hv
  cases element with
  | none =>
    pblock_norm
    try simp only [okLit, ok_word (‹Input _ _›).isIdent, ok_word hn, ok_field, ok_dot_field, ok_count, free_other, free_word, free_rel, free_impl, free_args, free_params,
      List.append_assoc, List.cons_append, List.nil_append, List.append_nil]
    try exact hr
  | some e =>
    have he := ‹∀ x ∈ _, ∀ e, (Prod.fst x).element = some e → Closed e› _ $hv _ rfl
    have hu : ∀ u, Own e u → _ := fun u hu => ‹∀ x ∈ _, ∀ e, (Prod.fst x).element = some e → ∀ u, Own e u → _› _ $hv _ rfl u hu
    pblock_norm
    try simp only [okLit, ok_word (‹Input _ _›).isIdent, ok_word hn, ok_field, ok_dot_field, ok_count, ok_closed he hu, followsLit,
      noDerive_nil, noDerive_args, noDerive_qualified, free_other, free_word, free_rel, free_impl, free_args, free_params, List.append_assoc, List.cons_append, List.nil_append, List.append_nil]
    try exact hr))

macro "ok_variant_field" v:ident hv:ident : tactic => `(tactic| (
  intro r hr
  obtain ⟨⟨name, element⟩, i⟩ := $v
  cases element with
  | none =>
    pblock_norm
    refine ⟨?_, ?_⟩ <;> simp only [okLit, ok_dot_field] <;> first | exact hr.1 | exact hr.2
  | some e =>
    have he := ‹∀ x ∈ _, ∀ e, (Prod.fst x).element = some e → Closed e› _ $hv _ rfl
    have hu : ∀ u, Own e u → _ := fun u hu => ‹∀ x ∈ _, ∀ e, (Prod.fst x).element = some e → ∀ u, Own e u → _› _ $hv _ rfl u hu
    pblock_norm
    refine ⟨?_, ?_⟩ <;> simp only [okLit, ok_dot_field, ok_closed he hu, followsLit, noDerive_nil, noDerive_args, noDerive_qualified,
      List.append_assoc, List.cons_append, List.nil_append, List.append_nil] <;> first | exact hr.1 | exact hr.2))

/-- A condition, before a comma or a brace. -/
macro "ok_pred" v:ident hv:ident : tactic => `(tactic| (
  intro n hn r hr
  simp only [List.mem_cons, List.not_mem_nil, or_false] at hn
  obtain ⟨⟨name, element⟩, i⟩ := $v
  cases element with
  | none =>
    pblock_norm
    rcases hn with hn | hn <;> subst hn <;> simp only [okLit] <;> exact hr
  | some e =>
    have he := ‹∀ x ∈ _, ∀ e, (Prod.fst x).element = some e → Closed e› _ $hv _ rfl
    have hu : ∀ u, Own e u → _ := fun u hu => ‹∀ x ∈ _, ∀ e, (Prod.fst x).element = some e → ∀ u, Own e u → _› _ $hv _ rfl u hu
    pblock_norm
    rcases hn with hn | hn <;> subst hn <;> simp only [okLit, ok_closed he hu, followsLit, noDerive_nil, noDerive_args, noDerive_qualified,
      List.append_assoc, List.cons_append, List.nil_append, List.append_nil] <;> exact hr))

macro "ok_peel" : tactic => `(tactic| repeat' first
  | assumption
  | ((with_reducible refine ok_rep _ ?_ ?_); (rotate_left); (focus (intro v hv'; ok_variant v hv')); (try ok_norm))
  | ((with_reducible refine ok_where_filter _ (by decide) ?_ ?_); (rotate_left); (focus (intro v hv'; ok_pred v hv')); (try ok_norm))
  | ((with_reducible refine ok_rep_mode .field _ ?_ ?_); (rotate_left); (focus (intro v hv'; ok_variant_field v hv')); (try ok_norm))
  | (with_reducible refine ⟨?_, ?_⟩)
  | fail)

variable {cx : Cx} {vs : List (Variant × Nat)} {E : String} {feat : String → Bool} {U : Use → Prop}
  (hx : Input cx E) (hv : ∀ x ∈ vs, cls x.1.ident = .word) (he : ∀ x ∈ vs, ∀ e, x.1.element = some e → Closed e)
  (hcx : ∀ u, Own cx.vis u → U u) (hvs : ∀ x ∈ vs, ∀ e, x.1.element = some e → ∀ u, Own e u → U u)
include hx hv he hcx hvs

theorem ok_map_iter {r : Toks} (hr : Ok feat U ⟨.other, []⟩ r) : Ok feat U ⟨.other, []⟩ ((map_storage_iter cx "Iter" (fieldsAt cx vs)).impls ++ r) := by
  simp only [map_storage_iter]
  paths_norm
  try ok_norm
  ok_peel

theorem ok_map_iter_items {r : Toks} (hr : Ok feat U ⟨.other, []⟩ r) : Ok feat U ⟨.other, []⟩ ((map_storage_iter cx "Iter" (fieldsAt cx vs)).items ++ r) := by
  simp only [map_storage_iter]
  paths_norm
  try ok_norm
  ok_peel

theorem ok_map_keys {r : Toks} (hr : Ok feat U ⟨.other, []⟩ r) : Ok feat U ⟨.other, []⟩ ((map_storage_keys cx "Keys" (fieldsAt cx vs)).impls ++ r) := by
  simp only [map_storage_keys]
  paths_norm
  try ok_norm
  ok_peel

theorem ok_map_keys_items {r : Toks} (hr : Ok feat U ⟨.other, []⟩ r) : Ok feat U ⟨.other, []⟩ ((map_storage_keys cx "Keys" (fieldsAt cx vs)).items ++ r) := by
  simp only [map_storage_keys]
  paths_norm
  try ok_norm
  ok_peel

theorem ok_map_values {r : Toks} (hr : Ok feat U ⟨.other, []⟩ r) : Ok feat U ⟨.other, []⟩ ((map_storage_values cx "Values" (fieldsAt cx vs)).impls ++ r) := by
  simp only [map_storage_values]
  paths_norm
  try ok_norm
  ok_peel

theorem ok_map_values_items {r : Toks} (hr : Ok feat U ⟨.other, []⟩ r) : Ok feat U ⟨.other, []⟩ ((map_storage_values cx "Values" (fieldsAt cx vs)).items ++ r) := by
  simp only [map_storage_values]
  paths_norm
  try ok_norm
  ok_peel

theorem ok_map_iter_mut {r : Toks} (hr : Ok feat U ⟨.other, []⟩ r) : Ok feat U ⟨.other, []⟩ ((map_storage_iter_mut cx "IterMut" (fieldsAt cx vs)).impls ++ r) := by
  simp only [map_storage_iter_mut]
  paths_norm
  try ok_norm
  ok_peel

theorem ok_map_iter_mut_items {r : Toks} (hr : Ok feat U ⟨.other, []⟩ r) : Ok feat U ⟨.other, []⟩ ((map_storage_iter_mut cx "IterMut" (fieldsAt cx vs)).items ++ r) := by
  simp only [map_storage_iter_mut]
  paths_norm
  try ok_norm
  ok_peel

theorem ok_map_values_mut {r : Toks} (hr : Ok feat U ⟨.other, []⟩ r) : Ok feat U ⟨.other, []⟩ ((map_storage_values_mut cx "ValuesMut" (fieldsAt cx vs)).impls ++ r) := by
  simp only [map_storage_values_mut]
  paths_norm
  try ok_norm
  ok_peel

theorem ok_map_values_mut_items {r : Toks} (hr : Ok feat U ⟨.other, []⟩ r) : Ok feat U ⟨.other, []⟩ ((map_storage_values_mut cx "ValuesMut" (fieldsAt cx vs)).items ++ r) := by
  simp only [map_storage_values_mut]
  paths_norm
  try ok_norm
  ok_peel

theorem ok_map_into_iter {r : Toks} (hr : Ok feat U ⟨.other, []⟩ r) : Ok feat U ⟨.other, []⟩ ((map_storage_into_iter cx "IntoIter" (fieldsAt cx vs)).impls ++ r) := by
  simp only [map_storage_into_iter]
  paths_norm
  try ok_norm
  ok_peel

theorem ok_map_into_iter_items {r : Toks} (hr : Ok feat U ⟨.other, []⟩ r) : Ok feat U ⟨.other, []⟩ ((map_storage_into_iter cx "IntoIter" (fieldsAt cx vs)).items ++ r) := by
  simp only [map_storage_into_iter]
  paths_norm
  try ok_norm
  ok_peel

theorem ok_set_iter {r : Toks} (hr : Ok feat U ⟨.other, []⟩ r) : Ok feat U ⟨.other, []⟩ ((set_storage_iter cx "Iter" (fieldsAt cx vs)).impls ++ r) := by
  simp only [set_storage_iter]
  paths_norm
  try ok_norm
  ok_peel

theorem ok_set_iter_items {r : Toks} (hr : Ok feat U ⟨.other, []⟩ r) : Ok feat U ⟨.other, []⟩ ((set_storage_iter cx "Iter" (fieldsAt cx vs)).items ++ r) := by
  simp only [set_storage_iter]
  paths_norm
  try ok_norm
  ok_peel

theorem ok_set_into_iter {r : Toks} (hr : Ok feat U ⟨.other, []⟩ r) : Ok feat U ⟨.other, []⟩ ((set_storage_into_iter cx "IntoIter" (fieldsAt cx vs)).impls ++ r) := by
  simp only [set_storage_into_iter]
  paths_norm
  try ok_norm
  ok_peel

theorem ok_set_into_iter_items {r : Toks} (hr : Ok feat U ⟨.other, []⟩ r) : Ok feat U ⟨.other, []⟩ ((set_storage_into_iter cx "IntoIter" (fieldsAt cx vs)).items ++ r) := by
  simp only [set_storage_into_iter]
  paths_norm
  try ok_norm
  ok_peel

theorem ok_entry {r : Toks} (hr : Ok feat U ⟨.other, []⟩ r) : Ok feat U ⟨.other, []⟩ ((map_storage_entry cx (fieldsAt cx vs) (mapName "")).impls ++ r) := by
  simp only [map_storage_entry]
  paths_norm
  try ok_norm
  ok_peel

theorem ok_entry_items {r : Toks} (hr : Ok feat U ⟨.other, []⟩ r) : Ok feat U ⟨.other, []⟩ ((map_storage_entry cx (fieldsAt cx vs) (mapName "")).items ++ r) := by
  simp only [map_storage_entry]
  paths_norm
  try ok_norm
  ok_peel

theorem ok_map_fns {r : Toks} (hr : Ok feat U ⟨.other, []⟩ r) : Ok feat U ⟨.other, []⟩ (mapFns cx (fieldsAt cx vs) ++ r) := by
  simp only [mapFns]
  paths_norm
  try ok_norm
  ok_peel

theorem ok_set_fns {r : Toks} (hr : Ok feat U ⟨.other, []⟩ r) : Ok feat U ⟨.other, []⟩ (setFns cx (fieldsAt cx vs) ++ r) := by
  simp only [setFns]
  paths_norm
  try ok_norm
  ok_peel

theorem ok_map_impls {r : Toks} (hr : Ok feat U ⟨.other, []⟩ r) : Ok feat U ⟨.other, []⟩ (mapImpls cx (fieldsAt cx vs) (mapName "") ++ r) := by
  simp only [mapImpls]
  paths_norm
  try ok_norm
  ok_peel

theorem ok_set_impls {r : Toks} (hr : Ok feat U ⟨.other, []⟩ r) : Ok feat U ⟨.other, []⟩ (setImpls cx (fieldsAt cx vs) (setName "") ++ r) := by
  simp only [setImpls]
  paths_norm
  try ok_norm
  ok_peel

theorem ok_map_storage {r : Toks} (hr : Ok feat U ⟨.other, []⟩ r) : Ok feat U ⟨.other, []⟩ ((impl_map_storage cx (fieldsAt cx vs)).2 ++ r) := by
  simp only [impl_map_storage, List.flatMap_cons, List.flatMap_nil]
  have h0 := @ok_map_iter_items cx vs E feat U hx hv he hcx hvs
  generalize (map_storage_iter cx "Iter" (fieldsAt cx vs)).items = X0 at h0 ⊢
  have h1 := @ok_map_iter cx vs E feat U hx hv he hcx hvs
  generalize (map_storage_iter cx "Iter" (fieldsAt cx vs)).impls = X1 at h1 ⊢
  have h2 := @ok_map_keys_items cx vs E feat U hx hv he hcx hvs
  generalize (map_storage_keys cx "Keys" (fieldsAt cx vs)).items = X2 at h2 ⊢
  have h3 := @ok_map_keys cx vs E feat U hx hv he hcx hvs
  generalize (map_storage_keys cx "Keys" (fieldsAt cx vs)).impls = X3 at h3 ⊢
  have h4 := @ok_map_values_items cx vs E feat U hx hv he hcx hvs
  generalize (map_storage_values cx "Values" (fieldsAt cx vs)).items = X4 at h4 ⊢
  have h5 := @ok_map_values cx vs E feat U hx hv he hcx hvs
  generalize (map_storage_values cx "Values" (fieldsAt cx vs)).impls = X5 at h5 ⊢
  have h6 := @ok_map_iter_mut_items cx vs E feat U hx hv he hcx hvs
  generalize (map_storage_iter_mut cx "IterMut" (fieldsAt cx vs)).items = X6 at h6 ⊢
  have h7 := @ok_map_iter_mut cx vs E feat U hx hv he hcx hvs
  generalize (map_storage_iter_mut cx "IterMut" (fieldsAt cx vs)).impls = X7 at h7 ⊢
  have h8 := @ok_map_values_mut_items cx vs E feat U hx hv he hcx hvs
  generalize (map_storage_values_mut cx "ValuesMut" (fieldsAt cx vs)).items = X8 at h8 ⊢
  have h9 := @ok_map_values_mut cx vs E feat U hx hv he hcx hvs
  generalize (map_storage_values_mut cx "ValuesMut" (fieldsAt cx vs)).impls = X9 at h9 ⊢
  have h10 := @ok_map_into_iter_items cx vs E feat U hx hv he hcx hvs
  generalize (map_storage_into_iter cx "IntoIter" (fieldsAt cx vs)).items = X10 at h10 ⊢
  have h11 := @ok_map_into_iter cx vs E feat U hx hv he hcx hvs
  generalize (map_storage_into_iter cx "IntoIter" (fieldsAt cx vs)).impls = X11 at h11 ⊢
  have h12 := @ok_entry_items cx vs E feat U hx hv he hcx hvs
  generalize (map_storage_entry cx (fieldsAt cx vs) (mapName "")).items = X12 at h12 ⊢
  have h13 := @ok_entry cx vs E feat U hx hv he hcx hvs
  generalize (map_storage_entry cx (fieldsAt cx vs) (mapName "")).impls = X13 at h13 ⊢
  have h14 := @ok_map_fns cx vs E feat U hx hv he hcx hvs
  generalize mapFns cx (fieldsAt cx vs) = X14 at h14 ⊢
  have h15 := @ok_map_impls cx vs E feat U hx hv he hcx hvs
  generalize mapImpls cx (fieldsAt cx vs) (mapName "") = X15 at h15 ⊢
  paths_norm
  try ok_norm
  ok_peel
  all_goals repeat' first | assumption | refine h0 ?_ | refine h1 ?_ | refine h2 ?_ | refine h3 ?_ | refine h4 ?_ | refine h5 ?_ | refine h6 ?_ | refine h7 ?_ | refine h8 ?_ | refine h9 ?_ | refine h10 ?_ | refine h11 ?_ | refine h12 ?_ | refine h13 ?_ | refine h14 ?_ | refine h15 ?_ | ok_norm

theorem ok_set_storage {r : Toks} (hr : Ok feat U ⟨.other, []⟩ r) : Ok feat U ⟨.other, []⟩ ((impl_set_storage cx (fieldsAt cx vs)).2 ++ r) := by
  simp only [impl_set_storage, List.flatMap_cons, List.flatMap_nil]
  have h0 := @ok_set_iter_items cx vs E feat U hx hv he hcx hvs
  generalize (set_storage_iter cx "Iter" (fieldsAt cx vs)).items = X0 at h0 ⊢
  have h1 := @ok_set_iter cx vs E feat U hx hv he hcx hvs
  generalize (set_storage_iter cx "Iter" (fieldsAt cx vs)).impls = X1 at h1 ⊢
  have h2 := @ok_set_into_iter_items cx vs E feat U hx hv he hcx hvs
  generalize (set_storage_into_iter cx "IntoIter" (fieldsAt cx vs)).items = X2 at h2 ⊢
  have h3 := @ok_set_into_iter cx vs E feat U hx hv he hcx hvs
  generalize (set_storage_into_iter cx "IntoIter" (fieldsAt cx vs)).impls = X3 at h3 ⊢
  have h4 := @ok_set_fns cx vs E feat U hx hv he hcx hvs
  generalize setFns cx (fieldsAt cx vs) = X4 at h4 ⊢
  have h5 := @ok_set_impls cx vs E feat U hx hv he hcx hvs
  generalize setImpls cx (fieldsAt cx vs) (setName "") = X5 at h5 ⊢
  paths_norm
  try ok_norm
  ok_peel
  all_goals repeat' first | assumption | refine h0 ?_ | refine h1 ?_ | refine h2 ?_ | refine h3 ?_ | refine h4 ?_ | refine h5 ?_ | ok_norm

theorem ok_emit : Ok feat U start (emit cx (fieldsAt cx vs)) := by
  unfold start
  have h1 := @ok_map_storage cx vs E feat U hx hv he hcx hvs
  have h2 := @ok_set_storage cx vs E feat U hx hv he hcx hvs
  simp only [emit]
  generalize (impl_map_storage cx (fieldsAt cx vs)).2 = X1 at h1 ⊢
  generalize (impl_set_storage cx (fieldsAt cx vs)).2 = X2 at h2 ⊢
  simp only [impl_map_storage, impl_set_storage]
  paths_norm
  ok_norm
  refine h1 (h2 ?_)
  simp only [okLit, ok_nil, ok_word hx.isIdent, free_other]

end FixedMap.Paths.Any
