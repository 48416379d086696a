import Verif.Proofs.PathsAny

/-! # The paths in the code emitted for unit enums -/

set_option autoImplicit false
set_option linter.unusedSimpArgs false
set_option linter.unusedVariables false
set_option linter.unusedSectionVars false
set_option maxRecDepth 20000

namespace FixedMap.Paths.Units

open FixedMap.Emit FixedMap.Emit.Scan FixedMap.Emit.Units FixedMap.Emit.Units.Scan

macro "upaths_norm" : tactic => `(tactic| simp only [(‹Input _ _›).ident, (‹Input _ _›).lt, usizeLit, fieldName,
  Cx.array_into_iter, Cx.bool_type, Cx.clone_t, Cx.copy_t, Cx.double_ended_iterator_t, Cx.entry_enum, Cx.eq_t, Cx.hash_t, Cx.hasher_t, Cx.into_iterator_t, Cx.iterator_cmp,
  Cx.iterator_cmp_bool, Cx.iterator_flat_map, Cx.iterator_flatten, Cx.iterator_partial_cmp, Cx.iterator_partial_cmp_bool, Cx.iterator_t, Cx.key_t, Cx.mem, Cx.occupied_entry_t, Cx.option,
  Cx.option_bucket_none, Cx.option_bucket_option, Cx.option_bucket_some, Cx.ord_t, Cx.ordering, Cx.partial_eq_t, Cx.partial_ord_t, Cx.slice_iter, Cx.slice_iter_mut, Cx.map_storage_t,
  Cx.set_storage_t, Cx.raw_storage_t, Cx.vacant_entry_t, Emit.core, Emit.crate, range_idx,
  List.map_map, Function.comp_def, flatten_map, List.flatMap_map, List.flatMap_cons, List.flatMap_nil, zip_idx0, zip_idx1, List.zipWith_map, List.zipWith_map_left, List.zipWith_map_right,
  List.zipWith_self, List.append_assoc, List.cons_append, List.nil_append, List.append_nil, String.reduceAppend])

macro "uok_norm" : tactic => `(tactic| simp only [okLit, ok_word (‹Input _ _›).isIdent, ok_word ‹cls _ = .word›, ok_field, ok_dot_field, ok_count, ok_number,
  ok_closed (‹Input _ _›).vis ‹∀ u, Own (Cx.vis _) u → _›, followsLit, noDerive_nil, noDerive_args, noDerive_qualified, free_other, free_word, free_rel, free_impl, free_args, free_params,
  List.append_assoc, List.cons_append, List.nil_append, List.append_nil])

macro "uok_block" : tactic => `(tactic| (
  intro x hx' r hr
  try have hn := ‹∀ v ∈ _, cls v = .word› _ (List.fst_mem_of_mem_zipIdx hx')
  uok_norm
  exact hr))

macro "uok_word_block" : tactic => `(tactic| (
  intro x hx' r hr
  refine ⟨?_, ?_⟩ <;> uok_norm <;> first | exact hr.1 | exact hr.2))

macro "uok_sep_block" : tactic => `(tactic| (
  intro x hx' k hk r hr
  try have hn := ‹∀ v ∈ _, cls v = .word› _ (List.fst_mem_of_mem_zipIdx hx')
  simp only [List.mem_cons, List.not_mem_nil, or_false] at hk
  rcases hk with hk | hk <;> subst hk <;> simp only [okLit] at hr <;> uok_norm <;> exact hr))

macro "uok_peel" : tactic => `(tactic| repeat' first
  | assumption
  | ((with_reducible refine ok_sep _ ?_ ?_ ?_); (rotate_left); (focus uok_sep_block); (focus (intro r hr; simp only [okLit]; exact hr)); (try uok_norm))
  | ((with_reducible refine ok_rep _ ?_ ?_); (rotate_left); (focus uok_block); (try uok_norm))
  | ((with_reducible refine ok_rep_mode .word _ ?_ ?_); (rotate_left); (focus uok_word_block); (try uok_norm))
  | (with_reducible refine ⟨?_, ?_⟩)
  | fail)

variable {cx : Cx} {E : String} {feat : String → Bool} {U : Use → Prop} {en : List String}
  (hx : Input cx E) (hcx : ∀ u, Own cx.vis u → U u) (hv : ∀ v ∈ en, cls v = .word)
include hx hcx hv

theorem ok_entry {r : Toks} (hr : Ok feat U ⟨.other, []⟩ r) : Ok feat U ⟨.other, []⟩ (impl_entry cx ["__MapStorage"] ++ r) := by
  have hi := hx.isIdent
  simp only [impl_entry]
  upaths_norm
  uok_norm
  uok_peel

theorem ok_map {r : Toks} (hr : Ok feat U ⟨.other, []⟩ r) : Ok feat U ⟨.other, []⟩ (impl_map cx en ["__MapStorage"] ((List.range en.length).map fieldName) ++ r) := by
  have hi := hx.isIdent
  simp only [impl_map]
  upaths_norm
  uok_norm
  uok_peel

theorem ok_set {r : Toks} (hr : Ok feat U ⟨.other, []⟩ r) : Ok feat U ⟨.other, []⟩ (impl_set cx en ["__SetStorage"] ((List.range en.length).map fieldName) ++ r) := by
  have hi := hx.isIdent
  simp only [impl_set]
  upaths_norm
  uok_norm
  uok_peel

omit hx hcx hv in
theorem word_cls {ty : Toks} (h : determine_bits en = some ty) : ∃ w, ty = [w] ∧ cls w = .word := by
  unfold determine_bits at h
  generalize en.length = n at h
  dsimp only at h
  repeat' split at h
  all_goals first | (cases h; done) | (cases h; exact ⟨_, rfl, by decide⟩)

theorem ok_bitset {ts r : Toks} (h : impl_bitset cx en ["__SetStorage"] = some ts) (hr : Ok feat U ⟨.other, []⟩ r) : Ok feat U ⟨.other, []⟩ (ts ++ r) := by
  simp only [impl_bitset, Option.bind_eq_some_iff, Option.map_eq_some_iff] at h
  obtain ⟨ty, hty, ns, hns, rfl⟩ := h
  obtain ⟨w, rfl, hi⟩ := word_cls hty
  rw [numbers_idx en hns]
  upaths_norm
  uok_norm
  uok_peel

theorem ok_implement {bitset : Bool} {ts : Toks} (h : implement cx bitset en = some ts) : Ok feat U start ts := by
  have hi := hx.isIdent
  unfold start
  simp only [Emit.Units.implement, Option.map_eq_some_iff] at h
  obtain ⟨t, ht, rfl⟩ := h
  have h1 := @ok_entry cx E feat U en hx hcx hv
  have h2 := @ok_map cx E feat U en hx hcx hv
  have h3 : ∀ {r : Toks}, Ok feat U ⟨.other, []⟩ r → Ok feat U ⟨.other, []⟩ (t ++ r) := by
    intro r hr
    cases bitset
    · simp only [Bool.false_eq_true, ↓reduceIte, Option.some.injEq] at ht ⊢
      rw [← ht]; exact ok_set hx hcx hv hr
    · simp only [↓reduceIte] at ht ⊢
      exact ok_bitset hx hcx hv ht hr
  generalize impl_entry cx ["__MapStorage"] = X1 at h1 ⊢
  generalize impl_map cx en ["__MapStorage"] ((List.range en.length).map fieldName) = X2 at h2 ⊢
  upaths_norm
  uok_norm
  refine h1 (h2 (h3 ?_))
  simp only [okLit, ok_nil, ok_word hx.isIdent, free_other]

end FixedMap.Paths.Units
