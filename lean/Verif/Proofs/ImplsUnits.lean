import Verif.Proofs.ImplsAny
import Verif.Proofs.PathsUnits

/-! # The impls in the code emitted for unit enums -/

set_option autoImplicit false
set_option linter.unusedSimpArgs false
set_option linter.unusedVariables false
set_option linter.unusedSectionVars false
set_option maxRecDepth 20000

namespace FixedMap.Impls.Units

open FixedMap.Emit FixedMap.Emit.Scan FixedMap.Emit.Units FixedMap.Emit.Units.Scan

macro "uimpls_norm" : tactic => `(tactic| simp only [(‹Written _ _›).ident, (‹Written _ _›).lt, usizeLit, fieldName,
  Cx.array_into_iter, Cx.bool_type, Cx.clone_t, Cx.copy_t, Cx.double_ended_iterator_t, Cx.entry_enum, Cx.eq_t, Cx.hash_t, Cx.hasher_t, Cx.into_iterator_t, Cx.iterator_cmp,
  Cx.iterator_cmp_bool, Cx.iterator_flat_map, Cx.iterator_flatten, Cx.iterator_partial_cmp, Cx.iterator_partial_cmp_bool, Cx.iterator_t, Cx.key_t, Cx.mem, Cx.occupied_entry_t, Cx.option,
  Cx.option_bucket_none, Cx.option_bucket_option, Cx.option_bucket_some, Cx.ord_t, Cx.ordering, Cx.partial_eq_t, Cx.partial_ord_t, Cx.slice_iter, Cx.slice_iter_mut, Cx.map_storage_t,
  Cx.set_storage_t, Cx.raw_storage_t, Cx.vacant_entry_t, Emit.core, Emit.crate, range_idx,
  List.map_map, Function.comp_def, flatten_map, List.flatMap_map, List.flatMap_cons, List.flatMap_nil, zip_idx0, zip_idx1, List.zipWith_map, List.zipWith_map_left, List.zipWith_map_right,
  List.zipWith_self, List.append_assoc, List.cons_append, List.nil_append, List.append_nil, String.reduceAppend])

macro "uread_norm" : tactic => `(tactic| simp only [readLit, reads_header (‹Written _ _›).name, reads_push (‹Written _ _›).name, reads_calm (calm_of (‹Written _ _›).name),
  reads_push ‹_ ∉ special›, reads_calm (calm_of ‹_ ∉ special›), reads_calm ‹_ ∉ ["impl", "{", "}"]›, reads_field, reads_count, reads_number, reads_count_push, reads_calms (‹Written _ _›).vis,
  quiet_out, quiet_bounds, quiet_inner, pushes_sig, pushes_type, List.append_assoc, List.cons_append, List.nil_append, List.append_nil])

macro "uread_block" : tactic => `(tactic| (
  intro x hx' r hr
  try have hn := ‹∀ v ∈ _, Calm [v]› _ (List.fst_mem_of_mem_zipIdx hx') _ (List.mem_singleton.mpr rfl)
  uread_norm
  exact hr))

macro "uread_peel" : tactic => `(tactic| repeat' first
  | assumption
  | ((with_reducible refine reads_sep _ ?_ ?_ ?_); (rotate_left); (focus uread_block); (focus (intro r hr; simp only [readLit]; exact hr)); (try uread_norm))
  | ((with_reducible refine reads_rep _ ?_ ?_); (rotate_left); (focus uread_block); (try uread_norm))
  | fail)

variable {cx : Cx} {E : String} {R : State} {D : List Impl} {en : List String}
  (hx : Written cx E) (hv : ∀ v ∈ en, Calm [v])
include hx hv

theorem reads_entry {r : Toks} (hr : Reads R ⟨.out, occupiedEntry_OccupiedEntry [E] :: vacantEntry_VacantEntry [E] :: D, [], [], []⟩ r) :
    Reads R ⟨.out, D, [], [], []⟩ (impl_entry cx ["__MapStorage"] ++ r) := by
  have hi := hx.name
  have hc := calm_of hi
  simp only [impl_entry]
  uimpls_norm
  uread_norm
  uread_peel
  all_goals exact hr

theorem reads_map {r : Toks} (hr : Reads R ⟨.out, mapStorage_MapStorage [E] (usizeLit en.length) :: ord_MapStorage :: partialOrd_MapStorage :: hash_MapStorage :: eq_MapStorage :: partialEq_MapStorage ::
      copy_MapStorage :: clone_MapStorage :: D, [], [], []⟩ r) : Reads R ⟨.out, D, [], [], []⟩ (impl_map cx en ["__MapStorage"] ((List.range en.length).map fieldName) ++ r) := by
  have hi := hx.name
  have hc := calm_of hi
  simp only [impl_map]
  uimpls_norm
  uread_norm
  uread_peel
  all_goals exact hr

theorem reads_set {r : Toks} (hr : Reads R ⟨.out, setStorage_SetStorage [E] (usizeLit en.length) :: ord_SetStorage :: partialOrd_SetStorage :: D, [], [], []⟩ r) :
    Reads R ⟨.out, D, [], [], []⟩ (impl_set cx en ["__SetStorage"] ((List.range en.length).map fieldName) ++ r) := by
  have hi := hx.name
  have hc := calm_of hi
  simp only [impl_set]
  uimpls_norm
  uread_norm
  uread_peel
  all_goals exact hr

omit hx hv in
theorem word_special {ty : Toks} (h : determine_bits en = some ty) : ∃ w, ty = [w] ∧ w ∉ special := by
  unfold determine_bits at h
  generalize en.length = n at h
  dsimp only at h
  repeat' split at h
  all_goals first | (cases h; done) | (cases h; exact ⟨_, rfl, by decide⟩)

theorem reads_bitset {ts r ty : Toks} (h : impl_bitset cx en ["__SetStorage"] = some ts) (hty : determine_bits en = some ty)
    (hr : Reads R ⟨.out, rawStorage_SetStorage ty :: setStorage_SetStorage [E] (usizeLit en.length) :: ord_SetStorage :: partialOrd_SetStorage :: D, [], [], []⟩ r) :
    Reads R ⟨.out, D, [], [], []⟩ (ts ++ r) := by
  simp only [impl_bitset, Option.bind_eq_some_iff, Option.map_eq_some_iff] at h
  obtain ⟨ty', hty', ns, hns, rfl⟩ := h
  cases hty'.symm.trans hty
  obtain ⟨w, rfl, hi⟩ := word_special hty
  have hc := calm_of hi
  rw [numbers_idx en hns]
  uimpls_norm
  uread_norm
  uread_peel
  all_goals exact hr

/-- The impls for each of the two forms of sets. -/
def implsOf (E : String) (bitset : Bool) (en : List String) : List Impl :=
  if bitset then bitsetImpls [E] (usizeLit en.length) ((determine_bits en).getD []) else impls [E] (usizeLit en.length)

theorem reads_implement {bitset : Bool} {ts : Toks} (h : implement cx bitset en = some ts) (hR : R = ⟨.out, (implsOf E bitset en).reverse, [], [], []⟩) : Reads R start ts := by
  have hi := hx.name
  have hc := calm_of hi
  unfold start
  simp only [Emit.Units.implement, Option.map_eq_some_iff] at h
  obtain ⟨t, ht, rfl⟩ := h
  have h1 : ∀ {D : List Impl} {r : Toks}, _ := fun {D r} => @reads_entry cx E R D en hx hv r
  have h2 : ∀ {D : List Impl} {r : Toks}, _ := fun {D r} => @reads_map cx E R D en hx hv r
  generalize impl_entry cx ["__MapStorage"] = X1 at h1 ⊢
  generalize impl_map cx en ["__MapStorage"] ((List.range en.length).map fieldName) = X2 at h2 ⊢
  cases bitset
  · simp only [Bool.false_eq_true, ↓reduceIte, Option.some.injEq] at ht
    have h3 : ∀ {D : List Impl} {r : Toks}, _ := fun {D r} => @reads_set cx E R D en hx hv r
    rw [ht] at h3
    uimpls_norm
    uread_norm
    refine h1 (h2 (h3 ?_))
    uread_norm
    rw [reads_nil, hR]
    rfl
  · simp only [↓reduceIte] at ht
    obtain ⟨ty, hty⟩ : ∃ ty, determine_bits en = some ty := by
      simp only [impl_bitset, Option.bind_eq_some_iff] at ht
      obtain ⟨ty, hty, -⟩ := ht
      exact ⟨ty, hty⟩
    have h3 : ∀ {D : List Impl} {r : Toks}, _ := fun {D r} => @reads_bitset cx E R D en hx hv t r ty ht hty
    have hR' : R = ⟨.out, (bitsetImpls [E] (usizeLit en.length) ty).reverse, [], [], []⟩ := by rw [hR, implsOf, hty]; rfl
    uimpls_norm
    uread_norm
    refine h1 (h2 (h3 ?_))
    uread_norm
    rw [reads_nil, hR']
    rfl

end FixedMap.Impls.Units
