import Verif.Proofs.Impls
import Verif.Proofs.PathsAny

/-! # The impls in the code emitted for enums with payloads -/

set_option autoImplicit false
set_option linter.unusedSimpArgs false
set_option linter.unusedVariables false
set_option linter.unusedSectionVars false
set_option maxRecDepth 20000

namespace FixedMap.Impls.Any

open FixedMap.Emit FixedMap.Emit.Scan
open FixedMap.Paths.Any (fieldsAt at_fields at_complex at_patterns at_names at_len zip_first)

/-- Normal form of the tokens. -/
macro "impls_norm" : tactic => `(tactic| simp only [(‹Written _ _›).ident, (‹Written _ _›).lt,
  at_fields, at_complex, at_patterns, at_names, at_len, iteratorNext, iteratorNextBack, iterNext, iterNextBack, iterPreds, mapName, setName, usizeLit, fieldName,
  Cx.option, Cx.clone_t, Cx.copy_t, Cx.partial_eq_t, Cx.eq_t, Cx.iterator_t, Cx.double_ended_iterator_t, Cx.key_t, Cx.map_storage_t, Cx.set_storage_t, Cx.bool_type, Cx.mem,
  Cx.entry_enum, Cx.occupied_entry_t, Cx.vacant_entry_t, Cx.option_bucket_none, Cx.option_bucket_some, Cx.option_bucket_option, Emit.core, Emit.crate,
  List.map_map, Function.comp_def, flatten_map, flatten_filterMap, List.flatMap_map, List.flatMap_cons, List.flatMap_nil, flatMap_filterMap, where_snoc, where_snoc_filter,
  List.filterMap_map, List.map_filterMap, Option.map_map, zip_first, List.zipWith_map, List.zipWith_map_left, List.zipWith_map_right, List.zipWith_self,
  List.append_assoc, List.cons_append, List.nil_append, List.append_nil, String.reduceAppend])

/-- Normal form of what is repeated. -/
macro "iblock_norm" : tactic => `(tactic| simp only [Option.map_some, Option.map_none, Option.elim_some, Option.elim_none, complexOf, buildTupleStructPat, id,
  Cx.option, Cx.clone_t, Cx.copy_t, Cx.partial_eq_t, Cx.eq_t, Cx.iterator_t, Cx.double_ended_iterator_t, Cx.key_t, Cx.map_storage_t, Cx.set_storage_t, Cx.bool_type, Cx.mem,
  Cx.entry_enum, Cx.occupied_entry_t, Cx.vacant_entry_t, Emit.core, Emit.crate, List.flatMap_cons, List.flatMap_nil, (‹Written _ _›).ident, (‹Written _ _›).lt,
  List.append_assoc, List.cons_append, List.nil_append, List.append_nil])

/-- Read tokens as far as possible. -/
macro "read_norm" : tactic => `(tactic| simp only [readLit, reads_header (‹Written _ _›).name, reads_push (‹Written _ _›).name, reads_calm (calm_of (‹Written _ _›).name), reads_field, reads_count,
  reads_count_push, reads_calms (‹Written _ _›).vis, quiet_out, quiet_bounds, quiet_inner, pushes_sig, pushes_type,
  List.append_assoc, List.cons_append, List.nil_append, List.append_nil])

macro "read_variant" v:ident hv:ident : tactic => `(tactic| (
  intro r hr
  obtain ⟨⟨name, element⟩, i⟩ := $v
  have hn := ‹∀ x ∈ _, Calm [(Prod.fst x).ident]› _ $hv _ (List.mem_singleton.mpr rfl)
  cases element with
  | none =>
    iblock_norm
    try simp only [readLit, reads_calm (calm_of (‹Written _ _›).name), reads_calm hn, reads_field, reads_count, quiet_out, quiet_bounds, quiet_inner,
      List.append_assoc, List.cons_append, List.nil_append, List.append_nil]
    try exact hr
  | some e =>
    have he := ‹∀ x ∈ _, ∀ e, (Prod.fst x).element = some e → Calm e› _ $hv _ rfl
    iblock_norm
    try simp only [readLit, reads_calm (calm_of (‹Written _ _›).name), reads_calm hn, reads_field, reads_count, reads_calms he, quiet_out, quiet_bounds, quiet_inner,
      List.append_assoc, List.cons_append, List.nil_append, List.append_nil]
    try exact hr))

macro "read_peel" : tactic => `(tactic| repeat' first
  | assumption
  | ((with_reducible refine reads_rep _ ?_ ?_); (rotate_left); (focus (intro v hv'; read_variant v hv')); (try read_norm))
  | ((with_reducible refine reads_where _ ?_ ?_); (rotate_left); (focus (intro v hv'; read_variant v hv')); (try read_norm))
  | fail)

variable {cx : Cx} {vs : List (Variant × Nat)} {E : String} {R : State} {D : List Impl}
  (hx : Written cx E) (hv : ∀ x ∈ vs, Calm [x.1.ident]) (he : ∀ x ∈ vs, ∀ e, x.1.element = some e → Calm e)
include hx hv he

theorem reads_map_iter {r : Toks} (hr : Reads R ⟨.out, doubleEndedIterator_MapStorageIter :: iterator_MapStorageIter [E] :: clone_MapStorageIter :: D, [], [], []⟩ r) : Reads R ⟨.out, D, [], [], []⟩ ((map_storage_iter cx "Iter" (fieldsAt cx vs)).impls ++ r) := by
  simp only [map_storage_iter]
  impls_norm
  try read_norm
  read_peel
  all_goals exact hr

theorem reads_map_keys {r : Toks} (hr : Reads R ⟨.out, doubleEndedIterator_MapStorageKeys :: iterator_MapStorageKeys [E] :: clone_MapStorageKeys :: D, [], [], []⟩ r) : Reads R ⟨.out, D, [], [], []⟩ ((map_storage_keys cx "Keys" (fieldsAt cx vs)).impls ++ r) := by
  simp only [map_storage_keys]
  impls_norm
  try read_norm
  read_peel
  all_goals exact hr

theorem reads_map_values {r : Toks} (hr : Reads R ⟨.out, doubleEndedIterator_MapStorageValues :: iterator_MapStorageValues :: clone_MapStorageValues :: D, [], [], []⟩ r) : Reads R ⟨.out, D, [], [], []⟩ ((map_storage_values cx "Values" (fieldsAt cx vs)).impls ++ r) := by
  simp only [map_storage_values]
  impls_norm
  try read_norm
  read_peel
  all_goals exact hr

theorem reads_map_iter_mut {r : Toks} (hr : Reads R ⟨.out, doubleEndedIterator_MapStorageIterMut :: iterator_MapStorageIterMut [E] :: D, [], [], []⟩ r) : Reads R ⟨.out, D, [], [], []⟩ ((map_storage_iter_mut cx "IterMut" (fieldsAt cx vs)).impls ++ r) := by
  simp only [map_storage_iter_mut]
  impls_norm
  try read_norm
  read_peel
  all_goals exact hr

theorem reads_map_values_mut {r : Toks} (hr : Reads R ⟨.out, doubleEndedIterator_MapStorageValuesMut :: iterator_MapStorageValuesMut :: D, [], [], []⟩ r) : Reads R ⟨.out, D, [], [], []⟩ ((map_storage_values_mut cx "ValuesMut" (fieldsAt cx vs)).impls ++ r) := by
  simp only [map_storage_values_mut]
  impls_norm
  try read_norm
  read_peel
  all_goals exact hr

theorem reads_map_into_iter {r : Toks} (hr : Reads R ⟨.out, doubleEndedIterator_MapStorageIntoIter :: iterator_MapStorageIntoIter [E] :: clone_MapStorageIntoIter :: D, [], [], []⟩ r) : Reads R ⟨.out, D, [], [], []⟩ ((map_storage_into_iter cx "IntoIter" (fieldsAt cx vs)).impls ++ r) := by
  simp only [map_storage_into_iter]
  impls_norm
  try read_norm
  read_peel
  all_goals exact hr

theorem reads_entry {r : Toks} (hr : Reads R ⟨.out, occupiedEntry_OccupiedEntry [E] :: vacantEntry_VacantEntry [E] :: simpleOccupiedEntry :: simpleVacantEntry :: D, [], [], []⟩ r) : Reads R ⟨.out, D, [], [], []⟩ ((map_storage_entry cx (fieldsAt cx vs) (mapName "")).impls ++ r) := by
  simp only [map_storage_entry]
  impls_norm
  try read_norm
  read_peel
  all_goals exact hr

theorem reads_map_impls {r : Toks} (hr : Reads R ⟨.out, copy_MapStorage :: clone_MapStorage :: eq_MapStorage :: partialEq_MapStorage :: D, [], [], []⟩ r) : Reads R ⟨.out, D, [], [], []⟩ (mapImpls cx (fieldsAt cx vs) (mapName "") ++ r) := by
  simp only [mapImpls]
  impls_norm
  try read_norm
  read_peel
  all_goals exact hr

theorem reads_set_iter {r : Toks} (hr : Reads R ⟨.out, doubleEndedIterator_SetStorageIter :: iterator_SetStorageIter [E] :: clone_SetStorageIter :: D, [], [], []⟩ r) : Reads R ⟨.out, D, [], [], []⟩ ((set_storage_iter cx "Iter" (fieldsAt cx vs)).impls ++ r) := by
  simp only [set_storage_iter]
  impls_norm
  try read_norm
  read_peel
  all_goals exact hr

theorem reads_set_into_iter {r : Toks} (hr : Reads R ⟨.out, doubleEndedIterator_SetStorageIntoIter :: iterator_SetStorageIntoIter [E] :: clone_SetStorageIntoIter :: D, [], [], []⟩ r) : Reads R ⟨.out, D, [], [], []⟩ ((set_storage_into_iter cx "IntoIter" (fieldsAt cx vs)).impls ++ r) := by
  simp only [set_storage_into_iter]
  impls_norm
  try read_norm
  read_peel
  all_goals exact hr

theorem reads_set_impls {r : Toks} (hr : Reads R ⟨.out, copy_SetStorage :: clone_SetStorage :: eq_SetStorage :: partialEq_SetStorage :: D, [], [], []⟩ r) : Reads R ⟨.out, D, [], [], []⟩ (setImpls cx (fieldsAt cx vs) (setName "") ++ r) := by
  simp only [setImpls]
  impls_norm
  try read_norm
  read_peel
  all_goals exact hr

theorem reads_map_storage {r : Toks} (hr : Reads R ⟨.out, copy_MapStorage :: clone_MapStorage :: eq_MapStorage :: partialEq_MapStorage :: occupiedEntry_OccupiedEntry [E] :: vacantEntry_VacantEntry [E] :: simpleOccupiedEntry :: simpleVacantEntry :: doubleEndedIterator_MapStorageIntoIter :: iterator_MapStorageIntoIter [E] :: clone_MapStorageIntoIter :: doubleEndedIterator_MapStorageValuesMut :: iterator_MapStorageValuesMut :: doubleEndedIterator_MapStorageIterMut :: iterator_MapStorageIterMut [E] :: doubleEndedIterator_MapStorageValues :: iterator_MapStorageValues :: clone_MapStorageValues :: doubleEndedIterator_MapStorageKeys :: iterator_MapStorageKeys [E] :: clone_MapStorageKeys :: doubleEndedIterator_MapStorageIter :: iterator_MapStorageIter [E] :: clone_MapStorageIter :: mapStorage_MapStorage [E] :: D, [], [], []⟩ r) :
    Reads R ⟨.out, D, [], [], []⟩ ((impl_map_storage cx (fieldsAt cx vs)).2 ++ r) := by
  simp only [impl_map_storage, List.flatMap_cons, List.flatMap_nil]
  have h0 : ∀ {D : List Impl} {r : Toks}, _ := fun {D r} => @reads_map_iter cx vs E R D hx hv he r
  generalize (map_storage_iter cx "Iter" (fieldsAt cx vs)).impls = X0 at h0 ⊢
  have h1 : ∀ {D : List Impl} {r : Toks}, _ := fun {D r} => @reads_map_keys cx vs E R D hx hv he r
  generalize (map_storage_keys cx "Keys" (fieldsAt cx vs)).impls = X1 at h1 ⊢
  have h2 : ∀ {D : List Impl} {r : Toks}, _ := fun {D r} => @reads_map_values cx vs E R D hx hv he r
  generalize (map_storage_values cx "Values" (fieldsAt cx vs)).impls = X2 at h2 ⊢
  have h3 : ∀ {D : List Impl} {r : Toks}, _ := fun {D r} => @reads_map_iter_mut cx vs E R D hx hv he r
  generalize (map_storage_iter_mut cx "IterMut" (fieldsAt cx vs)).impls = X3 at h3 ⊢
  have h4 : ∀ {D : List Impl} {r : Toks}, _ := fun {D r} => @reads_map_values_mut cx vs E R D hx hv he r
  generalize (map_storage_values_mut cx "ValuesMut" (fieldsAt cx vs)).impls = X4 at h4 ⊢
  have h5 : ∀ {D : List Impl} {r : Toks}, _ := fun {D r} => @reads_map_into_iter cx vs E R D hx hv he r
  generalize (map_storage_into_iter cx "IntoIter" (fieldsAt cx vs)).impls = X5 at h5 ⊢
  have h6 : ∀ {D : List Impl} {r : Toks}, _ := fun {D r} => @reads_entry cx vs E R D hx hv he r
  generalize (map_storage_entry cx (fieldsAt cx vs) (mapName "")).impls = X6 at h6 ⊢
  have h7 : ∀ {D : List Impl} {r : Toks}, _ := fun {D r} => @reads_map_impls cx vs E R D hx hv he r
  generalize mapImpls cx (fieldsAt cx vs) (mapName "") = X7 at h7 ⊢
  simp only [map_storage_iter, map_storage_keys, map_storage_values, map_storage_iter_mut, map_storage_values_mut, map_storage_into_iter, map_storage_entry, mapFns]
  impls_norm
  try read_norm
  read_peel
  all_goals exact h0 (h1 (h2 (h3 (h4 (h5 (h6 (h7 (hr))))))))

theorem reads_set_storage {r : Toks} (hr : Reads R ⟨.out, copy_SetStorage :: clone_SetStorage :: eq_SetStorage :: partialEq_SetStorage :: doubleEndedIterator_SetStorageIntoIter :: iterator_SetStorageIntoIter [E] :: clone_SetStorageIntoIter :: doubleEndedIterator_SetStorageIter :: iterator_SetStorageIter [E] :: clone_SetStorageIter :: setStorage_SetStorage [E] :: D, [], [], []⟩ r) :
    Reads R ⟨.out, D, [], [], []⟩ ((impl_set_storage cx (fieldsAt cx vs)).2 ++ r) := by
  simp only [impl_set_storage, List.flatMap_cons, List.flatMap_nil]
  have h0 : ∀ {D : List Impl} {r : Toks}, _ := fun {D r} => @reads_set_iter cx vs E R D hx hv he r
  generalize (set_storage_iter cx "Iter" (fieldsAt cx vs)).impls = X0 at h0 ⊢
  have h1 : ∀ {D : List Impl} {r : Toks}, _ := fun {D r} => @reads_set_into_iter cx vs E R D hx hv he r
  generalize (set_storage_into_iter cx "IntoIter" (fieldsAt cx vs)).impls = X1 at h1 ⊢
  have h2 : ∀ {D : List Impl} {r : Toks}, _ := fun {D r} => @reads_set_impls cx vs E R D hx hv he r
  generalize setImpls cx (fieldsAt cx vs) (setName "") = X2 at h2 ⊢
  simp only [set_storage_iter, set_storage_into_iter, setFns]
  impls_norm
  try read_norm
  read_peel
  all_goals exact h0 (h1 (h2 (hr)))

theorem reads_emit (hR : R = ⟨.out, (impls [E]).reverse, [], [], []⟩) : Reads R start (emit cx (fieldsAt cx vs)) := by
  unfold start
  have h1 : ∀ {D : List Impl} {r : Toks}, _ := fun {D r} => @reads_map_storage cx vs E R D hx hv he r
  have h2 : ∀ {D : List Impl} {r : Toks}, _ := fun {D r} => @reads_set_storage cx vs E R D hx hv he r
  simp only [emit]
  generalize (impl_map_storage cx (fieldsAt cx vs)).2 = X1 at h1 ⊢
  generalize (impl_set_storage cx (fieldsAt cx vs)).2 = X2 at h2 ⊢
  simp only [impl_map_storage, impl_set_storage]
  impls_norm
  read_norm
  refine h1 (h2 ?_)
  read_norm
  rw [reads_nil, hR]
  rfl

end FixedMap.Impls.Any
