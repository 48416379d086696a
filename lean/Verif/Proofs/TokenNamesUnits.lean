import Verif.Proofs.TokenNamesAny

/-! # The names in the code emitted for unit enums -/

set_option autoImplicit false
set_option linter.unusedSimpArgs false
set_option linter.unusedVariables false
set_option linter.unusedSectionVars false
set_option maxRecDepth 20000

namespace FixedMap.Emit.Units.Scan

open FixedMap.Emit.Scan

/-! ## Variables and numbers -/

theorem ident_field (i : Nat) : ident ("_" ++ Nat.repr i) = true := by
  have h := numbered_field i
  have hk : ∀ k ∈ keywords ++ attributes, numbered k = false := by decide
  have h1 : keywords.contains ("_" ++ Nat.repr i) = false := by
    rw [← Bool.not_eq_true, List.contains_iff_mem]
    intro hc
    exact absurd (hk _ (List.mem_append_left _ hc)) (by rw [h]; decide)
  have h2 : attributes.contains ("_" ++ Nat.repr i) = false := by
    rw [← Bool.not_eq_true, List.contains_iff_mem]
    intro hc
    exact absurd (hk _ (List.mem_append_right _ hc)) (by rw [h]; decide)
  have h3 : ("_" ++ Nat.repr i).toList = '_' :: (Nat.repr i).toList := by simp [String.toList_append]
  rw [ident, h1, h2, h3]
  rfl

theorem scan_var (i : Nat) {p n : String} (h : plainly p n = true) (r : Toks) : scan p (("_" ++ Nat.repr i) :: n :: r) = ("_" ++ Nat.repr i) :: scan n r :=
  scan_enum (ident_field i) h r

theorem scan_star (i : Nat) (r : Toks) : scan "*" (("_" ++ Nat.repr i) :: r) = ("_" ++ Nat.repr i) :: scan ("_" ++ Nat.repr i) r := by
  have : looked "*" ("_" ++ Nat.repr i) (r.headD "") = true := by simp [looked, field, variantDecl, ident_field, after]
  rw [scan, if_pos this]

theorem ident_number (k : Nat) : ident (Nat.repr k) = false := by
  obtain ⟨c, l, h, hd⟩ := repr_toList k
  have : c.isAlpha = false ∧ (c == '_') = false := by
    simp only [Char.isDigit, Bool.and_eq_true, decide_eq_true_eq] at hd
    simp only [Char.isAlpha, Char.isUpper, Char.isLower, Bool.or_eq_false_iff, Bool.and_eq_false_iff, decide_eq_false_iff_not, beq_eq_false_iff_ne]
    refine ⟨⟨fun h' => ?_, .inl fun h' => ?_⟩, ?_⟩
    · exact absurd (UInt32.le_trans h'.1 hd.2) (by decide)
    · exact absurd (UInt32.le_trans h' hd.2) (by decide)
    · rintro rfl; exact absurd hd.2 (by decide)
  simp [ident, h, this.1, this.2]

theorem scan_number (k : Nat) (p : String) (r : Toks) : scan p (Nat.repr k :: r) = scan (Nat.repr k) r := scan_skip (ident_number k) p r

/-! ## Repetitions -/

theorem range_idx (l : List String) : List.range l.length = l.zipIdx.map Prod.snd := by
  rw [List.zipIdx_map_snd, List.range_eq_range']

theorem zip_idx1 {γ : Type} (l : List String) (f : String × Nat → String → γ) : List.zipWith f l.zipIdx l = l.zipIdx.map fun x => f x x.1 := by
  conv => lhs; arg 3; rw [← List.zipIdx_map_fst 0 l]
  rw [List.zipWith_map_right, List.zipWith_self]

theorem scan_dest (l : List (String × Nat)) (r : Toks) :
    scan "[" (sepBy [","] (l.map fun x => ["_" ++ Nat.repr x.2]) ++ "]" :: r) = (l.flatMap fun x => ["_" ++ Nat.repr x.2]) ++ scan "]" r := by
  have : ∀ p ∈ ["[", ","], scan p (sepBy [","] (l.map fun x => ["_" ++ Nat.repr x.2]) ++ "]" :: r) = (l.flatMap fun x => ["_" ++ Nat.repr x.2]) ++ scan "]" r := by
    induction l with
    | nil => intro p hp; exact scan_skip (by decide) p r
    | cons x l ih =>
      intro p hp
      have hpl : plainly p "]" = true ∧ plainly p "," = true := by
        simp only [List.mem_cons, List.not_mem_nil, or_false] at hp
        rcases hp with rfl | rfl <;> decide
      cases l with
      | nil =>
        simp only [List.map_cons, List.map_nil, sepBy, List.cons_append, List.nil_append, List.flatMap_cons, List.flatMap_nil, List.append_nil]
        exact scan_var x.2 hpl.1 r
      | cons y l =>
        rw [List.map_cons, List.map_cons, sepBy, List.append_assoc, List.append_assoc, List.flatMap_cons]
        simp only [List.cons_append, List.nil_append]
        rw [scan_var x.2 hpl.2]
        have := ih "," (by simp)
        rw [List.map_cons] at this
        rw [this]
  exact this "[" (by simp)

theorem scan_sep_none {α : Type} (l : List α) {t : Toks} {r : Toks} (h : ∀ p r, scan p (t ++ "," :: r) = scan "," r) (h' : ∀ p, scan p (t ++ "]" :: r) = scan "]" r) (p : String) :
    scan p (sepBy [","] (l.map fun _ => t) ++ "]" :: r) = scan "]" r := by
  induction l generalizing p with
  | nil => exact scan_skip (by decide) p r
  | cons x l ih =>
    cases l with
    | nil => simpa [sepBy] using h' p
    | cons y l =>
      rw [List.map_cons, List.map_cons, sepBy, List.append_assoc, List.append_assoc, List.singleton_append, h]
      exact ih ","

theorem scan_init_map {α : Type} (l : List α) (r : Toks) (p : String) :
    scan p (sepBy [","] (l.map fun _ => ["::", "core", "::", "option", "::", "Option", "::", "None"]) ++ "]" :: r) = scan "]" r :=
  scan_sep_none l (fun p r => by simp only [List.cons_append, List.nil_append, scanLit]) (fun p => by simp only [List.cons_append, List.nil_append, scanLit]) p

theorem scan_init_set {α : Type} (l : List α) (r : Toks) (p : String) : scan p (sepBy [","] (l.map fun _ => ["false"]) ++ "]" :: r) = scan "]" r :=
  scan_sep_none l (fun p r => by simp only [List.cons_append, List.nil_append, scanLit]) (fun p => by simp only [List.cons_append, List.nil_append, scanLit]) p

/-! ## The names in `Model/GenNames.lean` -/

theorem names_idx (l : List String) : Names.Units.names l.length = l.zipIdx.map fun x => "_" ++ Nat.repr x.2 := by
  rw [Names.Units.names, range_idx, List.map_map]
  rfl

theorem leaves_dest (l : List String) : leaves (Names.Units.dest l.length) = l.zipIdx.flatMap fun x => ["_" ++ Nat.repr x.2] := by
  rw [Names.Units.dest, names_idx]
  induction l.zipIdx with
  | nil => simp [leaves_nil]
  | cons x l ih => simp [leaves_cons, leaf_pat]; simpa using ih

theorem leaves_each (l : List String) (f : String → List Names.Code) :
    leaves (Names.Units.each l.length f) = l.zipIdx.flatMap fun x => leaves (f ("_" ++ Nat.repr x.2)) := by
  rw [Names.Units.each, names_idx, leaves_scopes, List.flatMap_map]

/-! ## Tactics -/

macro "units_norm" : tactic => `(tactic| simp only [(‹Plain _ _›).ident, (‹Plain _ _›).lt, usizeLit, fieldName,
  Cx.array_into_iter, Cx.bool_type, Cx.clone_t, Cx.copy_t, Cx.double_ended_iterator_t, Cx.entry_enum, Cx.eq_t, Cx.hash_t, Cx.hasher_t, Cx.into_iterator_t, Cx.iterator_cmp,
  Cx.iterator_cmp_bool, Cx.iterator_flat_map, Cx.iterator_flatten, Cx.iterator_partial_cmp, Cx.iterator_partial_cmp_bool, Cx.iterator_t, Cx.key_t, Cx.mem, Cx.occupied_entry_t, Cx.option,
  Cx.option_bucket_none, Cx.option_bucket_option, Cx.option_bucket_some, Cx.ord_t, Cx.ordering, Cx.partial_eq_t, Cx.partial_ord_t, Cx.slice_iter, Cx.slice_iter_mut, Cx.map_storage_t,
  Cx.set_storage_t, Cx.raw_storage_t, Cx.vacant_entry_t, core, crate, range_idx,
  List.map_map, Function.comp_def, flatten_map, List.flatMap_map, List.flatMap_cons, List.flatMap_nil, zip_idx0, zip_idx1, List.zipWith_map, List.zipWith_map_left, List.zipWith_map_right,
  List.zipWith_self, List.append_assoc, List.cons_append, List.nil_append, List.append_nil, String.reduceAppend])

macro "unames_norm" : tactic => `(tactic| simp only [leaves_nil, leaves_cons, leaves_append, leaf_std, leaf_own, leaf_loc, leaf_user, leaf_tparam, leaf_pat, leaf_scope,
  Names.V, Names.usize, Names.bool, Names.var, Names.retainHead, Names.Units.entry, Names.Units.mapTypes, Names.Units.mapFns, Names.Units.map, Names.Units.setOrd, Names.Units.bitset,
  Names.Units.set, leaves_dest, leaves_each, List.append_assoc, List.cons_append, List.nil_append, List.append_nil])

macro "uscan_norm" : tactic => `(tactic| simp only [scanLit, scan_path, scan_dot, scan_count, scan_number, scan_star, scan_var, scan_dest, scan_init_map, scan_init_set,
  scan_enum (‹Plain _ _›).isIdent, scan_enum ‹ident _ = true›, scan_vis_struct ‹Plain _ _›, scan_vis_enum ‹Plain _ _›, identLit, plainlyLit, List.append_assoc, List.cons_append, List.nil_append,
  List.append_nil])

macro "urest" : tactic => `(tactic| (intro p; first | (uscan_norm; done) | (uscan_norm; with_reducible rfl)))
macro "urest_list" : tactic => `(tactic| (
  intro p hp
  simp only [List.mem_cons, List.not_mem_nil, or_false] at hp
  rcases hp with hp | hp <;> subst hp <;> uscan_norm <;> with_reducible rfl))
macro "ublock" : tactic => `(tactic| (
  intro x hx' p r s hr
  simp only [leaves_nil, leaves_cons, leaf_std, leaf_own, leaf_loc, leaf_user, leaf_pat, Names.var, Names.usize, List.append_assoc, List.cons_append, List.nil_append, List.append_nil]
  uscan_norm
  all_goals first | rfl | exact hr _ | (simp only [hr]; done)))
macro "ublock_list" : tactic => `(tactic| (
  intro x hx' p hp r s hr
  simp only [List.mem_cons, List.not_mem_nil, or_false] at hp
  simp only [leaves_nil, leaves_cons, leaf_std, leaf_own, leaf_loc, leaf_user, leaf_pat, Names.var, Names.usize, List.append_assoc, List.cons_append, List.nil_append, List.append_nil]
  rcases hp with hp | hp <;> subst hp <;> uscan_norm <;> first | rfl | exact hr _ (by simp) | (simp only [hr "," (by simp)]; done)))

theorem peel_append (a : List String) {l m : Toks} (h : l = m) : a ++ l = a ++ m := by rw [h]

macro "upeel" : tactic => `(tactic| repeat' first
  | with_reducible rfl
  | with_reducible refine peel_cons _ ?_
  | with_reducible refine peel_append _ ?_
  | ((with_reducible apply find_rep); (focus urest); (focus ublock))
  | ((with_reducible apply find_sep); (focus urest); (focus ublock))
  | ((with_reducible apply find_list ["{", ","]); (focus urest_list); (focus (simp; done)); (focus ublock_list))
  | fail)

variable {cx : Cx} {E : String} (hx : Plain cx E) (en : List String)
include hx

theorem names_entry (p : String) (r : Toks) : scan p (impl_entry cx ["__MapStorage"] ++ r) = leaves (Names.Units.entry E) ++ scan "}" r := by
  have hi := hx.isIdent
  simp only [impl_entry]
  units_norm
  unames_norm
  uscan_norm

theorem names_map (p : String) (r : Toks) : scan p (impl_map cx en ["__MapStorage"] ((List.range en.length).map fieldName) ++ r) =
    leaves (Names.Units.map E en.length) ++ scan "}" r := by
  have hi := hx.isIdent
  simp only [impl_map]
  units_norm
  unames_norm
  uscan_norm
  upeel

theorem names_set (p : String) (r : Toks) : scan p (impl_set cx en ["__SetStorage"] ((List.range en.length).map fieldName) ++ r) =
    leaves (Names.Units.set E en.length) ++ scan "}" r := by
  have hi := hx.isIdent
  simp only [impl_set]
  units_norm
  unames_norm
  uscan_norm
  upeel

omit hx in
theorem numbers_idx {ns : List Toks} (h : numbersOf en = some ns) : ns = en.zipIdx.map fun x => [Nat.repr (1 <<< x.2)] := by
  unfold numbersOf at h
  rw [range_idx] at h
  generalize en.zipIdx = l at h ⊢
  induction l generalizing ns with
  | nil => simpa using h.symm
  | cons x l ih =>
    rw [List.map_cons, List.mapM_cons] at h
    cases hs : shiftOne x.2 with
    | none => simp [hs] at h
    | some b =>
      have hb : b = 1 <<< x.2 := by
        unfold shiftOne at hs
        split at hs
        · exact (Option.some.inj hs).symm
        · cases hs
      cases hm : (List.mapM (fun n => Option.map (fun b => [Nat.repr b]) (shiftOne n)) (l.map Prod.snd)) with
      | none => rw [hm, hs] at h; cases h
      | some ms =>
        rw [hm, hs] at h
        cases h
        rw [List.map_cons, ih hm, hb]

omit hx in
theorem bits_word {ty : Toks} (h : determine_bits en = some ty) : ty = [Names.Units.word en.length] ∧ ident (Names.Units.word en.length) = true := by
  unfold determine_bits at h
  unfold Names.Units.word
  generalize en.length = n at h ⊢
  dsimp only at h
  split at h
  · rename_i h1; cases h; rw [if_pos h1]; decide
  · rename_i h1
    split at h
    · rename_i h2; cases h; rw [if_neg h1, if_pos h2]; decide
    · rename_i h2
      split at h
      · rename_i h3; cases h; rw [if_neg h1, if_neg h2, if_pos h3]; decide
      · rename_i h3
        split at h
        · rename_i h4; cases h; rw [if_neg h1, if_neg h2, if_neg h3, if_pos h4]; decide
        · rename_i h4
          split at h
          · cases h; rw [if_neg h1, if_neg h2, if_neg h3, if_neg h4]; decide
          · cases h

theorem names_bitset {ts : Toks} (h : impl_bitset cx en ["__SetStorage"] = some ts) (p : String) (r : Toks) :
    scan p (ts ++ r) = leaves (Names.Units.bitset E en.length) ++ scan "}" r := by
  simp only [impl_bitset, Option.bind_eq_some_iff, Option.map_eq_some_iff] at h
  obtain ⟨ty, hty, ns, hns, rfl⟩ := h
  obtain ⟨rfl, hi⟩ := bits_word en hty
  rw [numbers_idx en hns]
  unames_norm
  generalize Names.Units.word en.length = W at hi ⊢
  units_norm
  uscan_norm
  upeel

theorem names_implement (bitset : Bool) {ts : Toks} (h : implement cx bitset en = some ts) : namesIn ts = leaves (Names.Units.code E en.length bitset) := by
  have hi := hx.isIdent
  simp only [implement, Option.map_eq_some_iff] at h
  obtain ⟨t, ht, rfl⟩ := h
  have h1 := names_entry hx
  have h2 := names_map hx en
  have h3 : ∀ p r, scan p (t ++ r) = leaves (if bitset = true then Names.Units.bitset E en.length else Names.Units.set E en.length) ++ scan "}" r := by
    intro p r
    cases bitset
    · simp only [Bool.false_eq_true, ↓reduceIte, Option.some.injEq] at ht ⊢
      rw [← ht]; exact names_set hx en p r
    · simp only [↓reduceIte] at ht ⊢
      exact names_bitset hx en ht p r
  unfold namesIn Names.Units.code
  generalize impl_entry cx ["__MapStorage"] = X1 at h1 ⊢
  generalize impl_map cx en ["__MapStorage"] ((List.range en.length).map fieldName) = X2 at h2 ⊢
  units_norm
  simp only [leaves_nil, leaves_cons, leaves_append, leaf_std, leaf_own, leaf_loc, leaf_user, leaf_tparam, leaf_pat, leaf_scope, Names.V, List.append_assoc, List.cons_append, List.nil_append,
    List.append_nil]
  uscan_norm
  simp only [h1, h2, h3, scanLit]
  uscan_norm
  rfl

end FixedMap.Emit.Units.Scan
