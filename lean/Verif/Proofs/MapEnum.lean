import Verif.Proofs.MapBool

/-! # `option.rs` and the generated storage of enums with fields satisfy the map laws -/

set_option autoImplicit false
set_option linter.unusedSimpArgs false

namespace FixedMap

/-- Rename the keys of an entry list. -/
def renameKeys {K K' V : Type} (g : K → K') (l : List (K × V)) : List (K' × V) := l.map fun p => (g p.1, p.2)

theorem renameKeys_append {K K' V : Type} (g : K → K') (l l' : List (K × V)) :
    renameKeys g (l ++ l') = renameKeys g l ++ renameKeys g l' := List.map_append

theorem renameKeys_fst {K K' V : Type} (g : K → K') (l : List (K × V)) :
    (renameKeys g l).map Prod.fst = (l.map Prod.fst).map g := by
  simp [renameKeys, List.map_map, Function.comp_def]

theorem renameKeys_snd {K K' V : Type} (g : K → K') (l : List (K × V)) :
    (renameKeys g l).map Prod.snd = l.map Prod.snd := by
  simp [renameKeys, List.map_map, Function.comp_def]

theorem mem_renameKeys {K K' V : Type} {g : K → K'} (hg : ∀ a b, g a = g b → a = b) (l : List (K × V))
    (k : K) (v : V) : (g k, v) ∈ renameKeys g l ↔ (k, v) ∈ l := by
  simp only [renameKeys, List.mem_map, Prod.mk.injEq]
  constructor
  · rintro ⟨⟨k', v'⟩, hm, h1, rfl⟩
    have := hg _ _ h1; subst this; exact hm
  · intro h; exact ⟨(k, v), h, rfl, rfl⟩

theorem not_mem_renameKeys {K K' V : Type} {g : K → K'} (l : List (K × V)) (k : K') (v : V)
    (h : ∀ a, g a ≠ k) : (k, v) ∉ renameKeys g l := by
  simp only [renameKeys, List.mem_map, Prod.mk.injEq, not_exists]
  rintro ⟨a, b⟩ ⟨_, h1, _⟩
  exact h a h1

theorem nodup_map_inj {α β : Type} {g : α → β} (hg : ∀ a b, g a = g b → a = b) {l : List α} (h : l.Nodup) :
    (l.map g).Nodup :=
  List.pairwise_map.mpr (h.imp fun hne e => hne (hg _ _ e))

theorem retain_renamed {K K' V σ : Type} {M : MapCore K V} (L : CoreLaws M) (g : K → K')
    (f : σ → K' → V → σ × V × Option Bool) (s : M.S) (st : σ) :
    RetainMatches (fun t => renameKeys g (L.entries t)) (M.retain (fun st k v => f st (g k) v) s st)
      (retainRef f (renameKeys g (L.entries s)) st) := by
  simp only [renameKeys, retainRef_map]
  exact ⟨(L.retain_entries _ s st).map _, L.retain_st _ s st, L.retain_panicked _ s st, L.retain_dropped _ s st⟩

theorem retain_slotted {K V σ : Type} (k : K) (f : σ → K → V → σ × V × Option Bool) (slot : Option V) (st : σ) :
    RetainMatches (slotEntries k) (retainSlot f k slot st) (retainRef f (slotEntries k slot) st) := by
  rw [retainSlot_spec]
  exact ⟨List.Perm.refl _, rfl, rfl, rfl⟩

theorem slotEntries_fst {K V : Type} (k : K) (slot : Option V) :
    (slotEntries k slot).map Prod.fst = if slot.isSome then [k] else [] := by cases slot <;> rfl

theorem slotEntries_snd {K V : Type} (k : K) (slot : Option V) :
    (slotEntries k slot).map Prod.snd = slot.toList := by cases slot <;> rfl

theorem mem_slotEntries {K V : Type} (k k' : K) (slot : Option V) (v : V) :
    (k', v) ∈ slotEntries k slot ↔ k' = k ∧ slot = some v := by
  cases slot <;> simp [eq_comm]

theorem slotEntries_len {K V : Type} (k : K) (slot : Option V) :
    (slotEntries k slot).length = slot.isSome.toNat := by cases slot <;> rfl

theorem slotEntries_isEmpty {K V : Type} (k : K) (slot : Option V) :
    (slotEntries k slot).isEmpty = slot.isNone := by cases slot <;> rfl

theorem isEmpty_append' {α : Type} (l l' : List α) : (l ++ l').isEmpty = (l.isEmpty && l'.isEmpty) := by
  cases l <;> simp

/-! ## option.rs -/

/-- Option map. -/
def optCore {K V : Type} {M : MapStorage K V} (L : CoreLaws M.toMapCore) : CoreLaws (optMap M).toMapCore where
  entries s := renameKeys some (L.entries s.some) ++ slotEntries none s.none
  keyAt s
    | none => s.none.map fun _ => none
    | some a => (L.keyAt s.some a).map some
  occFits
    | .none, s, k => k = none ∧ s.none.isSome
    | .some e, s, k => ∃ k', k = some k' ∧ L.occFits e s.some k'
  vacFits
    | .none, s, k => k = none ∧ s.none = none
    | .some e, s, k => ∃ k', k = some k' ∧ L.vacFits e s.some k'
  mem_entries s k v := by
    rw [List.mem_append, mem_slotEntries]
    cases k with
    | none => simp [not_mem_renameKeys]
    | some k => simp [mem_renameKeys, L.mem_entries]
  nodup_keys s := by
    rw [List.map_append, renameKeys_fst, slotEntries_fst, List.nodup_append]
    refine ⟨nodup_map_inj (fun _ _ => Option.some.inj) (L.nodup_keys _), ?_, ?_⟩
    · cases s.none <;> simp
    · intro a ha b hb
      obtain ⟨k, _, rfl⟩ := List.mem_map.mp ha
      cases hs : s.none <;> simp [hs] at hb
      subst hb; simp
  entries_empty := by simp [L.entries_empty, renameKeys]
  len_eq s := by simp [L.len_eq, renameKeys, slotEntries_len]
  isEmpty_eq s := by
    rw [isEmpty_append', slotEntries_isEmpty, renameKeys, List.isEmpty_map, ← L.isEmpty_eq]
  containsKey_eq s k := by cases k <;> simp [L.containsKey_eq]
  insert_ret s k v := by cases k <;> simp [L.insert_ret]
  get_insert_self s k v := by cases k <;> simp [L.get_insert_self]
  get_insert_ne s k v k' h := by
    cases k <;> cases k' <;> first | exact absurd rfl h | rfl | skip
    exact L.get_insert_ne _ _ _ _ (fun e => h (by rw [e]))
  remove_ret s k := by cases k <;> simp [L.remove_ret]
  get_remove_self s k := by cases k <;> simp [L.get_remove_self]
  get_remove_ne s k k' h := by
    cases k <;> cases k' <;> first | exact absurd rfl h | rfl | skip
    exact L.get_remove_ne _ _ _ (fun e => h (by rw [e]))
  retain_entries f s st := (retain_compose (fun t => renameKeys some (L.entries t)) (slotEntries none)
    (retain_renamed L some f s.some st) fun st => retain_slotted none f s.none st).entries
  retain_st f s st := (retain_compose (fun t => renameKeys some (L.entries t)) (slotEntries none)
    (retain_renamed L some f s.some st) fun st => retain_slotted none f s.none st).st
  retain_panicked f s st := (retain_compose (fun t => renameKeys some (L.entries t)) (slotEntries none)
    (retain_renamed L some f s.some st) fun st => retain_slotted none f s.none st).panicked
  retain_dropped f s st := (retain_compose (fun t => renameKeys some (L.entries t)) (slotEntries none)
    (retain_renamed L some f s.some st) fun st => retain_slotted none f s.none st).dropped
  clear_entries s := by simp [L.clear_entries, renameKeys]
  clear_dropped s := by
    rw [List.map_append, renameKeys_snd, slotEntries_snd]
    exact (L.clear_dropped s.some).append_right _
  keyAt_live s a k h := by
    cases a with
    | none =>
      obtain ⟨v, hv, rfl⟩ := Option.map_eq_some_iff.mp h
      simp [hv]
    | some a =>
      obtain ⟨k', hk, rfl⟩ := Option.map_eq_some_iff.mp h
      exact L.keyAt_live _ _ _ hk
  read_eq s a k h := by
    cases a with
    | none =>
      obtain ⟨v, hv, rfl⟩ := Option.map_eq_some_iff.mp h
      rfl
    | some a =>
      obtain ⟨k', hk, rfl⟩ := Option.map_eq_some_iff.mp h
      exact L.read_eq _ _ _ hk
  get_write_self s a k v h := by
    cases a with
    | none =>
      obtain ⟨w, hw, rfl⟩ := Option.map_eq_some_iff.mp h
      simp [hw, writeSlot]
    | some a =>
      obtain ⟨k', hk, rfl⟩ := Option.map_eq_some_iff.mp h
      exact L.get_write_self _ _ _ _ hk
  get_write_ne s a k v k' h hne := by
    cases a with
    | none =>
      obtain ⟨w, hw, rfl⟩ := Option.map_eq_some_iff.mp h
      cases k' with
      | none => exact absurd rfl hne
      | some k' => rfl
    | some a =>
      obtain ⟨k'', hk, rfl⟩ := Option.map_eq_some_iff.mp h
      cases k' with
      | none => rfl
      | some k' => exact L.get_write_ne _ _ _ _ _ hk (fun e => hne (by rw [e]))
  keyAt_write s a k v a' h := by
    cases a with
    | none =>
      obtain ⟨w, hw, rfl⟩ := Option.map_eq_some_iff.mp h
      cases a' <;> simp [hw, writeSlot]
    | some a =>
      obtain ⟨k'', hk, rfl⟩ := Option.map_eq_some_iff.mp h
      cases a' with
      | none => rfl
      | some a' => simp [L.keyAt_write _ _ _ _ _ hk]
  keys_write s a k v h := by
    cases a with
    | none =>
      obtain ⟨w, hw, rfl⟩ := Option.map_eq_some_iff.mp h
      simp [hw, writeSlot]
    | some a =>
      obtain ⟨k'', hk, rfl⟩ := Option.map_eq_some_iff.mp h
      simp only [List.map_append, renameKeys_fst, L.keys_write _ _ _ _ hk]
  getMut_some s k v h := by
    cases k with
    | none => exact ⟨none, by simp_all, by simp_all⟩
    | some k =>
      obtain ⟨a, h1, h2⟩ := L.getMut_some _ _ _ h
      exact ⟨some a, by simp [h1], by simp [h2]⟩
  getMut_none s k h := by
    cases k with
    | none => simp_all
    | some k => simp [L.getMut_none _ _ h]
  entry_some s k v h := by
    cases k with
    | none =>
      refine ⟨.none, s, ?_, fun _ => rfl, rfl, by simp_all⟩
      simp_all [OptMapSt.entry, optionBucket_new_some, Res.map]
    | some k =>
      obtain ⟨e, s', h1, h2, h3⟩ := L.entry_some _ _ _ h
      refine ⟨.some e, { s with some := s' }, ?_, ?_, k, rfl, h3⟩
      · simp [OptMapSt.entry, h1, Res.map]
      · intro k'; cases k' with
        | none => rfl
        | some k' => exact h2 k'
  entry_none s k h := by
    cases k with
    | none =>
      refine ⟨.none, s, ?_, fun _ => rfl, rfl, by simp_all⟩
      simp_all [OptMapSt.entry, optionBucket_new_none, Res.map]
    | some k =>
      obtain ⟨e, s', h1, h2, h3⟩ := L.entry_none _ _ h
      refine ⟨.some e, { s with some := s' }, ?_, ?_, k, rfl, h3⟩
      · simp [OptMapSt.entry, h1, Res.map]
      · intro k'; cases k' with
        | none => rfl
        | some k' => exact h2 k'
  occKey_eq e s k h := by
    cases e with
    | none => exact h.1.symm
    | some e => obtain ⟨k', rfl, h⟩ := h; simp [L.occKey_eq _ _ _ h]
  occGet_eq e s k h := by
    cases e with
    | none =>
      obtain ⟨rfl, h⟩ := h
      obtain ⟨w, hw⟩ := Option.isSome_iff_exists.mp h
      exact ⟨w, by simp [hw, SomeBucket.asRef], hw⟩
    | some e => obtain ⟨k', rfl, h⟩ := h; exact L.occGet_eq _ _ _ h
  occGetMut_eq e s k h := by
    cases e with
    | none =>
      obtain ⟨rfl, h⟩ := h
      obtain ⟨w, hw⟩ := Option.isSome_iff_exists.mp h
      exact ⟨none, by simp [hw, SomeBucket.asMut, Res.map], by simp [hw]⟩
    | some e =>
      obtain ⟨k', rfl, h⟩ := h
      obtain ⟨a, h1, h2⟩ := L.occGetMut_eq _ _ _ h
      exact ⟨some a, by simp [h1, Res.map], by simp [h2]⟩
  occIntoMut_eq e s k h := by
    cases e with
    | none =>
      obtain ⟨rfl, h⟩ := h
      obtain ⟨w, hw⟩ := Option.isSome_iff_exists.mp h
      exact ⟨none, by simp [hw, SomeBucket.intoMut, Res.map], by simp [hw]⟩
    | some e =>
      obtain ⟨k', rfl, h⟩ := h
      obtain ⟨a, h1, h2⟩ := L.occIntoMut_eq _ _ _ h
      exact ⟨some a, by simp [h1, Res.map], by simp [h2]⟩
  occFits_write e s k a v h ha := by
    cases e with
    | none =>
      obtain ⟨rfl, h⟩ := h
      obtain ⟨w, hw⟩ := Option.isSome_iff_exists.mp h
      cases a with
      | none => exact ⟨rfl, by simp [hw, writeSlot]⟩
      | some a => simp at ha
    | some e =>
      obtain ⟨k', rfl, h⟩ := h
      cases a with
      | none => simp at ha
      | some a =>
        simp only [Option.map_eq_some_iff, Option.some.injEq, exists_eq_right] at ha
        exact ⟨k', rfl, L.occFits_write _ _ _ _ _ h ha⟩
  occInsert_eq e s k v h := by
    cases e with
    | none =>
      obtain ⟨rfl, h⟩ := h
      obtain ⟨w, hw⟩ := Option.isSome_iff_exists.mp h
      refine ⟨w, { s with none := some v }, by simp [hw, SomeBucket.replace, Res.map], hw, rfl, ?_, rfl, rfl⟩
      intro k' hne
      cases k' with
      | none => exact absurd rfl hne
      | some k' => rfl
    | some e =>
      obtain ⟨k', rfl, h⟩ := h
      obtain ⟨old, s', h1, h2, h3, h4, h5⟩ := L.occInsert_eq _ _ _ v h
      refine ⟨old, { s with some := s' }, by simp [h1, Res.map], h2, h3, ?_, k', rfl, h5⟩
      intro k'' hne
      cases k'' with
      | none => rfl
      | some k'' => exact h4 _ (fun e => hne (by rw [e]))
  occRemove_eq e s k h := by
    cases e with
    | none =>
      obtain ⟨rfl, h⟩ := h
      obtain ⟨w, hw⟩ := Option.isSome_iff_exists.mp h
      refine ⟨w, { s with none := none }, by simp [hw, SomeBucket.take, Res.map], hw, rfl, ?_⟩
      intro k' hne
      cases k' with
      | none => exact absurd rfl hne
      | some k' => rfl
    | some e =>
      obtain ⟨k', rfl, h⟩ := h
      obtain ⟨old, s', h1, h2, h3, h4⟩ := L.occRemove_eq _ _ _ h
      refine ⟨old, { s with some := s' }, by simp [h1, Res.map], h2, h3, ?_⟩
      intro k'' hne
      cases k'' with
      | none => rfl
      | some k'' => exact h4 _ (fun e => hne (by rw [e]))
  vacKey_eq e s k h := by
    cases e with
    | none => exact h.1.symm
    | some e => obtain ⟨k', rfl, h⟩ := h; simp [L.vacKey_eq _ _ _ h]
  vacInsert_eq e s k v h := by
    cases e with
    | none =>
      obtain ⟨rfl, h⟩ := h
      refine ⟨h, none, { s with none := some v }, by simp [h, NoneBucket.insert, Res.map], rfl, ?_, rfl⟩
      intro k' hne
      cases k' with
      | none => exact absurd rfl hne
      | some k' => rfl
    | some e =>
      obtain ⟨k', rfl, h⟩ := h
      obtain ⟨h0, a, s', h1, h2, h3, h4⟩ := L.vacInsert_eq _ _ _ v h
      refine ⟨h0, some a, { s with some := s' }, by simp [h1, Res.map], h2, ?_, by simp [h4]⟩
      intro k'' hne
      cases k'' with
      | none => rfl
      | some k'' => exact h3 _ (fun e => hne (by rw [e]))
  eq_iff veq s t := by
    rw [Bool.and_eq_true, L.eq_iff]
    constructor
    · rintro ⟨h1, h2⟩ (_ | k)
      · exact h1
      · exact h2 k
    · intro h; exact ⟨h none, fun k => h (some k)⟩
  get_clone c s k := by cases k <;> simp [L.get_clone]

/-- Iterators of the option map. -/
def optIters {K V : Type} {M : MapStorage K V} {L : CoreLaws M.toMapCore} {ku : Bool}
    (T : IterLaws M L ku) : IterLaws (optMap M) (optCore L) ku where
  addrs s := ((T.addrs s.some).map fun p => (some p.1, some p.2)) ++ (s.none.map fun _ => (none, none)).toList
  keysL s := (T.keysL s.some).map some ++ (if s.none.isSome then [none] else [])
  iter s := ((T.iter s.some).comap.map.chain (yieldsAt_option _ s).map).congr rfl
  intoIter s := ((T.intoIter s.some).comap.map.chain (yieldsAt_option _ s).map).congr rfl
  values s := ((T.values s.some).comap.chain (yieldsAt_option _ s)).congr (by
    simp only [optCore, List.map_append, renameKeys_snd, slotEntries_snd])
  keys s := ((T.keys s.some).comap.map.chain (yieldsAt_option _ s)).congr (by
    cases s.none <;> rfl)
  keysL_eq h s := by
    simp only [optCore, List.map_append, renameKeys_fst, slotEntries_fst, T.keysL_eq h]
  iterMut s := ((T.iterMut s.some).comap.map.chain (yieldsAt_option _ s).map).congr (by
    cases s.none <;> rfl)
  valuesMut s := ((T.valuesMut s.some).comap.map.chain (yieldsAt_option _ s)).congr (by
    cases s.none <;> simp [List.map_map, Function.comp_def])
  addrs_keys s := by
    have := T.addrs_keys s.some
    simp only [optCore, List.map_append, renameKeys_fst, slotEntries_fst, ← this, List.map_map, Function.comp_def]
    cases s.none <;> rfl
  addrs_at s k a h := by
    rw [List.mem_append] at h
    rcases h with h | h
    · obtain ⟨⟨k', a'⟩, hm, e⟩ := List.mem_map.mp h
      cases e
      simp [optCore, T.addrs_at _ _ _ hm]
    · cases hs : s.none with
      | none => simp [hs] at h
      | some v =>
        simp [hs] at h
        obtain ⟨rfl, rfl⟩ := h
        simp [optCore, hs]

/-! ## generated fields -/

/-- No fields. -/
def nilCore (V : Type) : CoreLaws (fieldsNil V).toMapCore where
  entries _ := []
  keyAt _ _ := none
  occFits _ _ _ := False
  vacFits _ _ _ := False
  mem_entries _ k _ := k.elim
  nodup_keys _ := List.nodup_nil
  entries_empty := rfl
  len_eq _ := rfl
  isEmpty_eq _ := rfl
  containsKey_eq _ k := k.elim
  insert_ret _ k := k.elim
  get_insert_self _ k := k.elim
  get_insert_ne _ k := k.elim
  remove_ret _ k := k.elim
  get_remove_self _ k := k.elim
  get_remove_ne _ k := k.elim
  retain_entries _ _ _ := List.Perm.refl _
  retain_st _ _ _ := rfl
  retain_panicked _ _ _ := rfl
  retain_dropped _ _ _ := rfl
  clear_entries _ := rfl
  clear_dropped _ := List.Perm.refl _
  keyAt_live _ a := a.elim
  read_eq _ a := a.elim
  get_write_self _ a := a.elim
  get_write_ne _ a := a.elim
  keyAt_write _ a := a.elim
  keys_write _ a := a.elim
  getMut_some _ k := k.elim
  getMut_none _ k := k.elim
  entry_some _ k := k.elim
  entry_none _ k := k.elim
  occKey_eq e := e.elim
  occGet_eq e := e.elim
  occGetMut_eq e := e.elim
  occIntoMut_eq e := e.elim
  occFits_write e := e.elim
  occInsert_eq e := e.elim
  occRemove_eq e := e.elim
  vacKey_eq e := e.elim
  vacInsert_eq e := e.elim
  eq_iff _ _ _ := ⟨fun _ k => k.elim, fun _ => rfl⟩
  get_clone _ _ k := k.elim

/-- Iterators without fields. -/
def nilFields (V : Type) : FieldLaws (fieldsNil V) (nilCore V) true where
  addrs _ := []
  keysL _ := []
  iter s := stepYieldsAt_nil s
  intoIter s := stepYieldsAt_nil s
  values s := stepYieldsAt_nil s
  keys s := stepYieldsAt_nil s
  keysL_eq _ _ := rfl
  iterMut s := stepYieldsAt_nil s
  valuesMut s := stepYieldsAt_nil s
  addrs_keys _ := rfl
  addrs_at _ k := k.elim

theorem append_nodup_sum {A B : Type} {la : List A} {lb : List B} (ha : la.Nodup) (hb : lb.Nodup) :
    (la.map (Sum.inl (β := B)) ++ lb.map (Sum.inr (α := A))).Nodup := by
  rw [List.nodup_append]
  refine ⟨nodup_map_inj (fun _ _ => Sum.inl.inj) ha, nodup_map_inj (fun _ _ => Sum.inr.inj) hb, ?_⟩
  intro a ha b hb e
  obtain ⟨x, _, rfl⟩ := List.mem_map.mp ha
  obtain ⟨y, _, rfl⟩ := List.mem_map.mp hb
  cases e

/-- Tuple variant in front. -/
def complexCore {E K V : Type} {M : MapStorage E V} {F : MapFields K V} (LA : CoreLaws M.toMapCore) (L : CoreLaws F.toMapCore) : CoreLaws (fieldsComplex M F).toMapCore where
  entries s := renameKeys Sum.inl (LA.entries s.1) ++ renameKeys Sum.inr (L.entries s.2)
  keyAt s
    | .inl a => (LA.keyAt s.1 a).map .inl
    | .inr a => (L.keyAt s.2 a).map .inr
  occFits
    | .inl e, s, k => ∃ k', k = .inl k' ∧ LA.occFits e s.1 k'
    | .inr e, s, k => ∃ k', k = .inr k' ∧ L.occFits e s.2 k'
  vacFits
    | .inl e, s, k => ∃ k', k = .inl k' ∧ LA.vacFits e s.1 k'
    | .inr e, s, k => ∃ k', k = .inr k' ∧ L.vacFits e s.2 k'
  mem_entries s k v := by
    rw [List.mem_append]
    cases k with
    | inl k =>
      rw [mem_renameKeys fun _ _ => Sum.inl.inj, LA.mem_entries]
      simp [not_mem_renameKeys]
    | inr k =>
      rw [mem_renameKeys fun _ _ => Sum.inr.inj, L.mem_entries]
      simp [not_mem_renameKeys]
  nodup_keys s := by
    rw [List.map_append, renameKeys_fst, renameKeys_fst]
    exact append_nodup_sum (LA.nodup_keys _) (L.nodup_keys _)
  entries_empty := by rw [LA.entries_empty, L.entries_empty]; rfl
  len_eq s := by
    rw [List.length_append, renameKeys, renameKeys, List.length_map, List.length_map, ← L.len_eq, ← LA.len_eq]
  isEmpty_eq s := by
    rw [isEmpty_append', renameKeys, renameKeys, List.isEmpty_map, List.isEmpty_map, ← L.isEmpty_eq,
      ← LA.isEmpty_eq]
  containsKey_eq s k := by
    cases k with
    | inl k => exact LA.containsKey_eq _ k
    | inr k => exact L.containsKey_eq _ k
  insert_ret s k v := by
    cases k with
    | inl k => exact LA.insert_ret _ k v
    | inr k => exact L.insert_ret _ k v
  get_insert_self s k v := by
    cases k with
    | inl k => exact LA.get_insert_self s.1 k v
    | inr k => exact L.get_insert_self s.2 k v
  get_insert_ne s k v k' h := by
    cases k <;> cases k' <;> first | rfl | skip
    · exact LA.get_insert_ne s.1 _ v _ (fun e => h (congrArg Sum.inl e))
    · exact L.get_insert_ne s.2 _ _ _ (fun e => h (congrArg Sum.inr e))
  remove_ret s k := by
    cases k with
    | inl k => exact LA.remove_ret _ k
    | inr k => exact L.remove_ret _ k
  get_remove_self s k := by
    cases k with
    | inl k => exact LA.get_remove_self s.1 k
    | inr k => exact L.get_remove_self s.2 k
  get_remove_ne s k k' h := by
    cases k <;> cases k' <;> first | rfl | skip
    · exact LA.get_remove_ne s.1 _ _ (fun e => h (congrArg Sum.inl e))
    · exact L.get_remove_ne s.2 _ _ (fun e => h (congrArg Sum.inr e))
  retain_entries f s st := (retain_compose (fun t => renameKeys Sum.inl (LA.entries t)) (fun t => renameKeys Sum.inr (L.entries t))
    (retain_renamed LA Sum.inl f s.1 st) fun st => retain_renamed L Sum.inr f s.2 st).entries
  retain_st f s st := (retain_compose (fun t => renameKeys Sum.inl (LA.entries t)) (fun t => renameKeys Sum.inr (L.entries t))
    (retain_renamed LA Sum.inl f s.1 st) fun st => retain_renamed L Sum.inr f s.2 st).st
  retain_panicked f s st := (retain_compose (fun t => renameKeys Sum.inl (LA.entries t)) (fun t => renameKeys Sum.inr (L.entries t))
    (retain_renamed LA Sum.inl f s.1 st) fun st => retain_renamed L Sum.inr f s.2 st).panicked
  retain_dropped f s st := (retain_compose (fun t => renameKeys Sum.inl (LA.entries t)) (fun t => renameKeys Sum.inr (L.entries t))
    (retain_renamed LA Sum.inl f s.1 st) fun st => retain_renamed L Sum.inr f s.2 st).dropped
  clear_entries s := by
    have h1 := LA.clear_entries s.1
    have h2 := L.clear_entries s.2
    exact congr (congrArg _ (congrArg (renameKeys Sum.inl) h1)) (congrArg (renameKeys Sum.inr) h2)
  clear_dropped s := by
    rw [List.map_append, renameKeys_snd, renameKeys_snd]
    exact (LA.clear_dropped s.1).append (L.clear_dropped s.2)
  keyAt_live s a k h := by
    cases a with
    | inl a =>
      obtain ⟨k', hk, rfl⟩ := Option.map_eq_some_iff.mp h
      exact LA.keyAt_live s.1 a _ hk
    | inr a =>
      obtain ⟨k', hk, rfl⟩ := Option.map_eq_some_iff.mp h
      exact L.keyAt_live _ _ _ hk
  read_eq s a k h := by
    cases a with
    | inl a =>
      obtain ⟨k', hk, rfl⟩ := Option.map_eq_some_iff.mp h
      exact LA.read_eq s.1 a _ hk
    | inr a =>
      obtain ⟨k', hk, rfl⟩ := Option.map_eq_some_iff.mp h
      exact L.read_eq _ _ _ hk
  get_write_self s a k v h := by
    cases a with
    | inl a =>
      obtain ⟨k', hk, rfl⟩ := Option.map_eq_some_iff.mp h
      exact LA.get_write_self s.1 a _ v hk
    | inr a =>
      obtain ⟨k', hk, rfl⟩ := Option.map_eq_some_iff.mp h
      exact L.get_write_self _ _ _ _ hk
  get_write_ne s a k v k' h hne := by
    cases a with
    | inl a =>
      obtain ⟨k'', hk, rfl⟩ := Option.map_eq_some_iff.mp h
      cases k' with
      | inl k' => exact LA.get_write_ne s.1 a _ v k' hk (fun e => hne (congrArg Sum.inl e))
      | inr k' => rfl
    | inr a =>
      obtain ⟨k'', hk, rfl⟩ := Option.map_eq_some_iff.mp h
      cases k' with
      | inl k' => rfl
      | inr k' => exact L.get_write_ne _ _ _ _ _ hk (fun e => hne (congrArg Sum.inr e))
  keyAt_write s a k v a' h := by
    cases a with
    | inl a =>
      obtain ⟨k'', hk, rfl⟩ := Option.map_eq_some_iff.mp h
      cases a' with
      | inl a' => exact congrArg (Option.map Sum.inl) (LA.keyAt_write s.1 a _ v a' hk)
      | inr a' => rfl
    | inr a =>
      obtain ⟨k'', hk, rfl⟩ := Option.map_eq_some_iff.mp h
      cases a' with
      | inl a' => rfl
      | inr a' => exact congrArg (Option.map Sum.inr) (L.keyAt_write _ _ _ _ _ hk)
  keys_write s a k v h := by
    cases a with
    | inl a =>
      obtain ⟨k'', hk, rfl⟩ := Option.map_eq_some_iff.mp h
      have := LA.keys_write s.1 a _ v hk
      simp only [List.map_append, renameKeys_fst]
      rw [← this]
    | inr a =>
      obtain ⟨k'', hk, rfl⟩ := Option.map_eq_some_iff.mp h
      simp only [List.map_append, renameKeys_fst, L.keys_write _ _ _ _ hk]
  getMut_some s k v h := by
    cases k with
    | inl k =>
      obtain ⟨a, h1, h2⟩ := LA.getMut_some s.1 k v h
      exact ⟨.inl a, by simp [h1], by simp only [h2]; rfl⟩
    | inr k =>
      obtain ⟨a, h1, h2⟩ := L.getMut_some _ _ _ h
      exact ⟨.inr a, by simp [h1], by simp [h2]⟩
  getMut_none s k h := by
    cases k with
    | inl k =>
      have := LA.getMut_none s.1 k h
      simp_all
    | inr k => simp [L.getMut_none _ _ h]
  entry_some s k v h := by
    cases k with
    | inl k =>
      obtain ⟨e, s', h1, h2, h3⟩ := LA.entry_some _ _ _ h
      refine ⟨.inl e, (s', s.2), ?_, ?_, k, rfl, h3⟩
      · simp [h1, Res.map]
      · intro k'; cases k' with
        | inl k' => exact h2 k'
        | inr k' => rfl
    | inr k =>
      obtain ⟨e, s', h1, h2, h3⟩ := L.entry_some _ _ _ h
      refine ⟨.inr e, (s.1, s'), ?_, ?_, k, rfl, h3⟩
      · simp [h1, Res.map]
      · intro k'; cases k' with
        | inl k' => rfl
        | inr k' => exact h2 k'
  entry_none s k h := by
    cases k with
    | inl k =>
      obtain ⟨e, s', h1, h2, h3⟩ := LA.entry_none _ _ h
      refine ⟨.inl e, (s', s.2), ?_, ?_, k, rfl, h3⟩
      · simp [h1, Res.map]
      · intro k'; cases k' with
        | inl k' => exact h2 k'
        | inr k' => rfl
    | inr k =>
      obtain ⟨e, s', h1, h2, h3⟩ := L.entry_none _ _ h
      refine ⟨.inr e, (s.1, s'), ?_, ?_, k, rfl, h3⟩
      · simp [h1, Res.map]
      · intro k'; cases k' with
        | inl k' => rfl
        | inr k' => exact h2 k'
  occKey_eq e s k h := by
    cases e with
    | inl e =>
      obtain ⟨k', rfl, h⟩ := h; simp [LA.occKey_eq _ _ _ h]
    | inr e => obtain ⟨k', rfl, h⟩ := h; simp [L.occKey_eq _ _ _ h]
  occGet_eq e s k h := by
    cases e with
    | inl e =>
      obtain ⟨k', rfl, h⟩ := h
      exact LA.occGet_eq e s.1 k' h
    | inr e => obtain ⟨k', rfl, h⟩ := h; exact L.occGet_eq _ _ _ h
  occGetMut_eq e s k h := by
    cases e with
    | inl e =>
      obtain ⟨k', rfl, h⟩ := h
      obtain ⟨a, h1, h2⟩ := LA.occGetMut_eq e s.1 k' h
      refine ⟨.inl a, ?_, by simp only [h2]; rfl⟩
      simp [h1, Res.map]
    | inr e =>
      obtain ⟨k', rfl, h⟩ := h
      obtain ⟨a, h1, h2⟩ := L.occGetMut_eq _ _ _ h
      exact ⟨.inr a, by simp [h1, Res.map], by simp [h2]⟩
  occIntoMut_eq e s k h := by
    cases e with
    | inl e =>
      obtain ⟨k', rfl, h⟩ := h
      obtain ⟨a, h1, h2⟩ := LA.occIntoMut_eq e s.1 k' h
      refine ⟨.inl a, ?_, by simp only [h2]; rfl⟩
      simp [h1, Res.map]
    | inr e =>
      obtain ⟨k', rfl, h⟩ := h
      obtain ⟨a, h1, h2⟩ := L.occIntoMut_eq _ _ _ h
      exact ⟨.inr a, by simp [h1, Res.map], by simp [h2]⟩
  occFits_write e s k a v h ha := by
    cases e with
    | inl e =>
      obtain ⟨k', rfl, h⟩ := h
      cases a with
      | inr a => simp at ha
      | inl a =>
        simp only [Option.map_eq_some_iff, Sum.inl.injEq, exists_eq_right] at ha
        exact ⟨k', rfl, LA.occFits_write _ _ _ _ _ h ha⟩
    | inr e =>
      obtain ⟨k', rfl, h⟩ := h
      cases a with
      | inl a => simp at ha
      | inr a =>
        simp only [Option.map_eq_some_iff, Sum.inr.injEq, exists_eq_right] at ha
        exact ⟨k', rfl, L.occFits_write _ _ _ _ _ h ha⟩
  occInsert_eq e s k v h := by
    cases e with
    | inl e =>
      obtain ⟨k', rfl, h⟩ := h
      obtain ⟨old, s', h1, h2, h3, h4, h5⟩ := LA.occInsert_eq e s.1 k' v h
      refine ⟨old, (s', s.2), ?_, h2, h3, ?_, k', rfl, h5⟩
      · simp_all [Res.map]
      · intro k'' hne
        cases k'' with
        | inl k'' => exact h4 _ (fun e => hne (congrArg Sum.inl e))
        | inr k'' => rfl
    | inr e =>
      obtain ⟨k', rfl, h⟩ := h
      obtain ⟨old, s', h1, h2, h3, h4, h5⟩ := L.occInsert_eq _ _ _ v h
      refine ⟨old, (s.1, s'), by simp [h1, Res.map], h2, h3, ?_, k', rfl, h5⟩
      intro k'' hne
      cases k'' with
      | inl k'' => rfl
      | inr k'' => exact h4 _ (fun e => hne (congrArg Sum.inr e))
  occRemove_eq e s k h := by
    cases e with
    | inl e =>
      obtain ⟨k', rfl, h⟩ := h
      obtain ⟨old, s', h1, h2, h3, h4⟩ := LA.occRemove_eq e s.1 k' h
      refine ⟨old, (s', s.2), ?_, h2, h3, ?_⟩
      · simp_all [Res.map]
      · intro k'' hne
        cases k'' with
        | inl k'' => exact h4 _ (fun e => hne (congrArg Sum.inl e))
        | inr k'' => rfl
    | inr e =>
      obtain ⟨k', rfl, h⟩ := h
      obtain ⟨old, s', h1, h2, h3, h4⟩ := L.occRemove_eq _ _ _ h
      refine ⟨old, (s.1, s'), by simp [h1, Res.map], h2, h3, ?_⟩
      intro k'' hne
      cases k'' with
      | inl k'' => rfl
      | inr k'' => exact h4 _ (fun e => hne (congrArg Sum.inr e))
  vacKey_eq e s k h := by
    cases e with
    | inl e =>
      obtain ⟨k', rfl, h⟩ := h; simp [LA.vacKey_eq _ _ _ h]
    | inr e => obtain ⟨k', rfl, h⟩ := h; simp [L.vacKey_eq _ _ _ h]
  vacInsert_eq e s k v h := by
    cases e with
    | inl e =>
      obtain ⟨k', rfl, h⟩ := h
      obtain ⟨h0, a, s', h1, h2, h3, h4⟩ := LA.vacInsert_eq e s.1 k' v h
      refine ⟨h0, .inl a, (s', s.2), ?_, h2, ?_, by simp only [h4]; rfl⟩
      · simp [h1, Res.map]
      · intro k'' hne
        cases k'' with
        | inl k'' => exact h3 _ (fun e => hne (congrArg Sum.inl e))
        | inr k'' => rfl
    | inr e =>
      obtain ⟨k', rfl, h⟩ := h
      obtain ⟨h0, a, s', h1, h2, h3, h4⟩ := L.vacInsert_eq _ _ _ v h
      refine ⟨h0, .inr a, (s.1, s'), by simp [h1, Res.map], h2, ?_, by simp [h4]⟩
      intro k'' hne
      cases k'' with
      | inl k'' => rfl
      | inr k'' => exact h3 _ (fun e => hne (congrArg Sum.inr e))
  eq_iff veq s t := by
    have h1 := LA.eq_iff veq s.1 t.1
    have h2 := L.eq_iff veq s.2 t.2
    have : (fieldsComplex M F).eq veq s t = true ↔ M.eq veq s.1 t.1 = true ∧ F.eq veq s.2 t.2 = true := by
      show (if !(M.eq veq s.1 t.1) then false else F.eq veq s.2 t.2) = true ↔ _
      cases M.eq veq s.1 t.1 <;> simp
    rw [this]
    constructor
    · rintro ⟨ha, hb⟩ (k | k)
      · exact h1.mp ha k
      · exact h2.mp hb k
    · intro h; exact ⟨h1.mpr fun k => h (.inl k), h2.mpr fun k => h (.inr k)⟩
  get_clone c s k := by
    cases k with
    | inl k => exact LA.get_clone c s.1 k
    | inr k => exact L.get_clone c s.2 k

/-- Unit variant in front. -/
def simpleCore {K V : Type} {F : MapFields K V} (L : CoreLaws F.toMapCore) : CoreLaws (fieldsSimple F).toMapCore where
  entries s := renameKeys Sum.inl ((unitCore V).entries s.1) ++ renameKeys Sum.inr (L.entries s.2)
  keyAt s
    | .inl a => ((unitCore V).keyAt s.1 a).map .inl
    | .inr a => (L.keyAt s.2 a).map .inr
  occFits
    | .inl e, s, k => e.key = .inl () ∧ k = .inl () ∧ (unitCore V).occFits () s.1 ()
    | .inr e, s, k => ∃ k', k = .inr k' ∧ L.occFits e s.2 k'
  vacFits
    | .inl e, s, k => e.key = .inl () ∧ k = .inl () ∧ (unitCore V).vacFits () s.1 ()
    | .inr e, s, k => ∃ k', k = .inr k' ∧ L.vacFits e s.2 k'
  mem_entries s k v := by
    rw [List.mem_append]
    cases k with
    | inl k =>
      rw [mem_renameKeys fun _ _ => Sum.inl.inj, (unitCore V).mem_entries]
      simp [not_mem_renameKeys]
    | inr k =>
      rw [mem_renameKeys fun _ _ => Sum.inr.inj, L.mem_entries]
      simp [not_mem_renameKeys]
  nodup_keys s := by
    rw [List.map_append, renameKeys_fst, renameKeys_fst]
    exact append_nodup_sum ((unitCore V).nodup_keys _) (L.nodup_keys _)
  entries_empty := by rw [(unitCore V).entries_empty, L.entries_empty]; rfl
  len_eq s := by
    rw [List.length_append, renameKeys, renameKeys, List.length_map, List.length_map, ← L.len_eq, ← (unitCore V).len_eq]
  isEmpty_eq s := by
    rw [isEmpty_append', renameKeys, renameKeys, List.isEmpty_map, List.isEmpty_map, ← L.isEmpty_eq,
      ← (unitCore V).isEmpty_eq]
  containsKey_eq s k := by
    cases k with
    | inl k => exact (unitCore V).containsKey_eq _ k
    | inr k => exact L.containsKey_eq _ k
  insert_ret s k v := by
    cases k with
    | inl k => exact (unitCore V).insert_ret _ k v
    | inr k => exact L.insert_ret _ k v
  get_insert_self s k v := by
    cases k with
    | inl k => exact (unitCore V).get_insert_self s.1 k v
    | inr k => exact L.get_insert_self s.2 k v
  get_insert_ne s k v k' h := by
    cases k <;> cases k' <;> first | rfl | skip
    · exact (unitCore V).get_insert_ne s.1 _ v _ (fun e => h (congrArg Sum.inl e))
    · exact L.get_insert_ne s.2 _ _ _ (fun e => h (congrArg Sum.inr e))
  remove_ret s k := by
    cases k with
    | inl k => exact (unitCore V).remove_ret _ k
    | inr k => exact L.remove_ret _ k
  get_remove_self s k := by
    cases k with
    | inl k => exact (unitCore V).get_remove_self s.1 k
    | inr k => exact L.get_remove_self s.2 k
  get_remove_ne s k k' h := by
    cases k <;> cases k' <;> first | rfl | skip
    · exact (unitCore V).get_remove_ne s.1 _ _ (fun e => h (congrArg Sum.inl e))
    · exact L.get_remove_ne s.2 _ _ (fun e => h (congrArg Sum.inr e))
  retain_entries f s st := (retain_compose (fun t => renameKeys Sum.inl ((unitCore V).entries t)) (fun t => renameKeys Sum.inr (L.entries t))
    (retain_renamed (unitCore V) Sum.inl f s.1 st) fun st => retain_renamed L Sum.inr f s.2 st).entries
  retain_st f s st := (retain_compose (fun t => renameKeys Sum.inl ((unitCore V).entries t)) (fun t => renameKeys Sum.inr (L.entries t))
    (retain_renamed (unitCore V) Sum.inl f s.1 st) fun st => retain_renamed L Sum.inr f s.2 st).st
  retain_panicked f s st := (retain_compose (fun t => renameKeys Sum.inl ((unitCore V).entries t)) (fun t => renameKeys Sum.inr (L.entries t))
    (retain_renamed (unitCore V) Sum.inl f s.1 st) fun st => retain_renamed L Sum.inr f s.2 st).panicked
  retain_dropped f s st := (retain_compose (fun t => renameKeys Sum.inl ((unitCore V).entries t)) (fun t => renameKeys Sum.inr (L.entries t))
    (retain_renamed (unitCore V) Sum.inl f s.1 st) fun st => retain_renamed L Sum.inr f s.2 st).dropped
  clear_entries s := by
    have h1 := (unitCore V).clear_entries s.1
    have h2 := L.clear_entries s.2
    exact congr (congrArg _ (congrArg (renameKeys Sum.inl) h1)) (congrArg (renameKeys Sum.inr) h2)
  clear_dropped s := by
    rw [List.map_append, renameKeys_snd, renameKeys_snd]
    exact ((unitCore V).clear_dropped s.1).append (L.clear_dropped s.2)
  keyAt_live s a k h := by
    cases a with
    | inl a =>
      obtain ⟨k', hk, rfl⟩ := Option.map_eq_some_iff.mp h
      exact (unitCore V).keyAt_live s.1 a _ hk
    | inr a =>
      obtain ⟨k', hk, rfl⟩ := Option.map_eq_some_iff.mp h
      exact L.keyAt_live _ _ _ hk
  read_eq s a k h := by
    cases a with
    | inl a =>
      obtain ⟨k', hk, rfl⟩ := Option.map_eq_some_iff.mp h
      exact (unitCore V).read_eq s.1 a _ hk
    | inr a =>
      obtain ⟨k', hk, rfl⟩ := Option.map_eq_some_iff.mp h
      exact L.read_eq _ _ _ hk
  get_write_self s a k v h := by
    cases a with
    | inl a =>
      obtain ⟨k', hk, rfl⟩ := Option.map_eq_some_iff.mp h
      exact (unitCore V).get_write_self s.1 a _ v hk
    | inr a =>
      obtain ⟨k', hk, rfl⟩ := Option.map_eq_some_iff.mp h
      exact L.get_write_self _ _ _ _ hk
  get_write_ne s a k v k' h hne := by
    cases a with
    | inl a =>
      obtain ⟨k'', hk, rfl⟩ := Option.map_eq_some_iff.mp h
      cases k' with
      | inl k' => exact (unitCore V).get_write_ne s.1 a _ v k' hk (fun e => hne (congrArg Sum.inl e))
      | inr k' => rfl
    | inr a =>
      obtain ⟨k'', hk, rfl⟩ := Option.map_eq_some_iff.mp h
      cases k' with
      | inl k' => rfl
      | inr k' => exact L.get_write_ne _ _ _ _ _ hk (fun e => hne (congrArg Sum.inr e))
  keyAt_write s a k v a' h := by
    cases a with
    | inl a =>
      obtain ⟨k'', hk, rfl⟩ := Option.map_eq_some_iff.mp h
      cases a' with
      | inl a' => exact congrArg (Option.map Sum.inl) ((unitCore V).keyAt_write s.1 a _ v a' hk)
      | inr a' => rfl
    | inr a =>
      obtain ⟨k'', hk, rfl⟩ := Option.map_eq_some_iff.mp h
      cases a' with
      | inl a' => rfl
      | inr a' => exact congrArg (Option.map Sum.inr) (L.keyAt_write _ _ _ _ _ hk)
  keys_write s a k v h := by
    cases a with
    | inl a =>
      obtain ⟨k'', hk, rfl⟩ := Option.map_eq_some_iff.mp h
      have := (unitCore V).keys_write s.1 a _ v hk
      simp only [List.map_append, renameKeys_fst]
      rw [← this]
    | inr a =>
      obtain ⟨k'', hk, rfl⟩ := Option.map_eq_some_iff.mp h
      simp only [List.map_append, renameKeys_fst, L.keys_write _ _ _ _ hk]
  getMut_some s k v h := by
    cases k with
    | inl k =>
      obtain ⟨a, h1, h2⟩ := (unitCore V).getMut_some s.1 k v h
      exact ⟨.inl a, by have h1 : s.1.map _ = some a := h1; simp [h1]; cases hs : s.1 <;> simp_all, by simp only [h2]; rfl⟩
    | inr k =>
      obtain ⟨a, h1, h2⟩ := L.getMut_some _ _ _ h
      exact ⟨.inr a, by simp [h1], by simp [h2]⟩
  getMut_none s k h := by
    cases k with
    | inl k =>
      have := (unitCore V).getMut_none s.1 k h
      simp_all
    | inr k => simp [L.getMut_none _ _ h]
  entry_some s k v h := by
    cases k with
    | inl k =>
      have h' : s.1 = some v := h
      refine ⟨.inl ⟨.inl ()⟩, s, ?_, fun _ => rfl, rfl, rfl, by rw [h']; rfl⟩
      simp [simpleOptionToEntry, h', optionBucket_new_some, Res.map]
    | inr k =>
      obtain ⟨e, s', h1, h2, h3⟩ := L.entry_some _ _ _ h
      refine ⟨.inr e, (s.1, s'), ?_, ?_, k, rfl, h3⟩
      · simp [h1, Res.map]
      · intro k'; cases k' with
        | inl k' => rfl
        | inr k' => exact h2 k'
  entry_none s k h := by
    cases k with
    | inl k =>
      have h' : s.1 = none := h
      refine ⟨.inl ⟨.inl ()⟩, s, ?_, fun _ => rfl, rfl, rfl, by rw [h']; rfl⟩
      simp [simpleOptionToEntry, h', optionBucket_new_none, Res.map]
    | inr k =>
      obtain ⟨e, s', h1, h2, h3⟩ := L.entry_none _ _ h
      refine ⟨.inr e, (s.1, s'), ?_, ?_, k, rfl, h3⟩
      · simp [h1, Res.map]
      · intro k'; cases k' with
        | inl k' => rfl
        | inr k' => exact h2 k'
  occKey_eq e s k h := by
    cases e with
    | inl e =>
      obtain ⟨h1, rfl, h⟩ := h; exact h1
    | inr e => obtain ⟨k', rfl, h⟩ := h; simp [L.occKey_eq _ _ _ h]
  occGet_eq e s k h := by
    cases e with
    | inl e =>
      obtain ⟨he, rfl, h⟩ := h
      exact (unitCore V).occGet_eq () s.1 () h
    | inr e => obtain ⟨k', rfl, h⟩ := h; exact L.occGet_eq _ _ _ h
  occGetMut_eq e s k h := by
    cases e with
    | inl e =>
      obtain ⟨he, rfl, h⟩ := h
      obtain ⟨a, h1, h2⟩ := (unitCore V).occGetMut_eq () s.1 () h
      refine ⟨.inl a, ?_, by simp only [h2]; rfl⟩
      simp_all [Res.map]
    | inr e =>
      obtain ⟨k', rfl, h⟩ := h
      obtain ⟨a, h1, h2⟩ := L.occGetMut_eq _ _ _ h
      exact ⟨.inr a, by simp [h1, Res.map], by simp [h2]⟩
  occIntoMut_eq e s k h := by
    cases e with
    | inl e =>
      obtain ⟨he, rfl, h⟩ := h
      obtain ⟨a, h1, h2⟩ := (unitCore V).occIntoMut_eq () s.1 () h
      refine ⟨.inl a, ?_, by simp only [h2]; rfl⟩
      simp_all [Res.map]
    | inr e =>
      obtain ⟨k', rfl, h⟩ := h
      obtain ⟨a, h1, h2⟩ := L.occIntoMut_eq _ _ _ h
      exact ⟨.inr a, by simp [h1, Res.map], by simp [h2]⟩
  occFits_write e s k a v h ha := by
    cases e with
    | inl e =>
      obtain ⟨he, rfl, h⟩ := h
      cases a with
      | inr a => simp at ha
      | inl a =>
        simp only [Option.map_eq_some_iff, Sum.inl.injEq, exists_eq_right] at ha
        obtain ⟨u, hu, _⟩ := ha
        exact ⟨he, rfl, (unitCore V).occFits_write () s.1 () a v h hu⟩
    | inr e =>
      obtain ⟨k', rfl, h⟩ := h
      cases a with
      | inl a => simp at ha
      | inr a =>
        simp only [Option.map_eq_some_iff, Sum.inr.injEq, exists_eq_right] at ha
        exact ⟨k', rfl, L.occFits_write _ _ _ _ _ h ha⟩
  occInsert_eq e s k v h := by
    cases e with
    | inl e =>
      obtain ⟨he, rfl, h⟩ := h
      obtain ⟨old, s', h1, h2, h3, h4, h5⟩ := (unitCore V).occInsert_eq () s.1 () v h
      refine ⟨old, (s', s.2), ?_, h2, h3, ?_, he, rfl, h5⟩
      · simp_all [Res.map]
      · intro k'' hne
        cases k'' with
        | inl k'' => exact h4 _ (fun e => hne (congrArg Sum.inl e))
        | inr k'' => rfl
    | inr e =>
      obtain ⟨k', rfl, h⟩ := h
      obtain ⟨old, s', h1, h2, h3, h4, h5⟩ := L.occInsert_eq _ _ _ v h
      refine ⟨old, (s.1, s'), by simp [h1, Res.map], h2, h3, ?_, k', rfl, h5⟩
      intro k'' hne
      cases k'' with
      | inl k'' => rfl
      | inr k'' => exact h4 _ (fun e => hne (congrArg Sum.inr e))
  occRemove_eq e s k h := by
    cases e with
    | inl e =>
      obtain ⟨he, rfl, h⟩ := h
      obtain ⟨old, s', h1, h2, h3, h4⟩ := (unitCore V).occRemove_eq () s.1 () h
      refine ⟨old, (s', s.2), ?_, h2, h3, ?_⟩
      · simp_all [Res.map]
      · intro k'' hne
        cases k'' with
        | inl k'' => exact h4 _ (fun e => hne (congrArg Sum.inl e))
        | inr k'' => rfl
    | inr e =>
      obtain ⟨k', rfl, h⟩ := h
      obtain ⟨old, s', h1, h2, h3, h4⟩ := L.occRemove_eq _ _ _ h
      refine ⟨old, (s.1, s'), by simp [h1, Res.map], h2, h3, ?_⟩
      intro k'' hne
      cases k'' with
      | inl k'' => rfl
      | inr k'' => exact h4 _ (fun e => hne (congrArg Sum.inr e))
  vacKey_eq e s k h := by
    cases e with
    | inl e =>
      obtain ⟨h1, rfl, h⟩ := h; exact h1
    | inr e => obtain ⟨k', rfl, h⟩ := h; simp [L.vacKey_eq _ _ _ h]
  vacInsert_eq e s k v h := by
    cases e with
    | inl e =>
      obtain ⟨he, rfl, h⟩ := h
      obtain ⟨h0, a, s', h1, h2, h3, h4⟩ := (unitCore V).vacInsert_eq () s.1 () v h
      refine ⟨h0, .inl a, (s', s.2), ?_, h2, ?_, by simp only [h4]; rfl⟩
      · have h' : s.1 = none := h0
        simp_all [NoneBucket.insert, Res.map]
      · intro k'' hne
        cases k'' with
        | inl k'' => exact h3 _ (fun e => hne (congrArg Sum.inl e))
        | inr k'' => rfl
    | inr e =>
      obtain ⟨k', rfl, h⟩ := h
      obtain ⟨h0, a, s', h1, h2, h3, h4⟩ := L.vacInsert_eq _ _ _ v h
      refine ⟨h0, .inr a, (s.1, s'), by simp [h1, Res.map], h2, ?_, by simp [h4]⟩
      intro k'' hne
      cases k'' with
      | inl k'' => rfl
      | inr k'' => exact h3 _ (fun e => hne (congrArg Sum.inr e))
  eq_iff veq s t := by
    have h1 := (unitCore V).eq_iff veq s.1 t.1
    have h2 := L.eq_iff veq s.2 t.2
    have : (fieldsSimple F).eq veq s t = true ↔ optBeq veq s.1 t.1 = true ∧ F.eq veq s.2 t.2 = true := by
      show (if !(optBeq veq s.1 t.1) then false else F.eq veq s.2 t.2) = true ↔ _
      cases optBeq veq s.1 t.1 <;> simp
    rw [this]
    constructor
    · rintro ⟨ha, hb⟩ (k | k)
      · exact h1.mp ha k
      · exact h2.mp hb k
    · intro h; exact ⟨h1.mpr fun k => h (.inl k), h2.mpr fun k => h (.inr k)⟩
  get_clone c s k := by
    cases k with
    | inl k => exact (unitCore V).get_clone c s.1 k
    | inr k => exact L.get_clone c s.2 k

/-- Iterators with a tuple variant in front. -/
def complexFields {E K V : Type} {M : MapStorage E V} {F : MapFields K V} {LA : CoreLaws M.toMapCore}
    {L : CoreLaws F.toMapCore} {ka kb : Bool} (TA : IterLaws M LA ka) (T : FieldLaws F L kb) :
    FieldLaws (fieldsComplex M F) (complexCore LA L) (ka && kb) where
  addrs s := ((TA.addrs s.1).map fun p => (.inl p.1, .inl p.2)) ++ (T.addrs s.2).map fun p => (.inr p.1, .inr p.2)
  keysL s := (TA.keysL s.1).map .inl ++ (T.keysL s.2).map .inr
  iter s := StepYieldsAt.cons (TA.iter s.1).comap.map (T.iter s.2).comap.map
  intoIter s := StepYieldsAt.cons (TA.intoIter s.1).comap.map (T.intoIter s.2).comap.map
  values s := (StepYieldsAt.cons (TA.values s.1).comap (T.values s.2).comap).congr (by
    simp only [complexCore, List.map_append, renameKeys_snd])
  keys s := StepYieldsAt.cons (TA.keys s.1).comap.map (T.keys s.2).comap.map
  keysL_eq h s := by
    rw [Bool.and_eq_true] at h
    simp only [complexCore, List.map_append, renameKeys_fst, TA.keysL_eq h.1, T.keysL_eq h.2]
  iterMut s := StepYieldsAt.cons (TA.iterMut s.1).comap.map (T.iterMut s.2).comap.map
  valuesMut s := (StepYieldsAt.cons (TA.valuesMut s.1).comap.map (T.valuesMut s.2).comap.map).congr (by
    simp [List.map_map, Function.comp_def])
  addrs_keys s := by
    have h1 := TA.addrs_keys s.1
    have h2 := T.addrs_keys s.2
    simp only [complexCore, List.map_append, renameKeys_fst, ← h1, ← h2, List.map_map, Function.comp_def]
  addrs_at s k a h := by
    rw [List.mem_append] at h
    rcases h with h | h
    · obtain ⟨⟨k', a'⟩, hm, e⟩ := List.mem_map.mp h
      cases e
      simp [complexCore, TA.addrs_at _ _ _ hm]
    · obtain ⟨⟨k', a'⟩, hm, e⟩ := List.mem_map.mp h
      cases e
      simp [complexCore, T.addrs_at _ _ _ hm]

/-- Iterators with a unit variant in front. -/
def simpleFields {K V : Type} {F : MapFields K V} {L : CoreLaws F.toMapCore} {kb : Bool}
    (T : FieldLaws F L kb) : FieldLaws (fieldsSimple F) (simpleCore L) kb where
  addrs s := (s.1.map fun _ => (.inl (), .inl ())).toList ++ (T.addrs s.2).map fun p => (.inr p.1, .inr p.2)
  keysL s := (if s.1.isSome then [.inl ()] else []) ++ (T.keysL s.2).map .inr
  iter s := (StepYieldsAt.cons (yieldsAt_option _ s).map (T.iter s.2).comap.map).congr (by
    cases h : s.1 <;> simp [simpleCore, unitCore, renameKeys, h])
  intoIter s := (StepYieldsAt.cons (yieldsAt_option _ s).map (T.intoIter s.2).comap.map).congr (by
    cases h : s.1 <;> simp [simpleCore, unitCore, renameKeys, h])
  values s := (StepYieldsAt.cons (yieldsAt_option _ s) (T.values s.2).comap).congr (by
    simp only [simpleCore, List.map_append, renameKeys_snd]
    cases h : s.1 <;> simp [unitCore])
  keys s := (StepYieldsAt.cons
    (YieldsAt.map (show YieldsAt ⟨takeBoolIter, fun s : Option V × F.S => s.1.isSome⟩ s _ from
      yields_takeBool s.1.isSome))
    (T.keys s.2).comap.map).congr (by cases h : s.1 <;> simp)
  keysL_eq h s := by
    simp only [simpleCore, List.map_append, renameKeys_fst, T.keysL_eq h]
    cases h : s.1 <;> simp [unitCore]
  iterMut s := (StepYieldsAt.cons (yieldsAt_option _ s).map (T.iterMut s.2).comap.map).congr (by
    cases h : s.1 <;> simp)
  valuesMut s := (StepYieldsAt.cons (yieldsAt_option _ s) (T.valuesMut s.2).comap.map).congr (by
    cases h : s.1 <;> simp [List.map_map, Function.comp_def])
  addrs_keys s := by
    have h2 := T.addrs_keys s.2
    simp only [simpleCore, List.map_append, renameKeys_fst, ← h2, List.map_map, Function.comp_def]
    cases h : s.1 <;> simp [unitCore]
  addrs_at s k a h := by
    rw [List.mem_append] at h
    rcases h with h | h
    · cases hs : s.1 with
      | none => simp [hs] at h
      | some v =>
        simp [hs] at h
        obtain ⟨rfl, rfl⟩ := h
        simp [simpleCore, unitCore, hs]
    · obtain ⟨⟨k', a'⟩, hm, e⟩ := List.mem_map.mp h
      cases e
      simp [simpleCore, T.addrs_at _ _ _ hm]

/-- The generated loops over the fields. -/
def enumIters {K V : Type} {F : MapFields K V} {L : CoreLaws F.toMapCore} {ku : Bool}
    (T : FieldLaws F L ku) : IterLaws (enumMap F) L ku where
  addrs := T.addrs
  keysL := T.keysL
  iter s := (T.iter s).toIter
  intoIter s := (T.intoIter s).toIter
  values s := (T.values s).toIter
  keys s := (T.keys s).toIter
  keysL_eq := T.keysL_eq
  iterMut s := (T.iterMut s).toIter
  valuesMut s := (T.valuesMut s).toIter
  addrs_keys := T.addrs_keys
  addrs_at := T.addrs_at

end FixedMap
