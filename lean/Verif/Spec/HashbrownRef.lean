import Verif.Spec.Hashbrown
import Verif.Spec.FinMap

/-!
# The assumed laws of hashbrown are satisfiable

An implementation of the hash map API by association lists with distinct keys, newest entry first.
It is used in the concrete cases beside the theorems.
-/

set_option autoImplicit false
set_option linter.unusedSimpArgs false

namespace FixedMap

namespace Assoc

variable {K V : Type} [DecidableEq K]

/-- Lists with distinct keys. -/
abbrev Table (K V : Type) : Type := { l : List (K × V) // (l.map Prod.fst).Nodup }

/-- Replace the value of `k`. -/
def set (l : List (K × V)) (k : K) (v : V) : List (K × V) := l.map fun p => if p.1 = k then (p.1, v) else p

/-- Owning list iterator, forward only. -/
def listIter (α : Type) : IterImpl α where
  St := List α
  next l := (l.head?, l.tail)
  nextBack? := none
  sizeHint l := (l.length, some l.length)

theorem lookup_iff {l : List (K × V)} (h : (l.map Prod.fst).Nodup) (k : K) (v : V) :
    (k, v) ∈ l ↔ FinMap.get l k = some v := by
  induction l with
  | nil => simp [FinMap.get]
  | cons p l ih =>
    obtain ⟨k', v'⟩ := p
    simp only [List.map_cons, List.nodup_cons] at h
    simp only [List.mem_cons, Prod.mk.injEq, FinMap.get]
    split
    · rename_i e
      subst e
      have : (k', v) ∉ l := fun hm => h.1 (List.mem_map.mpr ⟨_, hm, rfl⟩)
      simp [this, eq_comm]
    · rename_i e
      rw [← ih h.2]
      simp [Ne.symm e]

theorem lookup_isSome (l : List (K × V)) (k : K) : (FinMap.get l k).isSome ↔ k ∈ l.map Prod.fst := by
  induction l with
  | nil => simp [FinMap.get]
  | cons p l ih =>
    simp only [FinMap.get, List.map_cons, List.mem_cons]
    split
    · rename_i e; simp [e]
    · rename_i e; rw [ih]; simp [Ne.symm e]

theorem lookup_erase (l : List (K × V)) (k k' : K) : FinMap.get (FinMap.erase l k) k' = if k' = k then none else FinMap.get l k' := by
  induction l with
  | nil => simp [FinMap.get, FinMap.erase]
  | cons p l ih =>
    simp only [FinMap.erase, List.filter_cons] at ih ⊢
    by_cases e : p.1 = k
    · simp only [e, ne_eq, not_true_eq_false, decide_false, Bool.false_eq_true, if_false, FinMap.get, ih]
      by_cases e' : k' = k
      · simp [e']
      · simp [e', Ne.symm e']
    · simp only [e, ne_eq, not_false_eq_true, decide_true, if_true, FinMap.get, ih]
      by_cases e' : k' = k
      · subst e'; simp [e]
      · simp [e']

theorem erase_nodup {l : List (K × V)} (h : (l.map Prod.fst).Nodup) (k : K) : ((FinMap.erase l k).map Prod.fst).Nodup :=
  List.Sublist.nodup (List.Sublist.map _ List.filter_sublist) h

theorem not_mem_erase (l : List (K × V)) (k : K) : k ∉ (FinMap.erase l k).map Prod.fst := by
  rw [← lookup_isSome, lookup_erase]; simp

theorem set_keys (l : List (K × V)) (k : K) (v : V) : (set l k v).map Prod.fst = l.map Prod.fst := by
  simp only [set, List.map_map]
  apply List.map_congr_left
  intro p _
  simp only [Function.comp]
  split <;> rfl

theorem lookup_set (l : List (K × V)) (k k' : K) (v : V) :
    FinMap.get (set l k v) k' = if k' = k then (FinMap.get l k).map fun _ => v else FinMap.get l k' := by
  induction l with
  | nil => simp [FinMap.get, set]
  | cons p l ih =>
    simp only [set, List.map_cons, FinMap.get] at ih ⊢
    by_cases e : p.1 = k <;> by_cases e' : k' = k
    · subst e' e; simp
    · simp [e, Ne.symm e', ih, e']
    · subst e'; simp [e, ih]
    · simp [e, ih, e']

theorem lookup_map (c : V → V) (l : List (K × V)) (k : K) :
    FinMap.get (l.map fun p => (p.1, c p.2)) k = (FinMap.get l k).map c := by
  induction l with
  | nil => simp [FinMap.get]
  | cons p l ih =>
    simp only [List.map_cons, FinMap.get, ih]
    split <;> simp

omit [DecidableEq K] in
theorem retainRef_keys {σ : Type} (f : σ → K → V → σ × V × Option Bool) (l : List (K × V)) (st : σ) :
    List.Sublist ((retainRef f l st).s.map Prod.fst) (l.map Prod.fst) := by
  induction l generalizing st with
  | nil => simp [retainRef]
  | cons p l ih =>
    obtain ⟨k, v⟩ := p
    simp only [retainRef]
    rcases f st k v with ⟨st', v', _ | _ | _⟩
    · simp
    · exact (ih st').cons _
    · exact (ih st').cons_cons _

theorem listIter_like {α : Type} (l : List α) : BehavesLike (listIter α) l l := by
  intro ds
  induction ds generalizing l with
  | nil =>
    intro outs st' h
    simp only [IterImpl.run, Option.some.injEq, Prod.mk.injEq] at h
    obtain ⟨rfl, rfl⟩ := h
    simp [dequeRun, HintOk, listIter]
  | cons d ds ih =>
    intro outs st' h
    cases d with
    | back => simp [IterImpl.run, IterImpl.step, listIter] at h
    | front =>
      simp only [IterImpl.run, IterImpl.step] at h
      obtain ⟨⟨os, st''⟩, h1, h2⟩ := Option.map_eq_some_iff.mp h
      simp only [Prod.mk.injEq] at h2
      obtain ⟨rfl, rfl⟩ := h2
      have := ih _ _ _ h1
      simp only [dequeRun, dequeStep, List.cons.injEq]
      exact ⟨⟨rfl, this.1⟩, this.2⟩

end Assoc

open Assoc in
/-- Hash maps as association lists. A reference and an entry are the key itself. -/
@[reducible] def assocApi (K V : Type) [DecidableEq K] : HashMapApi K V where
  Table := Table K V
  Addr := K
  OccupiedEntry := K
  VacantEntry := K
  read t a := FinMap.get t.1 a
  write t a v := ⟨set t.1 a v, by rw [set_keys]; exact t.2⟩
  new := ⟨[], by simp⟩
  len t := t.1.length
  is_empty t := t.1.isEmpty
  insert t k v := (FinMap.get t.1 k, ⟨(k, v) :: FinMap.erase t.1 k, List.nodup_cons.mpr ⟨not_mem_erase _ _, erase_nodup t.2 _⟩⟩)
  contains_key t k := (FinMap.get t.1 k).isSome
  get t k := FinMap.get t.1 k
  get_mut t k := (FinMap.get t.1 k).map fun _ => k
  remove t k := (FinMap.get t.1 k, ⟨FinMap.erase t.1 k, erase_nodup t.2 _⟩)
  retain f t st :=
    ⟨⟨(retainRef f t.1 st).s, List.Sublist.nodup (retainRef_keys f t.1 st) t.2⟩, (retainRef f t.1 st).st,
      (retainRef f t.1 st).panicked, (retainRef f t.1 st).dropped⟩
  clear t := (⟨[], by simp⟩, t.1.map Prod.snd)
  entry t k := (if (FinMap.get t.1 k).isSome then .inl k else .inr k, t)
  occ_key e := e
  occ_get e t := match FinMap.get t.1 e with | some v => .ok v | none => .ub
  occ_get_mut e t := match FinMap.get t.1 e with | some _ => .ok e | none => .ub
  occ_into_mut e t := match FinMap.get t.1 e with | some _ => .ok e | none => .ub
  occ_insert e t v :=
    match FinMap.get t.1 e with
    | some old => .ok (old, ⟨set t.1 e v, by rw [set_keys]; exact t.2⟩)
    | none => .ub
  occ_remove e t :=
    match FinMap.get t.1 e with
    | some old => .ok (old, ⟨FinMap.erase t.1 e, erase_nodup t.2 _⟩)
    | none => .ub
  vac_key e := e
  vac_insert e t v := .ok (e, ⟨(e, v) :: FinMap.erase t.1 e, List.nodup_cons.mpr ⟨not_mem_erase _ _, erase_nodup t.2 _⟩⟩)
  clone c t := ⟨t.1.map fun p => (p.1, c p.2), by simpa [List.map_map, Function.comp_def] using t.2⟩
  iter := ⟨listIter _, fun t => t.1⟩
  keys := ⟨listIter _, fun t => t.1.map Prod.fst⟩
  values := ⟨listIter _, fun t => t.1.map Prod.snd⟩
  iter_mut := ⟨listIter _, fun t => t.1.map fun p => (p.1, p.1)⟩
  values_mut := ⟨listIter _, fun t => t.1.map Prod.fst⟩
  into_iter := ⟨listIter _, fun t => t.1⟩

open Assoc in
/-- The assumed laws hold for association lists. -/
def assocLaws (K V : Type) [DecidableEq K] : HashMapLaws (assocApi K V) where
  entries t := t.1
  addrs t := t.1.map fun p => (p.1, p.1)
  keyAt t a := if (FinMap.get t.1 a).isSome then some a else none
  occFits e t k := e = k ∧ (FinMap.get t.1 k).isSome
  vacFits e t k := e = k ∧ FinMap.get t.1 k = none
  mem_entries t k v := lookup_iff t.2 k v
  nodup_keys t := t.2
  new_entries := rfl
  len_eq _ := rfl
  is_empty_eq _ := rfl
  contains_key_eq _ _ := rfl
  insert_ret _ _ _ := rfl
  get_insert_self t k v := by simp [FinMap.get]
  get_insert_ne t k v k' h := by simp [FinMap.get, lookup_erase, h, Ne.symm h]
  remove_ret _ _ := rfl
  get_remove_self t k := by simp [lookup_erase]
  get_remove_ne t k k' h := by simp [lookup_erase, h]
  retain_entries _ _ _ := List.Perm.refl _
  retain_st _ _ _ := rfl
  retain_panicked _ _ _ := rfl
  retain_dropped _ _ _ := rfl
  clear_entries _ := rfl
  clear_dropped _ := List.Perm.refl _
  keyAt_live t a k h := by
    split at h
    · cases h; assumption
    · cases h
  read_eq t a k h := by
    split at h
    · cases h; rfl
    · cases h
  get_write_self t a k v h := by
    split at h
    · rename_i hs
      cases h
      obtain ⟨w, hw⟩ := Option.isSome_iff_exists.mp hs
      simp [lookup_set, hw]
    · cases h
  get_write_ne t a k v k' h hne := by
    split at h
    · cases h; simp [lookup_set, hne]
    · cases h
  keyAt_write t a k v a' _ := by
    have : (FinMap.get (set t.1 a v) a').isSome = (FinMap.get t.1 a').isSome := by
      rw [Bool.eq_iff_iff, lookup_isSome, lookup_isSome, set_keys]
    simp only [this]
  keys_write t a _ v _ := set_keys _ _ _
  get_mut_some t k v h := by
    have h : FinMap.get t.1 k = some v := h
    refine ⟨k, ?_, ?_⟩ <;> simp [h]
  get_mut_none t k h := by
    have h : FinMap.get t.1 k = none := h
    simp [h]
  entry_some t k v h := by
    have h : FinMap.get t.1 k = some v := h
    refine ⟨k, t, ?_, fun _ => rfl, rfl, ?_⟩ <;> simp [h]
  entry_none t k h := by
    have h : FinMap.get t.1 k = none := h
    refine ⟨k, t, ?_, fun _ => rfl, rfl, ?_⟩ <;> simp [h]
  occ_key_eq _ _ _ h := h.1
  occ_get_eq e t k := by
    rintro ⟨rfl, h⟩
    obtain ⟨w, hw⟩ := Option.isSome_iff_exists.mp h
    exact ⟨w, by simp only [hw], hw⟩
  occ_get_mut_eq e t k := by
    rintro ⟨rfl, h⟩
    obtain ⟨w, hw⟩ := Option.isSome_iff_exists.mp h
    exact ⟨e, by simp only [hw], by simp [hw]⟩
  occ_into_mut_eq e t k := by
    rintro ⟨rfl, h⟩
    obtain ⟨w, hw⟩ := Option.isSome_iff_exists.mp h
    exact ⟨e, by simp only [hw], by simp [hw]⟩
  occFits_write e t k a v := by
    rintro ⟨rfl, h⟩ _
    refine ⟨rfl, ?_⟩
    rw [lookup_isSome, set_keys, ← lookup_isSome]
    exact h
  occ_insert_eq e t k v := by
    rintro ⟨rfl, h⟩
    obtain ⟨w, hw⟩ := Option.isSome_iff_exists.mp h
    refine ⟨w, ⟨set t.1 e v, by rw [set_keys]; exact t.2⟩, by simp only [hw], hw, ?_, ?_, rfl, ?_⟩
    · simp [lookup_set, hw]
    · intro k' hne; simp [lookup_set, hne]
    · simp [lookup_set, hw]
  occ_remove_eq e t k := by
    rintro ⟨rfl, h⟩
    obtain ⟨w, hw⟩ := Option.isSome_iff_exists.mp h
    refine ⟨w, ⟨FinMap.erase t.1 e, erase_nodup t.2 _⟩, by simp only [hw], hw, ?_, ?_⟩
    · simp [lookup_erase]
    · intro k' hne; simp [lookup_erase, hne]
  vac_key_eq _ _ _ h := h.1
  vac_insert_eq e t k v := by
    rintro ⟨rfl, h⟩
    refine ⟨h, e, _, rfl, ?_, ?_, ?_⟩
    · simp [FinMap.get]
    · intro k' hne; simp [FinMap.get, lookup_erase, hne, Ne.symm hne]
    · simp [FinMap.get]
  get_clone c t k := lookup_map c t.1 k
  iter_like t := listIter_like _
  into_iter_like t := listIter_like _
  keys_like t := listIter_like _
  values_like t := listIter_like _
  iter_mut_like t := listIter_like _
  values_mut_like t := by
    have := listIter_like (t.1.map Prod.fst)
    simpa [List.map_map, Function.comp_def] using this
  addrs_keys t := by simp [List.map_map, Function.comp_def]
  addrs_at t k a h := by
    obtain ⟨p, hp, e⟩ := List.mem_map.mp h
    cases e
    have : (FinMap.get t.1 p.1).isSome := (lookup_isSome _ _).mpr (List.mem_map.mpr ⟨p, hp, rfl⟩)
    simp [this]

/-- A hashbrown satisfying the laws. -/
@[reducible] def assocHashbrown : Hashbrown where
  api K V _ := assocApi K V
  laws K V _ := assocLaws K V

end FixedMap
