import Verif.Spec.Hashbrown
import Verif.Spec.Order
import Verif.Proofs.MapEnum
import Verif.Proofs.MapUnits

/-! # `hashbrown.rs` satisfies the map laws; all key types together -/

set_option autoImplicit false
set_option linter.unusedSimpArgs false

namespace FixedMap

theorem BehavesLike.yields {α : Type} {I : IterImpl α} {st : I.St} {l : List α} (h : BehavesLike I st l) :
    Yields I st l := by
  refine ⟨BehavesLike I, ⟨?_, ?_, ?_⟩, h⟩
  · intro st l h
    constructor
    · have := (h [.front] _ _ rfl).1
      simpa [dequeRun, dequeStep] using this
    · intro ds outs st' hr
      have := h (.front :: ds) ((I.next st).1 :: outs) st' (by simp [IterImpl.run, IterImpl.step, hr])
      simpa [dequeRun, dequeStep] using ⟨(List.cons.inj this.1).2, this.2⟩
  · intro nb hnb st l h
    constructor
    · have := (h [.back] [(nb st).1] (nb st).2 (by simp [IterImpl.run, IterImpl.step, hnb])).1
      simpa [dequeRun, dequeStep] using this
    · intro ds outs st' hr
      have := h (.back :: ds) ((nb st).1 :: outs) st' (by simp [IterImpl.run, IterImpl.step, hnb, hr])
      simpa [dequeRun, dequeStep] using ⟨(List.cons.inj this.1).2, this.2⟩
  · intro st l h
    exact (h [] [] st rfl).2

theorem length_le_of_nodup_subset {α : Type} {l l' : List α} (hn : l.Nodup) (hs : ∀ x ∈ l, x ∈ l') :
    l.length ≤ l'.length := by
  induction l generalizing l' with
  | nil => simp
  | cons a l ih =>
    rw [List.nodup_cons] at hn
    obtain ⟨p, q, rfl⟩ := List.append_of_mem (hs a (by simp))
    have := ih (l' := p ++ q) hn.2 (by
      intro x hx
      have := hs x (by simp [hx])
      simp only [List.mem_append, List.mem_cons] at this ⊢
      rcases this with h | rfl | h
      · exact .inl h
      · exact absurd hx hn.1
      · exact .inr h)
    simp at this ⊢
    omega

theorem subset_of_nodup_length {α : Type} {l l' : List α} (hn : l.Nodup) (hs : ∀ x ∈ l, x ∈ l')
    (hl : l'.length ≤ l.length) : ∀ x ∈ l', x ∈ l := by
  intro x hx
  apply Classical.byContradiction
  intro hne
  have := length_le_of_nodup_subset (l := x :: l) (l' := l') (List.nodup_cons.mpr ⟨hne, hn⟩) (by
    intro y hy
    rcases List.mem_cons.mp hy with rfl | hy
    · exact hx
    · exact hs y hy)
  simp at this
  omega

/-- Two containers with the same number of entries are equal when one is inside the other. -/
theorem all_entries_iff {K V : Type} {get get' : K → Option V} {l l' : List (K × V)}
    (hm : ∀ k v, (k, v) ∈ l ↔ get k = some v) (hm' : ∀ k v, (k, v) ∈ l' ↔ get' k = some v)
    (hn : (l.map Prod.fst).Nodup) (hn' : (l'.map Prod.fst).Nodup) (veq : V → V → Bool) :
    (l.length = l'.length ∧ ∀ p ∈ l, (match get' p.1 with | some v => veq p.2 v | none => false) = true) ↔
      ∀ k, optBeq veq (get k) (get' k) = true := by
  have hk : ∀ (g : K → Option V) (l : List (K × V)), (∀ k v, (k, v) ∈ l ↔ g k = some v) →
      ∀ k, k ∈ l.map Prod.fst ↔ (g k).isSome := by
    intro g l h k
    simp only [List.mem_map, Option.isSome_iff_exists]
    constructor
    · rintro ⟨⟨k', v⟩, hmem, rfl⟩; exact ⟨v, (h _ _).mp hmem⟩
    · rintro ⟨v, hv⟩; exact ⟨(k, v), (h _ _).mpr hv, rfl⟩
  constructor
  · rintro ⟨hlen, hall⟩ k
    have hsub : ∀ x ∈ l.map Prod.fst, x ∈ l'.map Prod.fst := by
      intro x hx
      obtain ⟨⟨k', v⟩, hmem, rfl⟩ := List.mem_map.mp hx
      rw [hk get' l' hm']
      have := hall _ hmem
      cases h : get' k' with
      | none => simp [h] at this
      | some w => simp [h]
    have hsup := subset_of_nodup_length hn hsub (by simp [hlen])
    cases h : get k with
    | none =>
      cases h' : get' k with
      | none => rfl
      | some w =>
        have := hsup k ((hk get' l' hm' k).mpr (by simp [h']))
        rw [hk get l hm k, h] at this
        simp at this
    | some v =>
      have := hall _ ((hm k v).mpr h)
      cases h' : get' k with
      | none => simp [h'] at this
      | some w => simpa [h', optBeq] using this
  · intro h
    have hiff : ∀ k, (get k).isSome ↔ (get' k).isSome := by
      intro k
      have := h k
      cases h1 : get k <;> cases h2 : get' k <;> simp [h1, h2, optBeq] at this ⊢
    refine ⟨?_, ?_⟩
    · have h1 : l.length ≤ l'.length := by
        have := length_le_of_nodup_subset (l' := l'.map Prod.fst) hn (by
          intro x hx; rw [hk get l hm] at hx; rw [hk get' l' hm']; exact (hiff x).mp hx)
        simpa using this
      have h2 : l'.length ≤ l.length := by
        have := length_le_of_nodup_subset (l' := l.map Prod.fst) hn' (by
          intro x hx; rw [hk get' l' hm'] at hx; rw [hk get l hm]; exact (hiff x).mpr hx)
        simpa using this
      omega
    · rintro ⟨k, v⟩ hmem
      have hg := (hm k v).mp hmem
      have := h k
      rw [hg] at this
      cases h' : get' k with
      | none => simp [h', optBeq] at this
      | some w => simpa [h', optBeq] using this

/-- Hash map. -/
def hashCore {K V : Type} {A : HashMapApi K V} (L : HashMapLaws A) : CoreLaws (hashMap A).toMapCore where
  entries := L.entries
  keyAt := L.keyAt
  occFits := L.occFits
  vacFits := L.vacFits
  mem_entries := L.mem_entries
  nodup_keys := L.nodup_keys
  entries_empty := L.new_entries
  len_eq := L.len_eq
  isEmpty_eq := L.is_empty_eq
  containsKey_eq := L.contains_key_eq
  insert_ret := L.insert_ret
  get_insert_self := L.get_insert_self
  get_insert_ne := L.get_insert_ne
  remove_ret := L.remove_ret
  get_remove_self := L.get_remove_self
  get_remove_ne := L.get_remove_ne
  retain_entries f := L.retain_entries f
  retain_st f := L.retain_st f
  retain_panicked f := L.retain_panicked f
  retain_dropped f := L.retain_dropped f
  clear_entries := L.clear_entries
  clear_dropped := L.clear_dropped
  keyAt_live := L.keyAt_live
  read_eq := L.read_eq
  get_write_self := L.get_write_self
  get_write_ne := L.get_write_ne
  keyAt_write := L.keyAt_write
  keys_write := L.keys_write
  getMut_some := L.get_mut_some
  getMut_none := L.get_mut_none
  entry_some s k v h := by
    obtain ⟨e, t', h1, h2⟩ := L.entry_some s k v h
    exact ⟨e, t', congrArg Res.ok h1, h2⟩
  entry_none s k h := by
    obtain ⟨e, t', h1, h2⟩ := L.entry_none s k h
    exact ⟨e, t', congrArg Res.ok h1, h2⟩
  occKey_eq := L.occ_key_eq
  occGet_eq := L.occ_get_eq
  occGetMut_eq := L.occ_get_mut_eq
  occIntoMut_eq := L.occ_into_mut_eq
  occFits_write := L.occFits_write
  occInsert_eq := L.occ_insert_eq
  occRemove_eq := L.occ_remove_eq
  vacKey_eq := L.vac_key_eq
  vacInsert_eq := L.vac_insert_eq
  eq_iff veq s t := by
    rw [← all_entries_iff (L.mem_entries s) (L.mem_entries t) (L.nodup_keys s) (L.nodup_keys t) veq]
    have hc : A.iter.I.collect (L.entries s).length (A.iter.init s) = L.entries s :=
      (L.iter_like s).yields.collect (Nat.le_refl _)
    simp only [HashMapApi.eqVia, L.len_eq, hc]
    split
    · rename_i h; simp [h]
    · rename_i h
      simp only [ne_eq, Decidable.not_not] at h
      rw [List.all_eq_true]
      exact ⟨fun hh => ⟨h, hh⟩, fun hh => hh.2⟩
  get_clone := L.get_clone

theorem map_pair_id {α β : Type} (l : List (α × β)) : l.map (fun p => (p.1, p.2)) = l := by simp

/-- Iterators of the hash map. -/
def hashIters {K V : Type} {A : HashMapApi K V} (L : HashMapLaws A) : IterLaws (hashMap A) (hashCore L) true where
  addrs := L.addrs
  keysL s := (L.entries s).map Prod.fst
  iter s := (YieldsAt.map (L.iter_like s).yields).congr (map_pair_id _)
  intoIter s := (L.into_iter_like s).yields
  values s := (L.values_like s).yields
  keys s := (YieldsAt.map (L.keys_like s).yields).congr (List.map_id' _)
  keysL_eq _ _ := rfl
  iterMut s := (YieldsAt.map (L.iter_mut_like s).yields).congr (map_pair_id _)
  valuesMut s := (L.values_mut_like s).yields
  addrs_keys := L.addrs_keys
  addrs_at := L.addrs_at

/-! ## all key types -/

mutual
/-- The storage of every key type satisfies the map laws. -/
def mapCore (H : Hashbrown) (V : Type) : (κ : KeyTy) → CoreLaws (mapStorage H.api V κ).toMapCore
  | .bool => boolCore V
  | .unit => unitCore V
  | .opt κ => optCore (mapCore H V κ)
  | .prim p => hashCore (H.laws p.Key V)
  | .units n => unitsCore n V
  | .bitset n _ _ => unitsCore n V
  | .enum fs => fieldsCore H V fs
def fieldsCore (H : Hashbrown) (V : Type) : (fs : Fields) → CoreLaws (mapFields H.api V fs).toMapCore
  | .nil => nilCore V
  | .simple fs => simpleCore (fieldsCore H V fs)
  | .complex κ fs => complexCore (mapCore H V κ) (fieldsCore H V fs)
end

mutual
/-- The iterators of every key type satisfy the iterator laws. -/
def mapIters (H : Hashbrown) (V : Type) : (κ : KeyTy) → IterLaws (mapStorage H.api V κ) (mapCore H V κ) κ.noUnit
  | .bool => boolIters V
  | .unit => unitIters V
  | .opt κ => optIters (mapIters H V κ)
  | .prim p => hashIters (H.laws p.Key V)
  | .units n => unitsIters n V
  | .bitset n _ _ => unitsIters n V
  | .enum fs => enumIters (fieldsIters H V fs)
def fieldsIters (H : Hashbrown) (V : Type) :
    (fs : Fields) → FieldLaws (mapFields H.api V fs) (fieldsCore H V fs) fs.noUnit
  | .nil => nilFields V
  | .simple fs => simpleFields (fieldsIters H V fs)
  | .complex κ fs => complexFields (mapIters H V κ) (fieldsIters H V fs)
end

end FixedMap
