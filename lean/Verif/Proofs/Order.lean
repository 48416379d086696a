import Verif.Proofs.MapHash

/-! # The entries of a map are in declaration order -/

set_option autoImplicit false
set_option linter.unusedSimpArgs false

namespace FixedMap

theorem renameKeys_filterMap {K K' V : Type} (g : K → K') (ks : List K) (get : K → Option V) (get' : K' → Option V)
    (h : ∀ k, get' (g k) = get k) :
    renameKeys g (ks.filterMap fun k => (get k).map (k, ·)) =
      (ks.map g).filterMap fun k => (get' k).map (k, ·) := by
  simp only [renameKeys, List.map_filterMap, List.filterMap_map]
  apply filterMap_congr'
  intro k _
  simp only [Function.comp, h]
  cases get k <;> rfl

/-- The content is enumerated along a list of keys. -/
def EnumBy {S K V : Type} (entries : S → List (K × V)) (get : S → K → Option V) (ks : List K) : Prop :=
  ∀ s, entries s = ks.filterMap fun k => (get s k).map (k, ·)

theorem enumBy_opt {K V : Type} {M : MapStorage K V} (L : CoreLaws M.toMapCore) {ks : List K}
    (h : EnumBy L.entries M.get ks) : EnumBy (optCore L).entries (optMap M).get (ks.map some ++ [none]) := by
  intro s
  have e : (optCore L).entries s = renameKeys some (L.entries s.some) ++ slotEntries none s.none := rfl
  rw [e, h s.some, List.filterMap_append]
  congr 1
  · exact renameKeys_filterMap some _ _ ((optMap M).get s) (fun _ => rfl)
  · obtain ⟨s1, s2⟩ := s; cases s2 <;> rfl

theorem enumBy_simple {K V : Type} {M : MapFields K V} (L : CoreLaws M.toMapCore) {ks : List K}
    (h : EnumBy L.entries M.get ks) :
    EnumBy (simpleCore L).entries (fieldsSimple M).get (Sum.inl () :: ks.map Sum.inr) := by
  intro s
  have e : (simpleCore L).entries s =
    renameKeys Sum.inl ((unitCore V).entries s.1) ++ renameKeys Sum.inr (L.entries s.2) := rfl
  rw [e, h s.2, show Sum.inl () :: ks.map Sum.inr = [()].map Sum.inl ++ ks.map Sum.inr from rfl,
    List.filterMap_append]
  congr 1
  · obtain ⟨s1, s2⟩ := s; cases s1 <;> rfl
  · exact renameKeys_filterMap Sum.inr _ _ ((fieldsSimple M).get s) (fun _ => rfl)

theorem enumBy_complex {A K V : Type} {N : MapStorage A V} {M : MapFields K V} (LA : CoreLaws N.toMapCore)
    (L : CoreLaws M.toMapCore) {as : List A} {ks : List K} (ha : EnumBy LA.entries N.get as)
    (h : EnumBy L.entries M.get ks) :
    EnumBy (complexCore LA L).entries (fieldsComplex N M).get (as.map Sum.inl ++ ks.map Sum.inr) := by
  intro s
  have e : (complexCore LA L).entries s =
    renameKeys Sum.inl (LA.entries s.1) ++ renameKeys Sum.inr (L.entries s.2) := rfl
  rw [e, ha s.1, h s.2, List.filterMap_append]
  congr 1
  · exact renameKeys_filterMap Sum.inl _ _ ((fieldsComplex N M).get s) (fun _ => rfl)
  · exact renameKeys_filterMap Sum.inr _ _ ((fieldsComplex N M).get s) (fun _ => rfl)

mutual
theorem entries_allKeys (H : Hashbrown) (V : Type) : (κ : KeyTy) → κ.hashFree = true →
    EnumBy (mapCore H V κ).entries (mapStorage H.api V κ).get κ.allKeys
  | .bool, _ => by
    rintro ⟨t, f⟩
    cases t <;> cases f <;> rfl
  | .unit, _ => by rintro (_ | _) <;> rfl
  | .opt κ, h => enumBy_opt _ (entries_allKeys H V κ h)
  | .units _, _ => fun _ => rfl
  | .bitset _ _ _, _ => fun _ => rfl
  | .enum fs, h => fieldsEntries_allKeys H V fs h
theorem fieldsEntries_allKeys (H : Hashbrown) (V : Type) : (fs : Fields) → fs.hashFree = true →
    EnumBy (fieldsCore H V fs).entries (mapFields H.api V fs).get fs.allKeys
  | .nil, _ => fun _ => rfl
  | .simple fs, h => enumBy_simple _ (fieldsEntries_allKeys H V fs h)
  | .complex κ fs, h => by
    simp only [Fields.hashFree, Bool.and_eq_true] at h
    exact enumBy_complex _ _ (entries_allKeys H V κ h.1) (fieldsEntries_allKeys H V fs h.2)
end

theorem finRange_pairwise (n : Nat) : (List.finRange n).Pairwise (· < ·) := by
  rw [List.pairwise_iff_getElem]
  intro i j hi hj hij
  simp only [List.getElem_finRange, Fin.lt_def, Fin.val_cast]
  exact hij

/-- The content is in an order compatible with `R`. -/
def SortedBy {S K V : Type} (entries : S → List (K × V)) (R : K → K → Prop) : Prop :=
  ∀ s, (entries s).Pairwise fun p q => R p.1 q.1

theorem sortedBy_slot {K V : Type} (k : K) (R : K → K → Prop) : SortedBy (slotEntries (V := V) k) R := by
  intro s; cases s <;> simp [slotEntries]

theorem sortedBy_opt {K V : Type} {M : MapStorage K V} (L : CoreLaws M.toMapCore) {R : K → K → Prop}
    (h : SortedBy L.entries R) : SortedBy (optCore L).entries (optBefore R) := by
  intro s
  show (renameKeys some (L.entries s.some) ++ slotEntries none s.none).Pairwise _
  rw [List.pairwise_append]
  refine ⟨?_, sortedBy_slot _ _ _, ?_⟩
  · rw [renameKeys, List.pairwise_map]
    exact h s.some
  · intro p hp q hq
    simp only [renameKeys, List.mem_map] at hp
    obtain ⟨a, _, rfl⟩ := hp
    simp only [slotEntries, List.mem_map] at hq
    obtain ⟨b, _, rfl⟩ := hq
    exact trivial

theorem pairwise_sum {A K V : Type} {l : List (A × V)} {l' : List (K × V)} {R : A → A → Prop} {Q : K → K → Prop}
    (h : l.Pairwise fun p q => R p.1 q.1) (h' : l'.Pairwise fun p q => Q p.1 q.1) :
    (renameKeys Sum.inl l ++ renameKeys Sum.inr l').Pairwise fun (p q : (A ⊕ K) × V) => sumBefore R Q p.1 q.1 := by
  rw [List.pairwise_append]
  refine ⟨?_, ?_, ?_⟩
  · rw [renameKeys, List.pairwise_map]
    exact h
  · rw [renameKeys, List.pairwise_map]
    exact h'
  · intro p hp q hq
    simp only [renameKeys, List.mem_map] at hp hq
    obtain ⟨a, _, rfl⟩ := hp
    obtain ⟨b, _, rfl⟩ := hq
    exact trivial

theorem sortedBy_units (n : Nat) (V : Type) : SortedBy (unitsCore n V).entries (fun a b => a < b) := by
  intro s
  show (unitsEntries (List.finRange n) s).Pairwise _
  rw [unitsEntries, List.pairwise_filterMap]
  refine (finRange_pairwise n).imp ?_
  rintro i j hij b hb b' hb'
  obtain ⟨v, _, rfl⟩ := Option.map_eq_some_iff.mp hb
  obtain ⟨v', _, rfl⟩ := Option.map_eq_some_iff.mp hb'
  exact hij

theorem sortedBy_hash {K V : Type} {A : HashMapApi K V} (L : HashMapLaws A) :
    SortedBy (hashCore L).entries (fun a b => a ≠ b) :=
  fun s => List.pairwise_map.mp (L.nodup_keys s)

mutual
theorem entries_sorted (H : Hashbrown) (V : Type) : (κ : KeyTy) → SortedBy (mapCore H V κ).entries κ.mayPrecede
  | .bool => by
    rintro ⟨t, f⟩
    cases t <;> cases f <;>
      first
        | exact List.Pairwise.nil
        | exact List.pairwise_singleton _ _
        | exact List.pairwise_pair.mpr ⟨rfl, rfl⟩
  | .unit => sortedBy_slot (K := Unit) _ _
  | .opt κ => sortedBy_opt _ (entries_sorted H V κ)
  | .prim p => sortedBy_hash (H.laws p.Key V)
  | .units n => sortedBy_units n V
  | .bitset n _ _ => sortedBy_units n V
  | .enum fs => fieldsEntries_sorted H V fs
theorem fieldsEntries_sorted (H : Hashbrown) (V : Type) : (fs : Fields) →
    SortedBy (fieldsCore H V fs).entries fs.mayPrecede
  | .nil => fun _ => List.Pairwise.nil
  | .simple fs => fun s => pairwise_sum (sortedBy_slot () (fun _ _ => False) s.1) (fieldsEntries_sorted H V fs s.2)
  | .complex κ fs => fun s => pairwise_sum (entries_sorted H V κ s.1) (fieldsEntries_sorted H V fs s.2)
end

/-! ## the enumeration is complete -/

mutual
theorem mem_allKeys : (κ : KeyTy) → κ.hashFree = true → ∀ k : κ.Key, k ∈ κ.allKeys
  | .bool, _, true => .head _
  | .bool, _, false => .tail _ (.head _)
  | .unit, _, _ => .head _
  | .opt _, _, none => List.mem_append.mpr (.inr (.head _))
  | .opt κ, h, some k => List.mem_append.mpr (.inl (List.mem_map.mpr ⟨k, mem_allKeys κ h k, rfl⟩))
  | .units _, _, k => List.mem_finRange k
  | .bitset _ _ _, _, k => List.mem_finRange k
  | .enum fs, h, k => mem_fieldKeys fs h k
theorem mem_fieldKeys : (fs : Fields) → fs.hashFree = true → ∀ k : fs.Key, k ∈ fs.allKeys
  | .nil, _, k => k.elim
  | .simple fs, _, .inl () => .head _
  | .simple fs, h, .inr k => .tail _ (List.mem_map.mpr ⟨k, mem_fieldKeys fs h k, rfl⟩)
  | .complex κ fs, h, .inl k => List.mem_append.mpr (.inl (List.mem_map.mpr
      ⟨k, mem_allKeys κ (by simp only [Fields.hashFree, Bool.and_eq_true] at h; exact h.1) k, rfl⟩))
  | .complex κ fs, h, .inr k => List.mem_append.mpr (.inr (List.mem_map.mpr
      ⟨k, mem_fieldKeys fs (by simp only [Fields.hashFree, Bool.and_eq_true] at h; exact h.2) k, rfl⟩))
end

theorem nodup_optKeys {K : Type} {l : List K} (h : l.Nodup) : (l.map some ++ [none]).Nodup := by
  rw [List.nodup_append]
  refine ⟨List.Pairwise.map _ (fun a b h e => h (Option.some.inj e)) h, by simp, ?_⟩
  intro a ha b hb
  obtain ⟨x, _, rfl⟩ := List.mem_map.mp ha
  simp at hb
  simp [hb]

theorem nodup_sumKeys {A B : Type} {l : List A} {l' : List B} (h : l.Nodup) (h' : l'.Nodup) :
    (l.map (Sum.inl (β := B)) ++ l'.map Sum.inr).Nodup := by
  rw [List.nodup_append]
  refine ⟨List.Pairwise.map _ (fun a b h e => h (Sum.inl.inj e)) h,
    List.Pairwise.map _ (fun a b h e => h (Sum.inr.inj e)) h', ?_⟩
  intro a ha b hb
  obtain ⟨x, _, rfl⟩ := List.mem_map.mp ha
  obtain ⟨y, _, rfl⟩ := List.mem_map.mp hb
  simp

mutual
theorem nodup_allKeys : (κ : KeyTy) → κ.allKeys.Nodup
  | .bool => by show [true, false].Nodup; decide
  | .unit => List.pairwise_singleton _ _
  | .opt κ => nodup_optKeys (nodup_allKeys κ)
  | .prim _ => List.nodup_nil
  | .units n => nodup_finRange n
  | .bitset n _ _ => nodup_finRange n
  | .enum fs => nodup_fieldKeys fs
theorem nodup_fieldKeys : (fs : Fields) → fs.allKeys.Nodup
  | .nil => List.nodup_nil
  | .simple fs => nodup_sumKeys (l := [()]) (by simp) (nodup_fieldKeys fs)
  | .complex κ fs => nodup_sumKeys (nodup_allKeys κ) (nodup_fieldKeys fs)
end

/-! ## double-endedness -/

/-- All iterators have `next_back`. -/
structure AllBack {K V : Type} (M : MapStorage K V) : Prop where
  iter : M.iter.I.nextBack?.isSome
  keys : M.keys.I.nextBack?.isSome
  values : M.values.I.nextBack?.isSome
  iterMut : M.iterMut.I.nextBack?.isSome
  valuesMut : M.valuesMut.I.nextBack?.isSome
  intoIter : M.intoIter.I.nextBack?.isSome

structure AllStepBack {K V : Type} (M : MapFields K V) : Prop where
  iter : M.iter.nextBack?.isSome
  keys : M.keys.nextBack?.isSome
  values : M.values.nextBack?.isSome
  iterMut : M.iterMut.nextBack?.isSome
  valuesMut : M.valuesMut.nextBack?.isSome
  intoIter : M.intoIter.nextBack?.isSome

theorem IterOf.map_back {S α β : Type} (f : α → β) (it : IterOf S α) (h : it.I.nextBack?.isSome) :
    (it.map f).I.nextBack?.isSome := by
  simp only [IterOf.map, IterImpl.map, Option.isSome_map]
  exact h

theorem IterOf.chain_back {S α : Type} (a b : IterOf S α) (h : a.I.nextBack?.isSome) (h' : b.I.nextBack?.isSome) :
    (a.chain b).I.nextBack?.isSome := by
  obtain ⟨x, hx⟩ := Option.isSome_iff_exists.mp h
  obtain ⟨y, hy⟩ := Option.isSome_iff_exists.mp h'
  simp [IterOf.chain, IterImpl.chain, hx, hy]

theorem StepOf.cons_back {S α : Type} (it : IterOf S α) (F : StepOf S α) (h : it.I.nextBack?.isSome)
    (h' : F.nextBack?.isSome) : (StepOf.cons it F).nextBack?.isSome := by
  obtain ⟨x, hx⟩ := Option.isSome_iff_exists.mp h
  obtain ⟨y, hy⟩ := Option.isSome_iff_exists.mp h'
  simp [StepOf.cons, hx, hy]

theorem StepOf.map_back {S α β : Type} (f : α → β) (F : StepOf S α) (h : F.nextBack?.isSome) :
    (F.map f).nextBack?.isSome := by
  simp only [StepOf.map, Option.isSome_map]
  exact h

theorem StepOf.toIter_back {S α : Type} (F : StepOf S α) (h : F.nextBack?.isSome) :
    F.toIter.I.nextBack?.isSome := by
  simp only [StepOf.toIter, Option.isSome_map]
  exact h

mutual
theorem allBack (H : HashbrownApi) (V : Type) : (κ : KeyTy) → κ.hashFree = true → AllBack (mapStorage H V κ)
  | .bool, _ => ⟨rfl, rfl, rfl, rfl, rfl, rfl⟩
  | .unit, _ => ⟨rfl, rfl, rfl, rfl, rfl, rfl⟩
  | .opt κ, h => by
    obtain ⟨h1, h2, h3, h4, h5, h6⟩ := allBack H V κ h
    refine ⟨?_, ?_, ?_, ?_, ?_, ?_⟩ <;>
      first
        | exact IterOf.chain_back _ _ (IterOf.map_back _ _ ‹_›) rfl
        | exact IterOf.chain_back _ _ ‹_› rfl
  | .units n, _ => ⟨rfl, rfl, rfl, rfl, rfl, rfl⟩
  | .bitset n _ _, _ => ⟨rfl, rfl, rfl, rfl, rfl, rfl⟩
  | .enum fs, h => by
    obtain ⟨h1, h2, h3, h4, h5, h6⟩ := allStepBack H V fs h
    exact ⟨StepOf.toIter_back _ h1, StepOf.toIter_back _ h2, StepOf.toIter_back _ h3, StepOf.toIter_back _ h4,
      StepOf.toIter_back _ h5, StepOf.toIter_back _ h6⟩
theorem allStepBack (H : HashbrownApi) (V : Type) : (fs : Fields) → fs.hashFree = true →
    AllStepBack (mapFields H V fs)
  | .nil, _ => ⟨rfl, rfl, rfl, rfl, rfl, rfl⟩
  | .simple fs, h => by
    obtain ⟨h1, h2, h3, h4, h5, h6⟩ := allStepBack H V fs h
    refine ⟨?_, ?_, ?_, ?_, ?_, ?_⟩ <;>
      first
        | exact StepOf.cons_back _ _ rfl (StepOf.map_back _ _ h1)
        | exact StepOf.cons_back _ _ rfl (StepOf.map_back _ _ h2)
        | exact StepOf.cons_back _ _ rfl (StepOf.map_back _ _ h3)
        | exact StepOf.cons_back _ _ rfl (StepOf.map_back _ _ h4)
        | exact StepOf.cons_back _ _ rfl (StepOf.map_back _ _ h5)
        | exact StepOf.cons_back _ _ rfl (StepOf.map_back _ _ h6)
        | exact StepOf.cons_back _ _ rfl h3
  | .complex κ fs, h => by
    simp only [Fields.hashFree, Bool.and_eq_true] at h
    obtain ⟨g1, g2, g3, g4, g5, g6⟩ := allBack H V κ h.1
    obtain ⟨h1, h2, h3, h4, h5, h6⟩ := allStepBack H V fs h.2
    refine ⟨?_, ?_, ?_, ?_, ?_, ?_⟩ <;>
      first
        | exact StepOf.cons_back _ _ (IterOf.map_back _ _ g1) (StepOf.map_back _ _ h1)
        | exact StepOf.cons_back _ _ (IterOf.map_back _ _ g2) (StepOf.map_back _ _ h2)
        | exact StepOf.cons_back _ _ g3 h3
        | exact StepOf.cons_back _ _ (IterOf.map_back _ _ g4) (StepOf.map_back _ _ h4)
        | exact StepOf.cons_back _ _ (IterOf.map_back _ _ g5) (StepOf.map_back _ _ h5)
        | exact StepOf.cons_back _ _ (IterOf.map_back _ _ g6) (StepOf.map_back _ _ h6)
end

end FixedMap
