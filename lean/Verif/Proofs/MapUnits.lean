import Verif.Proofs.CoreLaws

/-! # The array storage of unit-only enums satisfies the map laws -/

set_option autoImplicit false
set_option linter.unusedSimpArgs false

namespace FixedMap

/-- Entries in declaration order. -/
def unitsEntries {n : Nat} {V : Type} (is : List (Fin n)) (s : UnitsSt n V) : List (Fin n × V) :=
  is.filterMap fun i => s[i].map fun v => (i, v)

theorem filterMap_congr' {α β : Type} {f g : α → Option β} {l : List α} (h : ∀ x ∈ l, f x = g x) :
    l.filterMap f = l.filterMap g := by
  induction l with
  | nil => rfl
  | cons a l ih =>
    rw [List.filterMap_cons, List.filterMap_cons, h a (by simp), ih fun x hx => h x (by simp [hx])]

theorem nodup_finRange (n : Nat) : (List.finRange n).Nodup := by
  rw [List.Nodup, List.pairwise_iff_getElem]
  intro i j hi hj hij h
  simp only [List.getElem_finRange, Fin.mk.injEq, Fin.cast_mk] at h
  omega

theorem unitsSet_getElem {n : Nat} {V : Type} (s : UnitsSt n V) (i j : Fin n) (o : Option V) :
    (s.set i o)[j] = if j = i then o else s[j] := by
  simp only [Fin.getElem_fin, Vector.getElem_set]
  by_cases h : j = i
  · subst h; simp
  · rw [if_neg h, if_neg (fun e => h (Fin.ext e.symm))]

theorem unitsEntries_set_of_not_mem {n : Nat} {V : Type} {is : List (Fin n)} {i : Fin n} (h : i ∉ is)
    (s : UnitsSt n V) (o : Option V) : unitsEntries is (s.set i o) = unitsEntries is s := by
  apply filterMap_congr'
  intro j hj
  have hji : j ≠ i := fun e => h (e ▸ hj)
  rw [unitsSet_getElem, if_neg hji]

theorem unitsEntries_cons {n : Nat} {V : Type} (is : List (Fin n)) (i : Fin n) (s : UnitsSt n V) :
    unitsEntries (i :: is) s = slotEntries i s[i] ++ unitsEntries is s := by
  unfold unitsEntries
  rw [List.filterMap_cons]
  cases s[i] <;> rfl

theorem unitsRetain_other {n : Nat} {V σ : Type} (f : σ → Fin n → V → σ × V × Option Bool)
    (is : List (Fin n)) (s : UnitsSt n V) (st : σ) (j : Fin n) (hj : j ∉ is) :
    (unitsRetain f is s st).s[j] = s[j] := by
  induction is generalizing s st with
  | nil => rfl
  | cons i is ih =>
    simp only [List.mem_cons, not_or] at hj
    simp only [unitsRetain]
    split
    · simp only [unitsSet_getElem, if_neg hj.1]
    · simp only
      rw [ih _ _ hj.2, unitsSet_getElem, if_neg hj.1]

theorem unitsRetain_spec {n : Nat} {V σ : Type} (f : σ → Fin n → V → σ × V × Option Bool)
    (is : List (Fin n)) (hnd : is.Nodup) (s : UnitsSt n V) (st : σ) :
    retainRef f (unitsEntries is s) st = (unitsRetain f is s st).mapS (unitsEntries is) := by
  induction is generalizing s st with
  | nil => rfl
  | cons i is ih =>
    rw [List.nodup_cons] at hnd
    rw [unitsEntries_cons, retainRef_append, retainSlot_spec]
    simp only [unitsRetain]
    generalize retainSlot f i s[i] st = r
    obtain ⟨o, st', p, d⟩ := r
    have hs := unitsEntries_set_of_not_mem hnd.1 s o
    cases p
    · rw [← hs]
      simp only [RetainOut.andThen, RetainOut.mapS, Bool.false_eq_true, if_false]
      rw [ih hnd.2]
      simp only [RetainOut.mapS, unitsEntries_cons, unitsRetain_other _ _ _ _ _ hnd.1, unitsSet_getElem, if_true]
    · simp only [RetainOut.andThen, RetainOut.mapS, if_true, unitsEntries_cons, unitsSet_getElem, hs]

theorem toList_eq_map {n : Nat} {α : Type} (s : Vector α n) :
    s.toList = (List.finRange n).map fun i => s[i] := by
  apply List.ext_getElem
  · simp
  · intro i h1 h2
    simp

theorem foldl_len {α : Type} (l : List (Option α)) (acc : Nat) :
    l.foldl (fun acc o => acc + o.isSome.toNat) acc = acc + (l.filterMap id).length := by
  induction l generalizing acc with
  | nil => simp
  | cons o l ih =>
    simp only [List.foldl_cons, ih]
    cases o <;> simp; omega

theorem foldl_isNone {α : Type} (l : List (Option α)) (acc : Bool) :
    l.foldl (fun acc o => acc && o.isNone) acc = (acc && (l.filterMap id).isEmpty) := by
  induction l generalizing acc with
  | nil => simp
  | cons o l ih =>
    simp only [List.foldl_cons, ih]
    cases o <;> simp

theorem unitsEntries_values {n : Nat} {V : Type} (s : UnitsSt n V) :
    (unitsEntries (List.finRange n) s).map Prod.snd = s.toList.filterMap id := by
  rw [toList_eq_map, unitsEntries, List.map_filterMap, List.filterMap_map]
  apply filterMap_congr'
  intro i _
  simp only [Option.map_map, Function.comp_def, id, Option.map_id']

theorem unitsEntries_keys {n : Nat} {V : Type} (s : UnitsSt n V) :
    (unitsEntries (List.finRange n) s).map Prod.fst =
      ((List.finRange n).map fun i => if s[i].isSome then some i else none).filterMap id := by
  rw [unitsEntries, List.map_filterMap, List.filterMap_map]
  apply filterMap_congr'
  intro i _
  simp only [Option.map_map, Function.comp_def, id]
  cases s[i] <;> rfl

theorem mem_unitsEntries {n : Nat} {V : Type} (is : List (Fin n)) (s : UnitsSt n V) (i : Fin n) (v : V) :
    (i, v) ∈ unitsEntries is s ↔ i ∈ is ∧ s[i] = some v := by
  simp only [unitsEntries, List.mem_filterMap]
  constructor
  · rintro ⟨j, hj, h⟩
    cases hs : s[j] with
    | none => simp [hs] at h
    | some w =>
      simp only [hs, Option.map_some, Option.some.injEq, Prod.mk.injEq] at h
      obtain ⟨rfl, rfl⟩ := h
      exact ⟨hj, hs⟩
  · rintro ⟨h1, h2⟩; exact ⟨i, h1, by rw [h2]; rfl⟩

theorem unitsSet_self {n : Nat} {V : Type} (s : UnitsSt n V) (i : Fin n) (o : Option V) :
    (s.set i o)[i] = o := by rw [unitsSet_getElem, if_pos rfl]

theorem unitsSet_ne {n : Nat} {V : Type} (s : UnitsSt n V) {i j : Fin n} (h : j ≠ i) (o : Option V) :
    (s.set i o)[j] = s[j] := by rw [unitsSet_getElem, if_neg h]

theorem unitsReplicate_get {n : Nat} {V : Type} (i : Fin n) :
    (Vector.replicate n (none : Option V))[i] = none := by simp

/-- Array map. -/
def unitsCore (n : Nat) (V : Type) : CoreLaws (unitsMap n V).toMapCore where
  entries s := unitsEntries (List.finRange n) s
  keyAt (s : UnitsSt n V) (a : Fin n) := if s[a].isSome then some a else none
  occFits (e : UnitsEntry n) (s : UnitsSt n V) k := e = ⟨k, k⟩ ∧ s[k].isSome
  vacFits (e : UnitsEntry n) (s : UnitsSt n V) k := e = ⟨k, k⟩ ∧ s[k] = none
  mem_entries s k v := by
    rw [mem_unitsEntries]
    exact ⟨fun h => h.2, fun h => ⟨List.mem_finRange k, h⟩⟩
  nodup_keys s := by
    rw [unitsEntries_keys, List.filterMap_map]
    have h := nodup_finRange n
    rw [List.Nodup] at h ⊢
    rw [List.pairwise_filterMap]
    refine h.imp ?_
    intro a b hab x hx y hy e
    simp only [Function.comp_def, id] at hx hy
    split at hx
    · split at hy
      · cases hx; cases hy; exact hab e
      · cases hy
    · cases hx
  entries_empty := by
    simp only [unitsEntries]
    rw [List.filterMap_eq_nil_iff]
    intro i _
    rw [unitsReplicate_get]; rfl
  len_eq s := by
    rw [← List.length_map (f := Prod.snd), unitsEntries_values]
    simp only [foldl_len, Nat.zero_add]
  isEmpty_eq s := by
    rw [← List.isEmpty_map (f := Prod.snd), unitsEntries_values]
    simp only [foldl_isNone, Bool.true_and]
  containsKey_eq _ _ := rfl
  insert_ret _ _ _ := rfl
  get_insert_self s k v := unitsSet_self s k _
  get_insert_ne s k v k' h := unitsSet_ne s h _
  remove_ret _ _ := rfl
  get_remove_self s k := unitsSet_self s k _
  get_remove_ne s k k' h := unitsSet_ne s h _
  retain_entries f s st := by
    rw [unitsRetain_spec f _ (nodup_finRange n)]
    exact List.Perm.refl _
  retain_st f s st := by rw [unitsRetain_spec f _ (nodup_finRange n)]; rfl
  retain_panicked f s st := by rw [unitsRetain_spec f _ (nodup_finRange n)]; rfl
  retain_dropped f s st := by rw [unitsRetain_spec f _ (nodup_finRange n)]; rfl
  clear_entries s := by
    simp only [unitsEntries]
    rw [List.filterMap_eq_nil_iff]
    intro i _
    rw [unitsReplicate_get]; rfl
  clear_dropped s := by
    rw [unitsEntries_values]
    have : (s.toList.flatMap dropSlot) = s.toList.filterMap id := by
      induction s.toList with
      | nil => rfl
      | cons o l ih => cases o <;> simp [dropSlot, ih]
    exact this ▸ List.Perm.refl _
  keyAt_live s a k h := by
    split at h
    · cases h; assumption
    · cases h
  read_eq s a k h := by
    split at h
    · cases h; rfl
    · cases h
  get_write_self s a k v h := by
    split at h
    · rename_i hs
      cases h
      obtain ⟨w, hw⟩ := Option.isSome_iff_exists.mp hs
      simp only [unitsSet_self, hw, writeSlot]
    · cases h
  get_write_ne s a k v k' h hne := by
    split at h
    · cases h; exact unitsSet_ne s hne _
    · cases h
  keyAt_write s a k v a' h := by
    split at h
    · rename_i hs
      cases h
      obtain ⟨w, hw⟩ := Option.isSome_iff_exists.mp hs
      simp only [unitsSet_getElem, hw, writeSlot]
      by_cases hne : a' = a
      · subst hne; simp [hw]
      · simp [hne]
    · cases h
  keys_write s a k v h := by
    split at h
    · rename_i hs
      obtain ⟨w, hw⟩ := Option.isSome_iff_exists.mp hs
      rw [unitsEntries_keys, unitsEntries_keys]
      congr 1
      apply List.map_congr_left
      intro i _
      simp only [unitsSet_getElem, hw, writeSlot]
      by_cases hne : i = a
      · subst hne; simp [hw]
      · simp [hne]
    · cases h
  getMut_some s k v h := by
    have h' : s[k] = some v := h
    exact ⟨k, by simp [h'], by simp [h']⟩
  getMut_none s k h := by
    have h' : s[k] = none := h
    simp [h']
  entry_some s k v h := by
    have h' : s[k] = some v := h
    refine ⟨⟨k, k⟩, s, ?_, fun _ => rfl, rfl, by rw [h']; rfl⟩
    simp [unitsOptionToEntry, h', optionBucket_new_some, Res.map]
  entry_none s k h := by
    have h' : s[k] = none := h
    refine ⟨⟨k, k⟩, s, ?_, fun _ => rfl, rfl, h'⟩
    simp [unitsOptionToEntry, h', optionBucket_new_none, Res.map]
  occKey_eq e s k h := by rw [h.1]
  occGet_eq := by
    rintro _ s i ⟨rfl, h⟩
    obtain ⟨w, hw⟩ := Option.isSome_iff_exists.mp h
    exact ⟨w, by simp only [hw, SomeBucket.asRef], hw⟩
  occGetMut_eq := by
    rintro _ s i ⟨rfl, h⟩
    obtain ⟨w, hw⟩ := Option.isSome_iff_exists.mp h
    exact ⟨_, by simp only [hw, SomeBucket.asMut, Res.map]; rfl, by simp only [hw]; rfl⟩
  occIntoMut_eq := by
    rintro _ s i ⟨rfl, h⟩
    obtain ⟨w, hw⟩ := Option.isSome_iff_exists.mp h
    exact ⟨_, by simp only [hw, SomeBucket.intoMut, Res.map]; rfl, by simp only [hw]; rfl⟩
  occFits_write := by
    rintro _ s i a v ⟨rfl, h⟩ h'
    split at h'
    · cases h'
      obtain ⟨w, hw⟩ := Option.isSome_iff_exists.mp h
      refine ⟨rfl, ?_⟩
      simp only [unitsSet_self, hw, writeSlot]; rfl
    · cases h'
  occInsert_eq := by
    rintro _ s i v ⟨rfl, h⟩
    obtain ⟨w, hw⟩ := Option.isSome_iff_exists.mp h
    refine ⟨w, s.set i (some v), by simp only [hw, SomeBucket.replace, Res.map], hw,
      unitsSet_self _ _ _, fun k' h => unitsSet_ne _ h _, rfl, ?_⟩
    simp only [unitsSet_self]; rfl
  occRemove_eq := by
    rintro _ s i ⟨rfl, h⟩
    obtain ⟨w, hw⟩ := Option.isSome_iff_exists.mp h
    exact ⟨w, s.set i none, by simp only [hw, SomeBucket.take, Res.map], hw,
      unitsSet_self _ _ _, fun k' h => unitsSet_ne _ h _⟩
  vacKey_eq e s k h := by rw [h.1]
  vacInsert_eq := by
    rintro _ s i v ⟨rfl, h⟩
    refine ⟨h, i, s.set i (some v), by simp only [h, NoneBucket.insert, Res.map],
      unitsSet_self _ _ _, fun k' h => unitsSet_ne _ h _, ?_⟩
    simp only [unitsSet_self]; rfl
  eq_iff veq s t := by
    simp only [List.all_eq_true]
    exact ⟨fun h k => h k (List.mem_finRange k), fun h k _ => h k⟩
  get_clone c s k := by simp [unitsMap]

theorem yields_flat_init {β α : Type} (f : β → Option α) (l : List β) :
    Yields (flatIter f) ⟨none, l, none⟩ (l.filterMap f) :=
  (yields_flat f ⟨none, l, none⟩).congr (by simp [flatList, innerList])

/-- Iterators of the array map. -/
def unitsIters (n : Nat) (V : Type) : IterLaws (unitsMap n V) (unitsCore n V) true where
  addrs s := (List.finRange n).filterMap fun i => (s[i]'i.isLt).map fun _ => (i, i)
  keysL s := (unitsEntries (List.finRange n) s).map Prod.fst
  iter s := (yields_flat_init _ _).congr (by
    simp only [unitsPairs, List.filterMap_map, unitsCore, unitsEntries]; rfl)
  intoIter s := (yields_flat_init _ _).congr (by
    simp only [unitsPairs, List.filterMap_map, unitsCore, unitsEntries]; rfl)
  values s := (yields_flat_init _ _).congr (by
    simp only [unitsCore, unitsEntries_values])
  keys s := (yields_flat_init _ _).congr (by
    rw [unitsEntries_keys])
  keysL_eq _ s := rfl
  iterMut s := (yields_flat_init _ _).congr (by
    rw [List.filterMap_map]; rfl)
  valuesMut s := (yields_flat_init _ _).congr (by
    rw [List.filterMap_map, List.map_filterMap]
    apply filterMap_congr'
    intro i _
    simp only [Function.comp_def, Option.map_map])
  addrs_keys s := by
    simp only [unitsCore, unitsEntries, List.map_filterMap, Option.map_map, Function.comp_def]
  addrs_at s k a h := by
    obtain ⟨i, _, h⟩ := List.mem_filterMap.mp h
    cases hs : s[i] with
    | none => have := hs ▸ h; simp at this
    | some v =>
      have h := hs ▸ h
      simp only [Option.map_some, Option.some.injEq, Prod.mk.injEq] at h
      obtain ⟨rfl, rfl⟩ := h
      simp only [unitsCore, hs]; rfl

end FixedMap
