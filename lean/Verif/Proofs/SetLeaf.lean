import Verif.Proofs.SetLaws

/-! # Laws of the set storages for `bool`, `()`, hash-backed keys and unit enums -/

set_option autoImplicit false
set_option linter.unusedSimpArgs false

namespace FixedMap

/-! ## bool -/

theorem boolTest_iff (s : BitVec 8) (b : Bool) :
    boolTest s b = true ↔ (if b then s.getLsbD 1 = true else s.getLsbD 0 = true) := by
  revert s b; decide +kernel

theorem mem_boolBitsList (s : BitVec 8) (b : Bool) : b ∈ boolBitsList s ↔ boolTest s b = true := by
  revert s b; decide +kernel

theorem boolBitsList_eq (s : BitVec 8) : boolBitsList s = [true, false].filter (boolTest s) := by
  revert s; decide +kernel

theorem boolSet_insert (s : BitVec 8) (x y : Bool) :
    boolTest (s ||| boolToBits x) y = true ↔ y = x ∨ boolTest s y = true := by
  revert s x y; decide +kernel

theorem boolSet_remove (s : BitVec 8) (x y : Bool) :
    boolTest (s &&& ~~~boolToBits x) y = true ↔ y ≠ x ∧ boolTest s y = true := by
  revert s x y; decide +kernel

theorem boolSet_eq : ∀ s t : BitVec 8, s < 4#8 → t < 4#8 →
    ((s == t) = true ↔ ∀ x, boolTest s x = boolTest t x) := by
  intro s t hs ht
  rcases boolBits_lt4 s hs with rfl | rfl | rfl | rfl <;>
    rcases boolBits_lt4 t ht with rfl | rfl | rfl | rfl <;> decide

theorem boolRetainStep_spec {σ : Type} (f : σ → Bool → σ × Option Bool) (b : Bool) (s : BitVec 8) (st : σ)
    (m : BitVec 8) (hm : m = boolToBits b) :
    let r := boolRetainStep f b m s st
    let q := visit f ([b].filter (boolTest s)) st
    r.st = q.st ∧ r.panicked = q.panicked ∧
      (∀ x, boolTest r.s x = true ↔ boolTest s x = true ∧ x ∉ q.rejected) ∧ (s < 4#8 → r.s < 4#8) := by
  subst hm
  have hlt : ∀ s m : BitVec 8, s < 4#8 → s &&& m < 4#8 := by
    intro s m h
    rcases boolBits_lt4 s h with rfl | rfl | rfl | rfl <;> revert m <;> decide +kernel
  cases ht : boolTest s b with
  | false => simp [boolRetainStep, visit, ht]
  | true =>
    rcases e : f st b with ⟨st', _ | _ | _⟩
    · simp [boolRetainStep, visit, ht, e]
    · simp only [boolRetainStep, ht, if_true, e, visit, List.filter_cons, List.filter_nil, List.mem_singleton]
      refine ⟨trivial, trivial, ?_, fun h => hlt _ _ h⟩
      intro x
      rw [boolSet_remove]
      exact And.comm
    · simp [boolRetainStep, visit, ht, e]

theorem boolRetain_spec {σ : Type} (f : σ → Bool → σ × Option Bool) (s : BitVec 8) (st : σ) :
    let r := boolSet.retain f s st
    let q := visit f (boolBitsList s) st
    r.st = q.st ∧ r.panicked = q.panicked ∧
      (∀ x, boolTest r.s x = true ↔ boolTest s x = true ∧ x ∉ q.rejected) ∧ (s < 4#8 → r.s < 4#8) := by
  intro r q
  have e : boolBitsList s = [true].filter (boolTest s) ++ [false].filter (boolTest s) := by
    rw [boolBitsList_eq, ← List.filter_append]; rfl
  obtain ⟨h1, h2, h3, h4⟩ := boolRetainStep_spec f true s st TRUE_BIT rfl
  have hq : q = visit f ([true].filter (boolTest s) ++ [false].filter (boolTest s)) st := by rw [← e]
  rw [visit_append] at hq
  have hr : r = if (boolRetainStep f true TRUE_BIT s st).panicked then boolRetainStep f true TRUE_BIT s st
    else boolRetainStep f false FALSE_BIT (boolRetainStep f true TRUE_BIT s st).s
      (boolRetainStep f true TRUE_BIT s st).st := rfl
  cases hp : (boolRetainStep f true TRUE_BIT s st).panicked with
  | true =>
    rw [hp, if_pos rfl] at hr
    rw [← h2, hp, if_pos rfl] at hq
    rw [hr, hq]
    exact ⟨h1, h2, h3, h4⟩
  | false =>
    rw [hp, if_neg (by simp)] at hr
    rw [← h2, hp, if_neg (by simp), ← h1] at hq
    obtain ⟨g1, g2, g3, g4⟩ := boolRetainStep_spec f false (boolRetainStep f true TRUE_BIT s st).s
      (boolRetainStep f true TRUE_BIT s st).st FALSE_BIT rfl
    have hf : [false].filter (boolTest (boolRetainStep f true TRUE_BIT s st).s) = [false].filter (boolTest s) := by
      have : boolTest (boolRetainStep f true TRUE_BIT s st).s false = boolTest s false := by
        rw [Bool.eq_iff_iff, h3 false]
        constructor
        · exact fun h => h.1
        · refine fun h => ⟨h, fun hm => ?_⟩
          have := (visit_mem f _ st).2 _ hm
          simp [List.mem_filter] at this
      simp [List.filter_cons, this]
    rw [hf] at g1 g2 g3
    rw [hr, hq]
    refine ⟨g1, g2, ?_, fun h => g4 (h4 h)⟩
    intro x
    rw [g3, h3, List.mem_append]
    constructor
    · rintro ⟨⟨a, b⟩, c⟩; exact ⟨a, fun h => h.elim b c⟩
    · rintro ⟨a, b⟩; exact ⟨⟨a, fun h => b (.inl h)⟩, fun h => b (.inr h)⟩

def boolSetLaws : SetLaws boolSet.toSetCore where
  valid s := s < 4#8
  elems := boolBitsList
  visits := boolBitsList
  mem_elems := mem_boolBitsList
  nodup s := by rw [boolBitsList_eq]; exact List.Nodup.sublist List.filter_sublist (by decide)
  valid_empty := by decide
  contains_empty := by decide
  len_eq s _ := by revert s; decide +kernel
  valid_insert s x h := by
    rcases boolBits_lt4 s h with rfl | rfl | rfl | rfl <;> revert x <;> decide
  contains_insert := boolSet_insert
  valid_remove s x h := by
    rcases boolBits_lt4 s h with rfl | rfl | rfl | rfl <;> revert x <;> decide
  contains_remove := boolSet_remove
  valid_clear _ := (by decide : (0 : BitVec 8) < 4#8)
  contains_clear _ := (by decide : ∀ x, boolTest 0 x = false)
  eq_iff := boolSet_eq
  valid_clone _ h := h
  contains_clone _ _ := rfl
  valid_retain f s st h := (boolRetain_spec f s st).2.2.2 h
  retain_ok f s st := by
    obtain ⟨h1, h2, h3, _⟩ := boolRetain_spec f s st
    refine RetainOk.of_rejected ?_ (mem_boolBitsList s) h3 h1 h2
    rw [boolBitsList_eq]; exact List.Nodup.sublist List.filter_sublist (by decide)

theorem boolSetIters : SetIterLaws boolSet boolSetLaws :=
  ⟨fun s h => yields_boolBits s h, fun s h => yields_boolBits s h⟩

/-! ## unit -/

def unitSetLaws : SetLaws unitSet.toSetCore where
  valid _ := True
  elems s := if s then [()] else []
  visits _ := [()]
  mem_elems s x := by cases s <;> simp
  nodup s := by cases s <;> simp
  valid_empty := trivial
  contains_empty _ := rfl
  len_eq s _ := by cases s <;> rfl
  valid_insert _ _ _ := trivial
  contains_insert s x y := by simp
  valid_remove _ _ _ := trivial
  contains_remove s x y := by simp
  valid_clear _ := trivial
  contains_clear _ _ := rfl
  eq_iff s t _ _ := by cases s <;> cases t <;> simp
  valid_clone _ _ := trivial
  contains_clone _ _ := rfl
  valid_retain _ _ _ _ := trivial
  retain_ok f s st := by
    rcases h : f st () with ⟨st', _ | _ | _⟩ <;>
      exact ⟨by simp [visit, h], by simp [visit, h], by simp [visit, h], by simp [visit, h], by simp [visit, h]⟩

theorem unitSetIters : SetIterLaws unitSet unitSetLaws :=
  ⟨fun s _ => (yieldsAt_option _ s).congr (by cases s <;> rfl), fun s _ => (yieldsAt_option _ s).congr (by cases s <;> rfl)⟩

/-! ## hash -/

/-- Keys left by the hash map's `retain` when the closure does not touch the value. -/
theorem retainRef_keys {T σ : Type} (f : σ → T → σ × Option Bool) (l : List (T × Unit))
    (hn : (l.map Prod.fst).Nodup) (st : σ) :
    let r := retainRef (fun st k v => let p := f st k; (p.1, v, p.2)) l st
    let q := visit f (l.map Prod.fst) st
    r.st = q.st ∧ r.panicked = q.panicked ∧ ∀ x, x ∈ r.s.map Prod.fst ↔ x ∈ l.map Prod.fst ∧ x ∉ q.rejected := by
  induction l generalizing st with
  | nil => simp [retainRef, visit]
  | cons p l ih =>
    obtain ⟨k, v⟩ := p
    simp only [List.map_cons, List.nodup_cons] at hn
    rcases e : f st k with ⟨st', _ | _ | _⟩ <;> simp only [retainRef, visit, e, List.map_cons]
    · simp
    · obtain ⟨h1, h2, h3⟩ := ih hn.2 st'
      refine ⟨h1, h2, fun x => ?_⟩
      rw [h3, List.mem_cons, List.mem_cons]
      constructor
      · rintro ⟨a, b⟩
        exact ⟨.inr a, fun h => h.elim (fun h => hn.1 (h ▸ a)) b⟩
      · rintro ⟨a, b⟩
        exact ⟨a.resolve_left fun h => b (.inl h), fun h => b (.inr h)⟩
    · obtain ⟨h1, h2, h3⟩ := ih hn.2 st'
      refine ⟨h1, h2, fun x => ?_⟩
      rw [List.mem_cons, h3, List.mem_cons]
      constructor
      · rintro (rfl | ⟨a, b⟩)
        · exact ⟨.inl rfl, fun h => hn.1 ((visit_mem f _ st').2 _ h)⟩
        · exact ⟨.inr a, b⟩
      · rintro ⟨a, b⟩
        exact a.imp id fun h => ⟨h, b⟩

theorem HashMapLaws.mem_keys {T V : Type} {A : HashMapApi T V} (L : HashMapLaws A) (s : A.Table) (x : T) :
    x ∈ (L.entries s).map Prod.fst ↔ A.contains_key s x = true := by
  rw [L.contains_key_eq, List.mem_map, Option.isSome_iff_exists]
  constructor
  · rintro ⟨⟨k, v⟩, h, rfl⟩; exact ⟨v, (L.mem_entries s _ _).mp h⟩
  · rintro ⟨v, h⟩; exact ⟨(x, v), (L.mem_entries s x v).mpr h, rfl⟩

def hashSetLaws {T : Type} {A : HashMapApi T Unit} (L : HashMapLaws A) : SetLaws (hashSet A).toSetCore where
  valid _ := True
  elems s := (L.entries s).map Prod.fst
  visits s := (L.entries s).map Prod.fst
  mem_elems := L.mem_keys
  nodup := L.nodup_keys
  valid_empty := trivial
  contains_empty x := by
    have := L.mem_keys A.new x
    rw [L.new_entries] at this
    simpa using this
  len_eq s _ := by rw [List.length_map]; exact L.len_eq s
  valid_insert _ _ _ := trivial
  contains_insert s x y := by
    simp only [L.contains_key_eq]
    by_cases h : y = x
    · subst h; simp [L.get_insert_self]
    · simp [L.get_insert_ne _ _ _ _ h, h]
  valid_remove _ _ _ := trivial
  contains_remove s x y := by
    simp only [L.contains_key_eq]
    by_cases h : y = x
    · subst h; simp [L.get_remove_self]
    · simp [L.get_remove_ne _ _ _ h, h]
  valid_clear _ := trivial
  contains_clear s x := by
    have := L.mem_keys (A.clear s).1 x
    rw [L.clear_entries] at this
    simpa using this
  eq_iff s t _ _ := by
    have hc : A.keys.I.collect (A.len s) (A.keys.init s) = (L.entries s).map Prod.fst :=
      (L.keys_like s).yields.collect (by rw [L.len_eq, List.length_map]; exact Nat.le_refl _)
    have hmem := L.mem_keys
    simp only [hc]
    constructor
    · intro h x
      split at h
      · simp at h
      · rename_i hl
        simp only [ne_eq, Decidable.not_not, L.len_eq] at hl
        rw [List.all_eq_true] at h
        have hsub : ∀ x ∈ (L.entries s).map Prod.fst, x ∈ (L.entries t).map Prod.fst := fun x hx =>
          (hmem t x).mpr (h x hx)
        have hsup := subset_of_nodup_length (L.nodup_keys s) hsub (by simp [hl])
        rw [Bool.eq_iff_iff, ← hmem, ← hmem]
        exact ⟨hsub x, hsup x⟩
    · intro h
      have hl : A.len s = A.len t := by
        rw [L.len_eq, L.len_eq]
        have h1 := length_le_of_nodup_subset (l' := (L.entries t).map Prod.fst) (L.nodup_keys s)
          (fun x hx => (hmem t x).mpr (by rw [← h x]; exact (hmem s x).mp hx))
        have h2 := length_le_of_nodup_subset (l' := (L.entries s).map Prod.fst) (L.nodup_keys t)
          (fun x hx => (hmem s x).mpr (by rw [h x]; exact (hmem t x).mp hx))
        simp only [List.length_map] at h1 h2
        omega
      rw [if_neg (by simp [hl]), List.all_eq_true]
      intro x hx
      rw [← h x]
      exact (hmem s x).mp hx
  valid_clone _ _ := trivial
  contains_clone s x := by simp [L.contains_key_eq, L.get_clone]
  valid_retain _ _ _ _ := trivial
  retain_ok f s st := by
    obtain ⟨h1, h2, h3⟩ := retainRef_keys f (L.entries s) (L.nodup_keys s) st
    refine RetainOk.of_rejected (L.nodup_keys s) (L.mem_keys s) ?_ ((L.retain_st _ s st).trans h1)
      ((L.retain_panicked _ s st).trans h2)
    intro x
    rw [← L.mem_keys s, ← h3 x, ← L.mem_keys]
    exact ((L.retain_entries _ s st).map Prod.fst).mem_iff

theorem hashSetIters {T : Type} {A : HashMapApi T Unit} (L : HashMapLaws A) :
    SetIterLaws (hashSet A) (hashSetLaws L) where
  iter s _ := (YieldsAt.map (L.keys_like s).yields).congr (List.map_id' _)
  intoIter s _ := YieldsAt.map (L.into_iter_like s).yields

/-! ## arrays -/

theorem bools_set {n : Nat} (s : UnitsSetSt n) (i j : Fin n) (b : Bool) :
    (s.set i b)[j] = if j = i then b else s[j] := by
  simp only [Fin.getElem_fin, Vector.getElem_set]
  by_cases h : j = i
  · subst h; simp
  · rw [if_neg h, if_neg (fun e => h (Fin.ext e.symm))]

theorem unitsSetRetain_spec {n : Nat} {σ : Type} (f : σ → Fin n → σ × Option Bool) (is : List (Fin n))
    (hn : is.Nodup) (s : UnitsSetSt n) (st : σ) :
    let r := unitsSetRetain f is s st
    let q := visit f (is.filter fun i => s[i]) st
    r.st = q.st ∧ r.panicked = q.panicked ∧ ∀ x : Fin n, r.s[x] = true ↔ s[x] = true ∧ x ∉ q.rejected := by
  induction is generalizing s st with
  | nil => simp [unitsSetRetain, visit]
  | cons i is ih =>
    rw [List.nodup_cons] at hn
    have hfil : ∀ b : Bool, (is.filter fun j => (s.set i b)[j]) = is.filter fun j => s[j] := by
      intro b
      apply List.filter_congr
      intro j hj
      rw [bools_set, if_neg (fun e : j = i => hn.1 (e ▸ hj))]
    have hself : s.set i s[i] = s := by
      apply Vector.ext
      intro j hj
      have := bools_set s i ⟨j, hj⟩ s[i]
      simp only [Fin.getElem_fin] at this
      simp only [Fin.getElem_fin]
      rw [this]
      split
      · rename_i h; subst h; rfl
      · rfl
    cases hs : s[i] with
    | false =>
      have := ih hn.2 s st
      have e1 : unitsSetRetain f (i :: is) s st = unitsSetRetain f is s st := by
        have e0 : retainFlag f i s[i] st = ⟨s[i], st, false⟩ := by simp [retainFlag, hs]
        rw [unitsSetRetain, e0]
        simp only [hself]
        rfl
      have e2 : ((i :: is).filter fun i => s[i]) = is.filter fun i => s[i] := by
        rw [List.filter_cons, hs]; rfl
      rw [e1, e2]
      exact this
    | true =>
      have e2 : ((i :: is).filter fun i => s[i]) = i :: is.filter fun i => s[i] := by
        rw [List.filter_cons, hs]; rfl
      rw [e2]
      rcases e : f st i with ⟨st', _ | _ | _⟩
      · have : s.set i true = s := by rw [← hs]; exact hself
        simp only [unitsSetRetain, retainFlag, hs, e, visit, if_true, this]
        simp
      · have := ih hn.2 (s.set i false) st'
        rw [hfil] at this
        obtain ⟨h1, h2, h3⟩ := this
        simp only [unitsSetRetain, retainFlag, hs, e, visit, if_true]
        refine ⟨h1, h2, fun x => ?_⟩
        simp only [Bool.false_eq_true, if_false]
        rw [h3, bools_set, List.mem_cons]
        by_cases hx : x = i
        · simp [hx]
        · simp [hx]
      · have := ih hn.2 (s.set i true) st'
        rw [hfil] at this
        obtain ⟨h1, h2, h3⟩ := this
        simp only [unitsSetRetain, retainFlag, hs, e, visit, if_true]
        refine ⟨h1, h2, fun x => ?_⟩
        simp only [Bool.false_eq_true, if_false]
        rw [h3, bools_set]
        by_cases hx : x = i
        · subst hx
          simp [hs]
        · simp [hx]

theorem foldl_count (l : List Bool) (acc : Nat) :
    l.foldl (fun acc b => acc + b.toNat) acc = acc + (l.filter id).length := by
  induction l generalizing acc with
  | nil => simp
  | cons b l ih => rw [List.foldl_cons, ih]; cases b <;> simp; omega

theorem foldl_noneSet (l : List Bool) (acc : Bool) :
    l.foldl (fun acc b => acc && !b) acc = (acc && l.all (!·)) := by
  induction l generalizing acc with
  | nil => simp
  | cons b l ih => rw [List.foldl_cons, ih]; cases b <;> simp

/-- Elements of a set over `Fin n` in order. -/
def finElems {n : Nat} (c : Fin n → Bool) : List (Fin n) := (List.finRange n).filter c

theorem mem_finElems {n : Nat} (c : Fin n → Bool) (i : Fin n) : i ∈ finElems c ↔ c i = true := by
  simp [finElems, List.mem_filter]

theorem nodup_finElems {n : Nat} (c : Fin n → Bool) : (finElems c).Nodup :=
  List.Nodup.sublist List.filter_sublist (nodup_finRange n)

theorem filterMap_flags {n : Nat} (c : Fin n → Bool) :
    ((List.finRange n).map fun i => if c i then some i else none).filterMap id = finElems c := by
  rw [List.filterMap_map, finElems, ← List.filterMap_eq_filter]
  apply filterMap_congr'
  intro i _
  cases h : c i <;> simp [Option.guard, h]

def unitsSetLaws (n : Nat) : SetLaws (unitsSet n).toSetCore where
  valid _ := True
  elems s := finElems fun i => s[i]
  visits s := finElems fun i => s[i]
  mem_elems s x := mem_finElems _ x
  nodup _ := nodup_finElems _
  valid_empty := trivial
  contains_empty x := by simp
  len_eq s _ := by
    show s.toList.foldl (fun acc b => acc + b.toNat) 0 = _
    rw [foldl_count, toList_eq_map, List.filter_map, List.length_map]
    simp only [finElems, Function.comp_def, id, Nat.zero_add]
  valid_insert _ _ _ := trivial
  contains_insert s x y := by
    show (s.set x true)[y] = true ↔ y = x ∨ s[y] = true
    rw [bools_set]
    by_cases h : y = x <;> simp [h]
  valid_remove _ _ _ := trivial
  contains_remove s x y := by
    show (s.set x false)[y] = true ↔ y ≠ x ∧ s[y] = true
    rw [bools_set]
    by_cases h : y = x <;> simp [h]
  valid_clear _ := trivial
  contains_clear s x := by simp
  eq_iff s t _ _ := by simp [List.all_eq_true]
  valid_clone _ _ := trivial
  contains_clone _ _ := rfl
  valid_retain _ _ _ _ := trivial
  retain_ok f s st := by
    obtain ⟨h1, h2, h3⟩ := unitsSetRetain_spec f (List.finRange n) (nodup_finRange n) s st
    exact RetainOk.of_rejected (nodup_finElems _) (mem_finElems _) h3 h1 h2

theorem unitsSetIters (n : Nat) : SetIterLaws (unitsSet n) (unitsSetLaws n) where
  iter s _ := (yieldsAt_flat id _ s).congr (filterMap_flags fun i => s[i])
  intoIter s _ := (yieldsAt_flat id _ s).congr (filterMap_flags fun i => s[i])

/-! ## bitsets -/

theorem determineBits_le {n w : Nat} (h : determineBits n = some w) : n ≤ w := by
  unfold determineBits at h
  repeat' split at h
  all_goals simp_all

theorem bitsetMask_getLsbD {n w : Nat} (i : Fin n) (j : Nat) :
    (bitsetMask w i).getLsbD j = (decide (j < w) && decide (j = i.val)) := by
  simp only [bitsetMask, BitVec.getLsbD_ofNat, Nat.one_shiftLeft, Nat.testBit_two_pow]
  by_cases h : j = i.val
  · simp [h]
  · simp [h, Ne.symm h]

theorem bitset_test {n w : Nat} (hw : n ≤ w) (s : BitVec w) (i : Fin n) :
    (s &&& bitsetMask w i != 0) = s.getLsbD i.val := by
  cases hb : s.getLsbD i.val with
  | true =>
    simp only [bne_iff_ne, ne_eq]
    intro h0
    have := congrArg (fun b : BitVec w => b.getLsbD i.val) h0
    simp [bitsetMask_getLsbD, hb] at this
    have := i.isLt
    omega
  | false =>
    simp only [bne_eq_false_iff_eq]
    apply BitVec.eq_of_getLsbD_eq
    intro j hj
    by_cases h : j = i.val
    · subst h; simp [hb]
    · simp [bitsetMask_getLsbD, h]

/-- Only the lowest `n` bits may be set. -/
def Declared {w : Nat} (n : Nat) (s : BitVec w) : Prop := ∀ j, n ≤ j → s.getLsbD j = false

theorem finRange_map_val (n : Nat) : (List.finRange n).map Fin.val = List.range n := by
  apply List.ext_getElem
  · simp
  · intro i h1 h2; simp

theorem countOnes_eq {n w : Nat} (hw : n ≤ w) (s : BitVec w) (hs : Declared n s) :
    countOnes s = (finElems fun i : Fin n => s.getLsbD i.val).length := by
  have e : List.range w = List.range n ++ (List.range (w - n)).map (n + ·) := by
    rw [← List.range_add]; congr 1; omega
  rw [countOnes, e, List.countP_append, ← finRange_map_val, List.countP_map, finElems, ← List.countP_eq_length_filter]
  have : ((List.range (w - n)).map (n + ·)).countP (fun i => s.getLsbD i) = 0 := by
    rw [List.countP_eq_zero]
    intro j hj
    obtain ⟨k, _, rfl⟩ := List.mem_map.mp hj
    rw [hs _ (Nat.le_add_right n k)]
    simp
  rw [this]; rfl

theorem bitsetRetain_spec {n w : Nat} (hw : n ≤ w) {σ : Type} (f : σ → Fin n → σ × Option Bool) (data : BitVec w)
    (is : List (Fin n)) (u : BitVec w) (st : σ) :
    let r := bitsetRetain f data is u st
    let q := visit f (is.filter fun i => data.getLsbD i.val) st
    r.st = q.st ∧ r.panicked = q.panicked ∧ (q.panicked = true → r.s = data) ∧
      (q.panicked = false → (∀ i : Fin n, r.s.getLsbD i.val = true ↔ u.getLsbD i.val = true ∨ i ∈ q.kept) ∧
        (Declared n u → Declared n r.s)) := by
  induction is generalizing u st with
  | nil => simp [bitsetRetain, visit]
  | cons i is ih =>
    cases hs : data.getLsbD i.val with
    | false =>
      have := ih u st
      have e2 : ((i :: is).filter fun i => data.getLsbD i.val) = is.filter fun i => data.getLsbD i.val := by
        rw [List.filter_cons, hs]; rfl
      rw [e2]
      simpa only [bitsetRetain, bitset_test hw, hs, Bool.false_eq_true, if_false] using this
    | true =>
      have e2 : ((i :: is).filter fun i => data.getLsbD i.val) = i :: is.filter fun i => data.getLsbD i.val := by
        rw [List.filter_cons, hs]; rfl
      rw [e2]
      rcases e : f st i with ⟨st', _ | _ | _⟩
      · simp only [bitsetRetain, bitset_test hw, hs, e, visit, if_true]
        simp
      · have := ih u st'
        simpa only [bitsetRetain, bitset_test hw, hs, e, visit, if_true] using this
      · obtain ⟨h1, h2, h3, h4⟩ := ih (u ||| bitsetMask w i) st'
        simp only [bitsetRetain, bitset_test hw, hs, e, visit, if_true]
        refine ⟨h1, h2, h3, fun hp => ⟨fun x => ?_, fun hu => (h4 hp).2 ?_⟩⟩
        · rw [(h4 hp).1 x, BitVec.getLsbD_or, bitsetMask_getLsbD, List.mem_cons]
          have : x.val < w := by omega
          by_cases hx : x = i
          · simp [hx, show i.val < w by omega]
          · simp [hx, Fin.val_inj]
        · intro j hj
          rw [BitVec.getLsbD_or, hu j hj, bitsetMask_getLsbD]
          have : j ≠ i.val := by omega
          simp [this]

def bitsetSetLaws {n w : Nat} (hw : n ≤ w) : SetLaws (bitsetSet n w).toSetCore where
  valid s := Declared n s
  elems s := finElems fun i : Fin n => s.getLsbD i.val
  visits s := finElems fun i : Fin n => s.getLsbD i.val
  mem_elems s x := by
    rw [mem_finElems]
    show _ ↔ (s &&& bitsetMask w x != 0) = true
    rw [bitset_test hw]
  nodup _ := nodup_finElems _
  valid_empty j _ := by show (0 : BitVec w).getLsbD j = false; simp
  contains_empty x := by
    show ((0 : BitVec w) &&& bitsetMask w x != 0) = false
    rw [bitset_test hw]; simp
  len_eq s h := countOnes_eq hw s h
  valid_insert s x h j hj := by
    show (s ||| bitsetMask w x).getLsbD j = false
    rw [BitVec.getLsbD_or, h j hj, bitsetMask_getLsbD]
    have : j ≠ x.val := by omega
    simp [this]
  contains_insert s x y := by
    show ((s ||| bitsetMask w x) &&& bitsetMask w y != 0) = true ↔ y = x ∨ (s &&& bitsetMask w y != 0) = true
    rw [bitset_test hw, bitset_test hw, BitVec.getLsbD_or, bitsetMask_getLsbD]
    have := y.isLt
    by_cases h : y = x
    · subst h; simp [show y.val < w by omega]
    · simp [h, Fin.val_inj]
  valid_remove s x h j hj := by
    show (s &&& ~~~bitsetMask w x).getLsbD j = false
    rw [BitVec.getLsbD_and, h j hj]; rfl
  contains_remove s x y := by
    show ((s &&& ~~~bitsetMask w x) &&& bitsetMask w y != 0) = true ↔ y ≠ x ∧ (s &&& bitsetMask w y != 0) = true
    rw [bitset_test hw, bitset_test hw, BitVec.getLsbD_and, BitVec.getLsbD_not, bitsetMask_getLsbD]
    have := y.isLt
    by_cases h : y = x
    · subst h; simp [show y.val < w by omega]
    · simp [h, Fin.val_inj, show y.val < w by omega]
  valid_clear s j _ := by show (0 : BitVec w).getLsbD j = false; simp
  contains_clear s x := by
    show ((0 : BitVec w) &&& bitsetMask w x != 0) = false
    rw [bitset_test hw]; simp
  eq_iff s t hs ht := by
    show (s == t) = true ↔ ∀ x : Fin n, (s &&& bitsetMask w x != 0) = (t &&& bitsetMask w x != 0)
    simp only [bitset_test hw, beq_iff_eq]
    constructor
    · rintro rfl; simp
    · intro h
      apply BitVec.eq_of_getLsbD_eq
      intro j _
      by_cases hj : j < n
      · exact h ⟨j, hj⟩
      · rw [hs j (by omega), ht j (by omega)]
  valid_clone _ h := h
  contains_clone _ _ := rfl
  valid_retain f s st h := by
    obtain ⟨_, _, h3, h4⟩ := bitsetRetain_spec hw f s (List.finRange n) 0 st
    cases hp : (visit f ((List.finRange n).filter fun i => s.getLsbD i.val) st).panicked with
    | true =>
      show Declared n (bitsetRetain f s (List.finRange n) 0 st).s
      rw [h3 hp]; exact h
    | false => exact (h4 hp).2 (fun j _ => by simp)
  retain_ok f s st := by
    obtain ⟨h1, h2, h3, h4⟩ := bitsetRetain_spec hw f s (List.finRange n) 0 st
    have hc : (bitsetSet n w).contains = fun s x => s.getLsbD x.val := by
      funext s x; exact bitset_test hw s x
    rw [hc]
    cases hp : (visit f (finElems fun i : Fin n => s.getLsbD i.val) st).panicked with
    | true =>
      have e : ((bitsetSet n w).retain f s st).s = s := h3 hp
      have hm := visit_mem f (finElems fun i : Fin n => s.getLsbD i.val) st
      refine ⟨h1, h2, ?_, ?_, ?_⟩
      · intro x hx; rw [e]; exact (mem_finElems _ _).mp (hm.1 x hx)
      · intro x hx; rw [e] at hx; exact .inr ⟨h2.trans hp, hx⟩
      · intro x hx _; rw [e]; exact hx
    | false =>
      have g := (h4 hp).1
      refine RetainOk.of_rejected (nodup_finElems _) (mem_finElems _) ?_ h1 h2
      intro x
      refine (g x).trans ?_
      simp only [BitVec.ofNat_eq_ofNat, BitVec.getLsbD_zero, Bool.false_eq_true, false_or]
      constructor
      · intro hx
        exact ⟨(mem_finElems _ _).mp ((visit_mem f _ st).1 x hx), visit_disjoint f _ (nodup_finElems _) st x hx⟩
      · rintro ⟨ha, hb⟩
        exact (visit_total f _ st hp x ((mem_finElems _ _).mpr ha)).resolve_right hb

theorem bitsetSetIters {n w : Nat} (hw : n ≤ w) : SetIterLaws (bitsetSet n w) (bitsetSetLaws hw) where
  iter s _ := (yieldsAt_flat id _ s).congr (by
    simp only [bitset_test hw]
    exact filterMap_flags fun i => s.getLsbD i.val)
  intoIter s _ := (yieldsAt_flat id _ s).congr (by
    simp only [bitset_test hw]
    exact filterMap_flags fun i => s.getLsbD i.val)

end FixedMap
