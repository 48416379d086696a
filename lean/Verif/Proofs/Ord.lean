import Verif.Spec.Ord
import Verif.Model.OrdHash
import Verif.Proofs.MapUnits

/-! # Comparisons: helper lemmas -/

set_option autoImplicit false
set_option linter.unusedSimpArgs false

namespace FixedMap

theorem iterCmp_eq {α : Type} (cmp : α → α → Ordering) (a b : List α) : iterCmp cmp a b = List.compareLex cmp a b := by
  induction a generalizing b with
  | nil => cases b <;> simp [iterCmp, List.compareLex_nil_nil, List.compareLex_nil_cons]
  | cons x a ih =>
    cases b with
    | nil => simp [iterCmp, List.compareLex_cons_nil]
    | cons y b =>
      rw [List.compareLex_cons_cons, iterCmp]
      cases cmp x y <;> simp [ih]

theorem iterPartialCmp_eq {α : Type} (pcmp : α → α → Option Ordering) (cmp : α → α → Ordering) (a b : List α)
    (h : ∀ x y, pcmp x y = some (cmp x y)) : iterPartialCmp pcmp a b = some (iterCmp cmp a b) := by
  induction a generalizing b with
  | nil => cases b <;> rfl
  | cons x a ih =>
    cases b with
    | nil => rfl
    | cons y b =>
      rw [iterPartialCmp, iterCmp, h]
      cases cmp x y <;> simp [ih]

theorem pairPartialCmp_eq {V : Type} (pcmp : V → V → Option Ordering) (cmp : V → V → Ordering)
    (h : ∀ x y, pcmp x y = some (cmp x y)) (x y : Nat × V) : pairPartialCmp pcmp x y = some (pairCmp cmp x y) := by
  unfold pairPartialCmp pairCmp
  cases compare x.1 y.1 <;> simp [h]

theorem vector_toList_map {n : Nat} {α : Type} (s : Vector α n) : s.toList = (List.finRange n).map fun i => s[i] := by
  apply List.ext_getElem
  · simp
  · intro i h1 h2
    simp

theorem enumerate_finRange {n : Nat} {α : Type} (s : Vector α n) :
    enumerate s.toList = (List.finRange n).map fun i => (i.val, s[i]) := by
  apply List.ext_getElem
  · simp [enumerate]
  · intro i h1 h2
    simp [enumerate]

theorem compareLex_map {α β : Type} (f : α → β) (c : β → β → Ordering) (a b : List α) :
    List.compareLex c (a.map f) (b.map f) = List.compareLex (fun x y => c (f x) (f y)) a b := by
  induction a generalizing b with
  | nil => cases b <;> simp [List.compareLex_nil_nil, List.compareLex_nil_cons]
  | cons x a ih =>
    cases b with
    | nil => simp [List.compareLex_cons_nil]
    | cons y b => simp [List.compareLex_cons_cons, ih]

theorem flattened {n : Nat} {V : Type} (s : UnitsSt n V) :
    (enumerate s.toList).filterMap flattenEntry = (unitsEntries (List.finRange n) s).map fun p => (p.1.val, p.2) := by
  rw [enumerate_finRange, List.filterMap_map, unitsEntries, List.map_filterMap]
  apply filterMap_congr'
  intro i _
  simp only [Function.comp, flattenEntry]
  cases s[i] <;> rfl

theorem unitsMapCmp_eq {n : Nat} {V : Type} (c : V → V → Ordering) (a b : UnitsSt n V) :
    unitsMapCmp c a b =
      List.compareLex (entryCmp c) (unitsEntries (List.finRange n) a) (unitsEntries (List.finRange n) b) := by
  rw [unitsMapCmp, storageIteratorCmp, iterCmp_eq, flattened, flattened, compareLex_map]
  rfl

theorem unitsMapPartialCmp_eq {n : Nat} {V : Type} (pcmp : V → V → Option Ordering) (c : V → V → Ordering)
    (h : ∀ x y, pcmp x y = some (c x y)) (a b : UnitsSt n V) : unitsMapPartialCmp pcmp a b = some (unitsMapCmp c a b) :=
  iterPartialCmp_eq _ _ _ _ (pairPartialCmp_eq pcmp c h)

instance entryCmp_trans {n : Nat} {V : Type} (c : V → V → Ordering) [Std.TransCmp c] :
    Std.TransCmp (entryCmp (n := n) c) := by
  have h1 : Std.TransCmp (fun p q : Fin n × V => compare p.1.val q.1.val) :=
    inferInstanceAs (Std.TransCmp (compareOn fun p : Fin n × V => p.1.val))
  have h2 : Std.TransCmp (fun p q : Fin n × V => c p.2 q.2) :=
    { eq_swap := fun {a b} => Std.OrientedCmp.eq_swap (cmp := c)
      isLE_trans := fun {a b d} h h' => Std.TransCmp.isLE_trans (cmp := c) h h' }
  exact inferInstanceAs (Std.TransCmp (compareLex (fun p q : Fin n × V => compare p.1.val q.1.val)
    (fun p q : Fin n × V => c p.2 q.2)))

instance posCmp_trans {n : Nat} : Std.TransCmp (posCmp (n := n)) :=
  inferInstanceAs (Std.TransCmp (compareOn fun p : Fin n => p.val))

instance posCmp_lawful {n : Nat} : Std.LawfulEqCmp (posCmp (n := n)) where
  compare_self := by simp [posCmp]
  eq_of_compare {a b} h := Fin.ext (Std.LawfulEqCmp.eq_of_compare (cmp := (compare : Nat → Nat → Ordering)) h)

/-- The `core` defaults follow a total order. -/
theorem followsCmp {S : Type} (cmp : S → S → Ordering) [Std.TransCmp cmp] (pcmp : S → S → Option Ordering)
    (h : ∀ a b, pcmp a b = some (cmp a b)) :
    FollowsCmp cmp pcmp (fun a b => ltOf (pcmp a b)) (fun a b => leOf (pcmp a b)) (fun a b => gtOf (pcmp a b))
      (fun a b => geOf (pcmp a b)) (ordMax pcmp) (ordMin pcmp) (ordClamp pcmp) where
  partial_cmp := h
  lt a b := by simp [ltOf, h]
  le a b := by simp only [leOf, h]; cases cmp a b <;> simp
  gt a b := by simp [gtOf, h]
  ge a b := by simp only [geOf, h]; cases cmp a b <;> simp
  max a b := by
    simp only [ordMax, ltOf, h]
    rw [Std.OrientedCmp.eq_swap (cmp := cmp) (a := b) (b := a)]
    cases cmp a b <;> simp
  min a b := by
    simp only [ordMin, ltOf, h]
    rw [Std.OrientedCmp.eq_swap (cmp := cmp) (a := b) (b := a)]
    cases cmp a b <;> simp
  clamp_panic a lo hi := by
    simp only [ordClamp, leOf, ltOf, gtOf, h]
    cases cmp lo hi <;> simp <;> cases cmp a lo <;> simp <;> cases cmp a hi <;> simp
  clamp_ok a lo hi hle := by
    have hle' : leOf (some (cmp lo hi)) = true := by
      revert hle; generalize cmp lo hi = o; cases o <;> simp [leOf]
    have hrefl : ∀ x, cmp x x = .eq := fun x => Std.ReflCmp.compare_self
    simp only [ordClamp, h, hle', if_true, ltOf, gtOf]
    by_cases h1 : cmp a lo = .lt
    · refine ⟨lo, by simp [h1], by simp [hrefl], hle, ?_, by simp, ?_⟩
      · intro h2
        exact absurd (Std.OrientedCmp.gt_iff_lt.mpr h1) h2
      · intro h2
        exact absurd (Std.OrientedCmp.gt_iff_lt.mpr (Std.TransCmp.lt_trans (Std.OrientedCmp.gt_iff_lt.mp h2) h1)) hle
    · have hla : cmp lo a ≠ .gt := fun e => h1 (Std.OrientedCmp.gt_iff_lt.mp e)
      by_cases h2 : cmp a hi = .gt
      · exact ⟨hi, by simp [h1, h2], hle, by simp [hrefl], fun _ h3 => absurd h2 h3, fun h3 => absurd h3 h1, fun _ => rfl⟩
      · exact ⟨a, by simp [h1, h2], hla, h2, fun _ _ => rfl, fun h3 => absurd h3 h1, fun h3 => absurd h3 h2⟩

/-- Entry lists compare equal iff the maps agree slot by slot. -/
theorem entryLex_eq {n : Nat} {V : Type} (c : V → V → Ordering) (a b : UnitsSt n V) (is : List (Fin n)) (hn : is.Nodup) :
    List.compareLex (entryCmp c) (unitsEntries is a) (unitsEntries is b) = .eq ↔
      ∀ i ∈ is, optBeq (fun v w => c v w == .eq) a[i] b[i] = true := by
  induction is with
  | nil => simp [unitsEntries, List.compareLex_nil_nil]
  | cons i is ih =>
    rw [List.nodup_cons] at hn
    have ih := ih hn.2
    have hne : ∀ (s : UnitsSt n V) (p : Fin n × V) (l : List (Fin n × V)), unitsEntries is s = p :: l → i.val ≠ p.1.val := by
      intro s p l h e
      have hm : p ∈ unitsEntries is s := h ▸ List.mem_cons_self
      obtain ⟨j, hj, hj'⟩ := List.mem_filterMap.mp hm
      obtain ⟨v, _, rfl⟩ := Option.map_eq_some_iff.mp hj'
      exact hn.1 ((Fin.ext e) ▸ hj)
    rw [unitsEntries_cons, unitsEntries_cons, List.forall_mem_cons, ← ih]
    cases ha : a[i] with
    | none =>
      cases hb : b[i] with
      | none => simp [optBeq]
      | some w =>
        simp only [slotEntries_none, slotEntries_some, List.nil_append, List.cons_append, optBeq]
        cases he : unitsEntries is a with
        | nil => simp [List.compareLex_nil_cons]
        | cons p l =>
          rw [List.compareLex_cons_cons, Ordering.then_eq_eq, entryCmp, Ordering.then_eq_eq]
          simp [(hne a p l he).symm]
    | some v =>
      cases hb : b[i] with
      | none =>
        simp only [slotEntries_none, slotEntries_some, List.nil_append, List.cons_append, optBeq]
        cases he : unitsEntries is b with
        | nil => simp [List.compareLex_cons_nil]
        | cons p l =>
          rw [List.compareLex_cons_cons, Ordering.then_eq_eq, entryCmp, Ordering.then_eq_eq]
          simp [hne b p l he]
      | some w =>
        simp only [slotEntries_some, List.nil_append, List.cons_append, optBeq]
        rw [List.compareLex_cons_cons, Ordering.then_eq_eq, entryCmp, Ordering.then_eq_eq]
        simp

instance unitsMapCmp_trans {n : Nat} {V : Type} (c : V → V → Ordering) [Std.TransCmp c] :
    Std.TransCmp (unitsMapCmp (n := n) c) := by
  rw [show unitsMapCmp (n := n) c = fun a b => List.compareLex (entryCmp c) (unitsEntries (List.finRange n) a)
    (unitsEntries (List.finRange n) b) from funext fun a => funext fun b => unitsMapCmp_eq c a b]
  exact
    { eq_swap := fun {a b} => Std.OrientedCmp.eq_swap (cmp := List.compareLex (entryCmp c))
      isLE_trans := fun {a b d} h h' => Std.TransCmp.isLE_trans (cmp := List.compareLex (entryCmp c)) h h' }

theorem unitsMapHash_congr {n : Nat} {V τ : Type} (vh : V → List τ) (veq : V → V → Bool)
    (hv : ∀ v w, veq v w = true → vh v = vh w) (a b : UnitsSt n V) (h : ∀ i : Fin n, optBeq veq a[i] b[i] = true) :
    unitsMapHash vh a = unitsMapHash vh b := by
  simp only [unitsMapHash, arrayHash, vector_toList_map, List.length_map, List.flatMap_map]
  congr 1
  congr 1
  funext i
  have h := h i
  cases ha : a[i] <;> cases hb : b[i] <;> simp only [ha, hb] at h <;> simp only [optBeq] at h
  · rfl
  · cases h
  · cases h
  · simp only [optHash, hv _ _ h]

theorem unitsMapHash_inj {n : Nat} {V : Type} (vh : V → List (HashCall Unit))
    (hv : ∀ v w xs ys, vh v ++ xs = vh w ++ ys → v = w) (a b : UnitsSt n V)
    (h : (unitsMapHash vh a).map rawCall = (unitsMapHash vh b).map rawCall) (k : Fin n) : a[k] = b[k] := by
  have key : ∀ (is : List (Fin n)),
      (is.flatMap fun i => (optHash vh a[i]).map rawCall) = (is.flatMap fun i => (optHash vh b[i]).map rawCall) →
        ∀ i ∈ is, a[i] = b[i] := by
    intro is
    induction is with
    | nil => simp
    | cons i is ih =>
      intro h
      have raw : ∀ v, (vh v).map (rawCall ∘ HashCall.value) = vh v := by
        intro v
        rw [show rawCall ∘ HashCall.value = id from rfl, List.map_id]
      rw [List.flatMap_cons, List.flatMap_cons] at h
      cases ha : a[i] <;> cases hb : b[i] <;>
        simp only [ha, hb, optHash, List.map_cons, List.map_nil, List.cons_append, List.nil_append, List.cons.injEq, rawCall,
          HashCall.isize.injEq, List.map_map, raw] at h
      · intro j hj
        rcases List.mem_cons.mp hj with rfl | hj
        · rw [ha, hb]
        · exact ih h.2 j hj
      · omega
      · omega
      · obtain rfl := hv _ _ _ _ h.2
        intro j hj
        rcases List.mem_cons.mp hj with rfl | hj
        · rw [ha, hb]
        · exact ih (List.append_cancel_left h.2) j hj
  refine key (List.finRange n) ?_ k (List.mem_finRange k)
  simp only [unitsMapHash, arrayHash, vector_toList_map, List.length_map, List.flatMap_map, List.map_cons, List.cons.injEq,
    List.map_flatMap] at h
  exact h.2

end FixedMap
