import Verif.Proofs.Ord
import Verif.Proofs.SetLeaf

/-! # Comparisons of sets: helper lemmas -/

set_option autoImplicit false
set_option linter.unusedSimpArgs false

namespace FixedMap

theorem compareLex_congr_mem {α : Type} (c c' : α → α → Ordering) (P : α → Prop) (a b : List α)
    (ha : ∀ x ∈ a, P x) (hb : ∀ x ∈ b, P x) (h : ∀ x y, P x → P y → c x y = c' x y) :
    List.compareLex c a b = List.compareLex c' a b := by
  induction a generalizing b with
  | nil => cases b <;> simp [List.compareLex_nil_nil, List.compareLex_nil_cons]
  | cons x a ih =>
    cases b with
    | nil => simp [List.compareLex_cons_nil]
    | cons y b =>
      rw [List.compareLex_cons_cons, List.compareLex_cons_cons, h x y (ha x (.head _)) (hb y (.head _)),
        ih b (fun z hz => ha z (.tail _ hz)) (fun z hz => hb z (.tail _ hz))]

theorem flagged {n : Nat} (s : UnitsSetSt n) :
    (enumerate s.toList).filter filterBool = (finElems fun i : Fin n => s[i]).map fun i => (i.val, true) := by
  rw [enumerate_finRange, List.filter_map, finElems]
  rw [show filterBool ∘ (fun i : Fin n => (i.val, s[i])) = fun i => s[i] from rfl]
  apply List.map_congr_left
  intro i hi
  rw [(List.mem_filter.mp hi).2]

theorem unitsSetCmp_eq {n : Nat} (a b : UnitsSetSt n) :
    unitsSetCmp a b = List.compareLex posCmp (finElems fun i : Fin n => a[i]) (finElems fun i : Fin n => b[i]) := by
  rw [unitsSetCmp, storageIteratorCmpBool, iterCmp_eq, flagged, flagged, compareLex_map]
  congr 1
  funext i j
  simp only [pairCmp, posCmp, boolCmp]
  cases compare i.val j.val <;> simp

theorem unitsSetPartialCmp_eq {n : Nat} (a b : UnitsSetSt n) : unitsSetPartialCmp a b = some (unitsSetCmp a b) :=
  iterPartialCmp_eq _ _ _ _ (pairPartialCmp_eq _ _ fun _ _ => rfl)

instance unitsSetCmp_trans {n : Nat} : Std.TransCmp (unitsSetCmp (n := n)) := by
  rw [show unitsSetCmp (n := n) = fun a b => List.compareLex posCmp (finElems fun i : Fin n => a[i]) (finElems fun i : Fin n => b[i]) from
    funext fun a => funext fun b => unitsSetCmp_eq a b]
  exact
    { eq_swap := fun {a b} => Std.OrientedCmp.eq_swap (cmp := List.compareLex (posCmp (n := n)))
      isLE_trans := fun {a b d} h h' => Std.TransCmp.isLE_trans (cmp := List.compareLex (posCmp (n := n))) h h' }

instance bitsetCmp_trans {w : Nat} : Std.TransCmp (bitsetCmp (w := w)) :=
  inferInstanceAs (Std.TransCmp (compareOn fun p : BitVec w => p.toNat))

instance unitSetCmp_trans : Std.TransCmp unitSetCmp :=
  inferInstanceAs (Std.TransCmp (compareOn fun p : Bool => p.toNat))

theorem finElems_ext {n : Nat} (c d : Fin n → Bool) : finElems c = finElems d ↔ c = d := by
  constructor
  · intro h
    funext i
    rw [Bool.eq_iff_iff, ← mem_finElems, h, mem_finElems]
  · rintro rfl; rfl

theorem vector_ext_iff {n : Nat} {α : Type} (a b : Vector α n) : a = b ↔ ∀ i : Fin n, a[i] = b[i] := by
  constructor
  · rintro rfl _; rfl
  · intro h
    apply Vector.ext
    intro i hi
    exact h ⟨i, hi⟩

theorem unitsSetCmp_eq_iff {n : Nat} (a b : UnitsSetSt n) : unitsSetCmp a b = .eq ↔ ∀ i : Fin n, a[i] = b[i] := by
  rw [unitsSetCmp_eq, Std.LawfulEqCmp.compare_eq_iff_eq, finElems_ext, funext_iff]

/-- Positions of the bits set among the lowest `n`, highest first. -/
def descBits (n x : Nat) : List Nat := (List.range n).reverse.filter x.testBit

theorem descBits_lt (n x : Nat) : ∀ i ∈ descBits n x, i < n := by
  intro i hi
  have := (List.mem_filter.mp hi).1
  simpa using this

theorem descBits_succ (n x : Nat) : descBits (n + 1) x = (if x.testBit n then [n] else []) ++ descBits n x := by
  rw [descBits, List.range_succ, List.reverse_append, List.filter_append]
  cases h : x.testBit n <;> simp [h, descBits]

theorem lt_two_pow_of_bits {n x : Nat} (h : ∀ j, n ≤ j → x.testBit j = false) : x < 2 ^ n := by
  rcases Nat.lt_or_ge x (2 ^ n) with h' | h'
  · exact h'
  · obtain ⟨j, hj, hb⟩ := Nat.exists_ge_and_testBit_of_ge_two_pow h'
    rw [h j hj] at hb
    cases hb

/-- Numbers compare as the lists of their bits, highest first. -/
theorem compare_descBits (n x y : Nat) (hx : x < 2 ^ n) (hy : y < 2 ^ n) :
    compare x y = List.compareLex compare (descBits n x) (descBits n y) := by
  induction n generalizing x y with
  | zero =>
    have : x = 0 := by simpa using hx
    have : y = 0 := by simpa using hy
    subst x y
    rfl
  | succ n ih =>
    have hp : 2 ^ (n + 1) = 2 ^ n + 2 ^ n := by rw [Nat.pow_succ]; omega
    have top : ∀ z, z < 2 ^ (n + 1) → (z.testBit n = true → 2 ^ n ≤ z) ∧ (z.testBit n = false → z < 2 ^ n) := by
      intro z hz
      constructor
      · exact Nat.ge_two_pow_of_testBit
      · intro h
        apply lt_two_pow_of_bits
        intro j hj
        rcases Nat.eq_or_lt_of_le hj with rfl | hj
        · exact h
        · exact Nat.testBit_lt_two_pow (Nat.lt_of_lt_of_le hz (Nat.pow_le_pow_right (by omega) hj))
    have low : ∀ z, z < 2 ^ (n + 1) → z.testBit n = true → descBits n z = descBits n (z - 2 ^ n) := by
      intro z hz h
      obtain ⟨t, rfl⟩ : ∃ t, z = 2 ^ n + t := ⟨z - 2 ^ n, by have := (top z hz).1 h; omega⟩
      rw [Nat.add_sub_cancel_left]
      apply List.filter_congr
      intro i hi
      have hi : i < n := by simpa using hi
      exact Nat.testBit_two_pow_add_gt hi t
    have gtEmpty : ∀ a b : List Nat, (∀ i ∈ b, i < n) → List.compareLex compare (n :: a) b = .gt := by
      intro a b hb
      cases b with
      | nil => rfl
      | cons j b =>
        have := hb j (.head _)
        rw [List.compareLex_cons_cons, Nat.compare_eq_gt.mpr this]
        rfl
    rw [descBits_succ, descBits_succ]
    cases hbx : x.testBit n <;> cases hby : y.testBit n
    · exact ih x y ((top x hx).2 hbx) ((top y hy).2 hby)
    · have h1 := (top x hx).2 hbx
      have h2 := (top y hy).1 hby
      rw [Nat.compare_eq_lt.mpr (by omega)]
      symm
      have := gtEmpty (descBits n y) (descBits n x) (descBits_lt n x)
      exact (Std.OrientedCmp.gt_iff_lt (cmp := List.compareLex (compare : Nat → Nat → Ordering))).mp this
    · have h1 := (top x hx).1 hbx
      have h2 := (top y hy).2 hby
      rw [Nat.compare_eq_gt.mpr (by omega)]
      exact (gtEmpty (descBits n x) (descBits n y) (descBits_lt n y)).symm
    · have h1 := (top x hx).1 hbx
      have h2 := (top y hy).1 hby
      have e := ih (x - 2 ^ n) (y - 2 ^ n) (by omega) (by omega)
      rw [← low x hx hbx, ← low y hy hby] at e
      have : compare x y = compare (x - 2 ^ n) (y - 2 ^ n) := by
        obtain ⟨t, rfl⟩ : ∃ t, x = 2 ^ n + t := ⟨x - 2 ^ n, by omega⟩
        obtain ⟨u, rfl⟩ : ∃ u, y = 2 ^ n + u := ⟨y - 2 ^ n, by omega⟩
        rw [Nat.add_sub_cancel_left, Nat.add_sub_cancel_left]
        simp only [Nat.compare_eq_ite_lt, Nat.add_lt_add_iff_left]
      rw [this, e]
      simp [List.compareLex_cons_cons]

theorem descBits_finElems {n w : Nat} (s : BitVec w) :
    descBits n s.toNat = ((finElems fun i : Fin n => s.getLsbD i.val).reverse.map Fin.val) := by
  rw [descBits, ← finRange_map_val, ← List.map_reverse, List.filter_map, finElems, List.filter_reverse]
  rfl

/-- Bitsets compare as their element lists, last element first. -/
theorem bitsetCmp_eq {n w : Nat} (a b : BitVec w) (ha : Declared n a) (hb : Declared n b) :
    bitsetCmp a b = List.compareLex posCmp (finElems fun i : Fin n => a.getLsbD i.val).reverse
      (finElems fun i : Fin n => b.getLsbD i.val).reverse := by
  rw [bitsetCmp, compare_descBits n _ _ (lt_two_pow_of_bits ha) (lt_two_pow_of_bits hb), descBits_finElems,
    descBits_finElems, compareLex_map]
  rfl

theorem unitsSetHash_inj {n : Nat} (a b : UnitsSetSt n) : unitsSetHash a = unitsSetHash b ↔ ∀ i : Fin n, a[i] = b[i] := by
  constructor
  · intro h
    have key : ∀ is : List (Fin n), (is.map fun i => a[i]).flatMap (boolHash (τ := Unit)) = (is.map fun i => b[i]).flatMap boolHash →
        ∀ i ∈ is, a[i] = b[i] := by
      intro is
      induction is with
      | nil => simp
      | cons i is ih =>
        intro h
        simp only [List.map_cons, List.flatMap_cons, boolHash, List.cons_append, List.nil_append, List.cons.injEq,
          HashCall.uint.injEq, true_and] at h
        have h0 : a[i] = b[i] := by
          have := h.1
          cases ha : a[i] <;> cases hb : b[i] <;> simp_all
        intro j hj
        rcases List.mem_cons.mp hj with rfl | hj
        · exact h0
        · exact ih h.2 j hj
    intro i
    simp only [unitsSetHash, arrayHash, List.cons.injEq] at h
    rw [vector_toList_map, vector_toList_map] at h
    exact key _ h.2 i (List.mem_finRange i)
  · intro h
    rw [(vector_ext_iff a b).mpr h]

end FixedMap
