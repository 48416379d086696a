import Verif.Proofs.SetOrd
import Verif.Properties.SetIter
import Verif.Properties.MapOrd

/-!
# C43, C24, C27: ordering and hashing of sets

Sets that implement `Ord` and `Hash`: unit-only enums with and without `#[key(bitset)]`, and `Set<()>`.
-/

set_option autoImplicit false
set_option linter.unusedSimpArgs false

namespace FixedMap

variable (H : Hashbrown)

/-- `cmp` is a total order on the sets satisfying `P`, consistent with `eq`. -/
structure TotalOrderOn {S : Type} (P : S → Prop) (cmp : S → S → Ordering) (eq : S → S → Bool) : Prop where
  refl : ∀ a, cmp a a = .eq
  swap : ∀ a b, cmp b a = (cmp a b).swap
  trans : ∀ a b c, cmp a b ≠ .gt → cmp b c ≠ .gt → cmp a c ≠ .gt
  strict : ∀ a b c, cmp a b = .lt → cmp b c ≠ .gt → cmp a c = .lt
  eq : ∀ a b, P a → P b → (cmp a b = .eq ↔ eq a b = true)

theorem totalOrderOn {S : Type} (P : S → Prop) (cmp : S → S → Ordering) [Std.TransCmp cmp] (eq : S → S → Bool)
    (h : ∀ a b, P a → P b → (cmp a b = .eq ↔ eq a b = true)) : TotalOrderOn P cmp eq := by
  have hle : ∀ o : Ordering, o.isLE ↔ o ≠ .gt := by intro o; cases o <;> simp
  refine ⟨fun a => ?_, fun a b => ?_, fun a b d h h' => ?_, fun a b d h h' => ?_, h⟩
  · exact Std.ReflCmp.compare_self
  · exact Std.OrientedCmp.eq_swap
  · exact (hle _).mp (Std.TransCmp.isLE_trans ((hle _).mpr h) ((hle _).mpr h'))
  · exact Std.TransCmp.lt_of_lt_of_isLE h ((hle _).mpr h')

/-! ## Unit-only enums without `#[key(bitset)]` -/

/-- C43 for arrays: `cmp` is the lexicographic comparison of the element sequences by declaration position. -/
theorem C43_units_lexicographic (n : Nat) (a b : (setStorage H.api (.units n)).S) (la lb : List (Fin n)) :
    let M := setStorage H.api (.units n)
    (FSet.iter M).runsTo a la → (FSet.iter M).runsTo b lb → unitsSetCmp a b = List.compareLex posCmp la lb := by
  intro M ha hb
  obtain rfl := runsTo_unique ha (Yields.runsTo ((setIters H (.units n)).iter a trivial))
  obtain rfl := runsTo_unique hb (Yields.runsTo ((setIters H (.units n)).iter b trivial))
  exact unitsSetCmp_eq a b

/-- C43 for arrays: a total order consistent with `==`. -/
theorem C43_units_total_order (n : Nat) :
    TotalOrderOn (fun _ => True) (unitsSetCmp (n := n)) (FSet.eq (setStorage H.api (.units n))) :=
  totalOrderOn _ _ _ fun a b _ _ =>
    (unitsSetCmp_eq_iff a b).trans ((setLaws H (.units n)).eq_iff a b trivial trivial).symm

/-- C27 for sets (arrays): the operators, `max`, `min` and `clamp` follow `cmp`. -/
theorem C27_units_set (n : Nat) :
    FollowsCmp (unitsSetCmp (n := n)) unitsSetPartialCmp (SetOrd.lt unitsSetPartialCmp) (SetOrd.le unitsSetPartialCmp)
      (SetOrd.gt unitsSetPartialCmp) (SetOrd.ge unitsSetPartialCmp) (SetOrd.max unitsSetPartialCmp)
      (SetOrd.min unitsSetPartialCmp) (SetOrd.clamp unitsSetPartialCmp) :=
  followsCmp _ _ unitsSetPartialCmp_eq

/-- C24 for arrays: two sets feed the same calls to the hasher exactly when they are equal. -/
theorem C24_units_set (n : Nat) (a b : (setStorage H.api (.units n)).S) :
    unitsSetHash (n := n) a = unitsSetHash (n := n) b ↔ FSet.eq (setStorage H.api (.units n)) a b = true :=
  (unitsSetHash_inj a b).trans ((setLaws H (.units n)).eq_iff a b trivial trivial).symm

/-- Case: the example in the documentation of `Key`: `a = {First}`, `b = {Third}`, `c = {First, Third}`. -/
example :
    let M := setStorage Ex.H.api (.units 3)
    let a := FSet.fromIter M [(0 : Fin 3)]
    let b := FSet.fromIter M [(2 : Fin 3)]
    let c := FSet.fromIter M [(0 : Fin 3), (2 : Fin 3)]
    unitsSetCmp (n := 3) a b = .lt ∧ unitsSetCmp (n := 3) c b = .lt ∧ unitsSetCmp (n := 3) a c = .lt ∧
      SetOrd.lt (unitsSetPartialCmp (n := 3)) a b = true ∧
      unitsSetHash (n := 3) a = [.lengthPrefix 3, .uint 8 1, .uint 8 0, .uint 8 0] := by decide

/-! ## `Set<()>` -/

/-- C43 for `Set<()>`. -/
theorem C43_unit (a b : (setStorage H.api .unit).S) (la lb : List Unit) :
    let M := setStorage H.api .unit
    (FSet.iter M).runsTo a la → (FSet.iter M).runsTo b lb →
      unitSetCmp a b = List.compareLex (fun _ _ => .eq) la lb := by
  intro M ha hb
  obtain rfl := runsTo_unique ha (Yields.runsTo ((setIters H .unit).iter a trivial))
  obtain rfl := runsTo_unique hb (Yields.runsTo ((setIters H .unit).iter b trivial))
  clear ha hb
  revert a b
  exact fun (a b : Bool) => by cases a <;> cases b <;> rfl

theorem C43_unit_total_order : TotalOrderOn (fun _ => True) unitSetCmp (FSet.eq (setStorage H.api .unit)) :=
  totalOrderOn _ _ _ fun (a b : Bool) _ _ => (by cases a <;> cases b <;> decide : unitSetCmp a b = .eq ↔ (a == b) = true)

/-- C27 for `Set<()>`. -/
theorem C27_unit_set :
    FollowsCmp unitSetCmp unitSetPartialCmp (SetOrd.lt unitSetPartialCmp) (SetOrd.le unitSetPartialCmp)
      (SetOrd.gt unitSetPartialCmp) (SetOrd.ge unitSetPartialCmp) (SetOrd.max unitSetPartialCmp)
      (SetOrd.min unitSetPartialCmp) (SetOrd.clamp unitSetPartialCmp) :=
  followsCmp _ _ fun _ _ => rfl

/-- C24 for `Set<()>`. -/
theorem C24_unit_set (a b : (setStorage H.api .unit).S) :
    unitSetHash a = unitSetHash b ↔ FSet.eq (setStorage H.api .unit) a b = true := by
  revert a b
  exact fun (a b : Bool) => (by cases a <;> cases b <;> decide : unitSetHash a = unitSetHash b ↔ (a == b) = true)

/-! ## Bitsets -/

section bitset

variable (n w : Nat) (h : determineBits n = some w)

/-- C43 for bitsets, exactly: `cmp` is the lexicographic comparison of the elements by declaration position starting from the
*last* element. -/
theorem C43_bitset_exact (a b : (setStorage H.api (.bitset n w h)).S) (ha : Reachable (setStorage H.api (.bitset n w h)) a)
    (hb : Reachable (setStorage H.api (.bitset n w h)) b) (la lb : List (Fin n)) :
    let M := setStorage H.api (.bitset n w h)
    (FSet.iter M).runsTo a la → (FSet.iter M).runsTo b lb →
      bitsetCmp a b = List.compareLex posCmp la.reverse lb.reverse := by
  intro M ra rb
  have va := ha.valid (setLaws H (.bitset n w h))
  have vb := hb.valid (setLaws H (.bitset n w h))
  obtain rfl := runsTo_unique ra (Yields.runsTo ((setIters H (.bitset n w h)).iter a va))
  obtain rfl := runsTo_unique rb (Yields.runsTo ((setIters H (.bitset n w h)).iter b vb))
  exact bitsetCmp_eq a b va vb

/-- C43 for bitsets, what holds: a total order consistent with `==`. Full statement: also the lexicographic comparison as in
`C43_units_lexicographic`; it is false, see `C43_bitset_agrees_iff`. -/
theorem C43_bitset_partial :
    TotalOrderOn (fun _ => True) (bitsetCmp (w := w)) (FSet.eq (setStorage H.api (.bitset n w h))) :=
  totalOrderOn _ _ _ fun (a b : BitVec w) _ _ => by
    show bitsetCmp a b = .eq ↔ (a == b) = true
    rw [bitsetCmp, beq_iff_eq, Nat.compare_eq_eq, BitVec.toNat_inj]

/-- C27 for bitsets. -/
theorem C27_bitset :
    FollowsCmp (bitsetCmp (w := w)) bitsetPartialCmp (SetOrd.lt bitsetPartialCmp) (SetOrd.le bitsetPartialCmp)
      (SetOrd.gt bitsetPartialCmp) (SetOrd.ge bitsetPartialCmp) (SetOrd.max bitsetPartialCmp)
      (SetOrd.min bitsetPartialCmp) (SetOrd.clamp bitsetPartialCmp) :=
  followsCmp _ _ fun _ _ => rfl

/-- C24 for bitsets: two sets feed the same calls to the hasher exactly when they are equal. -/
theorem C24_bitset_set (a b : (setStorage H.api (.bitset n w h)).S) :
    bitsetHash (w := w) a = bitsetHash (w := w) b ↔ FSet.eq (setStorage H.api (.bitset n w h)) a b = true := by
  revert a b
  refine fun (a b : BitVec w) => (?_ : bitsetHash a = bitsetHash b ↔ (a == b) = true)
  simp [bitsetHash, BitVec.toNat_inj]

end bitset

/-- The two-element and one-element sets that show the disagreement: `{First, Second}` and `{Second}`. -/
theorem bitset_witness (n w : Nat) (h : determineBits n = some w) (hn : 2 ≤ n) :
    let M := setStorage H.api (.bitset n w h)
    let i : Fin n := ⟨0, by omega⟩
    let j : Fin n := ⟨1, by omega⟩
    (FSet.iter M).runsTo (FSet.fromIter M [i, j]) [i, j] ∧ (FSet.iter M).runsTo (FSet.fromIter M [j]) [j] ∧
      Reachable M (FSet.fromIter M [i, j]) ∧ Reachable M (FSet.fromIter M [j]) := by
  intro M i j
  have ra : Reachable M (FSet.fromIter M [i, j]) := .insert _ (.insert _ .new)
  have rb : Reachable M (FSet.fromIter M [j]) := .insert _ .new
  have hall : (List.finRange n) = i :: j :: (List.finRange n).drop 2 := by
    apply List.ext_getElem
    · simp; omega
    · intro k h1 h2
      match k with
      | 0 => simp [i]
      | 1 => simp [j]
      | k + 2 => simp; omega
  have hdrop : ∀ (p : Fin n → Bool), (∀ x, p x = true → x = i ∨ x = j) → ((List.finRange n).drop 2).filter p = [] := by
    intro p hp
    rw [List.filter_eq_nil_iff]
    intro x hx
    obtain ⟨k, hk, rfl⟩ := List.getElem_of_mem hx
    intro hpk
    rcases hp _ hpk with e | e
    · have := congrArg Fin.val e; simp [i] at this
    · have := congrArg Fin.val e; simp [j] at this; omega
  have hij : i ≠ j := fun e => by have := congrArg Fin.val e; simp [i, j] at this
  have ci : ∀ (s : M.S) (x y : Fin n), FSet.contains M (FSet.insert M s x).2 y = true ↔ y = x ∨ FSet.contains M s y = true :=
    (setLaws H (.bitset n w h)).contains_insert
  have ce : ∀ x : Fin n, FSet.contains M (FSet.new M) x = false := (setLaws H (.bitset n w h)).contains_empty
  have ca : ∀ x : Fin n, FSet.contains M (FSet.fromIter M [i, j]) x = true ↔ x = i ∨ x = j := by
    intro x
    refine (ci _ j x).trans ?_
    rw [ci, ce]
    simp [or_comm]
  have cb : ∀ x : Fin n, FSet.contains M (FSet.fromIter M [j]) x = true ↔ x = j := by
    intro x
    refine (ci _ j x).trans ?_
    rw [ce]
    simp
  obtain ⟨la, a1, _, _, _, _, _, a7, _⟩ := (C36_iter H (.bitset n w h) _ ra).1
  obtain ⟨lb, b1, _, _, _, _, _, b7, _⟩ := (C36_iter H (.bitset n w h) _ rb).1
  have ea : la = [i, j] := by
    rw [a7 rfl]
    show (List.finRange n).filter _ = _
    rw [hall]
    rw [List.filter_cons_of_pos ((ca i).mpr (.inl rfl)), List.filter_cons_of_pos ((ca j).mpr (.inr rfl)),
      hdrop _ fun x hx => (ca x).mp hx]
  have eb : lb = [j] := by
    rw [b7 rfl]
    show (List.finRange n).filter _ = _
    rw [hall]
    rw [List.filter_cons_of_neg fun hc => hij ((cb i).mp hc), List.filter_cons_of_pos ((cb j).mpr rfl),
      hdrop _ fun x hx => .inr ((cb x).mp hx)]
  exact ⟨ea ▸ a1, eb ▸ b1, ra, rb⟩

/-- C43 is false for every bitset enum with at least two variants: `{First, Second} > {Second}`, though the element sequences
compare the other way round (and so do the array sets). It holds for at most one variant. -/
theorem C43_bitset_agrees_iff (n w : Nat) (h : determineBits n = some w) :
    let M := setStorage H.api (.bitset n w h)
    (∀ a b : M.S, Reachable M a → Reachable M b → ∀ la lb : List (Fin n), (FSet.iter M).runsTo a la →
      (FSet.iter M).runsTo b lb → bitsetCmp (w := w) a b = List.compareLex posCmp la lb) ↔ n ≤ 1 := by
  intro M
  constructor
  · intro hall
    apply Classical.byContradiction
    intro hn
    obtain ⟨r1, r2, r3, r4⟩ := bitset_witness H n w h (by omega)
    have e1 := hall _ _ r3 r4 _ _ r1 r2
    have e2 := C43_bitset_exact H n w h _ _ r3 r4 _ _ r1 r2
    rw [e1] at e2
    have : ∀ i j : Fin n, i.val < j.val → List.compareLex posCmp [i, j] [j] = .lt ∧
        List.compareLex posCmp [i, j].reverse [j].reverse = .gt := by
      intro i j hij
      have h1 : posCmp i j = .lt := Nat.compare_eq_lt.mpr hij
      have h2 : posCmp j j = .eq := Nat.compare_eq_eq.mpr rfl
      simp [List.compareLex_cons_cons, h1, h2, List.compareLex_cons_nil]
    have t := this ⟨0, by omega⟩ ⟨1, by omega⟩ (by simp)
    cases t.1.symm.trans (e2.trans t.2)
  · intro hn a b ha hb la lb ra rb
    rw [C43_bitset_exact H n w h a b ha hb la lb ra rb]
    have short : ∀ (s : M.S) (l : List (Fin n)), Reachable M s → (FSet.iter M).runsTo s l → l.reverse = l := by
      intro s l hs hl
      obtain ⟨l', r, nd, -⟩ := C35_len H (.bitset n w h) s hs
      obtain rfl := runsTo_unique hl r
      match l, nd with
      | [], _ => rfl
      | [x], _ => rfl
      | x :: y :: l, nd =>
        exfalso
        exact (List.nodup_cons.mp nd).1 (List.mem_cons.mpr <| .inl <| show x = y from Fin.ext (by have := x.isLt; have := y.isLt; omega))
    rw [short a la ha ra, short b lb hb rb]

/-- Case: the two sets for a three-variant enum, as bitset and as array. -/
example :
    let M := setStorage Ex.H.api (.bitset 3 8 rfl)
    let N := setStorage Ex.H.api (.units 3)
    bitsetCmp (w := 8) (FSet.fromIter M [(0 : Fin 3), (1 : Fin 3)]) (FSet.fromIter M [(1 : Fin 3)]) = .gt ∧
    unitsSetCmp (n := 3) (FSet.fromIter N [(0 : Fin 3), (1 : Fin 3)]) (FSet.fromIter N [(1 : Fin 3)]) = .lt := by decide

end FixedMap
