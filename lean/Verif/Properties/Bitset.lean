import Verif.Properties.SetHistory
import Verif.Properties.SetOrd
import Verif.Model.Derive

/-! # C44, C45, C46, C48: bitsets -/

set_option autoImplicit false
set_option linter.unusedSimpArgs false

namespace FixedMap

/-! ## C48: width and masks -/

/-- C48: the width is the smallest of the unsigned integer widths with at least `n` bits, and there is none exactly for
more than 128 variants. -/
theorem C48_width (n : Nat) :
    (determineBits n = none ↔ 128 < n) ∧
    ∀ w, determineBits n = some w ↔
      w ∈ [8, 16, 32, 64, 128] ∧ n ≤ w ∧ ∀ w' ∈ [8, 16, 32, 64, 128], n ≤ w' → w ≤ w' := by
  constructor
  · unfold determineBits
    repeat' split
    all_goals simp
    all_goals omega
  · intro w
    unfold determineBits
    repeat' split
    all_goals simp
    all_goals omega

/-- C48: every variant's mask is a single bit that fits the type (the literal `1u128 << i` is not truncated), at the
variant's declaration position, so masks of different variants are different and disjoint. -/
theorem C48_masks (n w : Nat) (h : determineBits n = some w) (i : Fin n) :
    (bitsetMask w i).toNat = 2 ^ i.val ∧ (∀ j, (bitsetMask w i).getLsbD j = decide (j = i.val)) ∧
      ∀ j : Fin n, i ≠ j → bitsetMask w i ≠ bitsetMask w j ∧ bitsetMask w i &&& bitsetMask w j = 0 := by
  have hw := determineBits_le h
  have hi := i.isLt
  have bit : ∀ (i : Fin n) j, (bitsetMask w i).getLsbD j = decide (j = i.val) := by
    intro i j
    rw [bitsetMask_getLsbD]
    have := i.isLt
    by_cases e : j = i.val
    · have : j < w := by omega
      simp [e]; omega
    · simp [e]
  refine ⟨?_, bit i, ?_⟩
  · simp only [bitsetMask, BitVec.toNat_ofNat, Nat.one_shiftLeft]
    exact Nat.mod_eq_of_lt (Nat.pow_lt_pow_right (by omega) (by omega))
  · intro j hij
    have hne : i.val ≠ j.val := fun e => hij (Fin.ext e)
    constructor
    · intro e
      have := congrArg (fun b : BitVec w => b.getLsbD i.val) e
      simp [bit, hne] at this
    · apply BitVec.eq_of_getLsbD_eq
      intro k _
      simp only [BitVec.getLsbD_and, bit, BitVec.ofNat_eq_ofNat, BitVec.getLsbD_zero]
      by_cases e : k = i.val
      · subst e; simp [hne]
      · simp [e]

/-- C48: what the derive does with `#[key(bitset)]` on an enum with `n` unit variants: the code for the width, or for more than
128 variants the compile error. -/
theorem C48_derive (n : Nat) :
    Derive.derive ⟨[.list [.bitset]], .enum (List.replicate n .unit)⟩ =
      match determineBits n with
      | some w => .code (.units n (some w))
      | none => .compileErrors [.tooManyVariants] := by
  have hu : ∀ n, Derive.isAllUnitVariants (List.replicate n .unit) = true := by
    intro n
    induction n with
    | zero => rfl
    | succ n ih => simpa [List.replicate_succ, Derive.isAllUnitVariants] using ih
  simp only [Derive.derive, Derive.parseAttrs, Derive.parseItems, hu, if_true, Derive.implementUnits, List.length_replicate]
  cases determineBits n <;> rfl

/-- Cases at the boundaries. -/
example : determineBits 0 = some 8 ∧ determineBits 8 = some 8 ∧ determineBits 9 = some 16 ∧ determineBits 64 = some 64 ∧
    determineBits 128 = some 128 ∧ determineBits 129 = none ∧ (bitsetMask 128 (127 : Fin 128)).toNat = 2 ^ 127 := by decide

/-! ## C44: `as_raw` and `from_raw` -/

variable (H : Hashbrown) (n w : Nat) (h : determineBits n = some w)

/-- C44: both round trips; bit `i` of any raw value is whether the `i`-th variant is contained. -/
theorem C44_round_trip :
    let M := setStorage H.api (.bitset n w h)
    (∀ s : M.S, FSet.eq M (bitsetFromRaw (w := w) (bitsetAsRaw (w := w) s)) s = true ∧
      bitsetFromRaw (w := w) (bitsetAsRaw (w := w) s) = s) ∧
    (∀ r : BitVec w, bitsetAsRaw (bitsetFromRaw r) = r) ∧
    (∀ (s : M.S) (i : Fin n), (bitsetAsRaw (w := w) s).getLsbD i.val = FSet.contains M s i) ∧
    (∀ (r : BitVec w) (i : Fin n), FSet.contains M (bitsetFromRaw r) i = r.getLsbD i.val) := by
  intro M
  have hc : ∀ (s : BitVec w) (i : Fin n), FSet.contains M s i = s.getLsbD i.val := bitset_test (determineBits_le h)
  refine ⟨fun s => ⟨?_, rfl⟩, fun _ => rfl, fun s i => (hc s i).symm, hc⟩
  exact (by simp : ∀ s : BitVec w, (s == s) = true) s

/-- C44: the raw values of sets built by ordinary operations are exactly those with no bit outside the declared variants. -/
theorem C44_declared_bits (r : BitVec w) :
    let M := setStorage H.api (.bitset n w h)
    (∃ s : M.S, Reachable M s ∧ bitsetAsRaw (w := w) s = r) ↔ ∀ i, n ≤ i → r.getLsbD i = false := by
  intro M
  constructor
  · rintro ⟨s, hs, rfl⟩
    exact hs.valid (setLaws H (.bitset n w h))
  · intro hr
    obtain ⟨h1, h2, -⟩ := C47_collect H (.bitset n w h) (finElems fun i : Fin n => r.getLsbD i.val)
    refine ⟨_, h1, ?_⟩
    have hv := h1.valid (setLaws H (.bitset n w h))
    have hc : ∀ (s : BitVec w) (i : Fin n), FSet.contains M s i = s.getLsbD i.val := bitset_test (determineBits_le h)
    have key : ∀ s : BitVec w, Declared n s → (∀ x : Fin n, FSet.contains M s x = true ↔ r.getLsbD x.val = true) → s = r := by
      intro s hs hx
      apply BitVec.eq_of_getLsbD_eq
      intro j _
      by_cases hj : j < n
      · have := hx ⟨j, hj⟩
        rw [hc] at this
        exact Bool.eq_iff_iff.mpr this
      · rw [hs j (by omega), hr j (by omega)]
    exact key _ hv fun x => (h2 x).trans (mem_finElems _ x)

/-- Case: `{First, Third}` of three variants. -/
example :
    let M := setStorage Ex.H.api (.bitset 3 8 rfl)
    bitsetAsRaw (w := 8) (FSet.fromIter M [(2 : Fin 3), (0 : Fin 3)]) = 5#8 ∧
      FSet.contains M (bitsetFromRaw 5#8) (1 : Fin 3) = false ∧ FSet.contains M (bitsetFromRaw 5#8) (2 : Fin 3) = true := by
  decide

/-! ## C45: sets made by `from_raw` -/

theorem countOnes_split {n w : Nat} (hw : n ≤ w) (s : BitVec w) :
    countOnes s = (finElems fun i : Fin n => s.getLsbD i.val).length +
      ((List.range (w - n)).countP fun j => s.getLsbD (n + j)) := by
  have e : List.range w = List.range n ++ (List.range (w - n)).map (n + ·) := by
    rw [← List.range_add]; congr 1; omega
  rw [countOnes, e, List.countP_append, ← finRange_map_val, List.countP_map, finElems, ← List.countP_eq_length_filter,
    List.countP_map]
  rfl

/-- C45, exactly, for every raw value `r`: `iter()` yields the contained variants; `len()` is their number plus the number of set
bits that belong to no variant; `is_empty()` is whether no bit at all is set; `==`, `cmp` and `Hash` look at all bits. -/
theorem C45_exact (r r' : BitVec w) :
    let M := setStorage H.api (.bitset n w h)
    ∃ l : List (Fin n), (FSet.iter M).runsTo (bitsetFromRaw r) l ∧ (∀ x, x ∈ l ↔ FSet.contains M (bitsetFromRaw r) x = true) ∧
      l.Nodup ∧ FSet.len M (bitsetFromRaw r) = l.length + ((List.range (w - n)).countP fun j => r.getLsbD (n + j)) ∧
      (FSet.isEmpty M (bitsetFromRaw r) = true ↔ ∀ j, r.getLsbD j = false) ∧
      (FSet.eq M (bitsetFromRaw r) (bitsetFromRaw r') = true ↔ r = r') ∧
      (bitsetCmp (bitsetFromRaw r) (bitsetFromRaw r') = .eq ↔ r = r') ∧
      (bitsetHash (bitsetFromRaw r) = bitsetHash (bitsetFromRaw r') ↔ r = r') := by
  intro M
  have hw := determineBits_le h
  have hc : ∀ (s : BitVec w) (i : Fin n), FSet.contains M s i = s.getLsbD i.val := bitset_test hw
  refine ⟨finElems fun i : Fin n => r.getLsbD i.val, ?_, ?_, nodup_finElems _, countOnes_split hw r, ?_, ?_, ?_, ?_⟩
  · exact Yields.runsTo ((yieldsAt_flat id _ r).congr (by
      simp only [bitset_test hw]
      exact filterMap_flags fun i => r.getLsbD i.val))
  · intro x
    exact (mem_finElems _ x).trans (by rw [show bitsetFromRaw r = r from rfl, hc r x])
  · show (r == 0) = true ↔ _
    rw [beq_iff_eq]
    constructor
    · rintro rfl j; simp
    · intro h0
      apply BitVec.eq_of_getLsbD_eq
      intro j _
      simp [h0]
  · show (r == r') = true ↔ _
    rw [beq_iff_eq]
  · simp only [bitsetCmp, bitsetFromRaw, Nat.compare_eq_eq, BitVec.toNat_inj]
  · simp [bitsetHash, bitsetFromRaw, BitVec.toNat_inj]

/-- C45, what holds: for raw values without bits outside the declared variants, `from_raw(r)` is a set that ordinary operations can
build, hence coherent. Full statement: for all raw values; it is false, see `C45_false` (and true when the number of variants
equals the width, `C45_full_width`). -/
theorem C45_coherent_partial (r : BitVec w) (hr : ∀ i, n ≤ i → r.getLsbD i = false) :
    let M := setStorage H.api (.bitset n w h)
    Reachable M (bitsetFromRaw r) ∧
    (∃ l : List (Fin n), (FSet.iter M).runsTo (bitsetFromRaw r) l ∧ (∀ x, x ∈ l ↔ FSet.contains M (bitsetFromRaw r) x = true) ∧
      l.Nodup ∧ FSet.len M (bitsetFromRaw r) = l.length) ∧
    (FSet.isEmpty M (bitsetFromRaw r) = true ↔ ∀ x, FSet.contains M (bitsetFromRaw r) x = false) ∧
    ∀ r' : BitVec w, (∀ i, n ≤ i → r'.getLsbD i = false) →
      (∀ x, FSet.contains M (bitsetFromRaw r) x = FSet.contains M (bitsetFromRaw r') x) →
      FSet.eq M (bitsetFromRaw r) (bitsetFromRaw r') = true ∧ bitsetCmp (bitsetFromRaw r) (bitsetFromRaw r') = .eq ∧
        bitsetHash (bitsetFromRaw r) = bitsetHash (bitsetFromRaw r') := by
  intro M
  have reach : ∀ r : BitVec w, (∀ i, n ≤ i → r.getLsbD i = false) → Reachable M (bitsetFromRaw r) := by
    intro r hr
    obtain ⟨s, hs, rfl⟩ := (C44_declared_bits H n w h r).mpr hr
    exact hs
  have h1 := reach r hr
  obtain ⟨l, a1, a2, a3, a4⟩ := C35_len H (.bitset n w h) _ h1
  refine ⟨h1, ⟨l, a1, a3, a2, a4⟩, (C34_isEmpty_partial H (.bitset n w h) rfl _ h1).1, ?_⟩
  intro r' hr' hx
  have e := (C42_eq H (.bitset n w h) _ _ h1 (reach r' hr')).mpr hx
  have e' := C45_exact H n w h r r'
  obtain ⟨_, _, _, _, _, _, e1, e2, e3⟩ := e'
  have := e1.mp e
  exact ⟨e, e2.mpr this, e3.mpr this⟩

/-- C45 holds for all raw values when there are as many variants as bits. -/
theorem C45_full_width (hn : n = w) (r : BitVec w) (i : Nat) (hi : n ≤ i) : r.getLsbD i = false :=
  BitVec.getLsbD_of_ge _ _ (by omega)

/-- C45 is false for every bitset enum with fewer variants than bits: `from_raw(1 << n)` contains nothing and `iter()` yields
nothing, but `len() = 1`, it is not `is_empty()`, not `==` to the empty set, not `cmp`-equal to it and hashes differently. -/
theorem C45_false (hn : n < w) :
    let M := setStorage H.api (.bitset n w h)
    let s : M.S := bitsetFromRaw (BitVec.ofNat w (1 <<< n))
    (∀ x, FSet.contains M s x = false) ∧ (FSet.iter M).runsTo s [] ∧ FSet.len M s = 1 ∧ FSet.isEmpty M s = false ∧
      FSet.eq M s (FSet.new M) = false ∧ bitsetCmp (w := w) s (FSet.new M) = .gt ∧
      bitsetHash (w := w) s ≠ bitsetHash (w := w) (FSet.new M) := by
  intro M s
  have hw := determineBits_le h
  have bit : ∀ j, (BitVec.ofNat w (1 <<< n)).getLsbD j = (decide (j < w) && decide (n = j)) := by
    intro j
    simp only [BitVec.getLsbD_ofNat, Nat.one_shiftLeft, Nat.testBit_two_pow]
  have hc : ∀ (s : BitVec w) (i : Fin n), FSet.contains M s i = s.getLsbD i.val := bitset_test hw
  have hcf : ∀ x : Fin n, FSet.contains M s x = false := by
    intro x
    refine (hc (BitVec.ofNat w (1 <<< n)) x).trans ?_
    rw [bit]
    have := x.isLt
    simp; omega
  have hne : BitVec.ofNat w (1 <<< n) ≠ 0 := by
    intro e
    have := (bit n).symm.trans (congrArg (fun b : BitVec w => b.getLsbD n) e)
    simp [hn] at this
  obtain ⟨l, a1, a2, _, a4, a5, a6, a7, a8⟩ := C45_exact H n w h (BitVec.ofNat w (1 <<< n)) 0
  have hl : l = [] := by
    cases l with
    | nil => rfl
    | cons x l =>
      have := (a2 x).mp (.head _)
      rw [show FSet.contains M (bitsetFromRaw (BitVec.ofNat w (1 <<< n))) x = false from hcf x] at this
      cases this
  subst hl
  refine ⟨hcf, a1, ?_, ?_, ?_, ?_, ?_⟩
  · refine a4.trans ?_
    obtain ⟨k, hk⟩ : ∃ k, w - n = k + 1 := ⟨w - n - 1, by omega⟩
    rw [hk, List.range_succ_eq_map, List.countP_cons, List.countP_map]
    have z : (List.range k).countP ((fun j => (BitVec.ofNat w (1 <<< n)).getLsbD (n + j)) ∘ Nat.succ) = 0 := by
      rw [List.countP_eq_zero]
      intro j _
      simp only [Function.comp, bit]
      simp
    rw [z]
    simp [bit, hn]
  · rw [← Bool.not_eq_true]
    intro e
    have := a5.mp e n
    rw [bit] at this
    simp [hn] at this
  · rw [← Bool.not_eq_true]
    exact fun e => hne (a6.mp e)
  · have : (BitVec.ofNat w (1 <<< n)).toNat ≠ (0 : BitVec w).toNat := fun e => hne (BitVec.toNat_inj.mp e)
    show compare (BitVec.ofNat w (1 <<< n)).toNat (0 : BitVec w).toNat = .gt
    rw [Nat.compare_eq_gt]
    have z : (0 : BitVec w).toNat = 0 := by simp
    omega
  · exact fun e => hne (a8.mp e)

/-- Cases: three variants in `u8`; bit 3 belongs to none. -/
example :
    let M := setStorage Ex.H.api (.bitset 3 8 rfl)
    FSet.len M (bitsetFromRaw 0b1010#8) = 2 ∧ FSet.contains M (bitsetFromRaw 0b1010#8) (1 : Fin 3) = true ∧
      FSet.eq M (bitsetFromRaw 0b1010#8) (bitsetFromRaw 0b0010#8) = false ∧
      FSet.len M (bitsetFromRaw 0b0101#8) = 2 := by decide

/-! ## C46: bitset sets and array sets -/

/-- Same contents. -/
theorem C46_same_contents (ops : List (SetOp (Fin n))) (ht : ∀ op ∈ ops, op.total) (s : (setStorage H.api (.bitset n w h)).S)
    (t : (setStorage H.api (.units n)).S)
    (hst : ∀ x : Fin n, FSet.contains (setStorage H.api (.bitset n w h)) s x = FSet.contains (setStorage H.api (.units n)) t x)
    (x : Fin n) :
    FSet.contains (setStorage H.api (.bitset n w h)) (FSet.run (setStorage H.api (.bitset n w h)) ops s) x =
      FSet.contains (setStorage H.api (.units n)) (FSet.run (setStorage H.api (.units n)) ops t) x := by
  have hw := determineBits_le h
  let L := setLaws H (.bitset n w h)
  let L' := setLaws H (.units n)
  induction ops generalizing s t with
  | nil => exact hst x
  | cons op ops ih =>
    refine ih (fun o ho => ht o (.tail _ ho)) _ _ ?_
    intro y
    cases op with
    | insert z =>
      refine Bool.eq_iff_iff.mpr ((L.contains_insert s z y).trans (Iff.trans ?_ (L'.contains_insert t z y).symm))
      exact or_congr Iff.rfl (Bool.eq_iff_iff.mp (hst y))
    | remove z =>
      refine Bool.eq_iff_iff.mpr ((L.contains_remove s z y).trans (Iff.trans ?_ (L'.contains_remove t z y).symm))
      exact and_congr Iff.rfl (Bool.eq_iff_iff.mp (hst y))
    | clear => exact (L.contains_clear s y).trans (L'.contains_clear t y).symm
    | @retain σ f st =>
      have r := L.retain_ok f s st
      have r' := L'.retain_ok f t st
      have e : L.visits s = L'.visits t := by
        show finElems _ = finElems _
        congr 1
        funext i
        exact (bitset_test hw s i).symm.trans (hst i)
      rw [e] at r
      have np : ∀ (l : List (Fin n)) (st : σ), (visit f l st).panicked = false := by
        intro l
        induction l with
        | nil => intro st; rfl
        | cons i l ih =>
          intro st
          have := ht _ (.head _) st i
          rcases hf : f st i with ⟨st', _ | _ | _⟩
          · rw [hf] at this; cases this
          all_goals simp [visit, hf, ih]
      refine Bool.eq_iff_iff.mpr ⟨fun hy => ?_, fun hy => ?_⟩
      · rcases r.sub y hy with h1 | h1
        · exact r'.kept y h1
        · exact absurd (h1.1.symm.trans (r.pan.trans (np _ st))) (by simp)
      · rcases r'.sub y hy with h1 | h1
        · exact r.kept y h1
        · exact absurd (h1.1.symm.trans (r'.pan.trans (np _ st))) (by simp)

/-- C46, what holds: after any history (from new sets) whose `retain` closures do not panic, the bitset set and the array set answer the
same: `contains`, `len`, `is_empty`, the items of `iter()` (indeed the very same array of `Option`s is flattened), and the
result of any further operation, even of a `retain` that panics. Full statement: also after a `retain` that
panics; it is false, see `C46_false_after_panic`. -/
theorem C46_interchangeable_partial (ops : List (SetOp (Fin n))) (ht : ∀ op ∈ ops, op.total) :
    let B := setStorage H.api (.bitset n w h)
    let A := setStorage H.api (.units n)
    let s := FSet.run B ops (FSet.new B)
    let t := FSet.run A ops (FSet.new A)
    (∀ x : Fin n, FSet.contains B s x = FSet.contains A t x) ∧ FSet.len B s = FSet.len A t ∧
      FSet.isEmpty B s = FSet.isEmpty A t ∧ (∀ l : List (Fin n), (FSet.iter B).runsTo s l ↔ (FSet.iter A).runsTo t l) ∧
      (∀ l : List (Fin n), (FSet.intoIter B).runsTo s l ↔ (FSet.intoIter A).runsTo t l) ∧
      ∀ op : SetOp (Fin n), FSet.out B s op = FSet.out A t op := by
  intro B A s t
  have hw := determineBits_le h
  let L := setLaws H (.bitset n w h)
  let L' := setLaws H (.units n)
  have rs : Reachable B s := C31_reachable H (.bitset n w h) ops _ .new
  have rt : Reachable A t := C31_reachable H (.units n) ops _ .new
  have hc : ∀ x : Fin n, FSet.contains B s x = FSet.contains A t x :=
    C46_same_contents H n w h ops ht _ _ fun x => (L.contains_empty x).trans (L'.contains_empty x).symm
  have hv := rs.valid L
  have he : L.elems s = L'.elems t := by
    show finElems _ = finElems _
    congr 1
    funext i
    exact (bitset_test hw s i).symm.trans (hc i)
  have hlen : FSet.len B s = FSet.len A t :=
    (L.len_eq s hv).trans ((congrArg List.length he).trans (L'.len_eq t trivial).symm)
  have hruns : ∀ {S S' : Type} {it : IterOf S (Fin n)} {it' : IterOf S' (Fin n)} {a : S} {b : S'} {e : List (Fin n)},
      it.runsTo a e → it'.runsTo b e → ∀ l, it.runsTo a l ↔ it'.runsTo b l := by
    intro S S' it it' a b e h1 h2 l
    constructor
    · intro h3; obtain rfl := runsTo_unique h1 h3; exact h2
    · intro h3; obtain rfl := runsTo_unique h2 h3; exact h1
  refine ⟨hc, hlen, ?_, ?_, ?_, ?_⟩
  · refine Bool.eq_iff_iff.mpr ?_
    refine ((C34_isEmpty_partial H (.bitset n w h) rfl s rs).1).trans
      (Iff.trans ?_ ((C34_isEmpty_partial H (.units n) rfl t rt).1).symm)
    exact forall_congr' fun x => (by rw [show FSet.contains B s x = FSet.contains A t x from hc x] : _ ↔ FSet.contains A t x = false)
  · exact hruns (Yields.runsTo ((setIters H (.bitset n w h)).iter s hv))
      (he ▸ Yields.runsTo ((setIters H (.units n)).iter t trivial))
  · exact hruns (Yields.runsTo ((setIters H (.bitset n w h)).intoIter s hv))
      (he ▸ Yields.runsTo ((setIters H (.units n)).intoIter t trivial))
  · intro op
    cases op with
    | insert x =>
      refine (set_insert_ret H (.bitset n w h) s x).trans (Eq.trans ?_ (set_insert_ret H (.units n) t x).symm)
      exact congrArg (· == false) (hc x)
    | remove x =>
      refine (set_remove_ret H (.bitset n w h) s hv x).trans (Eq.trans ?_ (set_remove_ret H (.units n) t trivial x).symm)
      exact congrArg (· || false) (hc x)
    | clear => rfl
    | @retain σ f st =>
      have r := L.retain_ok f s st
      have r' := L'.retain_ok f t st
      have e : L.visits s = L'.visits t := he
      rw [e] at r
      exact Prod.ext (r.st_eq.trans r'.st_eq.symm) (r.pan.trans r'.pan.symm)

/-- C46 is false after a panic inside `retain`: from `{First, Second}`, with a closure that rejects `First` and panics at `Second`,
the array set has lost `First`, the bitset set has not. -/
theorem C46_false_after_panic :
    let B := setStorage H.api (.bitset 2 8 rfl)
    let A := setStorage H.api (.units 2)
    let ops : List (SetOp (Fin 2)) := [.insert 0, .insert 1,
      .retain (fun (k : Nat) _ => (k + 1, if k = 0 then some false else none)) 0]
    FSet.contains B (FSet.run B ops (FSet.new B)) (0 : Fin 2) = true ∧ FSet.len B (FSet.run B ops (FSet.new B)) = 2 ∧
    FSet.contains A (FSet.run A ops (FSet.new A)) (0 : Fin 2) = false ∧ FSet.len A (FSet.run A ops (FSet.new A)) = 1 :=
  (by decide :
    let ops : List (SetOp (Fin 2)) := [.insert 0, .insert 1,
      .retain (fun (k : Nat) _ => (k + 1, if k = 0 then some false else none)) 0]
    let B := bitsetSet 2 8
    let A := unitsSet 2
    FSet.contains B (FSet.run B ops (FSet.new B)) (0 : Fin 2) = true ∧ FSet.len B (FSet.run B ops (FSet.new B)) = 2 ∧
    FSet.contains A (FSet.run A ops (FSet.new A)) (0 : Fin 2) = false ∧ FSet.len A (FSet.run A ops (FSet.new A)) = 1)

/-- Case for C46: a history with every operation. -/
example :
    let B := setStorage Ex.H.api (.bitset 3 8 rfl)
    let A := setStorage Ex.H.api (.units 3)
    let ops : List (SetOp (Fin 3)) := [.insert 1, .clear, .insert 2, .insert 0, .insert 1, .remove 2, .insert 2,
      .retain (fun (k : Nat) _ => (k + 1, some (k != 1))) 0]
    (FSet.iter B).I.drain 4 ((FSet.iter B).init (FSet.run B ops (FSet.new B))) = some [(0 : Fin 3), (2 : Fin 3)] ∧
    (FSet.iter A).I.drain 4 ((FSet.iter A).init (FSet.run A ops (FSet.new A))) = some [(0 : Fin 3), (2 : Fin 3)] := by
  exact ⟨rfl, rfl⟩

end FixedMap
