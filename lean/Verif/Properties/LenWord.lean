import Verif.Properties.Contents
import Verif.Properties.SetIntersection
import Verif.Proofs.LenWord

/-! # C88: `len` on machine words -/

set_option autoImplicit false
set_option linter.unusedSimpArgs false

namespace FixedMap

section
variable (H : Hashbrown) (V : Type) (κ : KeyTy) (checked : Bool) (w : Nat)

/-- C88, maps: `len()` on `w`-bit words is the number of entries of the `for` loop if that fits. Otherwise it panics with
overflow checks, and is the remainder without. (Hash tables themselves count right.) -/
theorem C88_map (hw : 8 ≤ w) (m : (mapStorage H.api V κ).S) (hm : mapTablesFit H.api V w κ m) :
    ∃ l, (Map.iter (mapStorage H.api V κ)).runsTo m l ∧
      mapLenWord H.api V checked w κ m = countedOn checked w l.length := by
  obtain ⟨l, h1, h2, _⟩ := C06_len H V κ m
  exact ⟨l, h1, h2 ▸ mapLenWord_eq H.api V (by omega) κ m fun _ => hm⟩

/-- C88, sets: the same. -/
theorem C88_set (hw : 8 ≤ w) (s : (setStorage H.api κ).S) (hs : Reachable (setStorage H.api κ) s)
    (hm : setTablesFit H.api w κ s) :
    ∃ l, (FSet.iter (setStorage H.api κ)).runsTo s l ∧
      setLenWord H.api checked w κ s = countedOn checked w l.length := by
  obtain ⟨l, h1, _, _, h2⟩ := C35_len H κ s hs
  exact ⟨l, h1, h2 ▸ setLenWord_eq H.api hw κ s fun _ => hm⟩

/-- C88: a map in memory of fewer than `2^w` bytes has a `len()` that neither overflows nor panics: it is the number of
entries of the `for` loop. -/
theorem C88_map_memory (hw : 8 ≤ w) (m : (mapStorage H.api V κ).S) (hm : mapBytes H.api V κ m < 2 ^ w) :
    ∃ l n, (Map.iter (mapStorage H.api V κ)).runsTo m l ∧ mapLenWord H.api V checked w κ m = .ok n ∧
      n.toNat = l.length := by
  obtain ⟨l, h1, h2, _⟩ := C06_len H V κ m
  have hl : Map.len (mapStorage H.api V κ) m < 2 ^ w := Nat.lt_of_le_of_lt (mapLen_le_bytes H.api V κ m) hm
  refine ⟨l, BitVec.ofNat w l.length, h1, ?_, ?_⟩
  · rw [mapLenWord_eq H.api V (by omega) κ m fun _ => mapTablesFit_of H.api V κ m hl, ← h2]
    exact countedOn_fits hl
  · rw [← h2, BitVec.toNat_ofNat, Nat.mod_eq_of_lt hl]

/-- C88: a set needs eight times as much room, because a bitset keeps eight elements in a byte. -/
theorem C88_set_memory (hw : 8 ≤ w) (s : (setStorage H.api κ).S) (hs : Reachable (setStorage H.api κ) s)
    (hm : 8 * setBytes H.api κ s < 2 ^ w) :
    ∃ l n, (FSet.iter (setStorage H.api κ)).runsTo s l ∧ setLenWord H.api checked w κ s = .ok n ∧
      n.toNat = l.length := by
  obtain ⟨l, h1, _, _, h2⟩ := C35_len H κ s hs
  have hl : FSet.len (setStorage H.api κ) s < 2 ^ w := Nat.lt_of_le_of_lt (setLen_le_bytes H.api κ s) hm
  refine ⟨l, BitVec.ofNat w l.length, h1, ?_, ?_⟩
  · rw [setLenWord_eq H.api hw κ s fun _ => setTablesFit_of H.api κ s hl, ← h2]
    exact countedOn_fits hl
  · rw [← h2, BitVec.toNat_ofNat, Nat.mod_eq_of_lt hl]

/-- C88: a key type without hash tables and with fewer than `2^w` keys has maps and sets whose `len()` is right. -/
theorem C88_finite (hw : 8 ≤ w) (hf : κ.hashFree = true) (hk : κ.card < 2 ^ w) :
    (∀ m : (mapStorage H.api V κ).S, ∃ l n, (Map.iter (mapStorage H.api V κ)).runsTo m l ∧
      mapLenWord H.api V checked w κ m = .ok n ∧ n.toNat = l.length) ∧
    ∀ s : (setStorage H.api κ).S, Reachable (setStorage H.api κ) s →
      ∃ l n, (FSet.iter (setStorage H.api κ)).runsTo s l ∧ setLenWord H.api checked w κ s = .ok n ∧
        n.toNat = l.length := by
  constructor
  · intro m
    obtain ⟨l, h1, h2, _⟩ := C06_len H V κ m
    have hl : Map.len (mapStorage H.api V κ) m < 2 ^ w := Nat.lt_of_le_of_lt (C53_map_len H V κ hf m).1 hk
    refine ⟨l, BitVec.ofNat w l.length, h1, ?_, ?_⟩
    · rw [mapLenWord_eq H.api V (by omega) κ m fun _ => mapTablesFit_of H.api V κ m hl, ← h2]
      exact countedOn_fits hl
    · rw [← h2, BitVec.toNat_ofNat, Nat.mod_eq_of_lt hl]
  · intro s hs
    obtain ⟨l, h1, _, _, h2⟩ := C35_len H κ s hs
    have hl : FSet.len (setStorage H.api κ) s < 2 ^ w := Nat.lt_of_le_of_lt (C53_set_len H κ hf s hs).1 hk
    refine ⟨l, BitVec.ofNat w l.length, h1, ?_, ?_⟩
    · rw [setLenWord_eq H.api hw κ s fun _ => setTablesFit_of H.api κ s hl, ← h2]
      exact countedOn_fits hl
    · rw [← h2, BitVec.toNat_ofNat, Nat.mod_eq_of_lt hl]

/-- Case: six entries and five elements, on 16-bit words. -/
example : mapLenWord Ex.H.api Nat true 16 Ex.key Ex.map = .ok 6#16 ∧ mapBytes Ex.H.api Nat Ex.key Ex.map = 8 ∧
    setLenWord Ex.H.api true 16 Ex.key Ex.set = .ok 5#16 ∧ setBytes Ex.H.api Ex.key Ex.set = 6 := by decide

/-- C88: `intersection` on words is the one of C40 if the lengths of both sets fit. -/
theorem C88_intersection (hw : 8 ≤ w) (a b : (setStorage H.api κ).S)
    (ha : FSet.len (setStorage H.api κ) a < 2 ^ w) (hb : FSet.len (setStorage H.api κ) b < 2 ^ w) :
    Intersection.newWord H.api checked w κ a b = .ok (Intersection.new (setStorage H.api κ) a b) := by
  unfold Intersection.newWord Intersection.new
  rw [setLenWord_eq H.api hw κ a fun _ => setTablesFit_of H.api κ a ha,
    setLenWord_eq H.api hw κ b fun _ => setTablesFit_of H.api κ b hb]
  rw [show countedOn checked w ((setStorage H.api κ).len a) = _ from countedOn_fits ha,
    show countedOn checked w ((setStorage H.api κ).len b) = _ from countedOn_fits hb]
  simp only [Res.bind]
  congr 1
  have e : (BitVec.ofNat w ((setStorage H.api κ).len a) ≤ BitVec.ofNat w ((setStorage H.api κ).len b)) ↔
      FSet.len (setStorage H.api κ) a ≤ FSet.len (setStorage H.api κ) b := by
    rw [BitVec.le_def, BitVec.toNat_ofNat, BitVec.toNat_ofNat,
      show (setStorage H.api κ).len a % 2 ^ w = _ from Nat.mod_eq_of_lt ha,
      show (setStorage H.api κ).len b % 2 ^ w = _ from Nat.mod_eq_of_lt hb]
    rfl
  by_cases h : FSet.len (setStorage H.api κ) a ≤ FSet.len (setStorage H.api κ) b
  · rw [if_pos h, if_pos (e.mpr h)]
  · rw [if_neg h, if_neg fun h' => h (e.mp h')]

end

theorem manyBitsets_card (n : Nat) : (manyBitsets n).card = 128 * n := by
  induction n with
  | zero => rfl
  | succ n ih =>
    show 128 + (manyBitsets n).card = _
    omega

theorem manyBitsets_noOpt (n : Nat) : (manyBitsets n).noOpt = true := by
  induction n with
  | zero => rfl
  | succ n ih => exact ih

theorem manyBitsets_fit (H : HashbrownApi) (w n : Nat) (s : (setFields H (manyBitsets n)).S) :
    setFieldsTablesFit H w (manyBitsets n) s := by
  induction n with
  | zero => trivial
  | succ n ih => exact ⟨trivial, ih s.2⟩

/-- The full set of an enum of `n` bitsets of 128 variants, on words for which its length is exactly too large. -/
theorem manyBitsets_overflow (H : Hashbrown) (n w : Nat) (hw : 8 ≤ w) (hn : 128 * n = 2 ^ w) :
    let κ : KeyTy := .enum (manyBitsets n)
    let M := setStorage H.api κ
    ∃ s : M.S, Reachable M s ∧ setBytes H.api κ s = 16 * n ∧ (∃ l, (FSet.iter M).runsTo s l ∧ l.length = 2 ^ w) ∧
      FSet.isEmpty M s = false ∧
      setLenWord H.api true w κ s = .panic ∧ setLenWord H.api false w κ s = .ok 0 ∧
      Intersection.newWord H.api true w κ s s = .panic := by
  intro κ M
  have hf : κ.hashFree = true := manyBitsets_hashFree n
  obtain ⟨hs, hc, _⟩ := C47_collect H κ κ.allKeys
  have hall : ∀ x, FSet.contains M (FSet.fromIter M κ.allKeys) x = true := fun x => (hc x).mpr (mem_allKeys κ hf x)
  have hlen : FSet.len M (FSet.fromIter M κ.allKeys) = 2 ^ w :=
    ((C53_set_len H κ hf _ hs).2.mpr hall).trans ((manyBitsets_card n).trans hn)
  have hp : setLenWord H.api true w κ (FSet.fromIter M κ.allKeys) = .panic := by
    refine (setLenWord_eq H.api hw κ _ fun _ => manyBitsets_fit H.api w n _).trans ?_
    refine (congrArg (countedOn true w) hlen).trans ?_
    exact (if_neg (Nat.lt_irrefl _)).trans (if_pos rfl)
  obtain ⟨l, h1, _, _, h2⟩ := C35_len H κ _ hs
  refine ⟨FSet.fromIter M κ.allKeys, hs, manyBitsets_bytes H.api n _, ⟨l, h1, h2.symm.trans hlen⟩, ?_, hp, ?_, ?_⟩
  · rw [Bool.eq_false_iff]
    intro h
    have := (C34_isEmpty_partial H κ (manyBitsets_noOpt n) _ hs).2.mp h
    have h3 := hlen.symm.trans this
    exact absurd h3 (Nat.ne_of_gt (Nat.two_pow_pos w))
  · refine (setLenWord_eq H.api hw κ _ fun h => Bool.noConfusion h).trans ?_
    refine (congrArg (countedOn false w) hlen).trans ((countedOn_wrap _).trans ?_)
    congr 1
    apply BitVec.eq_of_toNat_eq
    simp
  · exact congrArg (Res.bind · _) hp

/-- Case: two bitsets of 128 bits, all bits set, on words of 8 bits. -/
example :
    let s : (setStorage Ex.H.api (.enum (manyBitsets 2))).S := (BitVec.allOnes 128, BitVec.allOnes 128, ())
    setLenWord Ex.H.api true 8 (.enum (manyBitsets 2)) s = .panic ∧
      setLenWord Ex.H.api false 8 (.enum (manyBitsets 2)) s = .ok 0#8 ∧
      setLenWord Ex.H.api true 16 (.enum (manyBitsets 2)) s = .ok 256#16 := by decide +kernel

/-- C88, where `usize` has 16 bits: a set of 8192 bytes can hold 65536 elements. Its `len()` panics with overflow checks;
without them it is 0, although the set is not empty and the `for` loop visits 65536 keys. `intersection` calls `len`, and
panics too. -/
theorem C88_overflow (H : Hashbrown) :
    let κ : KeyTy := .enum (manyBitsets 512)
    let M := setStorage H.api κ
    ∃ s : M.S, Reachable M s ∧ setBytes H.api κ s = 8192 ∧ (∃ l, (FSet.iter M).runsTo s l ∧ l.length = 2 ^ 16) ∧
      FSet.isEmpty M s = false ∧
      setLenWord H.api true 16 κ s = .panic ∧ setLenWord H.api false 16 κ s = .ok 0 ∧
      Intersection.newWord H.api true 16 κ s s = .panic := manyBitsets_overflow H 512 16 (by decide) rfl

end FixedMap
