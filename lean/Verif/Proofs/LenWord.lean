import Verif.Model.LenWord
import Verif.Spec.LenWord
import Verif.Spec.Order

/-! # Lemmas of C88 -/

set_option autoImplicit false
set_option linter.unusedSimpArgs false

namespace FixedMap

variable {w : Nat} {ck : Bool}

theorem countedOn_fits {n : Nat} (h : n < 2 ^ w) : countedOn ck w n = .ok (BitVec.ofNat w n) := if_pos h

theorem countedOn_wrap (n : Nat) : countedOn false w n = .ok (BitVec.ofNat w n) := by
  unfold countedOn
  split
  · rfl
  · simp only [Bool.false_eq_true, if_false]
    congr 1
    apply BitVec.eq_of_toNat_eq
    simp

theorem countedOn_zero (n : Nat) : countedOn ck w ((0 : BitVec w).toNat + n) = countedOn ck w n := by simp

theorem addWord_eq (a b : BitVec w) : addWord ck a b = countedOn ck w (a.toNat + b.toNat) := by
  have e : a + b = BitVec.ofNat w (a.toNat + b.toNat) := by
    apply BitVec.eq_of_toNat_eq; simp
  cases ck
  · rw [countedOn_wrap, ← e]; rfl
  · unfold addWord countedOn
    by_cases h : a.toNat + b.toNat < 2 ^ w
    · rw [if_neg (by simp; omega), if_pos h, e]
    · rw [if_pos (by simp; omega), if_neg h]; rfl

theorem countedOn_bind {n m : Nat} {f : BitVec w → Res (BitVec w)}
    (h : ∀ a : BitVec w, f a = countedOn ck w (a.toNat + m)) : (countedOn ck w n).bind f = countedOn ck w (n + m) := by
  by_cases hn : n < 2 ^ w
  · rw [countedOn_fits hn]
    show f _ = _
    rw [h, BitVec.toNat_ofNat, Nat.mod_eq_of_lt hn]
  · cases ck
    · rw [countedOn_wrap, countedOn_wrap]
      show f _ = _
      rw [h, countedOn_wrap]
      congr 1
      apply BitVec.eq_of_toNat_eq; simp
    · have h2 : ¬ n + m < 2 ^ w := by omega
      simp only [countedOn, if_neg hn, if_neg h2, if_true]
      rfl

theorem bool_lt (hw : 2 ≤ w) (b : Bool) : b.toNat < 2 ^ w := by
  have : 2 ^ 2 ≤ 2 ^ w := Nat.pow_le_pow_right (by omega) hw
  cases b <;> simp at * <;> omega

theorem wordOfBool_toNat (hw : 2 ≤ w) (b : Bool) : (wordOfBool w b).toNat = b.toNat := by
  rw [wordOfBool, BitVec.toNat_ofNat, Nat.mod_eq_of_lt (bool_lt hw b)]

theorem addFlag_eq (hw : 2 ≤ w) (a : BitVec w) (b : Bool) :
    addWord ck a (wordOfBool w b) = countedOn ck w (a.toNat + b.toNat) := by
  rw [addWord_eq, wordOfBool_toNat hw]

theorem wordOfBool_eq (hw : 2 ≤ w) (b : Bool) : (.ok (wordOfBool w b) : Res _) = countedOn ck w b.toNat :=
  (countedOn_fits (bool_lt hw b)).symm

theorem saturating_eq (hw : 2 ≤ w) (a b : Bool) :
    (.ok (saturatingAdd (wordOfBool w a) (wordOfBool w b)) : Res _) = countedOn ck w (a.toNat + b.toNat) := by
  have h4 : 2 ^ 2 ≤ 2 ^ w := Nat.pow_le_pow_right (by omega) hw
  have h : a.toNat + b.toNat < 2 ^ w := by cases a <;> cases b <;> simp <;> omega
  rw [countedOn_fits h, saturatingAdd, if_neg (by rw [wordOfBool_toNat hw, wordOfBool_toNat hw]; omega)]
  congr 1
  apply BitVec.eq_of_toNat_eq
  simp [wordOfBool]

theorem addFlags_eq (hw : 2 ≤ w) (l : List Bool) (acc : BitVec w) :
    addFlags ck l acc = countedOn ck w (l.foldl (fun n b => n + b.toNat) acc.toNat) := by
  have shift : ∀ (l : List Bool) (n : Nat), l.foldl (fun n b => n + b.toNat) n = n + l.foldl (fun n b => n + b.toNat) 0 := by
    intro l
    induction l with
    | nil => intro n; rfl
    | cons b l ih => intro n; rw [List.foldl_cons, List.foldl_cons, ih, ih (0 + _)]; omega
  induction l generalizing acc with
  | nil =>
    rw [addFlags, List.foldl_nil, countedOn_fits acc.isLt, BitVec.ofNat_toNat, BitVec.setWidth_eq]
  | cons b l ih =>
    rw [addFlags, addFlag_eq hw, List.foldl_cons, shift l (_ + _)]
    refine countedOn_bind fun a => ?_
    rw [ih, shift]

theorem foldl_map_isSome {V : Type} (l : List (Option V)) (n : Nat) :
    (l.map Option.isSome).foldl (fun n b => n + b.toNat) n = l.foldl (fun acc o => acc + o.isSome.toNat) n :=
  List.foldl_map

theorem tableCount_eq {n : Nat} (h : ck = true → n < 2 ^ w) : (.ok (BitVec.ofNat w n) : Res _) = countedOn ck w n := by
  cases ck
  · exact (countedOn_wrap n).symm
  · exact (countedOn_fits (h rfl)).symm

mutual
theorem mapLenWord_eq (H : HashbrownApi) (V : Type) (hw : 2 ≤ w) : (κ : KeyTy) → (s : (mapStorage H V κ).S) →
    (ck = true → mapTablesFit H V w κ s) → mapLenWord H V ck w κ s = countedOn ck w ((mapStorage H V κ).len s)
  | .bool, s, _ => saturating_eq hw _ _
  | .unit, s, _ => wordOfBool_eq hw _
  | .opt κ, s, h => by
    show (mapLenWord H V ck w κ s.some).bind _ = countedOn ck w ((mapStorage H V κ).len s.some + s.none.isSome.toNat)
    rw [mapLenWord_eq H V hw κ s.some h]
    exact countedOn_bind fun a => addFlag_eq hw a _
  | .prim p, s, h => tableCount_eq h
  | .units n, s, _ => by
    refine (addFlags_eq hw _ _).trans ?_
    rw [foldl_map_isSome]; rfl
  | .bitset n _ _, s, _ => by
    refine (addFlags_eq hw _ _).trans ?_
    rw [foldl_map_isSome]; rfl
  | .enum fs, s, h => by
    refine (mapFieldsLenWord_eq H V hw fs s 0 h).trans ?_
    exact countedOn_zero _
theorem mapFieldsLenWord_eq (H : HashbrownApi) (V : Type) (hw : 2 ≤ w) : (fs : Fields) → (s : (mapFields H V fs).S) →
    (acc : BitVec w) → (ck = true → mapFieldsTablesFit H V w fs s) →
    mapFieldsLenWord H V ck w fs s acc = countedOn ck w (acc.toNat + (mapFields H V fs).len s)
  | .nil, _, acc, _ => by
    show _ = countedOn ck w (acc.toNat + 0)
    rw [Nat.add_zero, countedOn_fits acc.isLt, BitVec.ofNat_toNat, BitVec.setWidth_eq]; rfl
  | .simple fs, s, acc, h => by
    show (addWord ck acc (wordOfBool w s.1.isSome)).bind (mapFieldsLenWord H V ck w fs s.2) =
      countedOn ck w (acc.toNat + (s.1.isSome.toNat + (mapFields H V fs).len s.2))
    rw [addFlag_eq hw, countedOn_bind fun a => mapFieldsLenWord_eq H V hw fs s.2 a h, Nat.add_assoc]
  | .complex κ fs, s, acc, h => by
    show ((mapLenWord H V ck w κ s.1).bind fun n => (addWord ck acc n).bind (mapFieldsLenWord H V ck w fs s.2)) =
      countedOn ck w (acc.toNat + ((mapStorage H V κ).len s.1 + (mapFields H V fs).len s.2))
    rw [mapLenWord_eq H V hw κ s.1 fun e => (h e).1,
      countedOn_bind (m := acc.toNat + (mapFields H V fs).len s.2)]
    · congr 1; omega
    · intro a
      rw [addWord_eq, countedOn_bind fun b => mapFieldsLenWord_eq H V hw fs s.2 b fun e => (h e).2]
      congr 1; omega
end

theorem countOnes_le {b : Nat} (s : BitVec b) : countOnes s ≤ b := by
  have := List.countP_le_length (p := fun i => s.getLsbD i) (l := List.range b)
  rwa [List.length_range] at this

theorem determineBits_le128 {n b : Nat} (h : determineBits n = some b) : b ≤ 128 ∧ b / 8 * 8 = b := by
  unfold determineBits at h
  repeat' split at h
  all_goals first | (injection h with h; subst h; exact ⟨by omega, by omega⟩) | cases h

theorem countOnes_word {b : Nat} (hw : 8 ≤ w) (hb : b ≤ 128) (s : BitVec b) :
    (.ok ((BitVec.ofNat 32 (countOnes s)).setWidth w) : Res _) = countedOn ck w (countOnes s) := by
  have h1 := countOnes_le s
  have h3 : 2 ^ 8 ≤ 2 ^ w := Nat.pow_le_pow_right (by omega) hw
  rw [countedOn_fits (by omega)]
  congr 1
  apply BitVec.eq_of_toNat_eq
  simp only [BitVec.toNat_setWidth, BitVec.toNat_ofNat]
  rw [Nat.mod_eq_of_lt (a := countOnes _) (b := 2 ^ 32) (by omega)]

mutual
theorem setLenWord_eq (H : HashbrownApi) (hw : 8 ≤ w) : (κ : KeyTy) → (s : (setStorage H κ).S) →
    (ck = true → setTablesFit H w κ s) → setLenWord H ck w κ s = countedOn ck w ((setStorage H κ).len s)
  | .bool, s, _ => saturating_eq (by omega) _ _
  | .unit, s, _ => wordOfBool_eq (by omega) _
  | .opt κ, s, h => by
    show (setLenWord H ck w κ s.some).bind _ = countedOn ck w ((setStorage H κ).len s.some + s.none.toNat)
    rw [setLenWord_eq H hw κ s.some h]
    exact countedOn_bind fun a => addFlag_eq (by omega) a _
  | .prim p, s, h => tableCount_eq h
  | .units n, s, _ => (addFlags_eq (by omega) _ _).trans rfl
  | .bitset n b hb, s, _ => countOnes_word hw (determineBits_le128 hb).1 s
  | .enum fs, s, h => by
    refine (setFieldsLenWord_eq H hw fs s 0 h).trans ?_
    exact countedOn_zero _
theorem setFieldsLenWord_eq (H : HashbrownApi) (hw : 8 ≤ w) : (fs : Fields) → (s : (setFields H fs).S) →
    (acc : BitVec w) → (ck = true → setFieldsTablesFit H w fs s) →
    setFieldsLenWord H ck w fs s acc = countedOn ck w (acc.toNat + (setFields H fs).len s)
  | .nil, _, acc, _ => by
    show _ = countedOn ck w (acc.toNat + 0)
    rw [Nat.add_zero, countedOn_fits acc.isLt, BitVec.ofNat_toNat, BitVec.setWidth_eq]; rfl
  | .simple fs, s, acc, h => by
    show (addWord ck acc (wordOfBool w s.1)).bind (setFieldsLenWord H ck w fs s.2) =
      countedOn ck w (acc.toNat + (s.1.toNat + (setFields H fs).len s.2))
    rw [addFlag_eq (by omega), countedOn_bind fun a => setFieldsLenWord_eq H hw fs s.2 a h, Nat.add_assoc]
  | .complex κ fs, s, acc, h => by
    show ((setLenWord H ck w κ s.1).bind fun n => (addWord ck acc n).bind (setFieldsLenWord H ck w fs s.2)) =
      countedOn ck w (acc.toNat + ((setStorage H κ).len s.1 + (setFields H fs).len s.2))
    rw [setLenWord_eq H hw κ s.1 fun e => (h e).1,
      countedOn_bind (m := acc.toNat + (setFields H fs).len s.2)]
    · congr 1; omega
    · intro a
      rw [addWord_eq, countedOn_bind fun b => setFieldsLenWord_eq H hw fs s.2 b fun e => (h e).2]
      congr 1; omega
end

theorem foldl_isSome_le {V : Type} (l : List (Option V)) (n : Nat) :
    l.foldl (fun acc o => acc + o.isSome.toNat) n ≤ n + l.length := by
  induction l generalizing n with
  | nil => exact Nat.le_refl _
  | cons o l ih =>
    have := ih (n + o.isSome.toNat)
    have := Bool.toNat_le o.isSome
    simp only [List.foldl_cons, List.length_cons]
    omega

theorem foldl_flag_le (l : List Bool) (n : Nat) : l.foldl (fun acc b => acc + b.toNat) n ≤ n + l.length := by
  induction l generalizing n with
  | nil => exact Nat.le_refl _
  | cons o l ih =>
    have := ih (n + o.toNat)
    have := Bool.toNat_le o
    simp only [List.foldl_cons, List.length_cons]
    omega

mutual
theorem mapLen_le_bytes (H : HashbrownApi) (V : Type) : (κ : KeyTy) → (s : (mapStorage H V κ).S) →
    (mapStorage H V κ).len s ≤ mapBytes H V κ s
  | .bool, s => Nat.add_le_add (Bool.toNat_le s.t.isSome) (Bool.toNat_le s.f.isSome)
  | .unit, s => Bool.toNat_le (Option.isSome s)
  | .opt κ, s => Nat.add_le_add (mapLen_le_bytes H V κ s.some) (Bool.toNat_le s.none.isSome)
  | .prim p, s => Nat.le_refl _
  | .units n, (s : Vector (Option V) n) => by
    have := foldl_isSome_le s.toList 0
    rw [Vector.length_toList, Nat.zero_add] at this
    exact this
  | .bitset n _ _, (s : Vector (Option V) n) => by
    have := foldl_isSome_le s.toList 0
    rw [Vector.length_toList, Nat.zero_add] at this
    exact this
  | .enum fs, s => mapFieldsLen_le_bytes H V fs s
theorem mapFieldsLen_le_bytes (H : HashbrownApi) (V : Type) : (fs : Fields) → (s : (mapFields H V fs).S) →
    (mapFields H V fs).len s ≤ mapFieldsBytes H V fs s
  | .nil, _ => Nat.le_refl _
  | .simple fs, s => Nat.add_le_add (Bool.toNat_le s.1.isSome) (mapFieldsLen_le_bytes H V fs s.2)
  | .complex κ fs, s => Nat.add_le_add (mapLen_le_bytes H V κ s.1) (mapFieldsLen_le_bytes H V fs s.2)
end

mutual
theorem setLen_le_bytes (H : HashbrownApi) : (κ : KeyTy) → (s : (setStorage H κ).S) →
    (setStorage H κ).len s ≤ 8 * setBytes H κ s
  | .bool, (s : BitVec 8) => Nat.le_trans
      (Nat.add_le_add (Bool.toNat_le (s &&& TRUE_BIT != 0)) (Bool.toNat_le (s &&& FALSE_BIT != 0))) (show 1 + 1 ≤ 8 * 1 by decide)
  | .unit, (s : Bool) => Nat.le_trans (Bool.toNat_le s) (show 1 ≤ 8 * 1 by decide)
  | .opt κ, s => by
    have h1 := setLen_le_bytes H κ s.some
    have h2 := Bool.toNat_le s.none
    show (setStorage H κ).len s.some + s.none.toNat ≤ 8 * (setBytes H κ s.some + 1)
    omega
  | .prim p, s => by
    show (H p.Key Unit).len s ≤ 8 * (H p.Key Unit).len s
    omega
  | .units n, (s : Vector Bool n) => by
    have h := foldl_flag_le s.toList 0
    rw [Vector.length_toList, Nat.zero_add] at h
    show s.toList.foldl (fun acc b => acc + b.toNat) 0 ≤ 8 * n
    omega
  | .bitset n b hb, s => by
    have h1 := countOnes_le (b := b) s
    have h2 := (determineBits_le128 hb).2
    show countOnes (w := b) s ≤ 8 * (b / 8)
    omega
  | .enum fs, s => setFieldsLen_le_bytes H fs s
theorem setFieldsLen_le_bytes (H : HashbrownApi) : (fs : Fields) → (s : (setFields H fs).S) →
    (setFields H fs).len s ≤ 8 * setFieldsBytes H fs s
  | .nil, _ => Nat.zero_le _
  | .simple fs, s => by
    have h1 := Bool.toNat_le s.1
    have h2 := setFieldsLen_le_bytes H fs s.2
    show s.1.toNat + (setFields H fs).len s.2 ≤ 8 * (1 + setFieldsBytes H fs s.2)
    omega
  | .complex κ fs, s => by
    have h1 := setLen_le_bytes H κ s.1
    have h2 := setFieldsLen_le_bytes H fs s.2
    show (setStorage H κ).len s.1 + (setFields H fs).len s.2 ≤ 8 * (setBytes H κ s.1 + setFieldsBytes H fs s.2)
    omega
end

mutual
theorem mapTablesFit_of (H : HashbrownApi) (V : Type) : (κ : KeyTy) → (s : (mapStorage H V κ).S) →
    (mapStorage H V κ).len s < 2 ^ w → mapTablesFit H V w κ s
  | .bool, _, _ => trivial
  | .unit, _, _ => trivial
  | .opt κ, s, h => mapTablesFit_of H V κ s.some (Nat.lt_of_le_of_lt (Nat.le_add_right _ _) h)
  | .prim _, _, h => h
  | .units _, _, _ => trivial
  | .bitset _ _ _, _, _ => trivial
  | .enum fs, s, h => mapFieldsTablesFit_of H V fs s h
theorem mapFieldsTablesFit_of (H : HashbrownApi) (V : Type) : (fs : Fields) → (s : (mapFields H V fs).S) →
    (mapFields H V fs).len s < 2 ^ w → mapFieldsTablesFit H V w fs s
  | .nil, _, _ => trivial
  | .simple fs, s, h => mapFieldsTablesFit_of H V fs s.2 (Nat.lt_of_le_of_lt (Nat.le_add_left _ _) h)
  | .complex κ fs, s, h => ⟨mapTablesFit_of H V κ s.1 (Nat.lt_of_le_of_lt (Nat.le_add_right _ _) h),
      mapFieldsTablesFit_of H V fs s.2 (Nat.lt_of_le_of_lt (Nat.le_add_left _ _) h)⟩
end

mutual
theorem setTablesFit_of (H : HashbrownApi) : (κ : KeyTy) → (s : (setStorage H κ).S) →
    (setStorage H κ).len s < 2 ^ w → setTablesFit H w κ s
  | .bool, _, _ => trivial
  | .unit, _, _ => trivial
  | .opt κ, s, h => setTablesFit_of H κ s.some (Nat.lt_of_le_of_lt (Nat.le_add_right _ _) h)
  | .prim _, _, h => h
  | .units _, _, _ => trivial
  | .bitset _ _ _, _, _ => trivial
  | .enum fs, s, h => setFieldsTablesFit_of H fs s h
theorem setFieldsTablesFit_of (H : HashbrownApi) : (fs : Fields) → (s : (setFields H fs).S) →
    (setFields H fs).len s < 2 ^ w → setFieldsTablesFit H w fs s
  | .nil, _, _ => trivial
  | .simple fs, s, h => setFieldsTablesFit_of H fs s.2 (Nat.lt_of_le_of_lt (Nat.le_add_left _ _) h)
  | .complex κ fs, s, h => ⟨setTablesFit_of H κ s.1 (Nat.lt_of_le_of_lt (Nat.le_add_right _ _) h),
      setFieldsTablesFit_of H fs s.2 (Nat.lt_of_le_of_lt (Nat.le_add_left _ _) h)⟩
end

theorem manyBitsets_hashFree (n : Nat) : (manyBitsets n).hashFree = true := by
  induction n with
  | zero => rfl
  | succ n ih => exact ih

theorem manyBitsets_bytes (H : HashbrownApi) (n : Nat) (s : (setFields H (manyBitsets n)).S) :
    setFieldsBytes H (manyBitsets n) s = 16 * n := by
  induction n with
  | zero => rfl
  | succ n ih =>
    have := ih s.2
    show 16 + setFieldsBytes H (manyBitsets n) s.2 = _
    omega

end FixedMap
