import Verif.Spec.LoopWord
import Verif.Proofs.Iter

/-! # The loops on machine words agree with those on natural numbers -/

set_option autoImplicit false
set_option linter.unusedSimpArgs false

namespace FixedMap

/-- The two states agree. -/
def WordSt.rel {w : Nat} {St : Type} (a : WordSt w St) (b : LoopSt St) : Prop :=
  a.start.toNat = b.start ∧ a.stop.toNat = b.stop ∧ a.fields = b.fields

theorem wordMin_succ {w : Nat} {a b : BitVec w} (h : a < b) : (wordMin (a + 1) b).toNat = min (a.toNat + 1) b.toNat := by
  have h1 : a.toNat < b.toNat := h
  have h2 : (a + 1).toNat = a.toNat + 1 := by
    have hb := b.isLt
    rw [BitVec.toNat_add]
    have h3 : (1 : BitVec w).toNat = 1 := by
      cases w with
      | zero => omega
      | succ w => simp
    rw [h3, Nat.mod_eq_of_lt (by omega)]
  have h4 : ¬ b < a + 1 := by rw [BitVec.lt_def, h2]; omega
  rw [wordMin, if_neg h4, h2]
  omega

theorem word_pred {w : Nat} {a b : BitVec w} (h : a < b) : (b - 1).toNat = b.toNat - 1 := by
  have h1 : a.toNat < b.toNat := h
  have hb := b.isLt
  have h3 : (1 : BitVec w).toNat = 1 := by
    cases w with
    | zero => omega
    | succ w => simp
  rw [BitVec.toNat_sub, h3, show 2 ^ w - 1 + b.toNat = b.toNat - 1 + 2 ^ w by omega, Nat.add_mod_right,
    Nat.mod_eq_of_lt (by omega)]

theorem wordMax_pred {w : Nat} {a b : BitVec w} (h : a < b) : (wordMax (b - 1) a).toNat = max (b.toNat - 1) a.toNat := by
  by_cases hlt : a < b - 1
  · rw [wordMax, if_pos hlt, word_pred h]
    rw [BitVec.lt_def, word_pred h] at hlt
    omega
  · rw [wordMax, if_neg hlt]
    rw [BitVec.lt_def, word_pred h] at hlt
    omega

theorem wordNext_rel {S α : Type} (w : Nat) (F : StepOf S α) (n : Nat) : ∀ (fuel : Nat) (a : WordSt w F.St) (b : LoopSt F.St),
    a.rel b → b.stop - b.start ≤ n → n < fuel →
    ∃ a', F.wordNext w fuel a = some ((F.loopNext n b).1, a') ∧ a'.rel (F.loopNext n b).2 := by
  induction n with
  | zero =>
    intro fuel a b h hn hf
    cases fuel with
    | zero => omega
    | succ fuel =>
      have : ¬ a.start < a.stop := by
        rw [BitVec.lt_def, h.1, h.2.1]; omega
      refine ⟨a, ?_, h⟩
      simp [StepOf.wordNext, StepOf.loopNext, this]
  | succ n ih =>
    intro fuel a b h hn hf
    cases fuel with
    | zero => omega
    | succ fuel =>
      by_cases hlt : b.start < b.stop
      · have hlt' : a.start < a.stop := by rw [BitVec.lt_def, h.1, h.2.1]; exact hlt
        simp only [StepOf.wordNext, StepOf.loopNext, if_pos hlt, if_pos hlt', h.1, h.2.2]
        rcases hx : F.next b.start b.fields with _ | ⟨_ | x, fs⟩
        · exact ⟨a, rfl, h⟩
        · refine ih fuel _ _ ⟨?_, h.2.1, rfl⟩ ?_ (by omega)
          · rw [wordMin_succ hlt', h.1, h.2.1]
          · show b.stop - min (b.start + 1) b.stop ≤ n
            omega
        · exact ⟨_, rfl, h.1, h.2.1, rfl⟩
      · have hlt' : ¬ a.start < a.stop := by rw [BitVec.lt_def, h.1, h.2.1]; exact hlt
        refine ⟨a, ?_, ?_⟩
        · simp only [StepOf.wordNext, StepOf.loopNext, if_neg hlt, if_neg hlt']
        · simp only [StepOf.loopNext, if_neg hlt]; exact h

theorem wordNextBack_rel {St α : Type} (w : Nat) (nb : Nat → St → Option (Option α × St)) (n : Nat) :
    ∀ (fuel : Nat) (a : WordSt w St) (b : LoopSt St), a.rel b → b.stop - b.start ≤ n → n < fuel →
    ∃ a', wordNextBack w nb fuel a = some ((loopNextBack nb n b).1, a') ∧ a'.rel (loopNextBack nb n b).2 := by
  induction n with
  | zero =>
    intro fuel a b h hn hf
    cases fuel with
    | zero => omega
    | succ fuel =>
      have : ¬ a.start < a.stop := by
        rw [BitVec.lt_def, h.1, h.2.1]; omega
      refine ⟨a, ?_, h⟩
      simp [wordNextBack, loopNextBack, this]
  | succ n ih =>
    intro fuel a b h hn hf
    cases fuel with
    | zero => omega
    | succ fuel =>
      by_cases hlt : b.start < b.stop
      · have hlt' : a.start < a.stop := by rw [BitVec.lt_def, h.1, h.2.1]; exact hlt
        simp only [wordNextBack, loopNextBack, if_pos hlt, if_pos hlt', word_pred hlt', h.2.1, h.2.2]
        rcases hx : nb (b.stop - 1) b.fields with _ | ⟨_ | x, fs⟩
        · exact ⟨a, rfl, h⟩
        · refine ih fuel _ _ ⟨h.1, ?_, rfl⟩ ?_ (by omega)
          · rw [wordMax_pred hlt', h.1, h.2.1]
          · show max (b.stop - 1) b.start - b.start ≤ n
            omega
        · exact ⟨_, rfl, h.1, h.2.1, rfl⟩
      · have hlt' : ¬ a.start < a.stop := by rw [BitVec.lt_def, h.1, h.2.1]; exact hlt
        refine ⟨a, ?_, ?_⟩
        · simp only [wordNextBack, loopNextBack, if_neg hlt, if_neg hlt']
        · simp only [loopNextBack, if_neg hlt]; exact h

theorem wordNext_stop {S α : Type} (F : StepOf S α) (n : Nat) : ∀ b : LoopSt F.St,
    (F.loopNext n b).2.stop = b.stop := by
  induction n with
  | zero => intro b; rfl
  | succ n ih =>
    intro b
    simp only [StepOf.loopNext]
    split
    · split
      · rfl
      · rfl
      · rw [ih]
    · rfl

theorem loopNextBack_stop {St α : Type} (nb : Nat → St → Option (Option α × St)) (n : Nat) : ∀ b : LoopSt St,
    (loopNextBack nb n b).2.stop ≤ b.stop := by
  induction n with
  | zero => intro b; exact Nat.le_refl _
  | succ n ih =>
    intro b
    simp only [loopNextBack]
    split
    · split
      · exact Nat.le_refl _
      · exact Nat.le_refl _
      · refine Nat.le_trans (ih _) ?_
        show max (b.stop - 1) b.start ≤ b.stop
        omega
    · exact Nat.le_refl _

/-- A simulation: a schedule on words returns what it returns on the other iterator. -/
theorem wordRun_sim {S α : Type} (w : Nat) (F : StepOf S α) (fuel : Nat) (I : IterImpl α) (R : WordSt w F.St → I.St → Prop)
    (hn : ∀ a b, R a b → ∃ a', F.wordNext w fuel a = some ((I.next b).1, a') ∧ R a' (I.next b).2)
    (hb : ∀ nb', I.nextBack? = some nb' → ∃ nb, F.nextBack? = some nb ∧
      ∀ a b, R a b → ∃ a', wordNextBack w nb fuel a = some ((nb' b).1, a') ∧ R a' (nb' b).2) (ds : List Dir) :
    ∀ a b outs b', R a b → I.run ds b = some (outs, b') → F.wordRun w fuel ds a = some outs := by
  induction ds with
  | nil =>
    intro a b outs b' _ h
    cases h
    rfl
  | cons d ds ih =>
    intro a b outs b' hr h
    cases d with
    | front =>
      obtain ⟨a', e, hr'⟩ := hn a b hr
      rcases h1 : I.run ds (I.next b).2 with _ | ⟨os, b''⟩
      · simp [IterImpl.run, IterImpl.step, h1] at h
      · simp only [IterImpl.run, IterImpl.step, h1, Option.map_some, Option.some.injEq, Prod.mk.injEq] at h
        simp [StepOf.wordRun, e, ih a' _ os b'' hr' h1, h.1]
    | back =>
      rcases hnb : I.nextBack? with _ | nb'
      · simp [IterImpl.run, IterImpl.step, hnb] at h
      · obtain ⟨nb, hF, hs⟩ := hb nb' hnb
        obtain ⟨a', e, hr'⟩ := hs a b hr
        rcases h1 : I.run ds (nb' b).2 with _ | ⟨os, b''⟩
        · simp [IterImpl.run, IterImpl.step, hnb, h1] at h
        · simp only [IterImpl.run, IterImpl.step, hnb, h1, Option.map_some, Option.some.injEq, Prod.mk.injEq] at h
          simp [StepOf.wordRun, hF, e, ih a' _ os b'' hr' h1, h.1]

/-- A schedule on words returns what it returns on natural numbers. -/
theorem wordRun_rel {S α : Type} (w : Nat) (F : StepOf S α) (fuel : Nat) (ds : List Dir) (a : WordSt w F.St) (b : LoopSt F.St)
    (outs : List (Option α)) (b' : LoopSt F.St) (hr : a.rel b) (hf : b.stop < fuel)
    (h : F.toIter.I.run ds b = some (outs, b')) : F.wordRun w fuel ds a = some outs := by
  refine wordRun_sim w F fuel F.toIter.I (fun a b => a.rel b ∧ LoopSt.stop b < fuel) ?_ ?_ ds a b outs b' ⟨hr, hf⟩ h
  · intro a (b : LoopSt F.St) hr
    obtain ⟨a', e, hr'⟩ := wordNext_rel w F (b.stop - b.start) fuel a b hr.1 (Nat.le_refl _) (by have := hr.2; omega)
    exact ⟨a', e, hr', by have := wordNext_stop F (b.stop - b.start) b; exact this.symm ▸ hr.2⟩
  · intro nb' hnb'
    rcases hb : F.nextBack? with _ | nb
    · have : F.toIter.I.nextBack? = none := by simp [StepOf.toIter, hb]
      rw [this] at hnb'
      cases hnb'
    · have hnb : F.toIter.I.nextBack? =
          some fun st : LoopSt F.St => loopNextBack nb (st.stop - st.start) st := by
        simp [StepOf.toIter, hb]
      rw [hnb] at hnb'
      cases hnb'
      refine ⟨nb, rfl, fun a (b : LoopSt F.St) hr => ?_⟩
      obtain ⟨a', e, hr'⟩ := wordNextBack_rel w nb (b.stop - b.start) fuel a b hr.1 (Nat.le_refl _) (by have := hr.2; omega)
      exact ⟨a', e, hr', Nat.lt_of_le_of_lt (loopNextBack_stop nb _ b) hr.2⟩

/-- Every schedule that only asks for `next_back` if it exists can be run. -/
theorem run_isSome_of {α : Type} (I : IterImpl α) (ds : List Dir) (h : .back ∈ ds → I.nextBack?.isSome) (st : I.St) :
    (I.run ds st).isSome := by
  induction ds generalizing st with
  | nil => rfl
  | cons d ds ih =>
    have ih := ih fun hm => h (List.mem_cons_of_mem _ hm)
    cases d with
    | front => simp [IterImpl.run, IterImpl.step, ih]
    | back =>
      obtain ⟨nb, hnb⟩ := Option.isSome_iff_exists.mp (h List.mem_cons_self)
      simp [IterImpl.run, IterImpl.step, hnb, ih]

theorem wordsOk_of {S α : Type} (w : Nat) (F : StepOf S α) (s : S) (l : List α) (hw : F.count < 2 ^ w)
    (h : Yields F.toIter.I (F.toIter.init s) l) : F.wordsOk w s l := by
  intro ds hb
  have hb' : .back ∈ ds → F.toIter.I.nextBack?.isSome := by
    intro hm
    simpa [StepOf.toIter] using hb hm
  obtain ⟨⟨outs, st'⟩, hr⟩ := Option.isSome_iff_exists.mp (run_isSome_of F.toIter.I ds hb' (F.toIter.init s))
  have := (Yields.behavesLike h ds outs st' hr).1
  subst this
  refine ⟨F.count + 1, fun fuel hf => wordRun_rel w F fuel ds _ _ _ st' ?_ (Nat.lt_of_lt_of_le (Nat.lt_succ_self _) hf) hr⟩
  refine ⟨?_, ?_, rfl⟩
  · simp [StepOf.wordInit, StepOf.toIter]
  · simp [StepOf.wordInit, StepOf.toIter, Nat.mod_eq_of_lt hw]

end FixedMap
