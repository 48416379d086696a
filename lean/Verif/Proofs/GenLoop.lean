import Verif.Proofs.GenMapIter
import Verif.Spec.GenIter

/-!
# The loops around the generated arms
-/

set_option autoImplicit false
set_option linter.unusedSimpArgs false

namespace FixedMap.Gen

variable {H : HashbrownApi} {V : Type}

/-- The generated iterator struct for a state of the loop. -/
def toVal {St : Type} (rep : St → List (ICell H V)) (st : LoopSt St) : IterVal H V :=
  ⟨st.start, st.stop, inamed 0 (rep st.fields)⟩

theorem runArms_sim {X α : Type} (a : Field → IterArm) (ha : ∀ f, (a f).index = f.index ∧ (a f).recv = f.name)
    (vs : List Variant) (rep : X → List (ICell H V)) (out : α → Out H V) (nx : Nat → X → Option (Option α × X))
    (hl : ∀ st, (rep st).length = vs.length)
    (hn : ∀ j st, atIdx a 0 vs (rep st) j = some ((nx j st).map fun p => (p.1.map out, rep p.2))) (j : Nat) (st : X) :
    runArms j (inamed 0 (rep st)) ((fieldsFrom 0 vs).map a) =
      some (toArmOut ((nx j st).map fun p => (p.1.map out, rep p.2))) := by
  have := runArms_eq a ha vs [] (rep st) j (hl st)
  simp only [List.length_nil, Nat.zero_add, List.nil_append, hn, Option.map_some] at this
  rw [this]
  cases nx j st <;> rfl

theorem runNext_sim {S α : Type} (arms : List IterArm) (F : StepOf S α) (rep : F.St → List (ICell H V))
    (out : α → Out H V)
    (hn : ∀ j st, runArms j (inamed 0 (rep st)) arms =
      some (toArmOut ((F.next j st).map fun p => (p.1.map out, rep p.2)))) :
    ∀ (n fuel : Nat) (st : LoopSt F.St), st.stop - st.start = n → n < fuel →
      runNext arms fuel (toVal rep st) = some ((F.loopNext n st).1.map out, toVal rep (F.loopNext n st).2) := by
  intro n
  induction n with
  | zero =>
    intro fuel st h hf
    obtain ⟨fuel, rfl⟩ : ∃ m, fuel = m + 1 := ⟨fuel - 1, by omega⟩
    have : ¬ st.start < st.stop := by omega
    simp [runNext, toVal, StepOf.loopNext, this]
  | succ n ih =>
    intro fuel st h hf
    obtain ⟨fuel, rfl⟩ : ∃ m, fuel = m + 1 := ⟨fuel - 1, by omega⟩
    have hlt : st.start < st.stop := by omega
    simp only [runNext, toVal, hlt, if_true, hn, Option.bind_some, StepOf.loopNext]
    rcases F.next st.start st.fields with _ | ⟨_ | x, fs⟩
    · rfl
    · simp only [Option.map_some, Option.map_none, toArmOut]
      exact ih fuel ⟨min (st.start + 1) st.stop, st.stop, fs⟩ (by simp only; omega) (by omega)
    · rfl

theorem runNextBack_sim {X α : Type} (arms : List IterArm) (nb : Nat → X → Option (Option α × X))
    (rep : X → List (ICell H V)) (out : α → Out H V)
    (hn : ∀ j st, runArms j (inamed 0 (rep st)) arms =
      some (toArmOut ((nb j st).map fun p => (p.1.map out, rep p.2)))) :
    ∀ (n fuel : Nat) (st : LoopSt X), st.stop - st.start = n → n < fuel →
      runNextBack arms fuel (toVal rep st) = some ((loopNextBack nb n st).1.map out, toVal rep (loopNextBack nb n st).2) := by
  intro n
  induction n with
  | zero =>
    intro fuel st h hf
    obtain ⟨fuel, rfl⟩ : ∃ m, fuel = m + 1 := ⟨fuel - 1, by omega⟩
    have : ¬ st.start < st.stop := by omega
    simp [runNextBack, toVal, loopNextBack, this]
  | succ n ih =>
    intro fuel st h hf
    obtain ⟨fuel, rfl⟩ : ∃ m, fuel = m + 1 := ⟨fuel - 1, by omega⟩
    have hlt : st.start < st.stop := by omega
    simp only [runNextBack, toVal, hlt, if_true, hn, Option.bind_some, loopNextBack]
    rcases nb (st.stop - 1) st.fields with _ | ⟨_ | x, fs⟩
    · rfl
    · simp only [Option.map_some, Option.map_none, toArmOut]
      exact ih fuel ⟨st.start, max (st.stop - 1) st.start, fs⟩ (by simp only; omega) (by omega)
    · rfl

theorem loopNext_le {S α : Type} (F : StepOf S α) : ∀ (n : Nat) (st : LoopSt F.St),
    (F.loopNext n st).2.stop - (F.loopNext n st).2.start ≤ st.stop - st.start := by
  intro n
  induction n with
  | zero => intro st; exact Nat.le_refl _
  | succ n ih =>
    intro st
    simp only [StepOf.loopNext]
    split
    · rcases F.next st.start st.fields with _ | ⟨_ | x, fs⟩
      · exact Nat.le_refl _
      · refine Nat.le_trans (ih _) ?_; simp only; omega
      · exact Nat.le_refl _
    · exact Nat.le_refl _

theorem loopNextBack_le {X α : Type} (nb : Nat → X → Option (Option α × X)) : ∀ (n : Nat) (st : LoopSt X),
    (loopNextBack nb n st).2.stop - (loopNextBack nb n st).2.start ≤ st.stop - st.start := by
  intro n
  induction n with
  | zero => intro st; exact Nat.le_refl _
  | succ n ih =>
    intro st
    simp only [loopNextBack]
    split
    · rcases nb (st.stop - 1) st.fields with _ | ⟨_ | x, fs⟩
      · exact Nat.le_refl _
      · refine Nat.le_trans (ih _) ?_; simp only; omega
      · exact Nat.le_refl _
    · exact Nat.le_refl _

/-- From one field at a time to all schedules. -/
theorem Sim.does {P : Piece} (hP : P.Ok) {S α : Type} {vs : List Variant} {cells : S → List (Cell H V)}
    {F : StepOf S α} {out : α → Out H V} {rep : F.St → List (ICell H V)} (h : Sim P 0 vs cells F out rep) (s : S) :
    (P.code (collect vs).fields).Does (named 0 (cells s)) F.toIter.I (F.toIter.init s) out := by
  have hlen : (fieldsFrom 0 vs).length = vs.length := by
    have : ∀ (vs : List Variant) i, (fieldsFrom i vs).length = vs.length := by
      intro vs; induction vs with
      | nil => intro i; rfl
      | cons v vs ih => intro i; simp [fieldsFrom, ih]
    exact this vs 0
  have hrun : ∀ (fuel : Nat) (ds : List Dir) (st : LoopSt F.St), st.stop - st.start < fuel →
      (P.code (fieldsFrom 0 vs)).run fuel ds (toVal rep st) =
        (F.toIter.I.run ds st).map fun r => r.1.map (Option.map out) := by
    intro fuel ds
    induction ds with
    | nil => intro st _; rfl
    | cons d ds ih =>
      intro st hf
      cases d with
      | front =>
        have h1 := runNext_sim ((fieldsFrom 0 vs).map P.next) F rep out
          (runArms_sim P.next hP.next vs rep out F.next h.length h.next) _ fuel st rfl hf
        have h2 := ih (F.loopNext (st.stop - st.start) st).2 (Nat.lt_of_le_of_lt (loopNext_le F _ st) hf)
        show ((runNext ((fieldsFrom 0 vs).map P.next) fuel (toVal rep st)).bind fun p => _) = _
        rw [h1, Option.bind_some]
        refine (congrArg (Option.map _) h2).trans ?_
        show Option.map _ (Option.map _ _) = Option.map _ (Option.map _ _)
        rw [Option.map_map, Option.map_map]
        rfl
      | back =>
        have hb := h.bounds
        cases hnb : F.nextBack? with
        | none =>
          have hd : (P.code (fieldsFrom 0 vs)).doubleEnded H V = false := by
            rw [hnb] at hb; exact hb.symm
          have h2 : F.toIter.I.step .back st = none := by
            simp only [IterImpl.step, StepOf.toIter, hnb, Option.map_none]
          simp only [IterCode.run, IterCode.step, hd, IterImpl.run]
          rw [h2]
          rfl
        | some nb =>
          have hd : (P.code (fieldsFrom 0 vs)).doubleEnded H V = true := by
            rw [hnb] at hb; exact hb.symm
          have h1 := runNextBack_sim ((fieldsFrom 0 vs).map P.nextBack) nb rep out
            (runArms_sim P.nextBack hP.nextBack vs rep out nb h.length (h.nextBack nb hnb)) _ fuel st rfl hf
          have h2 := ih (loopNextBack nb (st.stop - st.start) st).2 (Nat.lt_of_le_of_lt (loopNextBack_le nb _ st) hf)
          have h3 : F.toIter.I.step .back st = some (loopNextBack nb (st.stop - st.start) st) := by
            simp only [IterImpl.step, StepOf.toIter, hnb, Option.map_some]
          have h4 : (P.code (fieldsFrom 0 vs)).step fuel .back (toVal rep st) =
              runNextBack ((fieldsFrom 0 vs).map P.nextBack) fuel (toVal rep st) := by
            simp only [IterCode.step, hd, if_true]; rfl
          simp only [IterCode.run, h4, h1, Option.bind_some, IterImpl.run]
          rw [h3]
          refine (congrArg (Option.map _) h2).trans ?_
          show Option.map _ (Option.map _ _) = Option.map _ (Option.map _ _)
          rw [Option.map_map, Option.map_map]
          rfl
  refine ⟨vs.length + 1, fun fuel hf ds => ?_⟩
  have hi := h.init [] s rfl
  have ht := h.types (F.init s)
  rw [collect_fields]
  have hm : (P.code (fieldsFrom 0 vs)).make (named 0 (cells s)) = some (toVal rep (F.toIter.init s)) := by
    simp only [List.nil_append] at hi
    refine (congrArg (Option.bind · _) hi).trans ((if_pos ht).trans ?_)
    show some (⟨0, (fieldsFrom 0 vs).length, _⟩ : IterVal H V) = some (⟨0, F.count, _⟩ : IterVal H V)
    rw [h.count, hlen]
    rfl
  rw [IterCode.drive, hm, Option.bind_some]
  refine hrun fuel ds _ ?_
  show F.count - 0 < fuel
  rw [h.count]
  omega

end FixedMap.Gen
