import Verif.Spec.Cost

/-! # Amortised cost: potentials for each iterator -/

set_option autoImplicit false
set_option linter.unusedSimpArgs false

namespace FixedMap

/-- Each call costs at most `c` more than the potential it uses up. -/
structure Amort {α : Type} {I : IterImpl α} (t : Ticks I) (c : Nat) (φ : I.St → Nat) : Prop where
  front : ∀ st, t.front st + φ (I.next st).2 ≤ c + φ st
  back : ∀ nb, I.nextBack? = some nb → ∀ st, t.back st + φ (nb st).2 ≤ c + φ st

theorem Amort.total {α : Type} {I : IterImpl α} {t : Ticks I} {c : Nat} {φ : I.St → Nat} (h : Amort t c φ) :
    ∀ ds st, t.total ds st ≤ c * ds.length + φ st
  | [], st => by simp [Ticks.total]
  | .front :: ds, st => by
    have h1 := h.front st
    have h2 := h.total ds (I.next st).2
    simp only [Ticks.total, List.length_cons, Nat.mul_succ]
    omega
  | .back :: ds, st => by
    rw [Ticks.total]
    cases hb : I.nextBack? with
    | none => simp
    | some nb =>
      have h1 := h.back nb hb st
      have h2 := h.total ds (nb st).2
      simp only [List.length_cons, Nat.mul_succ]
      omega

def AmortOf {S α : Type} (it : IterOf S α) (t : Ticks it.I) (c w : Nat) : Prop := ∃ φ, Amort t c φ ∧ ∀ s, φ (it.init s) ≤ w

theorem AmortOf.linear {S α : Type} {it : IterOf S α} {t : Ticks it.I} {c w : Nat} (h : AmortOf it t c w) : Linear it t c w := by
  obtain ⟨φ, h, hw⟩ := h
  intro s ds
  have := h.total ds (it.init s)
  have := hw s
  omega

theorem AmortOf.mono {S α : Type} {it : IterOf S α} {t : Ticks it.I} {c w : Nat} (h : AmortOf it t c w) {c' w' : Nat} (hc : c ≤ c')
    (hw : w ≤ w') : AmortOf it t c' w' := by
  obtain ⟨φ, h, k⟩ := h
  exact ⟨φ, ⟨fun st => by have := h.front st; omega, fun nb e st => by have := h.back nb e st; omega⟩, fun s => by have := k s; omega⟩

theorem AmortOf.one {S α : Type} (it : IterOf S α) : AmortOf it (.one it.I) 1 0 :=
  ⟨fun _ => 0, ⟨fun _ => Nat.le_refl _, fun _ _ _ => Nat.le_refl _⟩, fun _ => Nat.le_refl _⟩

theorem AmortOf.comap {S T α : Type} {it : IterOf S α} {t : Ticks it.I} {c w : Nat} (p : T → S) (h : AmortOf it t c w) :
    AmortOf (it.comap p) t c w := by
  obtain ⟨φ, h, k⟩ := h
  exact ⟨φ, h, fun s => k (p s)⟩

theorem AmortOf.map {S α β : Type} {it : IterOf S α} {t : Ticks it.I} {c w : Nat} (f : α → β) (h : AmortOf it t c w) :
    AmortOf (it.map f) (.map f t) (c + 1) w := by
  obtain ⟨φ, h, k⟩ := h
  refine ⟨φ, ⟨fun st => ?_, fun nb e st => ?_⟩, k⟩
  · have h1 : t.front st + φ (it.I.next st).2 ≤ _ := h.front st
    show 1 + t.front st + φ (it.I.next st).2 ≤ _
    omega
  · have e : it.I.nextBack?.map _ = some nb := e
    obtain ⟨nb', e', rfl⟩ := Option.map_eq_some_iff.mp e
    have h1 : t.back st + φ (nb' st).2 ≤ _ := h.back nb' e' st
    show 1 + t.back st + φ (nb' st).2 ≤ _
    omega

theorem AmortOf.tag {S α β : Type} {it : IterOf S α} {t : Ticks it.I} {c w : Nat} (f : α → β) (h : AmortOf it t c w) :
    AmortOf (it.map f) (.tag f t) c w := by
  obtain ⟨φ, h, k⟩ := h
  refine ⟨φ, ⟨fun st => h.front st, fun nb e st => ?_⟩, k⟩
  have e : it.I.nextBack?.map _ = some nb := e
  obtain ⟨nb', e', rfl⟩ := Option.map_eq_some_iff.mp e
  exact h.back nb' e' st

theorem clear_amort {St α : Type} (f : St → Option α × St) (tick : St → Nat) (φ : St → Nat) (c : Nat)
    (h : ∀ st, tick st + φ (f st).2 ≤ c + φ st) (o : Option St) :
    clearTicks tick o + clearTicks φ (andThenOrClear f o).2 ≤ c + clearTicks φ o := by
  cases o with
  | none => exact Nat.zero_le _
  | some st =>
    have := h st
    rcases e : f st with ⟨_ | x, st'⟩ <;> rw [e] at this <;> simp only [andThenOrClear, e, clearTicks] <;> omega

theorem opt_amort {St α : Type} (f : St → Option α × St) (tick : St → Nat) (φ : St → Nat) (c : Nat)
    (h : ∀ st, tick st + φ (f st).2 ≤ c + φ st) (o : Option St) :
    clearTicks tick o + clearTicks φ (o.map fun st => (f st).2) ≤ c + clearTicks φ o := by
  cases o with
  | none => exact Nat.zero_le _
  | some st => exact h st

theorem AmortOf.chain {S α : Type} {a b : IterOf S α} {t : Ticks a.I} {u : Ticks b.I} {c d v w : Nat} (h : AmortOf a t c v)
    (k : AmortOf b u d w) : AmortOf (a.chain b) (.chain t u) (c + d + 1) (v + w) := by
  obtain ⟨φ, h, hv⟩ := h
  obtain ⟨ψ, k, hw⟩ := k
  refine ⟨fun st => clearTicks φ st.1 + clearTicks ψ st.2, ⟨fun st => ?_, fun nb e st => ?_⟩, fun s => ?_⟩
  · obtain ⟨oa, ob⟩ := st
    have h1 := clear_amort a.I.next t.front φ c h.front oa
    have h2 := opt_amort b.I.next u.front ψ d k.front ob
    simp only [IterOf.chain, IterImpl.chain, Ticks.chain]
    rcases hr : andThenOrClear a.I.next oa with ⟨_ | x, oa'⟩
    · rw [hr] at h1
      simp only [Option.isSome_none, Bool.false_eq_true, ↓reduceIte]
      cases ob <;> simp only [Option.map, clearTicks] at h1 h2 ⊢ <;> omega
    · rw [hr] at h1
      simp only [Option.isSome_some, ↓reduceIte] at h1 ⊢
      omega
  · obtain ⟨oa, ob⟩ := st
    replace e : (a.I.chain b.I).nextBack? = some nb := e
    simp only [IterImpl.chain] at e
    rcases ha : a.I.nextBack? with _ | inb
    · rw [ha] at e; cases e
    rcases hb : b.I.nextBack? with _ | jnb
    · rw [ha, hb] at e; cases e
    rw [ha, hb] at e
    cases e
    have h1 := clear_amort jnb u.back ψ d (k.back jnb hb) ob
    have h2 := opt_amort inb t.back φ c (h.back inb ha) oa
    simp only [Ticks.chain, hb]
    rcases hr : andThenOrClear jnb ob with ⟨_ | x, ob'⟩
    · rw [hr] at h1
      simp only [Option.isSome_none, Bool.false_eq_true, ↓reduceIte]
      cases oa <;> simp only [Option.map, clearTicks] at h1 h2 ⊢ <;> omega
    · rw [hr] at h1
      simp only [Option.isSome_some, ↓reduceIte] at h1 ⊢
      omega
  · exact Nat.add_le_add (hv s) (hw s)

/-! ## Arrays -/

theorem near_le {α : Type} (o : Option (Option α)) : clearTicks (fun _ => 1) o ≤ 1 := by cases o <;> simp [clearTicks]

theorem flatTicks_front {β α : Type} (f : β → Option α) (near far : Option (Option α)) (l : List β) :
    flatTicks f near far l + 2 * (flatNext f near far l).2.iter.length ≤ 3 + 2 * l.length := by
  induction l generalizing near with
  | nil =>
    have := near_le near
    have := near_le far
    rcases hr : andThenOrClear optNext near with ⟨_ | x, o⟩ <;> simp only [flatTicks, flatNext, hr, List.length_nil] <;> omega
  | cons b bs ih =>
    have := near_le near
    have := ih (some (f b))
    rcases hr : andThenOrClear optNext near with ⟨_ | x, o⟩ <;> simp only [flatTicks, flatNext, hr, List.length_cons] <;> omega

theorem flatTicks_back {β α : Type} (f : β → Option α) (near far : Option (Option α)) (l : List β) :
    flatTicks f near far l + 2 * (flatNextBack f far near l).2.iter.length ≤ 3 + 2 * l.length := by
  induction l generalizing near with
  | nil =>
    have := near_le near
    have := near_le far
    rcases hr : andThenOrClear optNext near with ⟨_ | x, o⟩ <;> simp only [flatTicks, flatNextBack, hr, List.length_nil] <;> omega
  | cons b bs ih =>
    have := near_le near
    have := ih (some (f b))
    rcases hr : andThenOrClear optNext near with ⟨_ | x, o⟩ <;>
      simp only [flatTicks, flatNextBack, hr, List.length_cons, List.length_reverse] <;> omega

theorem AmortOf.flat {S α β : Type} (f : β → Option α) (p : S → List β) {n : Nat} (hp : ∀ s, (p s).length ≤ n) :
    AmortOf (.flat f p) (.flat f) 4 (2 * n) := by
  refine ⟨fun st => 2 * st.iter.length, ⟨fun st => ?_, fun nb e st => ?_⟩, fun s => ?_⟩
  · have := flatTicks_front f st.front st.back st.iter
    show 1 + flatTicks f st.front st.back st.iter + 2 * (flatNext f st.front st.back st.iter).2.iter.length ≤ _
    omega
  · have e : some _ = some nb := e
    cases e
    have := flatTicks_back f st.back st.front st.iter.reverse
    rw [List.length_reverse] at this
    show 1 + flatTicks f st.back st.front st.iter.reverse + 2 * (flatNextBack f st.front st.back st.iter.reverse).2.iter.length ≤ _
    omega
  · have := hp s
    show 2 * (p s).length ≤ _
    omega

/-! ## Generated loops -/

structure AmortS {S α : Type} {F : StepOf S α} (t : StepTicks F) (c : Nat) (φ : F.St → Nat) : Prop where
  front : ∀ i st o st', F.next i st = some (o, st') → t.front i st + φ st' ≤ c + φ st
  break_ : ∀ i st, F.next i st = none → t.front i st = 0
  back : ∀ nb, F.nextBack? = some nb → ∀ i st o st', nb i st = some (o, st') → t.back i st + φ st' ≤ c + φ st
  breakBack : ∀ nb, F.nextBack? = some nb → ∀ i st, nb i st = none → t.back i st = 0

def AmortSteps {S α : Type} (F : StepOf S α) (t : StepTicks F) (c w : Nat) : Prop := ∃ φ, AmortS t c φ ∧ ∀ s, φ (F.init s) ≤ w

theorem AmortSteps.nil (S α : Type) : AmortSteps (StepOf.nil S α) (.nil S α) 0 0 :=
  ⟨fun _ => 0, ⟨fun _ _ _ _ h => (nomatch h), fun _ _ _ => rfl, (fun nb e i st o st' h => by cases e; cases h), fun _ _ _ _ _ => rfl⟩,
    fun _ => Nat.le_refl _⟩

theorem AmortSteps.mono {S α : Type} {F : StepOf S α} {t : StepTicks F} {c w : Nat} (h : AmortSteps F t c w) {c' : Nat} (hc : c ≤ c') :
    AmortSteps F t c' w := by
  obtain ⟨φ, h, k⟩ := h
  exact ⟨φ, ⟨fun i st o st' e => by have := h.front i st o st' e; omega, h.break_,
    fun nb e i st o st' e' => by have := h.back nb e i st o st' e'; omega, h.breakBack⟩, k⟩

theorem AmortSteps.cons {S α : Type} {it : IterOf S α} {F : StepOf S α} {t : Ticks it.I} {u : StepTicks F} {c d v w : Nat}
    (h : AmortOf it t c v) (k : AmortSteps F u d w) : AmortSteps (.cons it F) (.cons t u) (max c d) (v + w) := by
  obtain ⟨φ, h, hv⟩ := h
  obtain ⟨ψ, k, hw⟩ := k
  refine ⟨fun st => φ st.1 + ψ st.2, ⟨fun i st o st' e => ?_, fun i st e => ?_, fun nb e i st o st' e' => ?_, fun nb e i st e' => ?_⟩,
    fun s => Nat.add_le_add (hv s) (hw s)⟩
  · cases i with
    | zero =>
      have e : some _ = some (o, st') := e
      cases e
      have := h.front st.1
      show t.front st.1 + (φ (it.I.next st.1).2 + ψ st.2) ≤ _
      omega
    | succ i =>
      have e : (F.next i st.2).map _ = some (o, st') := e
      obtain ⟨⟨o', st2⟩, e', e2⟩ := Option.map_eq_some_iff.mp e
      cases e2
      have := k.front i st.2 o' st2 e'
      show u.front i st.2 + (φ st.1 + ψ st2) ≤ _
      omega
  · cases i with
    | zero => cases e
    | succ i => exact k.break_ i st.2 (Option.map_eq_none_iff.mp e)
  · simp only [StepOf.cons] at e
    rcases ha : it.I.nextBack? with _ | a
    · rw [ha] at e; cases e
    rcases hb : F.nextBack? with _ | b
    · rw [ha, hb] at e; cases e
    rw [ha, hb] at e
    cases e
    cases i with
    | zero =>
      have e : some _ = some (o, st') := e'
      cases e
      have := h.back a ha st.1
      show t.back st.1 + (φ (a st.1).2 + ψ st.2) ≤ _
      omega
    | succ i =>
      have e : (b i st.2).map _ = some (o, st') := e'
      obtain ⟨⟨o', st2⟩, e3, e2⟩ := Option.map_eq_some_iff.mp e
      cases e2
      have := k.back b hb i st.2 o' st2 e3
      show u.back i st.2 + (φ st.1 + ψ st2) ≤ _
      omega
  · simp only [StepOf.cons] at e
    rcases ha : it.I.nextBack? with _ | a
    · rw [ha] at e; cases e
    rcases hb : F.nextBack? with _ | b
    · rw [ha, hb] at e; cases e
    rw [ha, hb] at e
    cases e
    cases i with
    | zero => cases e'
    | succ i => exact k.breakBack b hb i st.2 (Option.map_eq_none_iff.mp e')

theorem AmortSteps.inside {S T α β : Type} {F : StepOf S α} {t : StepTicks F} {c w : Nat} (p : T → S) (g : α → β) (h : AmortSteps F t c w) :
    AmortSteps ((F.comap p).map g) (.inside p g t) c w := by
  obtain ⟨φ, h, k⟩ := h
  refine ⟨φ, ⟨fun i st o st' e => ?_, fun i st e => h.break_ i st (Option.map_eq_none_iff.mp e), fun nb e i st o st' e' => ?_,
    fun nb e i st e' => ?_⟩, fun s => k (p s)⟩
  · obtain ⟨⟨o', st2⟩, e', e2⟩ := Option.map_eq_some_iff.mp e
    cases e2
    exact h.front i st o' st2 e'
  · obtain ⟨nb', eb, rfl⟩ := Option.map_eq_some_iff.mp e
    obtain ⟨⟨o', st2⟩, e2, e3⟩ := Option.map_eq_some_iff.mp e'
    cases e3
    exact h.back nb' eb i st o' st2 e2
  · obtain ⟨nb', eb, rfl⟩ := Option.map_eq_some_iff.mp e
    exact h.breakBack nb' eb i st (Option.map_eq_none_iff.mp e')

theorem AmortSteps.comap {S T α : Type} {F : StepOf S α} {t : StepTicks F} {c w : Nat} (p : T → S) (h : AmortSteps F t c w) :
    AmortSteps (F.comap p) ⟨t.front, t.back⟩ c w := by
  obtain ⟨φ, h, k⟩ := h
  exact ⟨φ, ⟨h.front, h.break_, h.back, h.breakBack⟩, fun s => k (p s)⟩

/-- The potential of a loop: each remaining round may call a field in vain. -/
def loopPot {St : Type} (c : Nat) (φ : St → Nat) (st : LoopSt St) : Nat := (st.stop - st.start) * (c + 1) + φ st.fields

theorem loop_front {S α : Type} {F : StepOf S α} {t : StepTicks F} {c : Nat} {φ : F.St → Nat} (h : AmortS t c φ) :
    ∀ (fuel : Nat) (st : LoopSt F.St), t.loop fuel st + loopPot c φ (F.loopNext fuel st).2 ≤ c + 1 + loopPot c φ st
  | 0, st => by simp [StepTicks.loop, StepOf.loopNext]
  | fuel + 1, st => by
    obtain ⟨start, stop, fs⟩ := st
    by_cases hlt : start < stop
    · simp only [StepTicks.loop, StepOf.loopNext, hlt, ↓reduceIte]
      rcases he : F.next start fs with _ | ⟨_ | x, fs'⟩
      · have := h.break_ start fs he
        simp only [this]
        omega
      · have h1 := h.front start fs _ fs' he
        have h2 := loop_front h fuel ⟨min (start + 1) stop, stop, fs'⟩
        have e : min (start + 1) stop = start + 1 := by omega
        have e2 : (stop - start) * (c + 1) = (stop - (start + 1)) * (c + 1) + (c + 1) := by
          rw [← Nat.succ_mul]; congr 1; omega
        simp only [loopPot, e] at h2 ⊢
        omega
      · have h1 := h.front start fs _ fs' he
        simp only [loopPot]
        omega
    · simp only [StepTicks.loop, StepOf.loopNext, hlt, ↓reduceIte]
      omega

theorem loop_back {S α : Type} {F : StepOf S α} {t : StepTicks F} {c : Nat} {φ : F.St → Nat} (h : AmortS t c φ)
    {nb : Nat → F.St → Option (Option α × F.St)} (hnb : F.nextBack? = some nb) :
    ∀ (fuel : Nat) (st : LoopSt F.St), loopBackTicks nb t.back fuel st + loopPot c φ (loopNextBack nb fuel st).2 ≤ c + 1 + loopPot c φ st
  | 0, st => by simp [loopBackTicks, loopNextBack]
  | fuel + 1, st => by
    obtain ⟨start, stop, fs⟩ := st
    by_cases hlt : start < stop
    · simp only [loopBackTicks, loopNextBack, hlt, ↓reduceIte]
      rcases he : nb (stop - 1) fs with _ | ⟨_ | x, fs'⟩
      · have := h.breakBack nb hnb (stop - 1) fs he
        simp only [this]
        omega
      · have h1 := h.back nb hnb (stop - 1) fs _ fs' he
        have h2 := loop_back h hnb fuel ⟨start, max (stop - 1) start, fs'⟩
        have e : max (stop - 1) start = stop - 1 := by omega
        have e2 : (stop - start) * (c + 1) = (stop - 1 - start) * (c + 1) + (c + 1) := by
          rw [← Nat.succ_mul]; congr 1; omega
        simp only [loopPot, e] at h2 ⊢
        omega
      · have h1 := h.back nb hnb (stop - 1) fs _ fs' he
        simp only [loopPot]
        omega
    · simp only [loopBackTicks, loopNextBack, hlt, ↓reduceIte]
      omega

theorem AmortSteps.toIter {S α : Type} {F : StepOf S α} {t : StepTicks F} {c w : Nat} (h : AmortSteps F t c w) :
    AmortOf F.toIter t.toIter (c + 2) (F.count * (c + 1) + w) := by
  obtain ⟨φ, h, k⟩ := h
  refine ⟨loopPot c φ, ⟨fun st => ?_, fun nb e st => ?_⟩, fun s => ?_⟩
  · have := loop_front h (st.stop - st.start) st
    show 1 + t.loop (st.stop - st.start) st + loopPot c φ (F.loopNext (st.stop - st.start) st).2 ≤ _
    omega
  · have e : F.nextBack?.map _ = some nb := e
    obtain ⟨nb', e', rfl⟩ := Option.map_eq_some_iff.mp e
    have := loop_back h e' (st.stop - st.start) st
    show (1 + match F.nextBack? with | none => 0 | some nb => loopBackTicks nb t.back (st.stop - st.start) st) +
      loopPot c φ (loopNextBack nb' (st.stop - st.start) st).2 ≤ _
    rw [e']
    simp only
    omega
  · have := k s
    show (F.count - 0) * (c + 1) + φ (F.init s) ≤ _
    simp only [Nat.sub_zero]
    omega

/-! ## Maps -/

structure MapAmort {K V : Type} (M : MapStorage K V) (t : MapTicks M) (c w : Nat) : Prop where
  iter : AmortOf M.iter t.iter c w
  keys : AmortOf M.keys t.keys c w
  values : AmortOf M.values t.values c w
  iterMut : AmortOf M.iterMut t.iterMut c w
  valuesMut : AmortOf M.valuesMut t.valuesMut c w
  intoIter : AmortOf M.intoIter t.intoIter c w

structure MapFieldAmort {K V : Type} (F : MapFields K V) (t : MapFieldTicks F) (c w n : Nat) : Prop where
  iter : AmortSteps F.iter t.iter c w ∧ F.iter.count = n
  keys : AmortSteps F.keys t.keys c w ∧ F.keys.count = n
  values : AmortSteps F.values t.values c w ∧ F.values.count = n
  iterMut : AmortSteps F.iterMut t.iterMut c w ∧ F.iterMut.count = n
  valuesMut : AmortSteps F.valuesMut t.valuesMut c w ∧ F.valuesMut.count = n
  intoIter : AmortSteps F.intoIter t.intoIter c w ∧ F.intoIter.count = n

section
variable {K V : Type}

theorem boolMap_amort : MapAmort (boolMap V) (boolMapTicks V) 5 0 where
  iter := .chain (.map _ (.one (.option _))) (.map _ (.one (.option _)))
  keys := (AmortOf.one (boolMap V).keys).mono (by omega) (by omega)
  values := (AmortOf.chain (.one (.option _)) (.one (.option _))).mono (by omega) (by omega)
  iterMut := .chain (.map _ (.one (.option _))) (.map _ (.one (.option _)))
  valuesMut := (AmortOf.chain (.one (.option _)) (.one (.option _))).mono (by omega) (by omega)
  intoIter := .chain (.map _ (.one (.option _))) (.map _ (.one (.option _)))

theorem optMap_amort {M : MapStorage K V} {t : MapTicks M} {c w : Nat} (h : MapAmort M t c w) : MapAmort (optMap M) (optMapTicks t) (c + 4) w where
  iter := AmortOf.mono (c := c + 1 + 2 + 1) (w := w + 0) (c' := c + 4) (w' := w) (.chain (c := c + 1) (d := 2) (v := w) (w := 0) (.map _ (h.iter.comap OptMapSt.some)) (.map _ (.one (.option _)))) (by omega) (by omega)
  keys := AmortOf.mono (c := c + 1 + 1 + 1) (w := w + 0) (c' := c + 4) (w' := w) (.chain (c := c + 1) (d := 1) (v := w) (w := 0) (.map _ (h.keys.comap OptMapSt.some)) (.one (.option _))) (by omega) (by omega)
  values := AmortOf.mono (c := c + 1 + 1) (w := w + 0) (c' := c + 4) (w' := w) (.chain (c := c) (d := 1) (v := w) (w := 0) (h.values.comap OptMapSt.some) (.one (.option OptMapSt.none))) (by omega) (by omega)
  iterMut := AmortOf.mono (c := c + 1 + 2 + 1) (w := w + 0) (c' := c + 4) (w' := w) (.chain (c := c + 1) (d := 2) (v := w) (w := 0) (.map _ (h.iterMut.comap OptMapSt.some)) (.map _ (.one (.option _)))) (by omega) (by omega)
  valuesMut := AmortOf.mono (c := c + 1 + 1) (w := w + 0) (c' := c + 4) (w' := w) (.chain (c := c) (d := 1) (v := w) (w := 0) (.tag _ (h.valuesMut.comap OptMapSt.some)) (.one (.option _))) (by omega) (by omega)
  intoIter := AmortOf.mono (c := c + 1 + 2 + 1) (w := w + 0) (c' := c + 4) (w' := w) (.chain (c := c + 1) (d := 2) (v := w) (w := 0) (.map _ (h.intoIter.comap OptMapSt.some)) (.map _ (.one (.option _)))) (by omega) (by omega)

theorem unitsMap_amort (n : Nat) : MapAmort (unitsMap n V) (unitsMapTicks n V) 4 (2 * n) where
  iter := .flat _ _ fun s => by simp [unitsPairs]
  keys := .flat _ _ fun s => by simp
  values := .flat _ _ fun s => by simp
  iterMut := .flat _ _ fun s => by simp
  valuesMut := .flat _ _ fun s => by simp
  intoIter := .flat _ _ fun s => by simp [unitsPairs]

theorem one_amort {M : MapStorage K V} : MapAmort M ⟨.one _, .one _, .one _, .one _, .one _, .one _⟩ 1 0 :=
  ⟨.one _, .one _, .one _, .one _, .one _, .one _⟩

theorem hashMap_amort (A : HashMapApi K V) : MapAmort (hashMap A) (hashMapTicks A) 2 0 where
  iter := .map _ (.one _)
  keys := .map _ (.one _)
  values := (AmortOf.one A.values).mono (by omega) (by omega)
  iterMut := .map _ (.one _)
  valuesMut := (AmortOf.one A.values_mut).mono (by omega) (by omega)
  intoIter := (AmortOf.one A.into_iter).mono (by omega) (by omega)

theorem fieldsNil_amort : MapFieldAmort (fieldsNil V) (fieldsNilTicks V) 0 0 0 :=
  ⟨⟨.nil _ _, rfl⟩, ⟨.nil _ _, rfl⟩, ⟨.nil _ _, rfl⟩, ⟨.nil _ _, rfl⟩, ⟨.nil _ _, rfl⟩, ⟨.nil _ _, rfl⟩⟩

/-- `cons` with bounds that are easier to use. -/
theorem AmortSteps.cons' {S α : Type} {it : IterOf S α} {F : StepOf S α} {t : Ticks it.I} {u : StepTicks F} {c d v w x n : Nat}
    (h : AmortOf it t c v) (k : AmortSteps F u d w ∧ F.count = n) (hx : v + w = x) :
    AmortSteps (.cons it F) (.cons t u) (max c d) x ∧ (StepOf.cons it F).count = n + 1 :=
  ⟨hx ▸ AmortSteps.cons h k.1, congrArg (· + 1) k.2⟩

theorem fieldsSimple_amort {F : MapFields K V} {t : MapFieldTicks F} {c w n : Nat} (h : MapFieldAmort F t c w n) :
    MapFieldAmort (fieldsSimple F) (fieldsSimpleTicks t) (max 1 c) w (n + 1) where
  iter := AmortSteps.cons' (.tag _ (.one (.option _))) ⟨.inside _ _ h.iter.1, h.iter.2⟩ (Nat.zero_add _)
  keys := AmortSteps.cons' (.tag _ (.one ⟨takeBoolIter, _⟩)) ⟨.inside _ _ h.keys.1, h.keys.2⟩ (Nat.zero_add _)
  values := AmortSteps.cons' (.one (.option _)) ⟨.comap _ h.values.1, h.values.2⟩ (Nat.zero_add _)
  iterMut := AmortSteps.cons' (.tag _ (.one (.option _))) ⟨.inside _ _ h.iterMut.1, h.iterMut.2⟩ (Nat.zero_add _)
  valuesMut := AmortSteps.cons' (.one (.option _)) ⟨.inside _ _ h.valuesMut.1, h.valuesMut.2⟩ (Nat.zero_add _)
  intoIter := AmortSteps.cons' (.tag _ (.one (.option _))) ⟨.inside _ _ h.intoIter.1, h.intoIter.2⟩ (Nat.zero_add _)

theorem fieldsComplex_amort {E : Type} {M : MapStorage E V} {F : MapFields K V} {u : MapTicks M} {t : MapFieldTicks F} {c d v w n : Nat}
    (k : MapAmort M u c v) (h : MapFieldAmort F t d w n) :
    MapFieldAmort (fieldsComplex M F) (fieldsComplexTicks u t) (max c d) (v + w) (n + 1) where
  iter := AmortSteps.cons' (.tag _ (k.iter.comap _)) ⟨.inside _ _ h.iter.1, h.iter.2⟩ rfl
  keys := AmortSteps.cons' (.tag _ (k.keys.comap _)) ⟨.inside _ _ h.keys.1, h.keys.2⟩ rfl
  values := AmortSteps.cons' (k.values.comap _) ⟨.comap _ h.values.1, h.values.2⟩ rfl
  iterMut := AmortSteps.cons' (.tag _ (k.iterMut.comap _)) ⟨.inside _ _ h.iterMut.1, h.iterMut.2⟩ rfl
  valuesMut := AmortSteps.cons' (.tag _ (k.valuesMut.comap _)) ⟨.inside _ _ h.valuesMut.1, h.valuesMut.2⟩ rfl
  intoIter := AmortSteps.cons' (.tag _ (k.intoIter.comap _)) ⟨.inside _ _ h.intoIter.1, h.intoIter.2⟩ rfl

theorem enumMap_amort {F : MapFields K V} {t : MapFieldTicks F} {c w n : Nat} (h : MapFieldAmort F t c w n) :
    MapAmort (enumMap F) (enumMapTicks t) (c + 2) (n * (c + 1) + w) where
  iter := h.iter.2 ▸ h.iter.1.toIter
  keys := h.keys.2 ▸ h.keys.1.toIter
  values := h.values.2 ▸ h.values.1.toIter
  iterMut := h.iterMut.2 ▸ h.iterMut.1.toIter
  valuesMut := h.valuesMut.2 ▸ h.valuesMut.1.toIter
  intoIter := h.intoIter.2 ▸ h.intoIter.1.toIter

end

mutual
theorem map_amort (H : HashbrownApi) (V : Type) : (κ : KeyTy) → MapAmort (mapStorage H V κ) (mapTicks H V κ) κ.perCall κ.once
  | .bool => boolMap_amort
  | .unit => one_amort (M := unitMap V)
  | .opt κ => optMap_amort (map_amort H V κ)
  | .prim p => hashMap_amort (H p.Key V)
  | .units n => unitsMap_amort n
  | .bitset n _ _ => unitsMap_amort n
  | .enum fs => enumMap_amort (mapField_amort H V fs)
theorem mapField_amort (H : HashbrownApi) (V : Type) : (fs : Fields) →
    MapFieldAmort (mapFields H V fs) (mapFieldTicks H V fs) fs.perCall fs.once fs.count
  | .nil => fieldsNil_amort
  | .simple fs => fieldsSimple_amort (mapField_amort H V fs)
  | .complex κ fs => fieldsComplex_amort (map_amort H V κ) (mapField_amort H V fs)
end

/-! ## Sets -/

structure SetAmort {T : Type} (M : SetStorage T) (t : SetTicks M) (c w : Nat) : Prop where
  iter : AmortOf M.iter t.iter c w
  intoIter : AmortOf M.intoIter t.intoIter c w

structure SetFieldAmort {T : Type} (F : SetFields T) (t : SetFieldTicks F) (c w n : Nat) : Prop where
  iter : AmortSteps F.iter t.iter c w ∧ F.iter.count = n
  intoIter : AmortSteps F.intoIter t.intoIter c w ∧ F.intoIter.count = n

section
variable {T : Type}

theorem optSet_amort {M : SetStorage T} {t : SetTicks M} {c w : Nat} (h : SetAmort M t c w) : SetAmort (optSet M) (optSetTicks t) (c + 4) w where
  iter := AmortOf.mono (c := c + 1 + 1 + 1) (w := w + 0) (c' := c + 4) (w' := w) (.chain (c := c + 1) (d := 1) (v := w) (w := 0) (.map _ (h.iter.comap OptSetSt.some)) (.one (.option _))) (by omega) (by omega)
  intoIter := AmortOf.mono (c := c + 1 + 1 + 1) (w := w + 0) (c' := c + 4) (w' := w) (.chain (c := c + 1) (d := 1) (v := w) (w := 0) (.map _ (h.intoIter.comap OptSetSt.some)) (.one (.option _))) (by omega) (by omega)

theorem boolSet_amort : SetAmort boolSet ⟨.one _, .one _⟩ 5 0 :=
  ⟨(AmortOf.one boolSet.iter).mono (by omega) (by omega), (AmortOf.one boolSet.intoIter).mono (by omega) (by omega)⟩

theorem hashSet_amort (A : HashMapApi T Unit) : SetAmort (hashSet A) (hashSetTicks A) 2 0 :=
  ⟨.map _ (.one A.keys), (AmortOf.tag _ (.one A.into_iter)).mono (by omega) (by omega)⟩

theorem setFieldsSimple_amort {F : SetFields T} {t : SetFieldTicks F} {c w n : Nat} (h : SetFieldAmort F t c w n) :
    SetFieldAmort (setFieldsSimple F) (setFieldsSimpleTicks t) (max 1 c) w (n + 1) where
  iter := AmortSteps.cons' (.tag _ (.one ⟨takeBoolIter, _⟩)) ⟨.inside _ _ h.iter.1, h.iter.2⟩ (Nat.zero_add _)
  intoIter := AmortSteps.cons' (.tag _ (.one ⟨takeBoolIter, _⟩)) ⟨.inside _ _ h.intoIter.1, h.intoIter.2⟩ (Nat.zero_add _)

theorem setFieldsComplex_amort {E : Type} {M : SetStorage E} {F : SetFields T} {u : SetTicks M} {t : SetFieldTicks F} {c d v w n : Nat}
    (k : SetAmort M u c v) (h : SetFieldAmort F t d w n) :
    SetFieldAmort (setFieldsComplex M F) (setFieldsComplexTicks u t) (max c d) (v + w) (n + 1) where
  iter := AmortSteps.cons' (.tag _ (k.iter.comap _)) ⟨.inside _ _ h.iter.1, h.iter.2⟩ rfl
  intoIter := AmortSteps.cons' (.tag _ (k.intoIter.comap _)) ⟨.inside _ _ h.intoIter.1, h.intoIter.2⟩ rfl

end

mutual
theorem set_amort (H : HashbrownApi) : (κ : KeyTy) → SetAmort (setStorage H κ) (setTicks H κ) κ.perCall κ.once
  | .bool => boolSet_amort
  | .unit => ⟨.one unitSet.iter, .one unitSet.intoIter⟩
  | .opt κ => optSet_amort (set_amort H κ)
  | .prim p => hashSet_amort (H p.Key Unit)
  | .units n => (⟨.flat _ _ fun s => by simp, .flat _ _ fun s => by simp⟩ : SetAmort (unitsSet n) ⟨.flat _, .flat _⟩ 4 (2 * n))
  | .bitset n w _ => (⟨.flat _ _ fun s => by simp, .flat _ _ fun s => by simp⟩ : SetAmort (bitsetSet n w) ⟨.flat _, .flat _⟩ 4 (2 * n))
  | .enum fs =>
    have h := setField_amort H fs
    (⟨h.iter.2 ▸ h.iter.1.toIter, h.intoIter.2 ▸ h.intoIter.1.toIter⟩ : SetAmort (enumSet (setFields H fs))
      ⟨(setFieldTicks H fs).iter.toIter, (setFieldTicks H fs).intoIter.toIter⟩ (fs.perCall + 2) (fs.count * (fs.perCall + 1) + fs.once))
theorem setField_amort (H : HashbrownApi) : (fs : Fields) →
    SetFieldAmort (setFields H fs) (setFieldTicks H fs) fs.perCall fs.once fs.count
  | .nil => (⟨⟨.nil _ _, rfl⟩, ⟨.nil _ _, rfl⟩⟩ : SetFieldAmort setFieldsNil ⟨.nil _ _, .nil _ _⟩ 0 0 0)
  | .simple fs => setFieldsSimple_amort (setField_amort H fs)
  | .complex κ fs => setFieldsComplex_amort (set_amort H κ) (setField_amort H fs)
end

end FixedMap
