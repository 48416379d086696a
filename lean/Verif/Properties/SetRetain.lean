import Verif.Properties.SetIter
import Verif.Proofs.Listing

/-! # C37, C38: `Set::retain` -/

set_option autoImplicit false
set_option linter.unusedSimpArgs false

namespace FixedMap

/-- A closure together with a log of its calls. -/
def logVisits {σ T : Type} (f : σ → T → σ × Option Bool) : σ × List T → T → (σ × List T) × Option Bool :=
  fun st x => (((f st.1 x).1, st.2 ++ [x]), (f st.1 x).2)

/-- List lemma: the calls made by `visit`. -/
theorem visit_calls {σ T : Type} (f : σ → T → σ × Option Bool) (l : List T) (st : σ) (log : List T) :
    let r := visit (logVisits f) l (st, log)
    let q := visit f l st
    r.kept = q.kept ∧ r.rejected = q.rejected ∧ r.panicked = q.panicked ∧ (q.panicked = false → r.st.2 = log ++ l) ∧
      ∃ l', l' <+: l ∧ r.st.2 = log ++ l' := by
  induction l generalizing st log with
  | nil => exact ⟨rfl, rfl, rfl, by simp [visit], [], List.prefix_rfl, by simp [visit]⟩
  | cons x l ih =>
    rcases h : f st x with ⟨st', _ | _ | _⟩
    · exact ⟨by simp [visit, logVisits, h], by simp [visit, logVisits, h], by simp [visit, logVisits, h],
        by simp [visit, logVisits, h], [x], by simp, by simp [visit, logVisits, h]⟩
    all_goals
      obtain ⟨h1, h2, h3, h4, l', h5, h6⟩ := ih st' (log ++ [x])
      simp only [visit, logVisits, h] at h1 h2 h3 h4 h5 h6 ⊢
      refine ⟨by simp [h1], by simp [h2], h3, fun hp => by simpa using h4 hp, x :: l', ?_, by simpa using h6⟩
      exact (List.cons_prefix_cons).mpr ⟨rfl, h5⟩

variable (H : Hashbrown) (κ : KeyTy)

/-- C37/C38 for every key type, exactly: the closure is called with the elements of a list `l` in order, each once. `l`
consists of the elements of the set in `iter()` order, interleaved with the absent `()` payloads (`phantom`), in
declaration order. -/
theorem C37_retain_exact {σ : Type} (f : σ → κ.Key → σ × Option Bool) (s : (setStorage H.api κ).S) (st : σ) :
    let M := setStorage H.api κ
    let r := FSet.retain M f s st
    ∃ l, (∀ x, x ∈ l ↔ FSet.contains M s x = true ∨ κ.phantom x = true) ∧ l.Nodup ∧ l.Pairwise κ.mayPrecede ∧
      (Reachable M s → (FSet.iter M).runsTo s (l.filter fun x => FSet.contains M s x)) ∧
      r.st = (visit f l st).st ∧ r.panicked = (visit f l st).panicked ∧
      (r.panicked = false → ∀ x, FSet.contains M r.s x = true ↔ x ∈ (visit f l st).kept) ∧
      (∀ x, FSet.contains M s x = true → x ∉ (visit f l st).rejected → FSet.contains M r.s x = true) ∧
      (∀ x, FSet.contains M r.s x = true → x ∈ (visit f l st).kept ∨ FSet.contains M s x = true) := by
  intro M r
  have h := (setLaws H κ).retain_ok f s st
  have hl := visitListing H κ s
  refine ⟨(setLaws H κ).visits s, hl.mem, hl.nodup, hl.sorted, fun hs => ?_, h.st_eq, h.pan, ?_, h.sup, fun x hx => (h.sub x hx).imp id And.right⟩
  · exact (show (setLaws H κ).elems s = _ from hl.filter.symm) ▸ Yields.runsTo ((setIters H κ).iter s (hs.valid _))
  intro hp x
  have hp' : ((setStorage H.api κ).retain f s st).panicked = false := hp
  exact ⟨fun hx => (h.sub x hx).elim id fun h' => (by rw [hp'] at h'; cases h'.1), h.kept x⟩

/-- C37, what holds, for key types without `()`: the closure is called with the elements in `iter()` order until it panics,
and without a panic the set then contains exactly the accepted elements. Full statement: the same without
the hypothesis on the key type; it is false, see `C37_false_for_unit`. -/
theorem C37_retain_partial (hu : κ.noUnit = true) {σ : Type} (f : σ → κ.Key → σ × Option Bool)
    (s : (setStorage H.api κ).S) (hs : Reachable (setStorage H.api κ) s) (st : σ) :
    let M := setStorage H.api κ
    let r := FSet.retain M f s st
    ∃ l, (FSet.iter M).runsTo s l ∧ l.Nodup ∧ (∀ x, x ∈ l ↔ FSet.contains M s x = true) ∧
      r.st = (visit f l st).st ∧ r.panicked = (visit f l st).panicked ∧
      (r.panicked = false → ∀ x, FSet.contains M r.s x = true ↔ x ∈ (visit f l st).kept) := by
  intro M r
  have h := (setLaws H κ).retain_ok f s st
  rw [visits_eq H κ hu s] at h
  refine ⟨(setLaws H κ).elems s, Yields.runsTo ((setIters H κ).iter s (hs.valid _)), (setLaws H κ).nodup s,
    (setLaws H κ).mem_elems s, h.st_eq, h.pan, ?_⟩
  intro hp x
  have hp' : ((setStorage H.api κ).retain f s st).panicked = false := hp
  exact ⟨fun hx => (h.sub x hx).elim id fun h' => (by rw [hp'] at h'; cases h'.1), h.kept x⟩

/-- C37, the calls: exactly once per element in `iter()` order, or a prefix of that if the closure panics. -/
theorem C37_calls_partial (hu : κ.noUnit = true) {σ : Type} (f : σ → κ.Key → σ × Option Bool)
    (s : (setStorage H.api κ).S) (hs : Reachable (setStorage H.api κ) s) (st : σ) :
    let M := setStorage H.api κ
    let r := FSet.retain M (logVisits f) s (st, [])
    ∃ l, (FSet.iter M).runsTo s l ∧ r.st.2 <+: l ∧ (r.panicked = false → r.st.2 = l) := by
  intro M r
  have h := (setLaws H κ).retain_ok (logVisits f) s (st, [])
  rw [visits_eq H κ hu s] at h
  obtain ⟨_, _, h3, h4, l', h5, h6⟩ := visit_calls f ((setLaws H κ).elems s) st []
  have e1 : r.st = _ := h.st_eq
  have e2 : r.panicked = _ := h.pan
  refine ⟨(setLaws H κ).elems s, Yields.runsTo ((setIters H κ).iter s (hs.valid _)), ?_, ?_⟩
  · rw [e1, h6, List.nil_append]; exact h5
  · intro hp
    rw [e2, h3] at hp
    rw [e1, h4 hp, List.nil_append]

theorem visit_stateless {T : Type} (p : T → Bool) (l : List T) :
    (visit (fun (st : Unit) x => (st, some (p x))) l ()).kept = l.filter p ∧
      (visit (fun (st : Unit) x => (st, some (p x))) l ()).panicked = false := by
  induction l with
  | nil => exact ⟨rfl, rfl⟩
  | cons x l ih => cases h : p x <;> simp [visit, h, ih]

/-- C37 for closures without state: afterwards exactly the accepted elements are contained. -/
theorem C37_stateless_partial (hu : κ.noUnit = true) (p : κ.Key → Bool) (s : (setStorage H.api κ).S) (x : κ.Key) :
    let M := setStorage H.api κ
    FSet.contains M (FSet.retain M (fun st x => (st, some (p x))) s ()).s x = (FSet.contains M s x && p x) := by
  intro M
  have h := (setLaws H κ).retain_ok (fun (st : Unit) x => (st, some (p x))) s ()
  rw [visits_eq H κ hu s] at h
  have hk := visit_stateless p ((setLaws H κ).elems s)
  have hm := (setLaws H κ).mem_elems s x
  rw [Bool.eq_iff_iff, Bool.and_eq_true]
  have hp : ((setStorage H.api κ).retain (fun (st : Unit) x => (st, some (p x))) s ()).panicked = false := h.pan.trans hk.2
  constructor
  · intro hx
    rcases h.sub x hx with h1 | h1
    · rw [hk.1, List.mem_filter] at h1
      exact ⟨hm.mp h1.1, h1.2⟩
    · rw [hp] at h1; cases h1.1
  · rintro ⟨h1, h2⟩
    exact h.kept x (by rw [hk.1, List.mem_filter]; exact ⟨hm.mpr h1, h2⟩)

/-- C37 is false for `Set<()>`: `retain` of the empty set calls the closure and adds the element it accepts. -/
theorem C37_false_for_unit :
    let M := setStorage H.api .unit
    let r := FSet.retain M (logVisits fun (st : Unit) _ => (st, some true)) (FSet.new M) ((), [])
    FSet.contains M (FSet.new M) () = false ∧ r.st.2 = [()] ∧ r.panicked = false ∧ FSet.contains M r.s () = true :=
  ⟨rfl, rfl, rfl, rfl⟩

/-- Case: `ExKey` contains no `()`. Keep every second element; a log of the calls. -/
example :
    let r := FSet.retain Ex.N (logVisits fun (st : Nat) _ => (st + 1, some (st % 2 == 0))) Ex.set (0, [])
    Ex.key.noUnit = true ∧ r.st.1 = 5 ∧ r.st.2 = [Ex.simple, Ex.flag false, Ex.byte 7, Ex.opt (some 1), Ex.opt none] ∧
      r.panicked = false ∧ FSet.len Ex.N r.s = 3 ∧ FSet.contains Ex.N r.s (Ex.byte 7) = true ∧
      FSet.contains Ex.N r.s (Ex.opt (some 1)) = false := ⟨rfl, rfl, rfl, rfl, rfl, rfl, rfl⟩

/-- List lemma: where `visit` panics. -/
theorem visit_panic {σ T : Type} (f : σ → T → σ × Option Bool) (l : List T) (st : σ)
    (h : (visit f l st).panicked = true) :
    ∃ pre x post, l = pre ++ x :: post ∧ (visit f pre st).panicked = false ∧
      f (visit f pre st).st x = ((visit f l st).st, none) ∧ (visit f l st).kept = (visit f pre st).kept ∧
      (visit f l st).rejected = (visit f pre st).rejected := by
  induction l generalizing st with
  | nil => simp [visit] at h
  | cons x l ih =>
    rcases hf : f st x with ⟨st', _ | _ | _⟩
    · exact ⟨[], x, l, rfl, rfl, by simp [visit, hf], by simp [visit, hf], by simp [visit, hf]⟩
    all_goals
      simp only [visit, hf] at h
      obtain ⟨pre, y, post, rfl, h1, h2, h3, h4⟩ := ih st' h
      exact ⟨x :: pre, y, post, rfl, by simp [visit, hf, h1], by simp [visit, hf, h2], by simp [visit, hf, h3],
        by simp [visit, hf, h4]⟩

/-- C38, what holds, for key types without `()`: if the closure panics, it does so at some element `x` after having been called
with the elements `pre` before it in `iter()` order; nothing has been added, and only elements the closure had rejected
are missing. Full statement: the same without the hypothesis; it is false, see `C38_false_for_unit`. -/
theorem C38_retain_panic_partial (hu : κ.noUnit = true) {σ : Type} (f : σ → κ.Key → σ × Option Bool)
    (s : (setStorage H.api κ).S) (hs : Reachable (setStorage H.api κ) s) (st : σ) :
    let M := setStorage H.api κ
    let r := FSet.retain M f s st
    r.panicked = true →
    ∃ pre x post, (FSet.iter M).runsTo s (pre ++ x :: post) ∧ (visit f pre st).panicked = false ∧
      f (visit f pre st).st x = (r.st, none) ∧
      (∀ y, FSet.contains M r.s y = true → FSet.contains M s y = true) ∧
      (∀ y, FSet.contains M s y = true → y ∉ (visit f pre st).rejected → FSet.contains M r.s y = true) := by
  intro M r hp
  have h := (setLaws H κ).retain_ok f s st
  rw [visits_eq H κ hu s] at h
  have e1 : r.st = _ := h.st_eq
  have e2 : r.panicked = _ := h.pan
  obtain ⟨pre, x, post, hl, h1, h2, h3, h4⟩ := visit_panic f _ st (e2 ▸ hp)
  refine ⟨pre, x, post, ?_, h1, by rw [h2, e1], ?_, ?_⟩
  · rw [← hl]; exact Yields.runsTo ((setIters H κ).iter s (hs.valid _))
  · intro y hy
    rcases h.sub y hy with h' | h'
    · exact ((setLaws H κ).mem_elems s y).mp ((visit_mem f _ st).1 y h')
    · exact h'.2
  · rw [← h4]; exact h.sup

/-- `enum { A(()), B }`. -/
abbrev unitFirst : KeyTy := .enum (.complex .unit (.simple .nil))

/-- C38 is false for keys with a `()` payload: `retain` on `{B}` adds `A(())`, then the closure panics at `B`. -/
theorem C38_false_for_unit :
    let M := setStorage H.api unitFirst
    let s := (FSet.insert M (FSet.new M) (Sum.inr (Sum.inl ()))).2
    let r := FSet.retain M (fun (n : Nat) _ => (n + 1, if n = 0 then some true else none)) s 0
    FSet.contains M s (Sum.inl ()) = false ∧ r.panicked = true ∧ FSet.contains M r.s (Sum.inl ()) = true :=
  ⟨rfl, rfl, rfl⟩

/-- Case: reject the first element, accept the second, panic at the third; the bitset at the end is unchanged. -/
example :
    let r := FSet.retain Ex.P (fun (n : Nat) _ => (n + 1, if n = 0 then some false else if n ≤ 2 then some (n == 1) else none)) Ex.pset 0
    Ex.plain.noUnit = true ∧ r.panicked = true ∧ r.st = 4 ∧ FSet.contains Ex.P r.s Ex.pa = false ∧
      FSet.contains Ex.P r.s (Ex.pbyte 9) = true ∧ FSet.contains Ex.P r.s (Ex.ppart 0) = true ∧
      FSet.contains Ex.P r.s (Ex.ppart 2) = true := by decide +kernel

end FixedMap
