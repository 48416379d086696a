import Verif.Spec.Tables
import Verif.Proofs.History

/-! # Reference maps that differ in their order -/

set_option autoImplicit false
set_option linter.unusedSimpArgs false

namespace FixedMap

variable {σ K V : Type}

theorem Out.same_refl (a : Out σ K V) : a.same a := by
  cases a <;> simp [Out.same]

theorem StepOut.same_mk {S S' : Type} (o : Out σ K V) (s : S) (s' : S') (a b c : List V) :
    StepOut.same (⟨o, s, a, b, c⟩ : StepOut σ K V S) (⟨o, s', a, b, c⟩ : StepOut σ K V S') :=
  ⟨Out.same_refl _, .refl _, .refl _, .refl _⟩

variable [DecidableEq K]

theorem FinMap.get_sameOrder {l l' : List (K × V)} (h : l.Perm l') (hn : (l.map Prod.fst).Nodup) (k : K) : FinMap.get l k = FinMap.get l' k := by
  apply Option.ext
  intro v
  rw [← Assoc.lookup_iff hn, ← Assoc.lookup_iff ((h.map _).nodup_iff.mp hn), h.mem_iff]

theorem FinMap.erase_sameOrder {l l' : List (K × V)} (h : l.Perm l') (k : K) : (FinMap.erase l k).Perm (FinMap.erase l' k) := h.filter _

theorem FinMap.put_sameOrder {l l' : List (K × V)} (h : l.Perm l') (k : K) (v : V) : (FinMap.put l k v).Perm (FinMap.put l' k v) :=
  (FinMap.erase_sameOrder h k).cons _

omit [DecidableEq K] in
theorem retainRef_pure {f : σ → K → V → σ × V × Option Bool} {g : K → V → V × Bool}
    (hg : ∀ st k v, f st k v = (st, (g k v).1, some (g k v).2)) (l : List (K × V)) (st : σ) :
    retainRef f l st = ⟨(l.filter fun p => (g p.1 p.2).2).map fun p => (p.1, (g p.1 p.2).1), st, false,
      (l.filter fun p => !(g p.1 p.2).2).map fun p => (g p.1 p.2).1⟩ ∧
    retainWrites f l st = (l.map fun p => (g p.1 p.2).1, l.map Prod.snd) := by
  induction l with
  | nil => exact ⟨rfl, rfl⟩
  | cons p l ih =>
    obtain ⟨k, v⟩ := p
    simp only [retainRef, retainWrites, hg]
    cases h : (g k v).2 <;> simp [ih.1, ih.2, h]

omit [DecidableEq K] in
theorem updateList_pure {f : σ → K → V → σ × V} {g : K → V → V} (hg : ∀ st k v, f st k v = (st, g k v)) (l : List (K × V)) (st : σ) :
    updateList f l st = (l.map fun p => (p.1, g p.1 p.2), st) := by
  induction l with
  | nil => rfl
  | cons p l ih => simp [updateList, hg, ih]

theorem refStep_same {op : Op σ K V} (ho : op.orderBlind) {l l' : List (K × V)} (h : l.Perm l') (hn : (l.map Prod.fst).Nodup) :
    (refStep l op).same (refStep l' op) ∧ (refStep l op).s.Perm (refStep l' op).s := by
  have hg := FinMap.get_sameOrder h hn
  have hp := FinMap.put_sameOrder h
  have he := FinMap.erase_sameOrder h
  cases op with
  | retain f st =>
    obtain ⟨g, hg⟩ := ho
    simp only [refStep, (retainRef_pure hg _ _).1, (retainRef_pure hg _ _).2]
    exact ⟨⟨rfl, h.map _, h.map _, (h.filter _).map _⟩, (h.filter _).map _⟩
  | updateAll f st =>
    obtain ⟨g, hg⟩ := ho
    simp only [refStep, updateList_pure hg]
    exact ⟨⟨rfl, (h.map _).map _, h.map _, .refl _⟩, h.map _⟩
  | clear => exact ⟨⟨rfl, .refl _, .refl _, h.map _⟩, .refl _⟩
  | iter => exact ⟨⟨h, .refl _, .refl _, .refl _⟩, h⟩
  | len => exact ⟨⟨by simp [refStep, Out.same, h.length_eq], .refl _, .refl _, .refl _⟩, h⟩
  | isEmpty => exact ⟨⟨by simp [refStep, Out.same, h.isEmpty_eq], .refl _, .refl _, .refl _⟩, h⟩
  | _ =>
    simp only [refStep, hg]
    repeat' split
    all_goals exact ⟨StepOut.same_mk _ _ _ _ _ _, by first | exact h | exact hp _ _ | exact he _⟩

theorem refRun_same {R : K → K → Prop} {ops : List (Op σ K V)} (ho : ∀ op ∈ ops, op.orderBlind) :
    ∀ {l₁ l₂ l₁' l₂' : List (K × V)} {rs₁ rs₂ : List (StepOut σ K V Unit)}, l₁.Perm l₂ → (l₁.map Prod.fst).Nodup →
      RefRun R ops l₁ rs₁ l₁' → RefRun R ops l₂ rs₂ l₂' → sameSteps rs₁ rs₂ ∧ l₁'.Perm l₂' := by
  induction ops with
  | nil =>
    intro l₁ l₂ l₁' l₂' rs₁ rs₂ h hn h1 h2
    cases h1 with
    | nil p1 => cases h2 with
      | nil p2 => exact ⟨trivial, p1.symm.trans (h.trans p2)⟩
  | cons op ops ih =>
    intro l₁ l₂ l₁' l₂' rs₁ rs₂ h hn h1 h2
    cases h1 with
    | cons p1 _ d1 r1 => cases h2 with
      | cons p2 _ d2 r2 =>
        have hn1 := (p1.map Prod.fst).nodup_iff.mp hn
        obtain ⟨s1, s2⟩ := refStep_same (ho op (.head _)) (p1.symm.trans (h.trans p2)) hn1
        obtain ⟨g1, g2⟩ := ih (fun o hm => ho o (.tail _ hm)) s2 (refStep_nodup hn1 op) r1 r2
        exact ⟨⟨⟨s1.out, s1.puts, s1.moved, d1.symm.trans (s1.dropped.trans d2)⟩, g1⟩, g2⟩

/-! ## Sets -/

theorem Lists.samePerm {T : Type} {R : T → T → Prop} {l l' : List T} {P P' : T → Prop} (h : Lists R l P) (h' : Lists R l' P')
    (e : ∀ x, P x ↔ P' x) : l.Perm l' :=
  (List.perm_ext_iff_of_nodup h.1 h'.1).mpr fun x => (h.2.2 x).trans ((e x).trans (h'.2.2 x).symm)

theorem visit_pure {T σ : Type} {f : σ → T → σ × Option Bool} {p : T → Bool} (hp : ∀ st x, f st x = (st, some (p x))) (l : List T) (st : σ) :
    (visit f l st).st = st ∧ (visit f l st).kept = l.filter p ∧ (visit f l st).rejected = l.filter (fun x => !p x) ∧ panicAt f l st = none := by
  induction l with
  | nil => exact ⟨rfl, rfl, rfl, rfl⟩
  | cons x l ih =>
    cases h : p x <;> simp [visit, panicAt, hp, h, ih]

theorem SetCall.ref_same (κ : KeyTy) (c : SetCall κ.Key) (hc : c.orderBlind) {P P' Q Q' : κ.Key → Prop} {o o' : c.Out} (e : ∀ x, P x ↔ P' x)
    (h : c.Ref κ P o Q) (h' : c.Ref κ P' o' Q') : c.sameOut o o' ∧ ∀ x, Q x ↔ Q' x := by
  have eP : P = P' := funext fun x => propext (e x)
  subst eP
  cases c with
  | insert x => exact ⟨Bool.eq_iff_iff.mpr (h.2.trans h'.2.symm), fun y => (h.1 y).trans (h'.1 y).symm⟩
  | remove x => exact ⟨Bool.eq_iff_iff.mpr (h.2.trans h'.2.symm), fun y => (h.1 y).trans (h'.1 y).symm⟩
  | contains x => exact ⟨Bool.eq_iff_iff.mpr (h.2.trans h'.2.symm), fun y => (h.1 y).trans (h'.1 y).symm⟩
  | len =>
    obtain ⟨h1, l, h2, h3⟩ := h
    obtain ⟨h1', l', h2', h3'⟩ := h'
    exact ⟨h3.trans ((h2.samePerm h2' e).length_eq.trans h3'.symm), fun y => (h1 y).trans (h1' y).symm⟩
  | isEmpty => exact ⟨Bool.eq_iff_iff.mpr (h.2.trans h'.2.symm), fun y => (h.1 y).trans (h'.1 y).symm⟩
  | clear => exact ⟨rfl, fun y => ⟨fun c => absurd c (h y), fun c => absurd c (h' y)⟩⟩
  | retain f st =>
    obtain ⟨p, hp⟩ := hc
    obtain ⟨l, h1, h2, h3⟩ := h
    obtain ⟨l', h1', h2', h3'⟩ := h'
    have hl := h1.samePerm h1' (fun _ => Iff.rfl)
    obtain ⟨a1, a2, a3, a4⟩ := visit_pure hp l st
    obtain ⟨b1, b2, b3, b4⟩ := visit_pure hp l' st
    refine ⟨?_, fun y => (h3 y).trans (.trans ?_ (h3' y).symm)⟩
    · exact h2.trans (.trans (by rw [a1, a4, b1, b4]) h2'.symm)
    · unfold retained
      rw [a2, a3, a4, b2, b3, b4, List.mem_filter, List.mem_filter, List.mem_filter, List.mem_filter, hl.mem_iff]
  | iter => exact ⟨h.2.samePerm h'.2 e, fun y => (h.1 y).trans (h'.1 y).symm⟩
  | clone => exact ⟨rfl, fun y => (h y).trans (h' y).symm⟩

theorem SetCall.refRun_same (κ : KeyTy) : ∀ {l l' : List (Sigma fun c : SetCall κ.Key => c.Out)} {P P' Q Q' : κ.Key → Prop},
    l.map Sigma.fst = l'.map Sigma.fst → (∀ c ∈ l.map Sigma.fst, c.orderBlind) → (∀ x, P x ↔ P' x) →
    SetCall.RefRun κ l P Q → SetCall.RefRun κ l' P' Q' → SetCall.Same l l' ∧ ∀ x, Q x ↔ Q' x
  | [], [], _, _, _, _, _, _, e, h, h' => ⟨.nil, fun x => (h x).trans ((e x).trans (h' x).symm)⟩
  | [], _ :: _, _, _, _, _, hm, _, _, _, _ => nomatch hm
  | _ :: _, [], _, _, _, _, hm, _, _, _, _ => nomatch hm
  | ⟨c, o⟩ :: l, ⟨c', o'⟩ :: l', _, _, _, _, hm, hb, e, ⟨_, h1, h2⟩, ⟨_, h1', h2'⟩ => by
    injection hm with e1 e2
    cases e1
    obtain ⟨g1, g2⟩ := SetCall.ref_same κ c (hb c (.head _)) e h1 h1'
    obtain ⟨g3, g4⟩ := SetCall.refRun_same κ e2 (fun d hd => hb d (.tail _ hd)) g2 h2 h2'
    exact ⟨.cons c o o' g1 g3, g4⟩

end FixedMap
