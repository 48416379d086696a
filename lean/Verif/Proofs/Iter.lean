import Verif.Spec.Iter
import Verif.Model.MapApi

/-! # Iterators simulate deques: helper lemmas -/

set_option autoImplicit false

namespace FixedMap

/-- `R` is a simulation between iterator states and lists. -/
structure IsSim {α : Type} (I : IterImpl α) (R : I.St → List α → Prop) : Prop where
  next : ∀ st l, R st l → (I.next st).1 = l.head? ∧ R (I.next st).2 l.tail
  back : ∀ nb, I.nextBack? = some nb → ∀ st l, R st l → (nb st).1 = l.getLast? ∧ R (nb st).2 l.dropLast
  hint : ∀ st l, R st l → HintOk (I.sizeHint st) l.length

/-- The iterator state stands for the list. -/
def Yields {α : Type} (I : IterImpl α) (st : I.St) (l : List α) : Prop :=
  ∃ R, IsSim I R ∧ R st l

theorem Yields.next {α : Type} {I : IterImpl α} {st : I.St} {l : List α} (h : Yields I st l) :
    (I.next st).1 = l.head? ∧ Yields I (I.next st).2 l.tail := by
  obtain ⟨R, hs, hr⟩ := h
  exact ⟨(hs.next _ _ hr).1, R, hs, (hs.next _ _ hr).2⟩

theorem Yields.back {α : Type} {I : IterImpl α} {st : I.St} {l : List α} (h : Yields I st l)
    {nb : I.St → Option α × I.St} (hnb : I.nextBack? = some nb) :
    (nb st).1 = l.getLast? ∧ Yields I (nb st).2 l.dropLast := by
  obtain ⟨R, hs, hr⟩ := h
  exact ⟨(hs.back _ hnb _ _ hr).1, R, hs, (hs.back _ hnb _ _ hr).2⟩

theorem Yields.hint {α : Type} {I : IterImpl α} {st : I.St} {l : List α} (h : Yields I st l) :
    HintOk (I.sizeHint st) l.length := by
  obtain ⟨R, hs, hr⟩ := h
  exact hs.hint _ _ hr

theorem Yields.isSim {α : Type} (I : IterImpl α) : IsSim I (Yields I) :=
  ⟨fun _ _ h => h.next, fun _ hnb _ _ h => h.back hnb, fun _ _ h => h.hint⟩

theorem Yields.behavesLike {α : Type} {I : IterImpl α} {st : I.St} {l : List α} (h : Yields I st l) :
    BehavesLike I st l := by
  intro ds
  induction ds generalizing st l with
  | nil =>
    intro outs st' hr
    simp only [IterImpl.run, Option.some.injEq, Prod.mk.injEq] at hr
    obtain ⟨rfl, rfl⟩ := hr
    exact ⟨rfl, h.hint⟩
  | cons d ds ih =>
    intro outs st' hr
    cases d with
    | front =>
      simp only [IterImpl.run, IterImpl.step] at hr
      cases hrun : I.run ds (I.next st).2 with
      | none => rw [hrun] at hr; simp at hr
      | some p =>
        rw [hrun] at hr
        simp only [Option.map_some, Option.some.injEq, Prod.mk.injEq] at hr
        obtain ⟨rfl, rfl⟩ := hr
        have := ih h.next.2 _ _ hrun
        simp only [dequeRun, dequeStep]
        exact ⟨by rw [h.next.1, this.1], this.2⟩
    | back =>
      simp only [IterImpl.run, IterImpl.step] at hr
      cases hnb : I.nextBack? with
      | none => rw [hnb] at hr; simp at hr
      | some nb =>
        rw [hnb] at hr
        simp only [Option.map_some] at hr
        cases hrun : I.run ds (nb st).2 with
        | none => rw [hrun] at hr; simp at hr
        | some p =>
          rw [hrun] at hr
          simp only [Option.map_some, Option.some.injEq, Prod.mk.injEq] at hr
          obtain ⟨rfl, rfl⟩ := hr
          have := ih (h.back hnb).2 _ _ hrun
          simp only [dequeRun, dequeStep]
          exact ⟨by rw [(h.back hnb).1, this.1], this.2⟩

theorem IsSim.run {α : Type} {I : IterImpl α} {R : I.St → List α → Prop} (hs : IsSim I R) (ds : List Dir)
    {st : I.St} {l : List α} (h : R st l) {outs : List (Option α)} {st' : I.St}
    (hr : I.run ds st = some (outs, st')) : R st' (dequeRun ds l).2 := by
  induction ds generalizing st l outs with
  | nil =>
    simp only [IterImpl.run, Option.some.injEq, Prod.mk.injEq] at hr
    obtain ⟨rfl, rfl⟩ := hr
    exact h
  | cons d ds ih =>
    cases d with
    | front =>
      simp only [IterImpl.run, IterImpl.step] at hr
      obtain ⟨p, hrun, he⟩ := Option.map_eq_some_iff.mp hr
      simp only [Prod.mk.injEq] at he
      obtain ⟨rfl, rfl⟩ := he
      exact ih (hs.next _ _ h).2 hrun
    | back =>
      simp only [IterImpl.run, IterImpl.step] at hr
      cases hnb : I.nextBack? with
      | none => rw [hnb] at hr; simp at hr
      | some nb =>
        rw [hnb] at hr
        simp only [Option.map_some] at hr
        obtain ⟨p, hrun, he⟩ := Option.map_eq_some_iff.mp hr
        simp only [Prod.mk.injEq] at he
        obtain ⟨rfl, rfl⟩ := he
        exact ih (hs.back _ hnb _ _ h).2 hrun

theorem Yields.congr {α : Type} {I : IterImpl α} {st : I.St} {l l' : List α} (h : Yields I st l)
    (e : l = l') : Yields I st l' := e ▸ h

/-- Every schedule can be run when there is a `next_back`. -/
theorem IterImpl.run_isSome {α : Type} {I : IterImpl α} (h : I.nextBack?.isSome) (ds : List Dir) (st : I.St) :
    (I.run ds st).isSome := by
  induction ds generalizing st with
  | nil => rfl
  | cons d ds ih =>
    obtain ⟨nb, hnb⟩ := Option.isSome_iff_exists.mp h
    cases d <;> simp [IterImpl.run, IterImpl.step, hnb, ih]

/-- Schedules with `next` only can always be run. -/
theorem IterImpl.run_front_isSome {α : Type} {I : IterImpl α} (n : Nat) (st : I.St) :
    (I.run (List.replicate n .front) st).isSome := by
  induction n generalizing st with
  | zero => rfl
  | succ n ih => simp [List.replicate_succ, IterImpl.run, IterImpl.step, ih]

theorem Yields.drain {α : Type} {I : IterImpl α} {st : I.St} {l : List α} (h : Yields I st l)
    {fuel : Nat} (hf : l.length < fuel) : I.drain fuel st = some l := by
  induction l generalizing st fuel with
  | nil =>
    obtain ⟨n, rfl⟩ : ∃ n, fuel = n + 1 := ⟨fuel - 1, by simp at hf; omega⟩
    have := h.next.1
    simp only [IterImpl.drain]
    split
    · rfl
    · rename_i heq; rw [heq] at this; simp at this
  | cons a l ih =>
    obtain ⟨n, rfl⟩ : ∃ n, fuel = n + 1 := ⟨fuel - 1, by simp at hf; omega⟩
    have h1 := h.next.1
    have h2 := h.next.2
    simp only [IterImpl.drain]
    split
    · rename_i heq; rw [heq] at h1; simp at h1
    · rename_i b st' heq
      rw [heq] at h1 h2
      simp only [List.head?_cons, Option.some.injEq] at h1
      subst h1
      rw [ih h2 (by simp at hf; omega)]
      rfl

theorem Yields.collect {α : Type} {I : IterImpl α} {st : I.St} {l : List α} (h : Yields I st l)
    {n : Nat} (hf : l.length ≤ n) : I.collect n st = l := by
  induction l generalizing st n with
  | nil =>
    cases n with
    | zero => rfl
    | succ n =>
      have := h.next.1
      simp only [IterImpl.collect]
      split
      · rfl
      · rename_i heq; rw [heq] at this; simp at this
  | cons a l ih =>
    obtain ⟨n, rfl⟩ : ∃ m, n = m + 1 := ⟨n - 1, by simp at hf; omega⟩
    have h1 := h.next.1
    have h2 := h.next.2
    simp only [IterImpl.collect]
    split
    · rename_i heq; rw [heq] at h1; simp at h1
    · rename_i b st' heq
      rw [heq] at h1 h2
      simp only [List.head?_cons, Option.some.injEq] at h1
      subst h1
      rw [ih h2 (by simp at hf; omega)]

/-! ## option, map, bool -/

theorem option_sim (α : Type) : IsSim (optionIter α) (fun st l => l = Option.toList st) := by
  refine ⟨?_, ?_, ?_⟩
  · rintro st l rfl; cases st <;> simp [optionIter]
  · rintro nb hnb st l rfl
    simp only [optionIter] at hnb
    obtain rfl := Option.some.inj hnb
    cases st <;> simp
  · rintro st l rfl; cases st <;> simp [optionIter, HintOk]

theorem yields_option {α : Type} (o : Option α) : Yields (optionIter α) o o.toList := ⟨_, option_sim α, rfl⟩

/-- The states of `map` stand for the mapped lists. -/
theorem IsSim.map {α β : Type} {I : IterImpl α} {R : I.St → List α → Prop} (hs : IsSim I R) (f : α → β) :
    IsSim (I.map f) (fun st l' => ∃ l, l' = l.map f ∧ R st l) := by
  refine ⟨?_, ?_, ?_⟩
  · rintro st _ ⟨l, rfl, h⟩
    refine ⟨?_, l.tail, by simp, (hs.next _ _ h).2⟩
    simp [IterImpl.map, (hs.next _ _ h).1]
  · rintro nb hnb st _ ⟨l, rfl, h⟩
    cases hI : I.nextBack? with
    | none => simp [IterImpl.map, hI] at hnb
    | some nb' =>
      simp only [IterImpl.map, hI, Option.map_some] at hnb
      obtain rfl := Option.some.inj hnb
      exact ⟨by simp [(hs.back _ hI _ _ h).1], l.dropLast, by simp [List.map_dropLast], (hs.back _ hI _ _ h).2⟩
  · rintro st _ ⟨l, rfl, h⟩
    simpa [IterImpl.map] using hs.hint _ _ h

theorem Yields.map {α β : Type} {I : IterImpl α} {st : I.St} {l : List α} (f : α → β)
    (h : Yields I st l) : Yields (I.map f) st (l.map f) :=
  ⟨_, (Yields.isSim I).map f, l, rfl, h⟩

theorem yields_takeBool (b : Bool) : Yields takeBoolIter b (if b then [()] else []) := by
  refine ⟨fun (st : Bool) l => l = if st then [()] else [], ⟨?_, ?_, ?_⟩, rfl⟩
  · rintro st l rfl; cases st <;> simp [takeBoolIter]
  · rintro nb hnb st l rfl
    simp only [takeBoolIter] at hnb
    obtain rfl := Option.some.inj hnb
    cases st <;> simp
  · rintro st l rfl; cases st <;> simp [takeBoolIter, HintOk]

/-! ## chain -/

/-- What an optional inner iterator stands for. -/
def OptRel {St α : Type} (R : St → List α → Prop) : Option St → List α → Prop
  | none, l => l = []
  | some st, l => R st l

theorem andThenOrClear_next {α : Type} {I : IterImpl α} {R : I.St → List α → Prop} (hs : IsSim I R) {o : Option I.St}
    {l : List α} (h : OptRel R o l) :
    (andThenOrClear I.next o).1 = l.head? ∧ OptRel R (andThenOrClear I.next o).2 l.tail := by
  cases o with
  | none => subst h; exact ⟨rfl, rfl⟩
  | some st =>
    have h1 := (hs.next st l h).1
    have h2 := (hs.next st l h).2
    simp only [andThenOrClear]
    split
    · rename_i heq
      rw [heq] at h1
      cases l with
      | nil => exact ⟨rfl, rfl⟩
      | cons => simp at h1
    · rename_i heq
      rw [heq] at h1 h2
      exact ⟨h1, h2⟩

theorem andThenOrClear_back {α : Type} {I : IterImpl α} {R : I.St → List α → Prop} (hs : IsSim I R)
    {nb : I.St → Option α × I.St} (hnb : I.nextBack? = some nb) {o : Option I.St} {l : List α} (h : OptRel R o l) :
    (andThenOrClear nb o).1 = l.getLast? ∧ OptRel R (andThenOrClear nb o).2 l.dropLast := by
  cases o with
  | none => subst h; exact ⟨rfl, rfl⟩
  | some st =>
    have h1 := (hs.back nb hnb st l h).1
    have h2 := (hs.back nb hnb st l h).2
    simp only [andThenOrClear]
    split
    · rename_i heq
      rw [heq] at h1
      cases l with
      | nil => exact ⟨rfl, rfl⟩
      | cons a l => exact absurd (List.getLast?_eq_none_iff.mp h1.symm) (by simp)
    · rename_i heq
      rw [heq] at h1 h2
      exact ⟨h1, h2⟩

theorem head?_none_iff {α : Type} {l : List α} : l.head? = none ↔ l = [] := by cases l <;> simp

theorem IsSim.chain {α : Type} {I J : IterImpl α} {R : I.St → List α → Prop} {T : J.St → List α → Prop} (hR : IsSim I R)
    (hT : IsSim J T) :
    IsSim (I.chain J) (fun st l => ∃ la lb, l = la ++ lb ∧ OptRel R st.1 la ∧ OptRel T st.2 lb) := by
  refine ⟨?_, ?_, ?_⟩
  · rintro ⟨oa, ob⟩ _ ⟨la, lb, rfl, ha, hb⟩
    have hA := andThenOrClear_next hR ha
    simp only [IterImpl.chain]
    split
    · rename_i x oa' heq
      rw [heq] at hA
      cases la with
      | nil => simp at hA
      | cons y la =>
        simp only [List.head?_cons, Option.some.injEq, List.tail_cons] at hA
        obtain ⟨rfl, h2⟩ := hA
        exact ⟨rfl, la, lb, rfl, h2, hb⟩
    · rename_i oa' heq
      rw [heq] at hA
      have hla := head?_none_iff.mp hA.1.symm
      subst hla
      cases ob with
      | none =>
        cases hb
        exact ⟨rfl, [], [], rfl, hA.2, rfl⟩
      | some b =>
        exact ⟨(hT.next b lb hb).1, [], lb.tail, rfl, hA.2, (hT.next b lb hb).2⟩
  · rintro nb hnb ⟨oa, ob⟩ _ ⟨la, lb, rfl, ha, hb⟩
    cases hI : I.nextBack? with
    | none => simp [IterImpl.chain, hI] at hnb
    | some inb =>
      cases hJ : J.nextBack? with
      | none => simp [IterImpl.chain, hI, hJ] at hnb
      | some jnb =>
        simp only [IterImpl.chain, hI, hJ] at hnb
        obtain rfl := Option.some.inj hnb
        have hB := andThenOrClear_back hT hJ hb
        simp only
        split
        · rename_i x ob' heq
          rw [heq] at hB
          cases lb with
          | nil => simp at hB
          | cons y lb =>
            simp only at hB
            refine ⟨?_, la, (y :: lb).dropLast, ?_, ha, hB.2⟩
            · simp [List.getLast?_append, ← hB.1]
            · simp [List.dropLast_append_of_ne_nil]
        · rename_i ob' heq
          rw [heq] at hB
          have hlb : lb = [] := List.getLast?_eq_none_iff.mp hB.1.symm
          subst hlb
          cases oa with
          | none =>
            cases ha
            exact ⟨rfl, [], [], rfl, rfl, hB.2⟩
          | some a =>
            refine ⟨by simpa using (hR.back inb hI a la ha).1, la.dropLast, [], by simp, (hR.back inb hI a la ha).2, hB.2⟩
  · rintro ⟨oa, ob⟩ _ ⟨la, lb, rfl, ha, hb⟩
    cases oa with
    | none =>
      cases ha
      cases ob with
      | none => cases hb; simp [IterImpl.chain, HintOk]
      | some b => simpa [IterImpl.chain] using hT.hint b lb hb
    | some a =>
      have hA := hR.hint a la ha
      cases ob with
      | none => cases hb; simpa [IterImpl.chain] using hA
      | some b =>
        have hB := hT.hint b lb hb
        simp only [HintOk, IterImpl.chain, List.length_append] at hA hB ⊢
        refine ⟨Nat.add_le_add hA.1 hB.1, fun hi h => ?_⟩
        cases h1 : (I.sizeHint a).2 with
        | none => rw [h1] at h; simp [addHint] at h
        | some x =>
          cases h2 : (J.sizeHint b).2 with
          | none => rw [h1, h2] at h; simp [addHint] at h
          | some y =>
            rw [h1, h2] at h
            simp only [addHint, Option.some.injEq] at h
            have := hA.2 x h1
            have := hB.2 y h2
            omega

theorem Yields.chain {α : Type} {I J : IterImpl α} {a : I.St} {b : J.St} {la lb : List α}
    (ha : Yields I a la) (hb : Yields J b lb) :
    Yields (I.chain J) (some a, some b) (la ++ lb) :=
  ⟨_, (Yields.isSim I).chain (Yields.isSim J), la, lb, rfl, ha, hb⟩

/-! ## flatten -/

/-- The items of an optional inner `option::IntoIter`. -/
def innerList {α : Type} : Option (Option α) → List α
  | some (some a) => [a]
  | _ => []

theorem innerList_atc {α : Type} (o : Option (Option α)) :
    ((andThenOrClear optNext o).1 = (innerList o).head?) ∧ innerList (andThenOrClear optNext o).2 = [] := by
  rcases o with _ | _ | a <;> simp [andThenOrClear, optNext, innerList]

/-- What a flatten state stands for. -/
def flatList {β α : Type} (f : β → Option α) (st : FlatSt β α) : List α :=
  innerList st.front ++ st.iter.filterMap f ++ innerList st.back

theorem flatNext_spec {β α : Type} (f : β → Option α) (front back : Option (Option α)) (l : List β) :
    (flatNext f front back l).1 = (flatList f ⟨front, l, back⟩).head? ∧
      flatList f (flatNext f front back l).2 = (flatList f ⟨front, l, back⟩).tail := by
  induction l generalizing front with
  | nil =>
    rcases front with _ | _ | a <;> rcases back with _ | _ | b <;>
      simp [flatNext, andThenOrClear, optNext, flatList, innerList]
  | cons x l ih =>
    rcases front with _ | _ | a
    · simp only [flatNext, andThenOrClear]
      have := ih (some (f x))
      cases hfx : f x <;> simp [hfx, flatList, innerList] at this ⊢ <;> exact this
    · simp only [flatNext, andThenOrClear, optNext]
      have := ih (some (f x))
      cases hfx : f x <;> simp [hfx, flatList, innerList] at this ⊢ <;> exact this
    · simp [flatNext, andThenOrClear, optNext, flatList, innerList]

theorem flatNextBack_spec {β α : Type} (f : β → Option α) (front back : Option (Option α)) (l : List β) :
    (flatNextBack f front back l).1 = (flatList f ⟨front, l.reverse, back⟩).getLast? ∧
      flatList f (flatNextBack f front back l).2 = (flatList f ⟨front, l.reverse, back⟩).dropLast := by
  induction l generalizing back with
  | nil =>
    rcases front with _ | _ | a <;> rcases back with _ | _ | b <;>
      simp [flatNextBack, andThenOrClear, optNext, flatList, innerList]
  | cons x l ih =>
    rcases back with _ | _ | a
    · simp only [flatNextBack, andThenOrClear]
      have := ih (some (f x))
      cases hfx : f x <;> simp [hfx, flatList, innerList] at this ⊢ <;> exact this
    · simp only [flatNextBack, andThenOrClear, optNext]
      have := ih (some (f x))
      cases hfx : f x <;> simp [hfx, flatList, innerList] at this ⊢ <;> exact this
    · constructor
      · simp [flatNextBack, andThenOrClear, optNext, flatList, innerList]
      · simp only [flatNextBack, andThenOrClear, optNext, flatList, innerList, List.append_nil]
        rw [List.dropLast_append_of_ne_nil (by simp)]
        simp

theorem innerLen_eq {α : Type} (o : Option (Option α)) : innerLen o = (innerList o).length := by
  rcases o with _ | _ | a <;> rfl

theorem flat_sim {β α : Type} (f : β → Option α) : IsSim (flatIter f) (fun st l => l = flatList f st) := by
  refine ⟨?_, ?_, ?_⟩
  · rintro ⟨fr, it, bk⟩ _ rfl
    exact ⟨(flatNext_spec f fr bk it).1, (flatNext_spec f fr bk it).2.symm⟩
  · rintro nb hnb ⟨fr, it, bk⟩ _ rfl
    simp only [flatIter] at hnb
    obtain rfl := Option.some.inj hnb
    have := flatNextBack_spec f fr bk it.reverse
    rw [List.reverse_reverse] at this
    exact ⟨this.1, this.2.symm⟩
  · rintro ⟨fr, it, bk⟩ _ rfl
    simp only [flatIter, HintOk, flatList, List.length_append, innerLen_eq]
    refine ⟨by omega, fun hi h => ?_⟩
    cases it with
    | nil => simp at h ⊢; omega
    | cons => simp at h

theorem yields_flat {β α : Type} (f : β → Option α) (st : FlatSt β α) :
    Yields (flatIter f) st (flatList f st) := ⟨_, flat_sim f, rfl⟩

/-! ## the bits of a bool container -/

theorem boolBits_lt4 (bits : BitVec 8) (h : bits < 4#8) :
    bits = 0#8 ∨ bits = 1#8 ∨ bits = 2#8 ∨ bits = 3#8 := by
  revert h; revert bits; decide

/-- Elements of a bool container. -/
def boolBitsList (bits : BitVec 8) : List Bool :=
  (if bits &&& TRUE_BIT ≠ 0 then [true] else []) ++ (if bits &&& FALSE_BIT ≠ 0 then [false] else [])

theorem boolBits_sim : IsSim boolBitsIter (fun (st : BitVec 8) l => st < 4#8 ∧ l = boolBitsList st) := by
  refine ⟨?_, ?_, ?_⟩
  · rintro st _ ⟨h, rfl⟩
    show (boolBitsNext st).1 = _ ∧ (boolBitsNext st).2 < 4#8 ∧ _ = boolBitsList (boolBitsNext st).2
    rcases boolBits_lt4 st h with rfl | rfl | rfl | rfl <;> decide
  · rintro nb hnb st _ ⟨h, rfl⟩
    simp only [boolBitsIter] at hnb
    obtain rfl := Option.some.inj hnb
    show (boolBitsNextBack st).1 = _ ∧ (boolBitsNextBack st).2 < 4#8 ∧ _ = boolBitsList (boolBitsNextBack st).2
    rcases boolBits_lt4 st h with rfl | rfl | rfl | rfl <;> decide
  · rintro st _ ⟨h, rfl⟩
    have : (boolBitsIter.sizeHint st) = ((boolBitsList st).length, some (boolBitsList st).length) := by
      rcases boolBits_lt4 st h with rfl | rfl | rfl | rfl <;> decide
    rw [this]
    exact ⟨Nat.le_refl _, fun hi h => by simp at h; omega⟩

theorem yields_boolBits (bits : BitVec 8) (h : bits < 4#8) : Yields boolBitsIter bits (boolBitsList bits) :=
  ⟨_, boolBits_sim, h, rfl⟩

/-- The size hint is exact at every point. -/
theorem boolBits_exact (bits : BitVec 8) (h : bits < 4#8) (ds : List Dir) (outs : List (Option Bool)) (st' : BitVec 8)
    (hr : boolBitsIter.run ds bits = some (outs, st')) :
    boolBitsIter.sizeHint st' =
      ((dequeRun ds (boolBitsList bits)).2.length, some (dequeRun ds (boolBitsList bits)).2.length) := by
  obtain ⟨h4, e⟩ := boolBits_sim.run ds ⟨h, rfl⟩ hr
  rw [e]
  rcases boolBits_lt4 st' h4 with rfl | rfl | rfl | rfl <;> decide

/-! ## the generated loops -/

/-- Simulation of the arms of a generated iterator by the remaining items per field. -/
structure IsStepSim {S α : Type} (F : StepOf S α) (R : F.St → List (List α) → Prop) : Prop where
  len : ∀ st ls, R st ls → ls.length = F.count
  next : ∀ st ls, R st ls → ∀ i (h : i < ls.length),
    ∃ st', F.next i st = some (ls[i].head?, st') ∧ R st' (ls.modify i List.tail)
  back : ∀ nb, F.nextBack? = some nb → ∀ st ls, R st ls → ∀ i (h : i < ls.length),
    ∃ st', nb i st = some (ls[i].getLast?, st') ∧ R st' (ls.modify i List.dropLast)

/-- The field states stand for these lists. -/
def StepYields {S α : Type} (F : StepOf S α) (st : F.St) (ls : List (List α)) : Prop :=
  ∃ R, IsStepSim F R ∧ R st ls

theorem StepYields.len {S α : Type} {F : StepOf S α} {st : F.St} {ls : List (List α)}
    (h : StepYields F st ls) : ls.length = F.count := by
  obtain ⟨R, hs, hr⟩ := h; exact hs.len _ _ hr

theorem StepYields.next {S α : Type} {F : StepOf S α} {st : F.St} {ls : List (List α)}
    (h : StepYields F st ls) {i : Nat} (hi : i < ls.length) :
    ∃ st', F.next i st = some (ls[i].head?, st') ∧ StepYields F st' (ls.modify i List.tail) := by
  obtain ⟨R, hs, hr⟩ := h
  obtain ⟨st', h1, h2⟩ := hs.next _ _ hr i hi
  exact ⟨st', h1, R, hs, h2⟩

theorem StepYields.back {S α : Type} {F : StepOf S α} {st : F.St} {ls : List (List α)}
    (h : StepYields F st ls) {nb} (hnb : F.nextBack? = some nb) {i : Nat} (hi : i < ls.length) :
    ∃ st', nb i st = some (ls[i].getLast?, st') ∧ StepYields F st' (ls.modify i List.dropLast) := by
  obtain ⟨R, hs, hr⟩ := h
  obtain ⟨st', h1, h2⟩ := hs.back _ hnb _ _ hr i hi
  exact ⟨st', h1, R, hs, h2⟩

theorem StepYields.isSim {S α : Type} (F : StepOf S α) : IsStepSim F (StepYields F) :=
  ⟨fun _ _ h => h.len, fun _ _ h _ hi => h.next hi, fun _ hnb _ _ h _ hi => h.back hnb hi⟩

theorem stepNil_sim (S α : Type) : IsStepSim (StepOf.nil S α) (fun _ ls => ls = []) := by
  refine ⟨?_, ?_, ?_⟩
  · rintro _ _ rfl; rfl
  · rintro _ _ rfl i h; simp at h
  · rintro _ _ _ _ rfl i h; simp at h

theorem stepYields_nil {S α : Type} (st : Unit) : StepYields (StepOf.nil S α) st [] := ⟨_, stepNil_sim S α, rfl⟩

theorem IsStepSim.cons {S α : Type} {it : IterOf S α} {F : StepOf S α} {R : it.I.St → List α → Prop}
    {T : F.St → List (List α) → Prop} (hR : IsSim it.I R) (hT : IsStepSim F T) :
    IsStepSim (StepOf.cons it F) (fun st ls' => ∃ l ls, ls' = l :: ls ∧ R st.1 l ∧ T st.2 ls) := by
  refine ⟨?_, ?_, ?_⟩
  · rintro st _ ⟨l, ls, rfl, ha, hb⟩
    simp [StepOf.cons, hT.len _ _ hb]
  · rintro ⟨a, b⟩ _ ⟨l, ls, rfl, ha, hb⟩ i hi
    cases i with
    | zero =>
      refine ⟨((it.I.next a).2, b), ?_, l.tail, ls, by simp, (hR.next _ _ ha).2, hb⟩
      simp [StepOf.cons, (hR.next _ _ ha).1]
    | succ i =>
      obtain ⟨b', h1, h2⟩ := hT.next _ _ hb i (by simpa using hi)
      refine ⟨(a, b'), ?_, l, ls.modify i List.tail, by simp, ha, h2⟩
      simp [StepOf.cons, h1]
  · rintro nb hnb ⟨a, b⟩ _ ⟨l, ls, rfl, ha, hb⟩ i hi
    cases hI : it.I.nextBack? with
    | none => simp [StepOf.cons, hI] at hnb
    | some inb =>
      cases hF : F.nextBack? with
      | none => simp [StepOf.cons, hI, hF] at hnb
      | some fnb =>
        simp only [StepOf.cons, hI, hF] at hnb
        obtain rfl := Option.some.inj hnb
        cases i with
        | zero =>
          refine ⟨((inb a).2, b), ?_, l.dropLast, ls, by simp, (hR.back _ hI _ _ ha).2, hb⟩
          simp [(hR.back _ hI _ _ ha).1]; rfl
        | succ i =>
          obtain ⟨b', h1, h2⟩ := hT.back _ hF _ _ hb i (by simpa using hi)
          refine ⟨(a, b'), ?_, l, ls.modify i List.dropLast, by simp, ha, h2⟩
          simp [h1]; rfl

theorem StepYields.cons {S α : Type} {it : IterOf S α} {F : StepOf S α} {a : it.I.St} {b : F.St}
    {l : List α} {ls : List (List α)} (ha : Yields it.I a l) (hb : StepYields F b ls) :
    StepYields (StepOf.cons it F) (a, b) (l :: ls) :=
  ⟨_, IsStepSim.cons (it := it) (Yields.isSim it.I) (StepYields.isSim F), l, ls, rfl, ha, hb⟩

theorem IsStepSim.map {S α β : Type} {F : StepOf S α} {R : F.St → List (List α) → Prop} (hs : IsStepSim F R) (g : α → β) :
    IsStepSim (F.map g) (fun st ls' => ∃ ls, ls' = ls.map (List.map g) ∧ R st ls) := by
  refine ⟨?_, ?_, ?_⟩
  · rintro st _ ⟨ls, rfl, h⟩; simpa [StepOf.map] using hs.len _ _ h
  · rintro st _ ⟨ls, rfl, h⟩ i hi
    obtain ⟨st', h1, h2⟩ := hs.next _ _ h i (by simpa using hi)
    refine ⟨st', ?_, _, ?_, h2⟩
    · simp [StepOf.map, h1]
    · apply List.ext_getElem
      · simp
      · intro j hj1 hj2
        simp only [List.getElem_modify, List.getElem_map]
        split <;> simp
  · rintro nb hnb st _ ⟨ls, rfl, h⟩ i hi
    cases hF : F.nextBack? with
    | none => simp [StepOf.map, hF] at hnb
    | some fnb =>
      simp only [StepOf.map, hF, Option.map_some] at hnb
      obtain rfl := Option.some.inj hnb
      obtain ⟨st', h1, h2⟩ := hs.back _ hF _ _ h i (by simpa using hi)
      refine ⟨st', ?_, _, ?_, h2⟩
      · simp [h1]; rfl
      · apply List.ext_getElem
        · simp
        · intro j hj1 hj2
          simp only [List.getElem_modify, List.getElem_map]
          split <;> simp [List.map_dropLast]

theorem StepYields.map {S α β : Type} {F : StepOf S α} {st : F.St} {ls : List (List α)} (g : α → β)
    (h : StepYields F st ls) : StepYields (F.map g) st (ls.map (List.map g)) :=
  ⟨_, (StepYields.isSim F).map g, ls, rfl, h⟩

theorem IsStepSim.comap {S T α : Type} {F : StepOf S α} {R : F.St → List (List α) → Prop} (hs : IsStepSim F R) (p : T → S) :
    IsStepSim (F.comap p) R := ⟨hs.len, hs.next, hs.back⟩

theorem StepYields.comap {S T α : Type} {F : StepOf S α} {st : F.St} {ls : List (List α)} (p : T → S)
    (h : StepYields F st ls) : StepYields (F.comap p) st ls := by
  obtain ⟨R, hs, hr⟩ := h
  exact ⟨R, hs.comap p, hr⟩

/-- The lists before index `i` are empty. -/
def EmptyBelow {α : Type} (ls : List (List α)) (i : Nat) : Prop := ∀ j (h : j < ls.length), j < i → ls[j] = []
/-- The lists from index `i` on are empty. -/
def EmptyFrom {α : Type} (ls : List (List α)) (i : Nat) : Prop := ∀ j (h : j < ls.length), i ≤ j → ls[j] = []

theorem flatten_eq_nil_of {α : Type} {ls : List (List α)} {i : Nat} (h1 : EmptyBelow ls i)
    (h2 : EmptyFrom ls i) : ls.flatten = [] := by
  rw [List.flatten_eq_nil_iff]
  intro l hl
  obtain ⟨j, hj, rfl⟩ := List.getElem_of_mem hl
  by_cases h : j < i
  · exact h1 j hj h
  · exact h2 j hj (by omega)

theorem flatten_split {α : Type} {ls : List (List α)} {i : Nat} (hi : i < ls.length)
    (h1 : EmptyBelow ls i) : ls.flatten = ls[i] ++ (ls.drop (i + 1)).flatten := by
  have : ls = ls.take i ++ ls[i] :: ls.drop (i + 1) := by simp
  have h0 : (ls.take i).flatten = [] := by
    rw [List.flatten_eq_nil_iff]
    intro l hl
    obtain ⟨j, hj, rfl⟩ := List.getElem_of_mem hl
    simp only [List.length_take] at hj
    rw [List.getElem_take]
    exact h1 j (by omega) (by omega)
  conv => lhs; rw [this]
  rw [List.flatten_append, List.flatten_cons, h0]
  simp

theorem flatten_split_back {α : Type} {ls : List (List α)} {i : Nat} (hi : i < ls.length)
    (h1 : EmptyFrom ls (i + 1)) : ls.flatten = (ls.take i).flatten ++ ls[i] := by
  have : ls = ls.take i ++ ls[i] :: ls.drop (i + 1) := by simp
  have h0 : (ls.drop (i + 1)).flatten = [] := by
    rw [List.flatten_eq_nil_iff]
    intro l hl
    obtain ⟨j, hj, rfl⟩ := List.getElem_of_mem hl
    simp only [List.length_drop] at hj
    rw [List.getElem_drop]
    exact h1 _ (by omega) (by omega)
  conv => lhs; rw [this]
  rw [List.flatten_append, List.flatten_cons, h0]
  simp

/-- Invariant of a generated iterator. -/
def LoopInv {S α : Type} (F : StepOf S α) (R : F.St → List (List α) → Prop) (st : LoopSt F.St) (l : List α) : Prop :=
  ∃ ls, R st.fields ls ∧ st.start ≤ st.stop ∧ st.stop ≤ F.count ∧
    EmptyBelow ls st.start ∧ EmptyFrom ls st.stop ∧ l = ls.flatten

theorem emptyBelow_modify_tail {α : Type} {ls : List (List α)} {i m : Nat} {g : List α → List α}
    (hg : g [] = []) (h : EmptyBelow ls m) : EmptyBelow (ls.modify i g) m := by
  intro j hj hjm
  simp only [List.length_modify] at hj
  rw [List.getElem_modify]
  split
  · rw [h j hj hjm, hg]
  · exact h j hj hjm

theorem emptyFrom_modify_tail {α : Type} {ls : List (List α)} {i m : Nat} {g : List α → List α}
    (hg : g [] = []) (h : EmptyFrom ls m) : EmptyFrom (ls.modify i g) m := by
  intro j hj hjm
  simp only [List.length_modify] at hj
  rw [List.getElem_modify]
  split
  · rw [h j hj hjm, hg]
  · exact h j hj hjm

theorem modify_eq_self {α : Type} {ls : List (List α)} {i : Nat} {g : List α → List α}
    (hg : g [] = []) (hi : i < ls.length) (h : ls[i] = []) : ls.modify i g = ls := by
  apply List.ext_getElem
  · simp
  · intro j h1 h2
    rw [List.getElem_modify]
    split
    · rename_i hij; subst hij; rw [h, hg]
    · rfl

theorem loopNext_spec {S α : Type} {F : StepOf S α} {R : F.St → List (List α) → Prop} (hs : IsStepSim F R) (fuel : Nat) (st : LoopSt F.St) (l : List α)
    (hf : st.stop - st.start ≤ fuel) (h : LoopInv F R st l) :
    (F.loopNext fuel st).1 = l.head? ∧ LoopInv F R (F.loopNext fuel st).2 l.tail := by
  induction fuel generalizing st l with
  | zero =>
    obtain ⟨ls, hy, h1, h2, h3, h4, rfl⟩ := h
    have : st.start = st.stop := by omega
    have hnil : ls.flatten = [] := flatten_eq_nil_of h3 (this ▸ h4)
    simp only [StepOf.loopNext]
    rw [hnil]
    exact ⟨rfl, ls, hy, h1, h2, h3, h4, hnil.symm⟩
  | succ fuel ih =>
    obtain ⟨ls, hy, h1, h2, h3, h4, rfl⟩ := h
    simp only [StepOf.loopNext]
    by_cases hlt : st.start < st.stop
    · rw [if_pos hlt]
      have hi : st.start < ls.length := by have := hs.len _ _ hy; omega
      obtain ⟨fs, hn, hy'⟩ := hs.next _ _ hy _ hi
      have hsplit := flatten_split hi h3
      rw [hn]
      cases hh : ls[st.start] with
      | nil =>
        simp only [List.head?_nil]
        have hm := modify_eq_self (g := List.tail) rfl hi hh
        rw [hm] at hy'
        refine ih ⟨min (st.start + 1) st.stop, st.stop, fs⟩ _ (by simp only; omega) ⟨ls, hy', by simp only; omega, h2, ?_, h4, rfl⟩
        intro j hj hlt'
        simp only at hlt'
        by_cases hjs : j < st.start
        · exact h3 j hj hjs
        · have : j = st.start := by omega
          subst this; exact hh
      | cons x xs =>
        simp only [List.head?_cons]
        refine ⟨by rw [hsplit, hh]; rfl, _, hy', h1, h2, emptyBelow_modify_tail rfl h3,
          emptyFrom_modify_tail rfl h4, ?_⟩
        have hi' : st.start < (ls.modify st.start List.tail).length := by simpa using hi
        rw [flatten_split hi' (emptyBelow_modify_tail rfl h3), hsplit, List.getElem_modify, if_pos rfl, hh]
        have : (ls.modify st.start List.tail).drop (st.start + 1) = ls.drop (st.start + 1) := by
          apply List.ext_getElem
          · simp
          · intro j hj1 hj2
            rw [List.getElem_drop, List.getElem_drop, List.getElem_modify, if_neg (by omega)]
        rw [this]
        simp
    · rw [if_neg hlt]
      have : st.start = st.stop := by omega
      have hnil : ls.flatten = [] := flatten_eq_nil_of h3 (this ▸ h4)
      rw [hnil]
      exact ⟨rfl, ls, hy, h1, h2, h3, h4, hnil.symm⟩

theorem loopNextBack_spec {S α : Type} {F : StepOf S α} {R : F.St → List (List α) → Prop} (hs : IsStepSim F R) {nb} (hnb : F.nextBack? = some nb) (fuel : Nat)
    (st : LoopSt F.St) (l : List α) (hf : st.stop - st.start ≤ fuel) (h : LoopInv F R st l) :
    (loopNextBack nb fuel st).1 = l.getLast? ∧ LoopInv F R (loopNextBack nb fuel st).2 l.dropLast := by
  induction fuel generalizing st l with
  | zero =>
    obtain ⟨ls, hy, h1, h2, h3, h4, rfl⟩ := h
    have : st.start = st.stop := by omega
    have hnil : ls.flatten = [] := flatten_eq_nil_of h3 (this ▸ h4)
    simp only [loopNextBack]
    rw [hnil]
    exact ⟨rfl, ls, hy, h1, h2, h3, h4, hnil.symm⟩
  | succ fuel ih =>
    obtain ⟨ls, hy, h1, h2, h3, h4, rfl⟩ := h
    simp only [loopNextBack]
    by_cases hlt : st.start < st.stop
    · rw [if_pos hlt]
      have hi : st.stop - 1 < ls.length := by have := hs.len _ _ hy; omega
      obtain ⟨fs, hn, hy'⟩ := hs.back _ hnb _ _ hy _ hi
      have h4' : EmptyFrom ls (st.stop - 1 + 1) := by
        have : st.stop - 1 + 1 = st.stop := by omega
        rw [this]; exact h4
      have hsplit := flatten_split_back hi h4'
      rw [hn]
      by_cases hh : ls[st.stop - 1] = []
      · have hgl : ls[st.stop - 1].getLast? = none := by rw [hh]; rfl
        rw [hgl]
        simp only
        have hm := modify_eq_self (g := List.dropLast) rfl hi hh
        rw [hm] at hy'
        refine ih ⟨st.start, max (st.stop - 1) st.start, fs⟩ _ (by simp only; omega)
          ⟨ls, hy', by simp only; omega, by simp only; omega, h3, ?_, rfl⟩
        intro j hj hge
        simp only at hge
        by_cases hjs : st.stop ≤ j
        · exact h4 j hj hjs
        · have : j = st.stop - 1 := by omega
          subst this; exact hh
      · obtain ⟨x, hx⟩ : ∃ x, ls[st.stop - 1].getLast? = some x := by
          cases hg : ls[st.stop - 1].getLast? with
          | none => exact absurd (List.getLast?_eq_none_iff.mp hg) hh
          | some x => exact ⟨x, rfl⟩
        rw [hx]
        simp only
        refine ⟨by rw [hsplit, List.getLast?_append, hx]; rfl, _, hy', h1, h2,
          emptyBelow_modify_tail rfl h3, emptyFrom_modify_tail rfl h4, ?_⟩
        have hi' : st.stop - 1 < (ls.modify (st.stop - 1) List.dropLast).length := by simpa using hi
        rw [flatten_split_back hi' (emptyFrom_modify_tail rfl h4'), hsplit, List.getElem_modify, if_pos rfl,
          List.dropLast_append_of_ne_nil hh]
        have : (ls.modify (st.stop - 1) List.dropLast).take (st.stop - 1) = ls.take (st.stop - 1) := by
          apply List.ext_getElem
          · simp
          · intro j hj1 hj2
            simp only [List.length_take, List.length_modify] at hj1 hj2
            rw [List.getElem_take, List.getElem_take, List.getElem_modify, if_neg (by omega)]
        rw [this]
    · rw [if_neg hlt]
      have : st.start = st.stop := by omega
      have hnil : ls.flatten = [] := flatten_eq_nil_of h3 (this ▸ h4)
      rw [hnil]
      exact ⟨rfl, ls, hy, h1, h2, h3, h4, hnil.symm⟩

theorem IsStepSim.toIter {S α : Type} {F : StepOf S α} {R : F.St → List (List α) → Prop} (hs : IsStepSim F R) :
    IsSim F.toIter.I (LoopInv F R) := by
  refine ⟨?_, ?_, ?_⟩
  · intro st l hinv
    exact loopNext_spec hs _ st l (Nat.le_refl _) hinv
  · intro nb hnb st l hinv
    cases hF : F.nextBack? with
    | none => simp [StepOf.toIter, hF] at hnb
    | some fnb =>
      simp only [StepOf.toIter, hF, Option.map_some] at hnb
      obtain rfl := Option.some.inj hnb
      exact loopNextBack_spec hs hF _ st l (Nat.le_refl _) hinv
  · intro st l _
    exact ⟨Nat.zero_le _, fun hi h => by simp [StepOf.toIter] at h⟩

theorem loopInv_init {S α : Type} {F : StepOf S α} {R : F.St → List (List α) → Prop} (hs : IsStepSim F R) {s : S}
    {ls : List (List α)} (h : R (F.init s) ls) : LoopInv F R (F.toIter.init s) ls.flatten := by
  refine ⟨ls, h, Nat.zero_le _, Nat.le_refl _, ?_, ?_, rfl⟩
  · intro j _ hj; simp [StepOf.toIter] at hj
  · intro j hj hge
    simp only [StepOf.toIter] at hge
    have := hs.len _ _ h
    omega

theorem StepYields.toIter {S α : Type} {F : StepOf S α} {s : S} {ls : List (List α)}
    (h : StepYields F (F.init s) ls) : Yields F.toIter.I (F.toIter.init s) ls.flatten :=
  ⟨_, (StepYields.isSim F).toIter, loopInv_init (StepYields.isSim F) h⟩

/-! ## iterators made from a container -/

/-- The iterator made from `s` stands for `l`. -/
def YieldsAt {S α : Type} (it : IterOf S α) (s : S) (l : List α) : Prop := Yields it.I (it.init s) l

theorem YieldsAt.congr {S α : Type} {it : IterOf S α} {s : S} {l l' : List α} (h : YieldsAt it s l)
    (e : l = l') : YieldsAt it s l' := e ▸ h

theorem YieldsAt.map {S α β : Type} {it : IterOf S α} {s : S} {l : List α} {f : α → β}
    (h : YieldsAt it s l) : YieldsAt (it.map f) s (l.map f) := Yields.map f h

theorem YieldsAt.comap {S T α : Type} {it : IterOf S α} {p : T → S} {t : T} {l : List α}
    (h : YieldsAt it (p t) l) : YieldsAt (it.comap p) t l := h

theorem YieldsAt.chain {S α : Type} {a b : IterOf S α} {s : S} {la lb : List α}
    (ha : YieldsAt a s la) (hb : YieldsAt b s lb) : YieldsAt (a.chain b) s (la ++ lb) := Yields.chain ha hb

theorem yieldsAt_option {S α : Type} (p : S → Option α) (s : S) :
    YieldsAt (IterOf.option p) s (p s).toList := yields_option (p s)

theorem yieldsAt_flat {S α β : Type} (f : β → Option α) (p : S → List β) (s : S) :
    YieldsAt (IterOf.flat f p) s ((p s).filterMap f) :=
  (yields_flat f ⟨none, p s, none⟩).congr (by simp [flatList, innerList])

/-- The iterator fields made from `s` stand for `l` in total. -/
def StepYieldsAt {S α : Type} (F : StepOf S α) (s : S) (l : List α) : Prop :=
  ∃ ls, StepYields F (F.init s) ls ∧ ls.flatten = l

theorem StepYieldsAt.congr {S α : Type} {F : StepOf S α} {s : S} {l l' : List α} (h : StepYieldsAt F s l)
    (e : l = l') : StepYieldsAt F s l' := e ▸ h

theorem stepYieldsAt_nil {S α : Type} (s : S) : StepYieldsAt (StepOf.nil S α) s [] :=
  ⟨[], stepYields_nil (), rfl⟩

theorem StepYieldsAt.cons {S α : Type} {it : IterOf S α} {F : StepOf S α} {s : S} {la lb : List α}
    (ha : YieldsAt it s la) (hb : StepYieldsAt F s lb) : StepYieldsAt (StepOf.cons it F) s (la ++ lb) := by
  obtain ⟨ls, hls, rfl⟩ := hb
  exact ⟨la :: ls, StepYields.cons ha hls, rfl⟩

theorem StepYieldsAt.map {S α β : Type} {F : StepOf S α} {s : S} {l : List α} {g : α → β}
    (h : StepYieldsAt F s l) : StepYieldsAt (F.map g) s (l.map g) := by
  obtain ⟨ls, hls, rfl⟩ := h
  exact ⟨_, hls.map g, by rw [List.map_flatten]⟩

theorem StepYieldsAt.comap {S T α : Type} {F : StepOf S α} {p : T → S} {t : T} {l : List α}
    (h : StepYieldsAt F (p t) l) : StepYieldsAt (F.comap p) t l := by
  obtain ⟨ls, hls, rfl⟩ := h
  exact ⟨ls, StepYields.comap p hls, rfl⟩

theorem StepYieldsAt.toIter {S α : Type} {F : StepOf S α} {s : S} {l : List α}
    (h : StepYieldsAt F s l) : YieldsAt F.toIter s l := by
  obtain ⟨ls, hls, rfl⟩ := h
  exact hls.toIter

end FixedMap
