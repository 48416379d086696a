import Verif.Spec.Sound
import Verif.Proofs.Memory
import Verif.Proofs.CoreLaws

/-! # Soundness with arbitrary storages: helper lemmas -/

set_option autoImplicit false
set_option linter.unusedSimpArgs false

namespace FixedMap

theorem Res.map_ne_ub {α β : Type} {f : α → β} {r : Res α} (h : r ≠ .ub) : r.map f ≠ .ub := by
  cases r with
  | ok a => exact fun e => nomatch e
  | panic => exact fun e => nomatch e
  | ub => exact absurd rfl h

theorem Res.bind_ne_ub {α β : Type} {f : α → Res β} {r : Res α} (h : r ≠ .ub) (hf : ∀ a, r = .ok a → f a ≠ .ub) : r.bind f ≠ .ub := by
  cases r with
  | ok a => exact hf a rfl
  | panic => exact fun e => nomatch e
  | ub => exact absurd rfl h

/-! ## Iterators of references -/

section
variable {α β A B : Type}

/-- `inv g st` holds if the references `g` were handed out before the state `st`, and is kept. -/
def Keeps (I : IterImpl α) (addr : α → A) (live : A → Prop) (ap : A → A → Prop) (inv : List A → I.St → Prop) : Prop :=
  ∀ g st d o st', inv g st → I.step d st = some (o, st') →
    match o with
    | none => inv g st'
    | some x => (∀ y ∈ g, ap y (addr x)) ∧ live (addr x) ∧ inv (addr x :: g) st'

theorem Keeps.distinct {I : IterImpl α} {addr : α → A} {live : A → Prop} {ap : A → A → Prop} {inv : List A → I.St → Prop} (h : Keeps I addr live ap inv)
    {st : I.St} (h0 : inv [] st) : I.Distinct addr live ap st := by
  have gen : ∀ ds g st outs st', inv g st → I.run ds st = some (outs, st') →
      ((outs.filterMap id).map addr).Pairwise ap ∧ ∀ x ∈ outs.filterMap id, live (addr x) ∧ ∀ y ∈ g, ap y (addr x) := by
    intro ds
    induction ds with
    | nil =>
      intro g st outs st' _ hr
      cases hr
      exact ⟨.nil, fun _ h => by cases h⟩
    | cons d ds ih =>
      intro g st outs st' hi hr
      unfold IterImpl.run at hr
      rcases hs : I.step d st with _ | ⟨o, st1⟩
      · rw [hs] at hr; cases hr
      · rw [hs] at hr
        obtain ⟨⟨outs', st2⟩, hr', e⟩ := Option.map_eq_some_iff.mp hr
        cases e
        have k := h g st d o st1 hi hs
        cases o with
        | none =>
          have := ih g st1 _ _ k hr'
          simpa using this
        | some x =>
          obtain ⟨k1, k2, k3⟩ := k
          obtain ⟨i1, i2⟩ := ih _ st1 _ _ k3 hr'
          refine ⟨?_, ?_⟩
          · show (addr x :: ((outs'.filterMap id).map addr)).Pairwise ap
            refine List.pairwise_cons.mpr ⟨fun z hm => ?_, i1⟩
            obtain ⟨y, hy, e⟩ := List.mem_map.mp hm
            exact e ▸ (i2 y hy).2 _ List.mem_cons_self
          · intro y hy
            rcases List.mem_cons.mp (show y ∈ x :: outs'.filterMap id from hy) with rfl | hy
            · exact ⟨k2, k1⟩
            · exact ⟨(i2 y hy).1, fun z hm => (i2 y hy).2 z (List.mem_cons_of_mem _ hm)⟩
  exact fun ds outs st' hr => ⟨(gen ds [] st outs st' h0 hr).1, fun x hx => ((gen ds [] st outs st' h0 hr).2 x hx).1⟩

theorem run_snoc (I : IterImpl α) (ds : List Dir) (d : Dir) (st : I.St) (outs : List (Option α)) (st1 : I.St) (o : Option α) (st2 : I.St)
    (h : I.run ds st = some (outs, st1)) (hs : I.step d st1 = some (o, st2)) : I.run (ds ++ [d]) st = some (outs ++ [o], st2) := by
  induction ds generalizing st outs with
  | nil =>
    cases h
    show IterImpl.run I [d] _ = _
    unfold IterImpl.run
    rw [hs]
    rfl
  | cons e ds ih =>
    rw [List.cons_append]
    unfold IterImpl.run at h ⊢
    rcases he : I.step e st with _ | ⟨oe, ste⟩
    · rw [he] at h; cases h
    · rw [he] at h
      obtain ⟨⟨outs', s'⟩, hr, eq⟩ := Option.map_eq_some_iff.mp h
      cases eq
      show Option.map _ (IterImpl.run I (ds ++ [d]) ste) = _
      rw [ih ste outs' hr]
      rfl

theorem IterImpl.Distinct.keeps {I : IterImpl α} {addr : α → A} {live : A → Prop} {ap : A → A → Prop} {st : I.St} (h : I.Distinct addr live ap st) :
    ∃ inv, Keeps I addr live ap inv ∧ inv [] st ∧ ∀ g st', inv g st' → ∀ a ∈ g, live a := by
  refine ⟨fun g st' => ∃ ds outs, I.run ds st = some (outs, st') ∧ g = ((outs.filterMap id).map addr).reverse, ?_, ⟨[], [], rfl, rfl⟩, ?_⟩
  · rintro g st1 d o st2 ⟨ds, outs, hr, rfl⟩ hs
    have hr' := run_snoc I ds d st outs st1 o st2 hr hs
    cases o with
    | none => exact ⟨_, _, hr', by simp⟩
    | some x =>
      have k := h _ _ _ hr'
      rw [List.filterMap_append, List.map_append] at k
      obtain ⟨k1, k2⟩ := k
      refine ⟨fun y hm => ?_, k2 x (List.mem_append.mpr (.inr (by simp))), ⟨_, _, hr', by simp⟩⟩
      rw [List.mem_reverse] at hm
      exact (List.pairwise_append.mp k1).2.2 _ hm _ (by simp)
  · rintro g st' ⟨ds, outs, hr, rfl⟩ a ha
    obtain ⟨x, hx, rfl⟩ := List.mem_map.mp (List.mem_reverse.mp ha)
    exact (h _ _ _ hr).2 x hx

theorem Keeps.map {I : IterImpl α} {addr : α → A} {live : A → Prop} {ap : A → A → Prop} {inv : List A → I.St → Prop} (h : Keeps I addr live ap inv) (f : α → β)
    (addr' : β → B) (φ : A → B) {ap' : B → B → Prop} (hφ : ∀ a b, ap a b → ap' (φ a) (φ b)) (e : ∀ x, addr' (f x) = φ (addr x)) (live' : B → Prop)
    (hl : ∀ a, live a → live' (φ a)) : Keeps (I.map f) addr' live' ap' fun g st => ∃ g0, g = g0.map φ ∧ inv g0 st := by
  rintro g st d o st' ⟨g0, rfl, hi⟩ hs
  obtain ⟨o0, ho, hs0⟩ : ∃ o0, o = o0.map f ∧ I.step d st = some (o0, st') := by
    cases d with
    | front => cases hs; exact ⟨_, rfl, rfl⟩
    | back =>
      obtain ⟨nb, hnb, e⟩ := Option.map_eq_some_iff.mp hs
      obtain ⟨nb0, hnb0, rfl⟩ := Option.map_eq_some_iff.mp hnb
      cases e
      exact ⟨_, rfl, by unfold IterImpl.step; rw [hnb0]; rfl⟩
  subst ho
  have k := h g0 st d o0 st' hi hs0
  cases o0 with
  | none => exact ⟨g0, rfl, k⟩
  | some x =>
    obtain ⟨k1, k2, k3⟩ := k
    refine ⟨fun y hm => ?_, ?_, ⟨addr x :: g0, ?_, k3⟩⟩
    · obtain ⟨a, ha, rfl⟩ := List.mem_map.mp hm
      rw [show addr' (f x) = _ from e x]; exact hφ _ _ (k1 a ha)
    · rw [show addr' (f x) = _ from e x]; exact hl _ k2
    · rw [List.map_cons, ← e x]

theorem IterImpl.Distinct.map {I : IterImpl α} {addr : α → A} {live : A → Prop} {ap : A → A → Prop} {st : I.St} (h : I.Distinct addr live ap st) (f : α → β)
    (addr' : β → B) (φ : A → B) {ap' : B → B → Prop} (hφ : ∀ a b, ap a b → ap' (φ a) (φ b)) (e : ∀ x, addr' (f x) = φ (addr x)) (live' : B → Prop)
    (hl : ∀ a, live a → live' (φ a)) : (I.map f).Distinct addr' live' ap' st := by
  obtain ⟨inv, hk, h0, _⟩ := h.keeps
  exact (hk.map f addr' φ hφ e live' hl).distinct ⟨[], rfl, h0⟩

/-- At most one reference. -/
theorem distinct_option {addr : α → A} {live : A → Prop} {ap : A → A → Prop} (o : Option α) (h : ∀ x, o = some x → live (addr x)) :
    (optionIter α).Distinct addr live ap o := by
  have hk : Keeps (optionIter α) addr live ap fun g st => (∀ x, st = some x → live (addr x)) ∧ (st.isSome = true → g = []) := by
    rintro g st d o st' ⟨h1, h2⟩ hs
    have : o = st ∧ st' = none := by cases d <;> · cases hs; exact ⟨rfl, rfl⟩
    obtain ⟨rfl, rfl⟩ := this
    cases o with
    | none => exact ⟨h1, h2⟩
    | some x =>
      rw [h2 rfl]
      exact ⟨fun _ h => (nomatch h), h1 x rfl, fun _ h => (nomatch h), fun h => (nomatch h)⟩
  exact hk.distinct ⟨h, fun _ => rfl⟩

/-- What a part of an iterator handed out: the references of one side. -/
theorem side_fresh {cls : A → Bool} {ap : A → A → Prop} {g ga gb : List A} {c : Bool} {a : A} (hg : g.Perm (ga ++ gb))
    (hb : ∀ x ∈ gb, cls x = !c) (hc : cls a = c) (hx : ∀ x y, cls x ≠ cls y → ap x y) (h : ∀ y ∈ ga, ap y a) : ∀ y ∈ g, ap y a := by
  intro y hm
  rcases List.mem_append.mp (hg.mem_iff.mp hm) with hm | hm
  · exact h y hm
  · refine hx y a ?_
    rw [hb y hm, hc]
    cases c <;> decide

/-- `chain`: the two parts hand out references of different classes. -/
theorem IterImpl.Distinct.chain {I J : IterImpl α} {addr : α → A} {live : A → Prop} {ap : A → A → Prop} (cls : A → Bool) (hx : ∀ x y, cls x ≠ cls y → ap x y) {st : I.St} {st' : J.St}
    (hI : I.Distinct addr (fun a => live a ∧ cls a = true) ap st) (hJ : J.Distinct addr (fun a => live a ∧ cls a = false) ap st') :
    (I.chain J).Distinct addr live ap (some st, some st') := by
  obtain ⟨invI, kI, i0, iL⟩ := hI.keeps
  obtain ⟨invJ, kJ, j0, jL⟩ := hJ.keeps
  have hk : Keeps (I.chain J) addr live ap fun g p => ∃ ga gb, g.Perm (ga ++ gb) ∧ (∀ x ∈ ga, cls x = true) ∧ (∀ x ∈ gb, cls x = false) ∧
      (∀ a, p.1 = some a → invI ga a) ∧ (∀ b, p.2 = some b → invJ gb b) := by
    rintro g ⟨oa, ob⟩ d o ⟨oa', ob'⟩ ⟨ga, gb, hg, ca, cb, ha, hb⟩ hs
    have hg' : g.Perm (gb ++ ga) := hg.trans List.perm_append_comm
    -- an item of the first part
    have left : ∀ a x a' ob', oa = some a → (∃ d, I.step d a = some (some x, a')) → (∀ b, ob' = some b → invJ gb b) →
        (∀ y ∈ g, ap y (addr x)) ∧ live (addr x) ∧ ∃ ga' gb', (addr x :: g).Perm (ga' ++ gb') ∧ (∀ x ∈ ga', cls x = true) ∧ (∀ x ∈ gb', cls x = false) ∧
          (∀ c, some a' = some c → invI ga' c) ∧ (∀ b, ob' = some b → invJ gb' b) := by
      rintro a x a' ob' rfl ⟨d, hd⟩ hb'
      obtain ⟨k1, ⟨k2, k2'⟩, k3⟩ := kI ga a d _ _ (ha a rfl) hd
      refine ⟨side_fresh hg cb k2' hx k1, k2, addr x :: ga, gb, hg.cons _, ?_, cb, fun c hc => by cases hc; exact k3, hb'⟩
      intro y hy
      rcases List.mem_cons.mp hy with rfl | hy
      · exact k2'
      · exact ca y hy
    have right : ∀ b x b' oa', ob = some b → (∃ d, J.step d b = some (some x, b')) → (∀ a, oa' = some a → invI ga a) →
        (∀ y ∈ g, ap y (addr x)) ∧ live (addr x) ∧ ∃ ga' gb', (addr x :: g).Perm (ga' ++ gb') ∧ (∀ x ∈ ga', cls x = true) ∧ (∀ x ∈ gb', cls x = false) ∧
          (∀ a, oa' = some a → invI ga' a) ∧ (∀ c, some b' = some c → invJ gb' c) := by
      rintro b x b' oa' rfl ⟨d, hd⟩ ha'
      obtain ⟨k1, ⟨k2, k2'⟩, k3⟩ := kJ gb b d _ _ (hb b rfl) hd
      refine ⟨side_fresh hg' ca k2' hx k1, k2, ga, addr x :: gb, (hg.cons _).trans List.perm_middle.symm, ca, ?_, ha',
        fun c hc => by cases hc; exact k3⟩
      intro y hy
      rcases List.mem_cons.mp hy with rfl | hy
      · exact k2'
      · exact cb y hy
    cases d with
    | front =>
      simp only [IterImpl.step, IterImpl.chain, Option.some.injEq] at hs
      -- the first part
      cases oa with
      | some a =>
        rcases hn : I.next a with ⟨_ | x, a'⟩
        · simp only [andThenOrClear, hn] at hs
          cases ob with
          | none => cases hs; exact ⟨ga, gb, hg, ca, cb, fun _ h => (nomatch h), hb⟩
          | some b =>
            rcases hm : J.next b with ⟨_ | y, b'⟩
            · simp only [hm] at hs
              cases hs
              have := kJ gb b .front none b' (hb b rfl) (congrArg some hm)
              exact ⟨ga, gb, hg, ca, cb, fun _ h => (nomatch h), fun c hc => by cases hc; exact this⟩
            · simp only [hm] at hs
              cases hs
              exact right b y b' none rfl ⟨.front, congrArg some hm⟩ fun _ h => (nomatch h)
        · simp only [andThenOrClear, hn] at hs
          cases hs
          exact left a x a' _ rfl ⟨.front, congrArg some hn⟩ hb
      | none =>
        simp only [andThenOrClear] at hs
        cases ob with
        | none => cases hs; exact ⟨ga, gb, hg, ca, cb, fun _ h => (nomatch h), hb⟩
        | some b =>
          rcases hm : J.next b with ⟨_ | y, b'⟩
          · simp only [hm] at hs
            cases hs
            have := kJ gb b .front none b' (hb b rfl) (congrArg some hm)
            exact ⟨ga, gb, hg, ca, cb, fun _ h => (nomatch h), fun c hc => by cases hc; exact this⟩
          · simp only [hm] at hs
            cases hs
            exact right b y b' none rfl ⟨.front, congrArg some hm⟩ fun _ h => (nomatch h)
    | back =>
      simp only [IterImpl.step, IterImpl.chain] at hs
      cases hi : I.nextBack? with
      | none => rw [hi] at hs; cases hs
      | some inb =>
      cases hj : J.nextBack? with
      | none => rw [hi, hj] at hs; cases hs
      | some jnb =>
      have sI : ∀ a, I.step .back a = some (inb a) := fun a => by unfold IterImpl.step; rw [hi]; rfl
      have sJ : ∀ b, J.step .back b = some (jnb b) := fun b => by unfold IterImpl.step; rw [hj]; rfl
      rw [hi, hj] at hs
      simp only [Option.map_some, Option.some.injEq] at hs
      cases ob with
      | some b =>
        rcases hn : jnb b with ⟨_ | x, b'⟩
        · simp only [andThenOrClear, hn] at hs
          cases oa with
          | none => cases hs; exact ⟨ga, gb, hg, ca, cb, ha, fun _ h => (nomatch h)⟩
          | some a =>
            rcases hm : inb a with ⟨_ | y, a'⟩
            · simp only [hm] at hs
              cases hs
              have := kI ga a .back none a' (ha a rfl) ((sI a).trans (congrArg some hm))
              exact ⟨ga, gb, hg, ca, cb, fun c hc => by cases hc; exact this, fun _ h => (nomatch h)⟩
            · simp only [hm] at hs
              cases hs
              exact left a y a' none rfl ⟨.back, (sI a).trans (congrArg some hm)⟩ fun _ h => (nomatch h)
        · simp only [andThenOrClear, hn] at hs
          cases hs
          exact right b x b' _ rfl ⟨.back, (sJ b).trans (congrArg some hn)⟩ ha
      | none =>
        simp only [andThenOrClear] at hs
        cases oa with
        | none => cases hs; exact ⟨ga, gb, hg, ca, cb, ha, fun _ h => (nomatch h)⟩
        | some a =>
          rcases hm : inb a with ⟨_ | y, a'⟩
          · simp only [hm] at hs
            cases hs
            have := kI ga a .back none a' (ha a rfl) ((sI a).trans (congrArg some hm))
            exact ⟨ga, gb, hg, ca, cb, fun c hc => by cases hc; exact this, fun _ h => (nomatch h)⟩
          · simp only [hm] at hs
            cases hs
            exact left a y a' none rfl ⟨.back, (sI a).trans (congrArg some hm)⟩ fun _ h => (nomatch h)
  exact hk.distinct ⟨[], [], .nil, fun _ h => (nomatch h), fun _ h => (nomatch h), fun a h => Option.some.inj h ▸ i0,
    fun b h => Option.some.inj h ▸ j0⟩

/-! ## The iterators of derived storages -/

/-- One arm of the loop, from either end. -/
def StepOf.arm {S : Type} (F : StepOf S α) : Dir → Nat → F.St → Option (Option α × F.St)
  | .front, i, st => F.next i st
  | .back, i, st => F.nextBack?.bind fun nb => nb i st

/-- As `Keeps`, for the fields of a derived iterator, whichever arms are run. -/
def StepKeeps {S : Type} (F : StepOf S α) (addr : α → A) (live : A → Prop) (ap : A → A → Prop) (inv : List A → F.St → Prop) : Prop :=
  ∀ g st d i o st', inv g st → F.arm d i st = some (o, st') →
    match o with
    | none => inv g st'
    | some x => (∀ y ∈ g, ap y (addr x)) ∧ live (addr x) ∧ inv (addr x :: g) st'

/-- The fields hand out distinct live references. -/
def StepDistinct {S : Type} (F : StepOf S α) (addr : α → A) (live : A → Prop) (ap : A → A → Prop) (st : F.St) : Prop :=
  ∃ inv, StepKeeps F addr live ap inv ∧ inv [] st ∧ ∀ g st', inv g st' → ∀ a ∈ g, live a

theorem stepDistinct_nil {S : Type} {addr : α → A} {live : A → Prop} {ap : A → A → Prop} (st : Unit) : StepDistinct (StepOf.nil S α) addr live ap st := by
  refine ⟨fun g _ => g = [], fun g st d i o st' _ h => ?_, rfl, fun g _ e => by subst e; intro _ h; cases h⟩
  cases d <;> cases h

theorem StepDistinct.map {S : Type} {F : StepOf S α} {addr : α → A} {live : A → Prop} {ap : A → A → Prop} {st : F.St} (h : StepDistinct F addr live ap st)
    (f : α → β) (addr' : β → B) (φ : A → B) {ap' : B → B → Prop} (hφ : ∀ a b, ap a b → ap' (φ a) (φ b)) (e : ∀ x, addr' (f x) = φ (addr x)) (live' : B → Prop)
    (hl : ∀ a, live a → live' (φ a)) : StepDistinct (F.map f) addr' live' ap' st := by
  obtain ⟨inv, hk, h0, hL⟩ := h
  refine ⟨fun g st => ∃ g0, g = g0.map φ ∧ inv g0 st, ?_, ⟨[], rfl, h0⟩, ?_⟩
  · rintro g st d i o st' ⟨g0, rfl, hi⟩ hs
    obtain ⟨o0, ho, hs0⟩ : ∃ o0, o = o0.map f ∧ F.arm d i st = some (o0, st') := by
      cases d with
      | front =>
        obtain ⟨⟨o0, st0⟩, h1, h2⟩ := Option.map_eq_some_iff.mp hs
        cases h2
        exact ⟨o0, rfl, h1⟩
      | back =>
        obtain ⟨nb, hnb, h1⟩ := Option.bind_eq_some_iff.mp hs
        obtain ⟨nb0, hnb0, rfl⟩ := Option.map_eq_some_iff.mp hnb
        obtain ⟨⟨o0, st0⟩, h2, h3⟩ := Option.map_eq_some_iff.mp h1
        cases h3
        exact ⟨o0, rfl, Option.bind_eq_some_iff.mpr ⟨nb0, hnb0, h2⟩⟩
    subst ho
    have k := hk g0 st d i o0 st' hi hs0
    cases o0 with
    | none => exact ⟨g0, rfl, k⟩
    | some x =>
      obtain ⟨k1, k2, k3⟩ := k
      refine ⟨fun y hm => ?_, ?_, ⟨addr x :: g0, ?_, k3⟩⟩
      · obtain ⟨a, ha, rfl⟩ := List.mem_map.mp hm
        rw [show addr' (f x) = _ from e x]; exact hφ _ _ (k1 a ha)
      · rw [show addr' (f x) = _ from e x]; exact hl _ k2
      · rw [List.map_cons, ← e x]
  · rintro g st' ⟨g0, rfl, hi⟩ a ha
    obtain ⟨b, hb, rfl⟩ := List.mem_map.mp ha
    exact hl b (hL _ _ hi b hb)

/-- One more field: it hands out references of another class than the rest. -/
theorem StepDistinct.cons {S : Type} {it : IterOf S α} {F : StepOf S α} {addr : α → A} {live : A → Prop} {ap : A → A → Prop} (cls : A → Bool) (hx : ∀ x y, cls x ≠ cls y → ap x y) {st : it.I.St}
    {st' : F.St} (hI : it.I.Distinct addr (fun a => live a ∧ cls a = true) ap st)
    (hF : StepDistinct F addr (fun a => live a ∧ cls a = false) ap st') : StepDistinct (StepOf.cons it F) addr live ap (st, st') := by
  obtain ⟨invI, kI, i0, iL⟩ := hI.keeps
  obtain ⟨invJ, kJ, j0, jL⟩ := hF
  refine ⟨fun g p => ∃ ga gb, g.Perm (ga ++ gb) ∧ invI ga p.1 ∧ invJ gb p.2, ?_, ⟨[], [], .nil, i0, j0⟩, ?_⟩
  · rintro g ⟨a, b⟩ d i o ⟨a', b'⟩ ⟨ga, gb, hg, ha, hb⟩ hs
    have hg' : g.Perm (gb ++ ga) := hg.trans List.perm_append_comm
    have ca : ∀ x ∈ ga, cls x = true := fun x hx => (iL _ _ ha x hx).2
    have cb : ∀ x ∈ gb, cls x = false := fun x hx => (jL _ _ hb x hx).2
    -- which part the arm belongs to
    have parts : (b' = b ∧ it.I.step d a = some (o, a')) ∨ (a' = a ∧ ∃ i, F.arm d i b = some (o, b')) := by
      cases d with
      | front =>
        cases i with
        | zero => cases hs; exact .inl ⟨rfl, rfl⟩
        | succ i =>
          obtain ⟨⟨o0, st0⟩, h1, h2⟩ := Option.map_eq_some_iff.mp hs
          cases h2
          exact .inr ⟨rfl, i, h1⟩
      | back =>
        obtain ⟨nb, hnb, h1⟩ := Option.bind_eq_some_iff.mp hs
        simp only [StepOf.cons] at hnb
        cases hi : it.I.nextBack? with
        | none => rw [hi] at hnb; cases hnb
        | some inb =>
        cases hj : F.nextBack? with
        | none => rw [hi, hj] at hnb; cases hnb
        | some fnb =>
        rw [hi, hj] at hnb
        cases hnb
        cases i with
        | zero => cases h1; exact .inl ⟨rfl, by unfold IterImpl.step; rw [hi]; rfl⟩
        | succ i =>
          obtain ⟨⟨o0, st0⟩, h2, h3⟩ := Option.map_eq_some_iff.mp h1
          cases h3
          exact .inr ⟨rfl, i, Option.bind_eq_some_iff.mpr ⟨fnb, hj, h2⟩⟩
    rcases parts with ⟨rfl, hd⟩ | ⟨rfl, i, hd⟩
    · have k := kI ga a d o a' ha hd
      cases o with
      | none => exact ⟨ga, gb, hg, k, hb⟩
      | some x =>
        obtain ⟨k1, ⟨k2, k2'⟩, k3⟩ := k
        exact ⟨side_fresh hg cb k2' hx k1, k2, addr x :: ga, gb, hg.cons _, k3, hb⟩
    · have k := kJ gb b d i o b' hb hd
      cases o with
      | none => exact ⟨ga, gb, hg, ha, k⟩
      | some x =>
        obtain ⟨k1, ⟨k2, k2'⟩, k3⟩ := k
        exact ⟨side_fresh hg' ca k2' hx k1, k2, ga, addr x :: gb, (hg.cons _).trans List.perm_middle.symm, ha, k3⟩
  · rintro g ⟨a, b⟩ ⟨ga, gb, hg, ha, hb⟩ x hx
    rcases List.mem_append.mp (hg.mem_iff.mp hx) with hx | hx
    · exact (iL _ _ ha x hx).1
    · exact (jL _ _ hb x hx).1

/-- The generated loops only run arms. -/
theorem StepDistinct.toIter {S : Type} {F : StepOf S α} {addr : α → A} {live : A → Prop} {ap : A → A → Prop} {s : S} (h : StepDistinct F addr live ap (F.init s)) :
    F.toIter.I.Distinct addr live ap (F.toIter.init s) := by
  obtain ⟨inv, hk, h0, hL⟩ := h
  have front : ∀ fuel g (st : LoopSt F.St), inv g st.fields →
      match (F.loopNext fuel st).1 with
      | none => inv g (F.loopNext fuel st).2.fields
      | some x => (∀ y ∈ g, ap y (addr x)) ∧ live (addr x) ∧ inv (addr x :: g) (F.loopNext fuel st).2.fields := by
    intro fuel
    induction fuel with
    | zero => exact fun g st hi => hi
    | succ fuel ih =>
      intro g st hi
      unfold StepOf.loopNext
      by_cases hlt : st.start < st.stop
      · rw [if_pos hlt]
        have k := hk g st.fields .front st.start
        rcases hn : F.next st.start st.fields with _ | ⟨_ | x, fs⟩
        · exact hi
        · exact ih g _ (k none fs hi hn)
        · exact k (some x) fs hi hn
      · rw [if_neg hlt]; exact hi
  have back : ∀ nb, F.nextBack? = some nb → ∀ fuel g (st : LoopSt F.St), inv g st.fields →
      match (loopNextBack nb fuel st).1 with
      | none => inv g (loopNextBack nb fuel st).2.fields
      | some x => (∀ y ∈ g, ap y (addr x)) ∧ live (addr x) ∧ inv (addr x :: g) (loopNextBack nb fuel st).2.fields := by
    intro nb hnb fuel
    induction fuel with
    | zero => exact fun g st hi => hi
    | succ fuel ih =>
      intro g st hi
      unfold loopNextBack
      by_cases hlt : st.start < st.stop
      · rw [if_pos hlt]
        have k := hk g st.fields .back (st.stop - 1)
        rcases hn : nb (st.stop - 1) st.fields with _ | ⟨_ | x, fs⟩
        · exact hi
        · exact ih g _ (k none fs hi (Option.bind_eq_some_iff.mpr ⟨nb, hnb, hn⟩))
        · exact k (some x) fs hi (Option.bind_eq_some_iff.mpr ⟨nb, hnb, hn⟩)
      · rw [if_neg hlt]; exact hi
  refine Keeps.distinct (inv := fun g (st : LoopSt F.St) => inv g st.fields) ?_ h0
  intro g st d o st' hi hs
  cases d with
  | front =>
    have k := front (st.stop - st.start) g st hi
    have e : F.loopNext (st.stop - st.start) st = (o, st') := Option.some.inj hs
    rw [e] at k
    exact k
  | back =>
    obtain ⟨nb, hnb, e⟩ := Option.map_eq_some_iff.mp hs
    obtain ⟨nb0, hnb0, rfl⟩ := Option.map_eq_some_iff.mp hnb
    have k := back nb0 hnb0 (st.stop - st.start) g st hi
    rw [show loopNextBack nb0 (st.stop - st.start) st = (o, st') from e] at k
    exact k

end


/-! ## Storages -/

section
variable {α β A B S T : Type}

theorem distinct_map_at {it : IterOf S α} {p : T → S} {t : T} {addr : α → A} {live : A → Prop} {ap : A → A → Prop} (h : it.I.Distinct addr live ap (it.init (p t)))
    (f : α → β) (addr' : β → B) (φ : A → B) {ap' : B → B → Prop} (hφ : ∀ a b, ap a b → ap' (φ a) (φ b)) (e : ∀ x, addr' (f x) = φ (addr x)) (live' : B → Prop)
    (hl : ∀ a, live a → live' (φ a)) : ((it.comap p).map f).I.Distinct addr' live' ap' (((it.comap p).map f).init t) :=
  IterImpl.Distinct.map h f addr' φ hφ e live' hl

theorem distinct_slot_at {o : S → Option α} {s : S} (f : α → β) (addr' : β → B) (live' : B → Prop) (ap' : B → B → Prop)
    (h : ∀ x, o s = some x → live' (addr' (f x))) :
    ((IterOf.option o).map f).I.Distinct addr' live' ap' (((IterOf.option o).map f).init s) :=
  IterImpl.Distinct.map (addr := fun x => addr' (f x)) (live := live') (ap := ap') (distinct_option (o s) h) f addr' id (fun _ _ e => e) (fun _ => rfl) _
    fun _ h => h

theorem step_map_at {F : StepOf S α} {p : T → S} {t : T} {addr : α → A} {live : A → Prop} {ap : A → A → Prop} (h : StepDistinct F addr live ap (F.init (p t)))
    (f : α → β) (addr' : β → B) (φ : A → B) {ap' : B → B → Prop} (hφ : ∀ a b, ap a b → ap' (φ a) (φ b)) (e : ∀ x, addr' (f x) = φ (addr x)) (live' : B → Prop)
    (hl : ∀ a, live a → live' (φ a)) : StepDistinct ((F.comap p).map f) addr' live' ap' (((F.comap p).map f).init t) := by
  have h' : StepDistinct (F.comap p) addr live ap ((F.comap p).init t) := by
    obtain ⟨inv, hk, h0, hL⟩ := h
    refine ⟨inv, fun g st d i o st' hi hs => hk g st d i o st' hi ?_, h0, hL⟩
    cases d
    · exact hs
    · exact hs
  exact StepDistinct.map h' f addr' φ hφ e live' hl

end

theorem Yields.distinct {α A : Type} {I : IterImpl α} {addr : α → A} {live : A → Prop} {ap : A → A → Prop} {st : I.St} {l : List α} (h : Yields I st l)
    (hsym : ∀ a b, ap a b → ap b a) (hn : (l.map addr).Pairwise ap) (hl : ∀ x ∈ l, live (addr x)) : I.Distinct addr live ap st := by
  refine Keeps.distinct (inv := fun g st => ∃ l, Yields I st l ∧ (l.map addr).Pairwise ap ∧ (∀ x ∈ l, ∀ y ∈ g, ap y (addr x)) ∧
    ∀ x ∈ l, live (addr x)) ?_ ⟨l, h, hn, fun _ _ _ h => (nomatch h), hl⟩
  rintro g st d o st' ⟨l, hy, hn, hg, hl⟩ hs
  cases d with
  | front =>
    obtain ⟨h1, h2⟩ := hy.next
    have e : I.next st = (o, st') := Option.some.inj hs
    rw [e] at h1 h2
    cases l with
    | nil => simp only [List.head?_nil] at h1; subst h1; exact ⟨[], h2, hn, hg, hl⟩
    | cons x l =>
      simp only [List.head?_cons] at h1; subst h1
      have hn' := List.pairwise_cons.mp (show (addr x :: l.map addr).Pairwise ap from hn)
      refine ⟨hg x List.mem_cons_self, hl x List.mem_cons_self, l, h2, hn'.2, ?_, fun y hy => hl y (List.mem_cons_of_mem _ hy)⟩
      intro z hz y hy
      rcases List.mem_cons.mp hy with rfl | hy
      · exact hn'.1 _ (List.mem_map_of_mem hz)
      · exact hg z (List.mem_cons_of_mem _ hz) y hy
  | back =>
    obtain ⟨nb, hnb, e⟩ := Option.map_eq_some_iff.mp hs
    obtain ⟨h1, h2⟩ := hy.back hnb
    rw [e] at h1 h2
    rcases List.eq_nil_or_concat l with rfl | ⟨l', x, rfl⟩
    · simp only [List.getLast?_nil] at h1; subst h1; exact ⟨[], h2, hn, hg, hl⟩
    · simp only [List.concat_eq_append, List.getLast?_append, List.getLast?_singleton, Option.some_or] at h1
      subst h1
      rw [List.concat_eq_append, List.dropLast_concat] at h2
      rw [List.concat_eq_append, List.map_append] at hn
      have hn' := List.pairwise_append.mp hn
      refine ⟨hg x (by simp), hl x (by simp), l', h2, hn'.1, ?_, fun y hy => hl y (by simp [hy])⟩
      intro z hz y hy
      rcases List.mem_cons.mp hy with rfl | hy
      · exact hsym _ _ (hn'.2.2 _ (List.mem_map_of_mem hz) _ (by simp))
      · exact hg z (by simp [hz]) y hy

section
variable {K V : Type}

/-- A storage with the laws of maps is safe. -/
def CoreLaws.safe {M : MapCore K V} (L : CoreLaws M) : SafeCore M where
  ref a s := ∃ k, L.keyAt s a = some k
  apart a b s := L.keyAt s a ≠ L.keyAt s b
  occ e s := ∃ k, L.occFits e s k
  vac e s := ∃ k, L.vacFits e s k
  ref_read := by rintro a s ⟨k, hk⟩; rw [L.read_eq s a k hk]; exact L.keyAt_live s a k hk
  ref_write := by rintro a b s v ⟨k, hk⟩ ⟨k', hk'⟩; exact ⟨k', by rw [L.keyAt_write s a k v b hk]; exact hk'⟩
  write_read := by
    rintro a s v ⟨k, hk⟩
    rw [L.read_eq _ a k (by rw [L.keyAt_write s a k v a hk]; exact hk)]
    exact L.get_write_self s a k v hk
  apart_symm _ _ _ h := Ne.symm h
  apart_read := by
    rintro a b s v ⟨k, hk⟩ ⟨k', hk'⟩ h
    rw [L.read_eq _ b k' (by rw [L.keyAt_write s a k v b hk]; exact hk'), L.read_eq s b k' hk']
    exact L.get_write_ne s a k v k' hk fun e => h (by rw [hk, hk', e])
  apart_write := by
    rintro a b c s v ⟨k, hk⟩ _ _ h
    show L.keyAt _ b ≠ L.keyAt _ c
    rw [L.keyAt_write s a k v b hk, L.keyAt_write s a k v c hk]
    exact h
  getMut s k a h := by
    rcases hg : M.get s k with _ | v
    · rw [L.getMut_none s k hg] at h; cases h
    · obtain ⟨a', h1, h2⟩ := L.getMut_some s k v hg
      rw [h1] at h; cases h
      exact ⟨k, h2⟩
  entry_ub s k := by
    rcases hg : M.get s k with _ | v
    · obtain ⟨e, s', h, _⟩ := L.entry_none s k hg; rw [h]; exact fun h => nomatch h
    · obtain ⟨e, s', h, _⟩ := L.entry_some s k v hg; rw [h]; exact fun h => nomatch h
  entry_occ s k e s' h := by
    rcases hg : M.get s k with _ | v
    · obtain ⟨e', s'', h', _⟩ := L.entry_none s k hg; rw [h'] at h; cases h
    · obtain ⟨e', s'', h', _, hf⟩ := L.entry_some s k v hg; rw [h'] at h; cases h; exact ⟨k, hf⟩
  entry_vac s k e s' h := by
    rcases hg : M.get s k with _ | v
    · obtain ⟨e', s'', h', _, hf⟩ := L.entry_none s k hg; rw [h'] at h; cases h; exact ⟨k, hf⟩
    · obtain ⟨e', s'', h', _⟩ := L.entry_some s k v hg; rw [h'] at h; cases h
  occGet_ub := by rintro e s ⟨k, hk⟩; obtain ⟨v, h, _⟩ := L.occGet_eq e s k hk; rw [h]; exact fun h => nomatch h
  occGetMut_ub := by rintro e s ⟨k, hk⟩; obtain ⟨v, h, _⟩ := L.occGetMut_eq e s k hk; rw [h]; exact fun h => nomatch h
  occGetMut_ref := by rintro e s a ⟨k, hk⟩ h; obtain ⟨v, h', h2⟩ := L.occGetMut_eq e s k hk; rw [h'] at h; cases h; exact ⟨k, h2⟩
  occGetMut_write := by
    rintro e s a v ⟨k, hk⟩ h
    obtain ⟨a', h', h2⟩ := L.occGetMut_eq e s k hk
    rw [h'] at h; cases h
    exact ⟨k, L.occFits_write e s k _ v hk h2⟩
  occIntoMut_ub := by rintro e s ⟨k, hk⟩; obtain ⟨v, h, _⟩ := L.occIntoMut_eq e s k hk; rw [h]; exact fun h => nomatch h
  occIntoMut_ref := by rintro e s a ⟨k, hk⟩ h; obtain ⟨v, h', h2⟩ := L.occIntoMut_eq e s k hk; rw [h'] at h; cases h; exact ⟨k, h2⟩
  occInsert_ub := by rintro e s v ⟨k, hk⟩; obtain ⟨old, s', h, _⟩ := L.occInsert_eq e s k v hk; rw [h]; exact fun h => nomatch h
  occInsert_occ := by
    rintro e s v old s' ⟨k, hk⟩ h
    obtain ⟨old', s'', h', _, _, _, hf⟩ := L.occInsert_eq e s k v hk
    rw [h'] at h; cases h
    exact ⟨k, hf⟩
  occRemove_ub := by rintro e s ⟨k, hk⟩; obtain ⟨old, s', h, _⟩ := L.occRemove_eq e s k hk; rw [h]; exact fun h => nomatch h
  vacInsert_ub := by rintro e s v ⟨k, hk⟩; obtain ⟨_, a, s', h, _⟩ := L.vacInsert_eq e s k v hk; rw [h]; exact fun h => nomatch h
  vacInsert_ref := by
    rintro e s v a s' ⟨k, hk⟩ h
    obtain ⟨_, a', s'', h', _, _, h2⟩ := L.vacInsert_eq e s k v hk
    rw [h'] at h; cases h
    exact ⟨k, h2⟩

theorem addrs_apart {M : MapCore K V} (L : CoreLaws M) (s : M.S) (l : List (K × M.Addr)) (hk : l.map Prod.fst = (L.entries s).map Prod.fst)
    (ha : ∀ k a, (k, a) ∈ l → L.keyAt s a = some k) : (l.map Prod.snd).Pairwise (L.safe.apart · · s) := by
  have hn : (l.map Prod.fst).Nodup := by rw [hk]; exact L.nodup_keys s
  rw [List.nodup_iff_pairwise_ne, List.pairwise_map] at hn
  rw [List.pairwise_map]
  refine hn.imp_of_mem ?_
  rintro ⟨k, a⟩ ⟨k', a'⟩ h h' hne e
  have e : L.keyAt s a = L.keyAt s a' := e
  rw [ha k a h, ha k' a' h'] at e
  exact hne (Option.some.inj e)

def IterLaws.safe {M : MapStorage K V} {L : CoreLaws M.toMapCore} {ku : Bool} (I : IterLaws M L ku) : SafeStorage M where
  toSafeCore := L.safe
  iterMut s := (I.iterMut s).distinct (fun _ _ => L.safe.apart_symm _ _ s) (addrs_apart L s _ (I.addrs_keys s) (I.addrs_at s))
    fun p hp => ⟨p.1, I.addrs_at s p.1 p.2 hp⟩
  valuesMut s := (I.valuesMut s).distinct (fun _ _ => L.safe.apart_symm _ _ s)
    (by rw [List.map_id]; exact addrs_apart L s _ (I.addrs_keys s) (I.addrs_at s)) fun a ha => by
    obtain ⟨p, hp, rfl⟩ := List.mem_map.mp ha
    exact ⟨p.1, I.addrs_at s p.1 p.2 hp⟩

/-- `Option<K>` over a safe storage. -/
def optSafe {M : MapStorage K V} (h : SafeStorage M) : SafeStorage (optMap M) where
  ref a s :=
    match a with
    | .none => s.none.isSome = true
    | .some a => h.ref a s.some
  apart a b s :=
    match a, b with
    | .none, .none => False
    | .some a, .some b => h.apart a b s.some
    | _, _ => True
  occ e s :=
    match e with
    | .none => s.none.isSome = true
    | .some e => h.occ e s.some
  vac e s :=
    match e with
    | .none => s.none = .none
    | .some e => h.vac e s.some
  ref_read a s hr := by
    cases a with
    | none => exact hr
    | some a => exact h.ref_read a _ hr
  ref_write a b s v ha hb := by
    cases a with
    | none =>
      cases b with
      | none => show (writeSlot s.none v).isSome = true; cases hn : s.none with
        | none => exact absurd (hn ▸ hb) (by simp)
        | some w => rfl
      | some b => exact hb
    | some a =>
      cases b with
      | none => exact hb
      | some b => exact h.ref_write a b _ v ha hb
  write_read a s v ha := by
    cases a with
    | none =>
      show writeSlot s.none v = some v
      obtain ⟨w, hw⟩ := Option.isSome_iff_exists.mp (show s.none.isSome = true from ha)
      rw [hw]; rfl
    | some a => exact h.write_read a _ v ha
  apart_symm a b s hab := by
    cases a <;> cases b
    · exact hab
    · trivial
    · trivial
    · exact h.apart_symm _ _ _ hab
  apart_read a b s v ha hb hab := by
    cases a <;> cases b
    · exact hab.elim
    · rfl
    · rfl
    · exact h.apart_read _ _ _ v ha hb hab
  apart_write a b c s v ha hb hc hbc := by
    cases b <;> cases c
    · exact hbc
    · trivial
    · trivial
    · cases a with
      | none => exact hbc
      | some a => exact h.apart_write a _ _ _ v ha hb hc hbc
  getMut s k a hg := by
    cases k with
    | none =>
      obtain ⟨v, hv, rfl⟩ := Option.map_eq_some_iff.mp hg
      show s.none.isSome = true
      rw [hv]; rfl
    | some k =>
      obtain ⟨a', ha, rfl⟩ := Option.map_eq_some_iff.mp hg
      exact h.getMut _ k a' ha
  entry_ub s k := by
    cases k with
    | none =>
      show Res.map _ (OptionBucket.new s.none) ≠ _
      refine Res.map_ne_ub ?_
      cases s.none <;> exact fun e => nomatch e
    | some k => exact Res.map_ne_ub (h.entry_ub _ k)
  entry_occ s k e s' he := by
    cases k with
    | none =>
      obtain ⟨b, hb, e'⟩ := Res.map_eq_ok he
      cases hn : s.none with
      | none => rw [hn] at hb; cases hb; cases e'
      | some v =>
        rw [hn] at hb; cases hb; cases e'
        show s.none.isSome = true
        rw [hn]; rfl
    | some k =>
      obtain ⟨⟨b, s1⟩, hb, e'⟩ := Res.map_eq_ok he
      cases b with
      | inl b => cases e'; exact h.entry_occ _ k b s1 hb
      | inr b => cases e'
  entry_vac s k e s' he := by
    cases k with
    | none =>
      obtain ⟨b, hb, e'⟩ := Res.map_eq_ok he
      cases hn : s.none with
      | none => rw [hn] at hb; cases hb; cases e'; exact hn
      | some v => rw [hn] at hb; cases hb; cases e'
    | some k =>
      obtain ⟨⟨b, s1⟩, hb, e'⟩ := Res.map_eq_ok he
      cases b with
      | inl b => cases e'
      | inr b => cases e'; exact h.entry_vac _ k b s1 hb
  occGet_ub e s ho := by
    cases e with
    | none =>
      show SomeBucket.asRef s.none ≠ _
      obtain ⟨v, hv⟩ := Option.isSome_iff_exists.mp ho
      rw [hv]; exact fun e => nomatch e
    | some e => exact h.occGet_ub e _ ho
  occGetMut_ub e s ho := by
    cases e with
    | none =>
      show Res.map _ (SomeBucket.asMut s.none) ≠ _
      obtain ⟨v, hv⟩ := Option.isSome_iff_exists.mp ho
      rw [hv]; exact fun e => nomatch e
    | some e => exact Res.map_ne_ub (h.occGetMut_ub e _ ho)
  occGetMut_ref e s a ho ha := by
    cases e with
    | none => obtain ⟨_, _, rfl⟩ := Res.map_eq_ok ha; exact ho
    | some e => obtain ⟨a', h', rfl⟩ := Res.map_eq_ok ha; exact h.occGetMut_ref e _ a' ho h'
  occGetMut_write e s a v ho ha := by
    cases e with
    | none =>
      obtain ⟨_, _, rfl⟩ := Res.map_eq_ok ha
      show (writeSlot s.none v).isSome = true
      obtain ⟨w, hw⟩ := Option.isSome_iff_exists.mp ho
      rw [hw]; rfl
    | some e => obtain ⟨a', h', rfl⟩ := Res.map_eq_ok ha; exact h.occGetMut_write e _ a' v ho h'
  occIntoMut_ub e s ho := by
    cases e with
    | none =>
      show Res.map _ (SomeBucket.intoMut s.none) ≠ _
      obtain ⟨v, hv⟩ := Option.isSome_iff_exists.mp ho
      rw [hv]; exact fun e => nomatch e
    | some e => exact Res.map_ne_ub (h.occIntoMut_ub e _ ho)
  occIntoMut_ref e s a ho ha := by
    cases e with
    | none => obtain ⟨_, _, rfl⟩ := Res.map_eq_ok ha; exact ho
    | some e => obtain ⟨a', h', rfl⟩ := Res.map_eq_ok ha; exact h.occIntoMut_ref e _ a' ho h'
  occInsert_ub e s v ho := by
    cases e with
    | none =>
      show Res.map _ (SomeBucket.replace s.none v) ≠ _
      obtain ⟨w, hv⟩ := Option.isSome_iff_exists.mp ho
      rw [hv]; exact fun e => nomatch e
    | some e => exact Res.map_ne_ub (h.occInsert_ub e _ v ho)
  occInsert_occ e s v old s' ho hi := by
    cases e with
    | none =>
      obtain ⟨w, hv⟩ := Option.isSome_iff_exists.mp (show s.none.isSome = true from ho)
      obtain ⟨p, hp, e'⟩ := Res.map_eq_ok hi
      rw [hv] at hp; cases hp; cases e'; rfl
    | some e =>
      obtain ⟨p, hp, e'⟩ := Res.map_eq_ok hi
      cases e'
      exact h.occInsert_occ e _ v p.1 p.2 ho hp
  occRemove_ub e s ho := by
    cases e with
    | none =>
      show Res.map _ (SomeBucket.take s.none) ≠ _
      obtain ⟨v, hv⟩ := Option.isSome_iff_exists.mp ho
      rw [hv]; exact fun e => nomatch e
    | some e => exact Res.map_ne_ub (h.occRemove_ub e _ ho)
  vacInsert_ub e s v hv := by
    cases e with
    | none =>
      show Res.map _ (NoneBucket.insert s.none v) ≠ _
      rw [show s.none = .none from hv]; exact fun e => nomatch e
    | some e => exact Res.map_ne_ub (h.vacInsert_ub e _ v hv)
  vacInsert_ref e s v a s' hv hi := by
    cases e with
    | none =>
      obtain ⟨p, hp, e'⟩ := Res.map_eq_ok hi
      rw [show s.none = .none from hv] at hp; cases hp; cases e'; rfl
    | some e =>
      obtain ⟨p, hp, e'⟩ := Res.map_eq_ok hi
      cases e'
      exact h.vacInsert_ref e _ v p.1 p.2 hv hp
  iterMut s := by
    refine IterImpl.Distinct.chain Option.isSome ?_ ?_ ?_
    · rintro (_ | a) (_ | b) hne
      · exact absurd rfl hne
      · trivial
      · trivial
      · exact absurd rfl hne
    · exact distinct_map_at (h.iterMut s.some) _ Prod.snd some (fun _ _ e => e) (fun _ => rfl) _ fun a ha => ⟨ha, rfl⟩
    · refine distinct_slot_at _ Prod.snd _ _ ?_
      intro x hx
      obtain ⟨v, hv, rfl⟩ := Option.map_eq_some_iff.mp hx
      exact ⟨by show s.none.isSome = true; rw [hv]; rfl, rfl⟩
  valuesMut s := by
    refine IterImpl.Distinct.chain Option.isSome ?_ ?_ ?_
    · rintro (_ | a) (_ | b) hne
      · exact absurd rfl hne
      · trivial
      · trivial
      · exact absurd rfl hne
    · exact distinct_map_at (h.valuesMut s.some) _ id some (fun _ _ e => e) (fun _ => rfl) _ fun a ha => ⟨ha, rfl⟩
    · refine distinct_option _ ?_
      intro x hx
      obtain ⟨v, hv, rfl⟩ := Option.map_eq_some_iff.mp hx
      exact ⟨by show s.none.isSome = true; rw [hv]; rfl, rfl⟩

/-- What holds of the generated struct of a derived storage. -/
structure SafeFields (F : MapFields K V) extends SafeCore F.toMapCore where
  iterMut : ∀ s, StepDistinct F.iterMut Prod.snd (ref · s) (apart · · s) (F.iterMut.init s)
  valuesMut : ∀ s, StepDistinct F.valuesMut id (ref · s) (apart · · s) (F.valuesMut.init s)

def SafeFields.enum {F : MapFields K V} (h : SafeFields F) : SafeStorage (enumMap F) where
  toSafeCore := h.toSafeCore
  iterMut s := (h.iterMut s).toIter
  valuesMut s := (h.valuesMut s).toIter

def nilSafe (V : Type) : SafeFields (fieldsNil V) where
  ref a _ := a.elim
  apart a _ _ := a.elim
  occ e _ := e.elim
  vac e _ := e.elim
  ref_read a := a.elim
  ref_write a := a.elim
  write_read a := a.elim
  apart_symm a := a.elim
  apart_read a := a.elim
  apart_write a := a.elim
  getMut _ k := k.elim
  entry_ub _ k := k.elim
  entry_occ _ k := k.elim
  entry_vac _ k := k.elim
  occGet_ub e := e.elim
  occGetMut_ub e := e.elim
  occGetMut_ref e := e.elim
  occGetMut_write e := e.elim
  occIntoMut_ub e := e.elim
  occIntoMut_ref e := e.elim
  occInsert_ub e := e.elim
  occInsert_occ e := e.elim
  occRemove_ub e := e.elim
  vacInsert_ub e := e.elim
  vacInsert_ref e := e.elim
  iterMut _ := stepDistinct_nil _
  valuesMut _ := stepDistinct_nil _

def simpleSafe {F : MapFields K V} (h : SafeFields F) : SafeFields (fieldsSimple F) where
  ref a s :=
    match a with
    | .inl _ => s.1.isSome = true
    | .inr a => h.ref a s.2
  apart a b s :=
    match a, b with
    | .inl _, .inl _ => False
    | .inr a, .inr b => h.apart a b s.2
    | _, _ => True
  occ e s :=
    match e with
    | .inl _ => s.1.isSome = true
    | .inr e => h.occ e s.2
  vac e s :=
    match e with
    | .inl _ => s.1 = none
    | .inr e => h.vac e s.2
  ref_read a s hr := by
    cases a with
    | inl a => exact hr
    | inr a => exact h.ref_read a _ hr
  ref_write a b s v ha hb := by
    cases a with
    | inl a =>
      cases b with
      | inl b =>
        show (writeSlot s.1 v).isSome = true
        obtain ⟨w, hw⟩ := Option.isSome_iff_exists.mp (show s.1.isSome = true from hb)
        rw [hw]; rfl
      | inr b => exact hb
    | inr a =>
      cases b with
      | inl b => exact hb
      | inr b => exact h.ref_write a b _ v ha hb
  write_read a s v ha := by
    cases a with
    | inl a =>
      show writeSlot s.1 v = some v
      obtain ⟨w, hw⟩ := Option.isSome_iff_exists.mp (show s.1.isSome = true from ha)
      rw [hw]; rfl
    | inr a => exact h.write_read a _ v ha
  apart_symm a b s hab := by
    cases a <;> cases b
    · exact hab
    · trivial
    · trivial
    · exact h.apart_symm _ _ _ hab
  apart_read a b s v ha hb hab := by
    cases a <;> cases b
    · exact hab.elim
    · rfl
    · rfl
    · exact h.apart_read _ _ _ v ha hb hab
  apart_write a b c s v ha hb hc hbc := by
    cases b <;> cases c
    · exact hbc
    · trivial
    · trivial
    · cases a with
      | inl a => exact hbc
      | inr a => exact h.apart_write a _ _ _ v ha hb hc hbc
  getMut s k a hg := by
    cases k with
    | inl k =>
      obtain ⟨v, hv, rfl⟩ := Option.map_eq_some_iff.mp hg
      show s.1.isSome = true
      rw [hv]; rfl
    | inr k =>
      obtain ⟨a', ha, rfl⟩ := Option.map_eq_some_iff.mp hg
      exact h.getMut _ k a' ha
  entry_ub s k := by
    cases k with
    | inl k =>
      show Res.map _ (OptionBucket.new s.1) ≠ _
      refine Res.map_ne_ub ?_
      cases s.1 <;> exact fun e => nomatch e
    | inr k => exact Res.map_ne_ub (h.entry_ub _ k)
  entry_occ s k e s' he := by
    cases k with
    | inl k =>
      obtain ⟨b, hb, e'⟩ := Res.map_eq_ok he
      cases hn : s.1 with
      | none => rw [hn] at hb; cases hb; cases e'
      | some v =>
        rw [hn] at hb; cases hb; cases e'
        show s.1.isSome = true
        rw [hn]; rfl
    | inr k =>
      obtain ⟨⟨b, s1⟩, hb, e'⟩ := Res.map_eq_ok he
      cases b with
      | inl b => cases e'; exact h.entry_occ _ k b s1 hb
      | inr b => cases e'
  entry_vac s k e s' he := by
    cases k with
    | inl k =>
      obtain ⟨b, hb, e'⟩ := Res.map_eq_ok he
      cases hn : s.1 with
      | none => rw [hn] at hb; cases hb; cases e'; exact hn
      | some v => rw [hn] at hb; cases hb; cases e'
    | inr k =>
      obtain ⟨⟨b, s1⟩, hb, e'⟩ := Res.map_eq_ok he
      cases b with
      | inl b => cases e'
      | inr b => cases e'; exact h.entry_vac _ k b s1 hb
  occGet_ub e s ho := by
    cases e with
    | inl e =>
      show SomeBucket.asRef s.1 ≠ _
      obtain ⟨v, hv⟩ := Option.isSome_iff_exists.mp ho
      rw [hv]; exact fun e => nomatch e
    | inr e => exact h.occGet_ub e _ ho
  occGetMut_ub e s ho := by
    cases e with
    | inl e =>
      show Res.map _ (SomeBucket.asMut s.1) ≠ _
      obtain ⟨v, hv⟩ := Option.isSome_iff_exists.mp ho
      rw [hv]; exact fun e => nomatch e
    | inr e => exact Res.map_ne_ub (h.occGetMut_ub e _ ho)
  occGetMut_ref e s a ho ha := by
    cases e with
    | inl e => obtain ⟨_, _, rfl⟩ := Res.map_eq_ok ha; exact ho
    | inr e => obtain ⟨a', h', rfl⟩ := Res.map_eq_ok ha; exact h.occGetMut_ref e _ a' ho h'
  occGetMut_write e s a v ho ha := by
    cases e with
    | inl e =>
      obtain ⟨_, _, rfl⟩ := Res.map_eq_ok ha
      show (writeSlot s.1 v).isSome = true
      obtain ⟨w, hw⟩ := Option.isSome_iff_exists.mp ho
      rw [hw]; rfl
    | inr e => obtain ⟨a', h', rfl⟩ := Res.map_eq_ok ha; exact h.occGetMut_write e _ a' v ho h'
  occIntoMut_ub e s ho := by
    cases e with
    | inl e =>
      show Res.map _ (SomeBucket.intoMut s.1) ≠ _
      obtain ⟨v, hv⟩ := Option.isSome_iff_exists.mp ho
      rw [hv]; exact fun e => nomatch e
    | inr e => exact Res.map_ne_ub (h.occIntoMut_ub e _ ho)
  occIntoMut_ref e s a ho ha := by
    cases e with
    | inl e => obtain ⟨_, _, rfl⟩ := Res.map_eq_ok ha; exact ho
    | inr e => obtain ⟨a', h', rfl⟩ := Res.map_eq_ok ha; exact h.occIntoMut_ref e _ a' ho h'
  occInsert_ub e s v ho := by
    cases e with
    | inl e =>
      show Res.map _ (SomeBucket.replace s.1 v) ≠ _
      obtain ⟨w, hv⟩ := Option.isSome_iff_exists.mp ho
      rw [hv]; exact fun e => nomatch e
    | inr e => exact Res.map_ne_ub (h.occInsert_ub e _ v ho)
  occInsert_occ e s v old s' ho hi := by
    cases e with
    | inl e =>
      obtain ⟨w, hv⟩ := Option.isSome_iff_exists.mp (show s.1.isSome = true from ho)
      obtain ⟨p, hp, e'⟩ := Res.map_eq_ok hi
      rw [hv] at hp; cases hp; cases e'; rfl
    | inr e =>
      obtain ⟨p, hp, e'⟩ := Res.map_eq_ok hi
      cases e'
      exact h.occInsert_occ e _ v p.1 p.2 ho hp
  occRemove_ub e s ho := by
    cases e with
    | inl e =>
      show Res.map _ (SomeBucket.take s.1) ≠ _
      obtain ⟨v, hv⟩ := Option.isSome_iff_exists.mp ho
      rw [hv]; exact fun e => nomatch e
    | inr e => exact Res.map_ne_ub (h.occRemove_ub e _ ho)
  vacInsert_ub e s v hv := by
    cases e with
    | inl e =>
      show Res.map _ (NoneBucket.insert s.1 v) ≠ _
      rw [show s.1 = none from hv]; exact fun e => nomatch e
    | inr e => exact Res.map_ne_ub (h.vacInsert_ub e _ v hv)
  vacInsert_ref e s v a s' hv hi := by
    cases e with
    | inl e =>
      obtain ⟨p, hp, e'⟩ := Res.map_eq_ok hi
      rw [show s.1 = none from hv] at hp; cases hp; cases e'; rfl
    | inr e =>
      obtain ⟨p, hp, e'⟩ := Res.map_eq_ok hi
      cases e'
      exact h.vacInsert_ref e _ v p.1 p.2 hv hp
  iterMut s := by
    refine StepDistinct.cons Sum.isLeft ?_ ?_ ?_
    · rintro (a | a) (b | b) hne
      · exact absurd rfl hne
      · trivial
      · trivial
      · exact absurd rfl hne
    · refine distinct_slot_at _ Prod.snd _ _ ?_
      intro x hx
      obtain ⟨v, hv, rfl⟩ := Option.map_eq_some_iff.mp hx
      exact ⟨by show s.1.isSome = true; rw [hv]; rfl, rfl⟩
    · exact step_map_at (h.iterMut s.2) _ Prod.snd Sum.inr (fun _ _ e => e) (fun _ => rfl) _
        fun a ha => ⟨ha, rfl⟩
  valuesMut s := by
    refine StepDistinct.cons Sum.isLeft ?_ ?_ ?_
    · rintro (a | a) (b | b) hne
      · exact absurd rfl hne
      · trivial
      · trivial
      · exact absurd rfl hne
    · refine distinct_option _ ?_
      intro x hx
      obtain ⟨v, hv, rfl⟩ := Option.map_eq_some_iff.mp hx
      exact ⟨by show s.1.isSome = true; rw [hv]; rfl, rfl⟩
    · exact step_map_at (h.valuesMut s.2) _ id Sum.inr (fun _ _ e => e) (fun _ => rfl) _
        fun a ha => ⟨ha, rfl⟩

def complexSafe {E : Type} {M : MapStorage E V} {F : MapFields K V} (g : SafeStorage M) (h : SafeFields F) :
    SafeFields (fieldsComplex M F) where
  ref a s :=
    match a with
    | .inl a => g.ref a s.1
    | .inr a => h.ref a s.2
  apart a b s :=
    match a, b with
    | .inl a, .inl b => g.apart a b s.1
    | .inr a, .inr b => h.apart a b s.2
    | _, _ => True
  occ e s :=
    match e with
    | .inl e => g.occ e s.1
    | .inr e => h.occ e s.2
  vac e s :=
    match e with
    | .inl e => g.vac e s.1
    | .inr e => h.vac e s.2
  ref_read a s hr := by
    cases a with
    | inl a => exact g.ref_read a _ hr
    | inr a => exact h.ref_read a _ hr
  ref_write a b s v ha hb := by
    cases a with
    | inl a =>
      cases b with
      | inl b => exact g.ref_write a b _ v ha hb
      | inr b => exact hb
    | inr a =>
      cases b with
      | inl b => exact hb
      | inr b => exact h.ref_write a b _ v ha hb
  write_read a s v ha := by
    cases a with
    | inl a => exact g.write_read a _ v ha
    | inr a => exact h.write_read a _ v ha
  apart_symm a b s hab := by
    cases a <;> cases b
    · exact g.apart_symm _ _ _ hab
    · trivial
    · trivial
    · exact h.apart_symm _ _ _ hab
  apart_read a b s v ha hb hab := by
    cases a <;> cases b
    · exact g.apart_read _ _ _ v ha hb hab
    · rfl
    · rfl
    · exact h.apart_read _ _ _ v ha hb hab
  apart_write a b c s v ha hb hc hbc := by
    cases b <;> cases c
    · cases a with
      | inl a => exact g.apart_write a _ _ _ v ha hb hc hbc
      | inr a => exact hbc
    · trivial
    · trivial
    · cases a with
      | inl a => exact hbc
      | inr a => exact h.apart_write a _ _ _ v ha hb hc hbc
  getMut s k a hg := by
    cases k with
    | inl k => obtain ⟨a', ha, rfl⟩ := Option.map_eq_some_iff.mp hg; exact g.getMut _ k a' ha
    | inr k => obtain ⟨a', ha, rfl⟩ := Option.map_eq_some_iff.mp hg; exact h.getMut _ k a' ha
  entry_ub s k := by
    cases k with
    | inl k => exact Res.map_ne_ub (g.entry_ub _ k)
    | inr k => exact Res.map_ne_ub (h.entry_ub _ k)
  entry_occ s k e s' he := by
    cases k with
    | inl k =>
      obtain ⟨⟨b, s1⟩, hb, e'⟩ := Res.map_eq_ok he
      cases b with
      | inl b => cases e'; exact g.entry_occ _ k b s1 hb
      | inr b => cases e'
    | inr k =>
      obtain ⟨⟨b, s1⟩, hb, e'⟩ := Res.map_eq_ok he
      cases b with
      | inl b => cases e'; exact h.entry_occ _ k b s1 hb
      | inr b => cases e'
  entry_vac s k e s' he := by
    cases k with
    | inl k =>
      obtain ⟨⟨b, s1⟩, hb, e'⟩ := Res.map_eq_ok he
      cases b with
      | inl b => cases e'
      | inr b => cases e'; exact g.entry_vac _ k b s1 hb
    | inr k =>
      obtain ⟨⟨b, s1⟩, hb, e'⟩ := Res.map_eq_ok he
      cases b with
      | inl b => cases e'
      | inr b => cases e'; exact h.entry_vac _ k b s1 hb
  occGet_ub e s ho := by
    cases e with
    | inl e => exact g.occGet_ub e _ ho
    | inr e => exact h.occGet_ub e _ ho
  occGetMut_ub e s ho := by
    cases e with
    | inl e => exact Res.map_ne_ub (g.occGetMut_ub e _ ho)
    | inr e => exact Res.map_ne_ub (h.occGetMut_ub e _ ho)
  occGetMut_ref e s a ho ha := by
    cases e with
    | inl e => obtain ⟨a', h', rfl⟩ := Res.map_eq_ok ha; exact g.occGetMut_ref e _ a' ho h'
    | inr e => obtain ⟨a', h', rfl⟩ := Res.map_eq_ok ha; exact h.occGetMut_ref e _ a' ho h'
  occGetMut_write e s a v ho ha := by
    cases e with
    | inl e => obtain ⟨a', h', rfl⟩ := Res.map_eq_ok ha; exact g.occGetMut_write e _ a' v ho h'
    | inr e => obtain ⟨a', h', rfl⟩ := Res.map_eq_ok ha; exact h.occGetMut_write e _ a' v ho h'
  occIntoMut_ub e s ho := by
    cases e with
    | inl e => exact Res.map_ne_ub (g.occIntoMut_ub e _ ho)
    | inr e => exact Res.map_ne_ub (h.occIntoMut_ub e _ ho)
  occIntoMut_ref e s a ho ha := by
    cases e with
    | inl e => obtain ⟨a', h', rfl⟩ := Res.map_eq_ok ha; exact g.occIntoMut_ref e _ a' ho h'
    | inr e => obtain ⟨a', h', rfl⟩ := Res.map_eq_ok ha; exact h.occIntoMut_ref e _ a' ho h'
  occInsert_ub e s v ho := by
    cases e with
    | inl e => exact Res.map_ne_ub (g.occInsert_ub e _ v ho)
    | inr e => exact Res.map_ne_ub (h.occInsert_ub e _ v ho)
  occInsert_occ e s v old s' ho hi := by
    cases e with
    | inl e =>
      obtain ⟨p, hp, e'⟩ := Res.map_eq_ok hi
      cases e'
      exact g.occInsert_occ e _ v p.1 p.2 ho hp
    | inr e =>
      obtain ⟨p, hp, e'⟩ := Res.map_eq_ok hi
      cases e'
      exact h.occInsert_occ e _ v p.1 p.2 ho hp
  occRemove_ub e s ho := by
    cases e with
    | inl e => exact Res.map_ne_ub (g.occRemove_ub e _ ho)
    | inr e => exact Res.map_ne_ub (h.occRemove_ub e _ ho)
  vacInsert_ub e s v hv := by
    cases e with
    | inl e => exact Res.map_ne_ub (g.vacInsert_ub e _ v hv)
    | inr e => exact Res.map_ne_ub (h.vacInsert_ub e _ v hv)
  vacInsert_ref e s v a s' hv hi := by
    cases e with
    | inl e =>
      obtain ⟨p, hp, e'⟩ := Res.map_eq_ok hi
      cases e'
      exact g.vacInsert_ref e _ v p.1 p.2 hv hp
    | inr e =>
      obtain ⟨p, hp, e'⟩ := Res.map_eq_ok hi
      cases e'
      exact h.vacInsert_ref e _ v p.1 p.2 hv hp
  iterMut s := by
    refine StepDistinct.cons Sum.isLeft ?_ ?_ ?_
    · rintro (a | a) (b | b) hne
      · exact absurd rfl hne
      · trivial
      · trivial
      · exact absurd rfl hne
    · exact distinct_map_at (g.iterMut s.1) _ Prod.snd Sum.inl (fun _ _ e => e) (fun _ => rfl) _ fun a ha => ⟨ha, rfl⟩
    · exact step_map_at (h.iterMut s.2) _ Prod.snd Sum.inr (fun _ _ e => e) (fun _ => rfl) _
        fun a ha => ⟨ha, rfl⟩
  valuesMut s := by
    refine StepDistinct.cons Sum.isLeft ?_ ?_ ?_
    · rintro (a | a) (b | b) hne
      · exact absurd rfl hne
      · trivial
      · trivial
      · exact absurd rfl hne
    · exact distinct_map_at (g.valuesMut s.1) _ id Sum.inl (fun _ _ e => e) (fun _ => rfl) _ fun a ha => ⟨ha, rfl⟩
    · exact step_map_at (h.valuesMut s.2) _ id Sum.inr (fun _ _ e => e) (fun _ => rfl) _
        fun a ha => ⟨ha, rfl⟩

theorem Payloads.AllSafe.fields {p : Payloads V K} (h : p.AllSafe) : Nonempty (SafeFields p.mapFields) := by
  induction h with
  | nil => exact ⟨nilSafe V⟩
  | simple _ ih => exact ih.elim fun h => ⟨simpleSafe h⟩
  | complex hM _ ih => exact hM.elim fun g => ih.elim fun h => ⟨complexSafe g h⟩

end

end FixedMap
