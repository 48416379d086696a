import Verif.Spec.SetExact
import Verif.Proofs.Listing

/-! # What `retain` does to the elements the closure rejects: helper lemmas -/

set_option autoImplicit false
set_option linter.unusedSimpArgs false

namespace FixedMap

theorem panicAt_isSome {T σ : Type} (f : σ → T → σ × Option Bool) (l : List T) (st : σ) :
    (panicAt f l st).isSome = (visit f l st).panicked := by
  induction l generalizing st with
  | nil => rfl
  | cons x l ih => rcases h : f st x with ⟨st', _ | _ | _⟩ <;> simp [panicAt, visit, h, ih]

theorem panicAt_append {T σ : Type} (f : σ → T → σ × Option Bool) (l l' : List T) (st : σ) :
    panicAt f (l ++ l') st =
      if (visit f l st).panicked then panicAt f l st else panicAt f l' (visit f l st).st := by
  induction l generalizing st with
  | nil => simp [visit]
  | cons x l ih => rcases h : f st x with ⟨st', _ | _ | _⟩ <;> simp [panicAt, visit, h, ih]

theorem panicAt_map {T U σ : Type} (f : σ → T → σ × Option Bool) (g : U → T) (l : List U) (st : σ) :
    panicAt f (l.map g) st = (panicAt (fun st x => f st (g x)) l st).map g := by
  induction l generalizing st with
  | nil => rfl
  | cons x l ih => rcases h : f st (g x) with ⟨st', _ | _⟩ <;> simp [panicAt, h, ih]

theorem panicAt_none {T σ : Type} {f : σ → T → σ × Option Bool} {l : List T} {st : σ}
    (h : (visit f l st).panicked = false) : panicAt f l st = none := by
  rw [← panicAt_isSome] at h
  cases e : panicAt f l st with
  | none => rfl
  | some x => rw [e] at h; cases h

/-- A rejected element is out, unless it is of the batch in which the closure panicked. -/
def RejOk {T σ : Type} (old new : T → Bool) (f : σ → T → σ × Option Bool) (l : List T) (st : σ) (b : T → T → Bool) : Prop :=
  ∀ y ∈ (visit f l st).rejected, new y = (old y && (panicAt f l st).any fun x => b x y)

theorem RejOk.of_rejected {T σ : Type} {f : σ → T → σ × Option Bool} {l : List T} {st : σ} {old new : T → Bool}
    (hw : ∀ x, new x = true → x ∉ (visit f l st).rejected) : RejOk old new f l st (fun _ _ => false) := by
  intro y hy
  have : new y = false := by
    cases e : new y with
    | false => rfl
    | true => exact absurd hy (hw y e)
  rw [this]
  cases panicAt f l st <;> simp

theorem RejOk.seq {A B T SA SB σ : Type} (g : A → T) (h : B → T) {bA : A → A → Bool} {bB : B → B → Bool} {b : T → T → Bool}
    (b1 : ∀ x y, b (g x) (g y) = bA x y) (b2 : ∀ x y, b (h x) (h y) = bB x y) (b3 : ∀ x y, b (h x) (g y) = false)
    {f : σ → T → σ × Option Bool} {la : List A} {lb : List B} {st : σ} {sa : SA} {sb : SB}
    {cA : SA → A → Bool} {cB : SB → B → Bool} {ra : SetRetainOut SA σ} {rb : σ → SetRetainOut SB σ}
    (OA : RetainOk (cA sa) (cA ra.s) (visit (fun st x => f st (g x)) la st) ra.st ra.panicked)
    (HA : RejOk (cA sa) (cA ra.s) (fun st x => f st (g x)) la st bA)
    (HB : ∀ st, RejOk (cB sb) (cB (rb st).s) (fun st x => f st (h x)) lb st bB)
    {old new : T → Bool} (o1 : ∀ a, old (g a) = cA sa a) (o2 : ∀ b, old (h b) = cB sb b)
    (n1 : ∀ a, new (g a) = cA (ra.andThen sb rb).s.1 a) (n2 : ∀ b, new (h b) = cB (ra.andThen sb rb).s.2 b) :
    RejOk old new f (la.map g ++ lb.map h) st b := by
  intro y hy
  rw [visit_append] at hy
  rw [panicAt_append]
  simp only [visit_map, ← OA.st_eq, ← OA.pan, panicAt_map] at hy ⊢
  cases hp : ra.panicked with
  | true =>
    have e : ra.andThen sb rb = ⟨(ra.s, sb), ra.st, true⟩ := by simp [SetRetainOut.andThen, hp]
    rw [e] at n1 n2
    simp only [hp, if_true] at hy ⊢
    obtain ⟨a, ha, rfl⟩ := List.mem_map.mp hy
    rw [n1, o1, HA a ha]
    cases panicAt (fun st x => f st (g x)) la st <;> simp [b1]
  | false =>
    have e : ra.andThen sb rb = ⟨(ra.s, (rb ra.st).s), (rb ra.st).st, (rb ra.st).panicked⟩ := by
      simp [SetRetainOut.andThen, hp]
    rw [e] at n1 n2
    simp only [hp, Bool.false_eq_true, if_false] at hy ⊢
    have hn : panicAt (fun st x => f st (g x)) la st = none := panicAt_none (OA.pan.symm.trans hp)
    rcases List.mem_append.mp hy with hy | hy
    · obtain ⟨a, ha, rfl⟩ := List.mem_map.mp hy
      rw [n1, o1, HA a ha, hn]
      cases panicAt (fun st x => f st (h x)) lb ra.st <;> simp [b3]
    · obtain ⟨a, ha, rfl⟩ := List.mem_map.mp hy
      rw [n2, o2, HB ra.st a ha]
      cases panicAt (fun st x => f st (h x)) lb ra.st <;> simp [b2]

theorem RejOk.flag {T σ : Type} (f : σ → T → σ × Option Bool) (v : T) (flag : Bool) (st : σ) :
    RejOk (fun _ : Unit => flag) (fun _ : Unit => (retainFlag f v flag st).s) (fun st (_ : Unit) => f st v)
      (if flag then [()] else []) st (fun _ _ => false) := by
  cases flag with
  | false => intro y hy; cases hy
  | true =>
    rcases h : f st v with ⟨st', _ | _ | _⟩ <;> simp [RejOk, visit, retainFlag, h, panicAt]

theorem bitset_rejected {n w : Nat} (hw : n ≤ w) {σ : Type} (f : σ → Fin n → σ × Option Bool) (s : BitVec w) (st : σ) :
    RejOk ((bitsetSet n w).contains s) ((bitsetSet n w).contains ((bitsetSet n w).retain f s st).s) f
      ((bitsetSetLaws hw).visits s) st (fun _ _ => true) := by
  intro y hy
  have r := (bitsetSetLaws hw).retain_ok f s st
  cases hp : (visit f ((bitsetSetLaws hw).visits s) st).panicked with
  | true =>
    have e : ((bitsetSet n w).retain f s st).s = s := (bitsetRetain_spec hw f s (List.finRange n) 0 st).2.2.1 hp
    rw [e]
    cases e' : panicAt f ((bitsetSetLaws hw).visits s) st with
    | none => rw [← panicAt_isSome, e'] at hp; cases hp
    | some x => simp
  | false =>
    rw [panicAt_none hp]
    cases e : (bitsetSet n w).contains ((bitsetSet n w).retain f s st).s y with
    | false => simp
    | true =>
      rcases r.sub y e with h1 | h1
      · exact absurd hy (visit_disjoint f _ (nodup_finElems _) st y h1)
      · rw [r.pan, hp] at h1; cases h1.1

mutual
theorem retain_rejected (H : Hashbrown) : (κ : KeyTy) → ∀ {σ : Type} (f : σ → κ.Key → σ × Option Bool) s st,
    RejOk ((setStorage H.api κ).contains s) ((setStorage H.api κ).contains ((setStorage H.api κ).retain f s st).s) f
      ((setLaws H κ).visits s) st κ.sameBatch
  | .bool, _, f, s, st => RejOk.of_rejected fun x hx => (((boolRetain_spec f s st).2.2.1 x).mp hx).2
  | .unit, _, f, s, st => by
    intro y hy
    have hy' : y ∈ (visit f [()] st).rejected := hy
    rcases h : f st () with ⟨st', _ | _ | _⟩ <;> simp [visit, h] at hy'
    show (unitSet.retain f s st).s = (s && (panicAt f [()] st).any fun _ => false)
    cases s <;> simp [unitSet, panicAt, h]
  | .opt κ, _, f, s, st => by
    have := RejOk.seq (f := f) (st := st) (some : κ.Key → Option κ.Key) (fun _ : Unit => (none : Option κ.Key))
      (bA := κ.sameBatch) (bB := fun _ _ => false) (b := bothSome κ.sameBatch) (fun _ _ => rfl) (fun _ _ => rfl) (fun _ _ => rfl)
      (cA := (setStorage H.api κ).contains) (cB := fun b _ => b) (sa := s.some) (sb := s.none) (lb := if s.none then [()] else [])
      ((setLaws H κ).retain_ok (fun st v => f st (some v)) s.some st)
      (retain_rejected H κ (fun st v => f st (some v)) s.some st) (rb := fun st => retainFlag f .none s.none st)
      (fun st => RejOk.flag f none s.none st)
      (old := (optSet (setStorage H.api κ)).contains s)
      (new := (optSet (setStorage H.api κ)).contains ((optSet (setStorage H.api κ)).retain f s st).s)
      (fun _ => rfl) (fun _ => rfl) (fun _ => rfl) (fun _ => rfl)
    rw [flagList_map] at this
    exact this
  | .prim p, _, f, s, st => RejOk.of_rejected fun x hx => by
      have L := H.laws p.Key Unit
      have h3 := (retainRef_keys f ((H.laws p.Key Unit).entries s) ((H.laws p.Key Unit).nodup_keys s) st).2.2 x
      refine (h3.mp ?_).2
      have := ((H.laws p.Key Unit).mem_keys _ x).mpr hx
      exact ((((H.laws p.Key Unit).retain_entries _ s st).map Prod.fst).mem_iff).mp this
  | .units n, _, f, s, st => RejOk.of_rejected fun x hx =>
      (((unitsSetRetain_spec f (List.finRange n) (nodup_finRange n) s st).2.2 x).mp hx).2
  | .bitset _ _ h, _, f, s, st => bitset_rejected (determineBits_le h) f s st
  | .enum fs, _, f, s, st => fields_rejected H fs f s st
theorem fields_rejected (H : Hashbrown) : (fs : Fields) → ∀ {σ : Type} (f : σ → fs.Key → σ × Option Bool) s st,
    RejOk ((setFields H.api fs).contains s) ((setFields H.api fs).contains ((setFields H.api fs).retain f s st).s) f
      ((setFieldsLaws H fs).visits s) st fs.sameBatch
  | .nil, _, _, _, _ => fun y => y.elim
  | .simple fs, _, f, s, st => by
    have := RejOk.seq (f := f) (st := st) (fun _ : Unit => (Sum.inl () : Unit ⊕ fs.Key)) Sum.inr
      (bA := fun _ _ => false) (bB := fs.sameBatch) (b := both (fun _ _ => false) fs.sameBatch)
      (fun _ _ => rfl) (fun _ _ => rfl) (fun _ _ => rfl)
      (cA := fun b _ => b) (cB := (setFields H.api fs).contains) (sa := s.1) (sb := s.2) (la := if s.1 then [()] else [])
      (RetainOk.flag f (.inl ()) s.1 st) (RejOk.flag f (.inl ()) s.1 st)
      (rb := fun st => (setFields H.api fs).retain (fun st k => f st (.inr k)) s.2 st)
      (fun st => fields_rejected H fs (fun st v => f st (.inr v)) s.2 st)
      (old := (setFieldsSimple (setFields H.api fs)).contains s)
      (new := (setFieldsSimple (setFields H.api fs)).contains ((setFieldsSimple (setFields H.api fs)).retain f s st).s)
      (fun _ => rfl) (fun _ => rfl) (fun _ => rfl) (fun _ => rfl)
    rw [flagList_map] at this
    exact this
  | .complex κ fs, _, f, s, st =>
    RejOk.seq (f := f) (st := st) (Sum.inl (β := fs.Key)) (Sum.inr (α := κ.Key))
      (bA := κ.sameBatch) (bB := fs.sameBatch) (b := both κ.sameBatch fs.sameBatch)
      (fun _ _ => rfl) (fun _ _ => rfl) (fun _ _ => rfl)
      (cA := (setStorage H.api κ).contains) (cB := (setFields H.api fs).contains) (sa := s.1) (sb := s.2)
      ((setLaws H κ).retain_ok (fun st v => f st (.inl v)) s.1 st)
      (retain_rejected H κ (fun st v => f st (.inl v)) s.1 st)
      (rb := fun st => (setFields H.api fs).retain (fun st k => f st (.inr k)) s.2 st)
      (fun st => fields_rejected H fs (fun st v => f st (.inr v)) s.2 st)
      (old := (setFieldsComplex (setStorage H.api κ) (setFields H.api fs)).contains s)
      (new := (setFieldsComplex (setStorage H.api κ) (setFields H.api fs)).contains
        ((setFieldsComplex (setStorage H.api κ) (setFields H.api fs)).retain f s st).s)
      (fun _ => rfl) (fun _ => rfl) (fun _ => rfl) (fun _ => rfl)
end

/-- The exact contents after `retain`. -/
theorem contains_retain (H : Hashbrown) (κ : KeyTy) {σ : Type} (f : σ → κ.Key → σ × Option Bool) (s : (setStorage H.api κ).S) (st : σ)
    (x : κ.Key) :
    (setStorage H.api κ).contains ((setStorage H.api κ).retain f s st).s x = true ↔
      retained κ.sameBatch f ((setLaws H κ).visits s) st (fun y => (setStorage H.api κ).contains s y = true) x := by
  have r := (setLaws H κ).retain_ok f s st
  have q := retain_rejected H κ f s st x
  constructor
  · intro hx
    rcases r.sub x hx with h | h
    · exact .inl h
    · refine .inr ⟨h.2, ?_⟩
      by_cases hr : x ∈ (visit f ((setLaws H κ).visits s) st).rejected
      · have := q hr
        rw [hx] at this
        have := ((Bool.and_eq_true _ _).mp this.symm).2
        cases e : panicAt f ((setLaws H κ).visits s) st with
        | none => rw [e] at this; cases this
        | some p => rw [e] at this; exact .inr ⟨p, rfl, this⟩
      · exact .inl hr
  · rintro (h | ⟨h, h' | ⟨p, e, h'⟩⟩)
    · exact r.kept x h
    · exact r.sup x h h'
    · by_cases hr : x ∈ (visit f ((setLaws H κ).visits s) st).rejected
      · rw [q hr, h, e]; exact h'
      · exact r.sup x h hr

/-! ## the reference is deterministic without hash tables -/

mutual
theorem mayPrecede_asymm : (κ : KeyTy) → κ.hashFree = true → ∀ a b, κ.mayPrecede a b → ¬κ.mayPrecede b a
  | .bool, _, _, _ => fun h h' => Bool.false_ne_true (h.2.symm.trans h'.1)
  | .unit, _, _, _ => fun h => h.elim
  | .opt κ, h, a, b => by
    have ih := mayPrecede_asymm κ h
    cases a <;> cases b <;> first | exact ih _ _ | exact fun h => h.elim | exact fun _ h => h.elim
  | .units _, _, _, _ => fun h h' => Nat.lt_asymm h h'
  | .bitset _ _ _, _, _, _ => fun h h' => Nat.lt_asymm h h'
  | .enum fs, h, a, b => fieldsMayPrecede_asymm fs h a b
theorem fieldsMayPrecede_asymm : (fs : Fields) → fs.hashFree = true → ∀ a b, fs.mayPrecede a b → ¬fs.mayPrecede b a
  | .nil, _, _, _ => fun h => h.elim
  | .simple fs, h, a, b => by
    have ih := fieldsMayPrecede_asymm fs h
    cases a <;> cases b <;> first | exact ih _ _ | exact fun h => h.elim | exact fun _ h => h.elim
  | .complex κ fs, h, a, b => by
    have hh := (Bool.and_eq_true _ _).mp h
    have ih := mayPrecede_asymm κ hh.1
    have ih' := fieldsMayPrecede_asymm fs hh.2
    cases a <;> cases b <;> first | exact ih _ _ | exact ih' _ _ | exact fun h => h.elim | exact fun _ h => h.elim
end

theorem Lists.perm {T : Type} {R R' : T → T → Prop} {l l' : List T} {P Q : T → Prop} (h : Lists R l P) (h' : Lists R' l' Q)
    (hp : ∀ x, P x ↔ Q x) : l.Perm l' :=
  (List.perm_ext_iff_of_nodup h.1 h'.1).mpr fun x => (h.2.2 x).trans ((hp x).trans (h'.2.2 x).symm)

theorem Lists.unique {T : Type} {R : T → T → Prop} (hR : ∀ a b, R a b → ¬R b a) {l l' : List T} {P Q : T → Prop}
    (h : Lists R l P) (h' : Lists R l' Q) (hp : ∀ x, P x ↔ Q x) : l = l' :=
  List.Perm.eq_of_pairwise (fun a b _ _ h1 h2 => absurd h2 (hR a b h1)) h.2.1 h'.2.1 (h.perm h' hp)

mutual
theorem saysEmpty_congr : (κ : KeyTy) → ∀ {P Q : κ.Key → Prop}, (∀ x, P x ↔ Q x) → (κ.saysEmpty P ↔ κ.saysEmpty Q)
  | .bool, _, _, h => forall_congr' fun _ => not_congr (h _)
  | .unit, _, _, h => not_congr (h _)
  | .opt κ, _, _, h => and_congr (saysEmpty_congr κ fun _ => h _) (h _)
  | .prim _, _, _, h => forall_congr' fun _ => not_congr (h _)
  | .units _, _, _, h => forall_congr' fun _ => not_congr (h _)
  | .bitset _ _ _, _, _, h => forall_congr' fun _ => not_congr (h _)
  | .enum fs, _, _, h => fieldsSaysEmpty_congr fs h
theorem fieldsSaysEmpty_congr : (fs : Fields) → ∀ {P Q : fs.Key → Prop}, (∀ x, P x ↔ Q x) → (fs.saysEmpty P ↔ fs.saysEmpty Q)
  | .nil, _, _, _ => Iff.rfl
  | .simple fs, _, _, h => and_congr (not_congr (h _)) (fieldsSaysEmpty_congr fs fun _ => h _)
  | .complex κ fs, _, _, h => and_congr (saysEmpty_congr κ fun _ => h _) (fieldsSaysEmpty_congr fs fun _ => h _)
end

theorem bool_of_iff {a b : Bool} {P Q : Prop} (h : a = true ↔ P) (h' : b = true ↔ Q) (hp : P ↔ Q) : a = b :=
  Bool.eq_iff_iff.mpr (h.trans (hp.trans h'.symm))

theorem SetCall.ref_unique (κ : KeyTy) (hf : κ.hashFree = true) (c : SetCall κ.Key) {P P' Q Q' : κ.Key → Prop} {o o' : c.Out}
    (hp : ∀ x, P x ↔ P' x) (h : c.Ref κ P o Q) (h' : c.Ref κ P' o' Q') : o = o' ∧ ∀ x, Q x ↔ Q' x := by
  cases c with
  | insert x =>
    exact ⟨bool_of_iff h.2 h'.2 (iff_congr (hp x) Iff.rfl),
      fun y => (h.1 y).trans ((or_congr Iff.rfl (hp y)).trans (h'.1 y).symm)⟩
  | remove x =>
    exact ⟨bool_of_iff h.2 h'.2 (exists_congr fun y => and_congr Iff.rfl (hp y)),
      fun y => (h.1 y).trans ((and_congr Iff.rfl (hp y)).trans (h'.1 y).symm)⟩
  | contains x => exact ⟨bool_of_iff h.2 h'.2 (hp x), fun y => (h.1 y).trans ((hp y).trans (h'.1 y).symm)⟩
  | len =>
    obtain ⟨a, l, hl, e⟩ := h
    obtain ⟨a', l', hl', e'⟩ := h'
    exact ⟨e.trans ((hl.perm hl' hp).length_eq.trans e'.symm), fun y => (a y).trans ((hp y).trans (a' y).symm)⟩
  | isEmpty => exact ⟨bool_of_iff h.2 h'.2 (saysEmpty_congr κ hp), fun y => (h.1 y).trans ((hp y).trans (h'.1 y).symm)⟩
  | clear => exact ⟨rfl, fun y => ⟨fun a => absurd a (h y), fun a => absurd a (h' y)⟩⟩
  | retain f st =>
    obtain ⟨l, hl, e, a⟩ := h
    obtain ⟨l', hl', e', a'⟩ := h'
    have el := hl.unique (mayPrecede_asymm κ hf) hl' fun x => or_congr (hp x) Iff.rfl
    subst el
    refine ⟨e.trans e'.symm, fun y => (a y).trans (Iff.trans ?_ (a' y).symm)⟩
    exact or_congr Iff.rfl (and_congr (hp y) Iff.rfl)
  | iter =>
    exact ⟨Lists.unique (mayPrecede_asymm κ hf) h.2 h'.2 hp, fun y => (h.1 y).trans ((hp y).trans (h'.1 y).symm)⟩
  | clone => exact ⟨rfl, fun y => (h y).trans ((hp y).trans (h' y).symm)⟩

end FixedMap
