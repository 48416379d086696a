import Verif.Spec.RustSource

/-!
# Iterators built from the same parts are the same
-/

set_option autoImplicit false
set_option linter.unusedSimpArgs false

namespace FixedMap.Rust

variable {X : Type} {α β : Type}

/-- An option. -/
theorem SameIter.option {enc : α → Val X} {o : Option (Val X)} {t : Option α} (h : o = t.map enc) : SameIter enc ⟨optionIter _, o⟩ (optionIter α) t := by
  subst h
  refine ⟨fun a b => a = b.map enc, rfl, ?_⟩
  rintro a b rfl
  refine ⟨⟨rfl, rfl⟩, ?_, ?_⟩
  · cases b <;> rfl
  · exact ⟨rfl, rfl⟩

/-- A mapped iterator: `g` on the values does what `f` does on the items. -/
theorem SameIter.map {enc : α → Val X} {enc' : β → Val X} {i : AnyIter (Val X)} {J : IterImpl α} {t : J.St} {g : Val X → Val X} {f : α → β}
    (h : SameIter enc i J t) (hg : ∀ a, g (enc a) = enc' (f a)) : SameIter enc' (i.map g) (J.map f) t := by
  obtain ⟨R, h0, hs⟩ := h
  have hmap : ∀ {A B : Type} {R : A → B → Prop} {x : Option (Val X) × A} {y : Option α × B}, StepEq enc R x y → StepEq enc' R (x.1.map g, x.2) (y.1.map f, y.2) := by
    intro A B R x y h
    refine ⟨?_, h.2⟩
    show Option.map g x.1 = Option.map enc' (Option.map f y.1)
    rw [h.1]
    cases y.1 with
    | none => rfl
    | some a => show some (g (enc a)) = some (enc' (f a)); rw [hg]
  refine ⟨R, h0, fun a b hab => ?_⟩
  obtain ⟨h1, h2, h3⟩ := hs a b hab
  refine ⟨hmap h1, h2, ?_⟩
  show BackEq enc' R (i.I.nextBack?.map (fun nb st => ((nb st).1.map g, (nb st).2))) (J.nextBack?.map (fun nb st => ((nb st).1.map f, (nb st).2))) a b
  generalize i.I.nextBack? = x at h3 ⊢
  generalize J.nextBack? = y at h3 ⊢
  cases x <;> cases y <;> first | exact h3 | exact hmap h3

/-- The model's map, on both sides. -/
theorem SameIter.mapEq {enc : α → Val X} {J : IterImpl α} {t : J.St} : SameIter enc ⟨J.map enc, t⟩ J t := by
  refine ⟨fun a b => a = b, rfl, ?_⟩
  rintro a b rfl
  refine ⟨⟨rfl, rfl⟩, rfl, ?_⟩
  show BackEq enc (fun a b => a = b) (J.nextBack?.map (fun nb st => ((nb st).1.map enc, (nb st).2))) J.nextBack? a a
  cases J.nextBack? with
  | none => trivial
  | some f => exact ⟨rfl, rfl⟩

/-- A map on either side. -/
theorem SameIter.mapMap {enc : β → Val X} {J : IterImpl α} {t : J.St} {g : α → Val X} {h : α → β} (hg : ∀ a, g a = enc (h a)) : SameIter enc ⟨J.map g, t⟩ (J.map h) t := by
  have e (o : Option α) : o.map g = (o.map h).map enc := by cases o <;> simp [hg]
  refine ⟨fun a b => a = b, rfl, ?_⟩
  rintro a b rfl
  refine ⟨⟨e _, rfl⟩, rfl, ?_⟩
  show BackEq enc (fun a b => a = b) (J.nextBack?.map (fun nb st => ((nb st).1.map g, (nb st).2))) (J.nextBack?.map (fun nb st => ((nb st).1.map h, (nb st).2))) a a
  cases J.nextBack? with
  | none => trivial
  | some f => exact ⟨e _, rfl⟩

private theorem clear_eq {A B : Type} {enc : α → Val X} {R : A → B → Prop} {f : A → Option (Val X) × A} {g : B → Option α × B}
    (h : ∀ a b, R a b → StepEq enc R (f a) (g b)) {a : Option A} {b : Option B} (hab : Option.Rel R a b) :
    StepEq enc (Option.Rel R) (andThenOrClear f a) (andThenOrClear g b) := by
  cases hab with
  | none => exact ⟨rfl, .none⟩
  | @some a b hab =>
    obtain ⟨h1, h2⟩ := h a b hab
    simp only [StepEq, andThenOrClear]
    generalize f a = x at h1 h2 ⊢
    generalize g b = y at h1 h2 ⊢
    obtain ⟨x1, x2⟩ := x
    obtain ⟨y1, y2⟩ := y
    cases y1 with
    | none => simp only [Option.map_none] at h1; subst h1; exact ⟨rfl, .none⟩
    | some c => simp only [Option.map_some] at h1; subst h1; exact ⟨rfl, .some h2⟩

/-- A chain of two. -/
theorem SameIter.chain {enc : α → Val X} {i i' : AnyIter (Val X)} {J J' : IterImpl α} {t : J.St} {t' : J'.St} (h : SameIter enc i J t) (h' : SameIter enc i' J' t') :
    SameIter enc (i.chain i') (J.chain J') (some t, some t') := by
  obtain ⟨R, h0, hs⟩ := h
  obtain ⟨R', h0', hs'⟩ := h'
  refine ⟨fun a b => Option.Rel R a.1 b.1 ∧ Option.Rel R' a.2 b.2, ⟨.some h0, .some h0'⟩, ?_⟩
  rintro ⟨a, a'⟩ ⟨b, b'⟩ ⟨hab, hab'⟩
  refine ⟨?_, ?_, ?_⟩
  · have hc := clear_eq (fun a b h => (hs a b h).1) hab
    show StepEq enc _ ((i.I.chain i'.I).next (a, a')) ((J.chain J').next (b, b'))
    simp only [IterImpl.chain]
    generalize andThenOrClear i.I.next a = x at hc
    generalize andThenOrClear J.next b = y at hc
    obtain ⟨x1, x2⟩ := x
    obtain ⟨y1, y2⟩ := y
    obtain ⟨e1, e2⟩ := hc
    cases y1 with
    | some c => simp only [Option.map_some] at e1; subst e1; exact ⟨rfl, e2, hab'⟩
    | none =>
      simp only [Option.map_none] at e1; subst e1
      cases hab' with
      | none => exact ⟨rfl, e2, .none⟩
      | @some a' b' hab' => exact ⟨(hs' a' b' hab').1.1, e2, .some (hs' a' b' hab').1.2⟩
  · show (i.I.chain i'.I).sizeHint (a, a') = (J.chain J').sizeHint (b, b')
    simp only [IterImpl.chain]
    cases hab with
    | none =>
      cases hab' with
      | none => rfl
      | some hab' => exact (hs' _ _ hab').2.1
    | some hab =>
      cases hab' with
      | none => exact (hs _ _ hab).2.1
      | some hab' => simp only [(hs _ _ hab).2.1, (hs' _ _ hab').2.1]
  · have hb := hs
    have hb' := hs'
    show BackEq enc _ (i.I.chain i'.I).nextBack? (J.chain J').nextBack? (a, a') (b, b')
    simp only [IterImpl.chain]
    generalize i.I.nextBack? = x at hb
    generalize J.nextBack? = y at hb
    generalize i'.I.nextBack? = x' at hb'
    generalize J'.nextBack? = y' at hb'
    have hx : x.isSome = y.isSome := by
      have := (hb _ _ h0).2.2
      cases x <;> cases y <;> first | rfl | exact this.elim
    have hx' : x'.isSome = y'.isSome := by
      have := (hb' _ _ h0').2.2
      cases x' <;> cases y' <;> first | rfl | exact this.elim
    cases x with
    | none => cases y with
      | none => trivial
      | some g => cases hx
    | some f => cases y with
      | none => cases hx
      | some g =>
        cases x' with
        | none => cases y' with
          | none => trivial
          | some g' => cases hx'
        | some f' => cases y' with
          | none => cases hx'
          | some g' =>
            have hc := clear_eq (fun a b h => (hb' a b h).2.2) hab'
            simp only [BackEq, StepEq]
            generalize andThenOrClear f' a' = z at hc
            generalize andThenOrClear g' b' = w at hc
            obtain ⟨z1, z2⟩ := z
            obtain ⟨w1, w2⟩ := w
            obtain ⟨e1, e2⟩ := hc
            cases w1 with
            | some c => simp only [Option.map_some] at e1; subst e1; exact ⟨rfl, hab, e2⟩
            | none =>
              simp only [Option.map_none] at e1; subst e1
              cases hab with
              | none => exact ⟨rfl, .none, e2⟩
              | @some a b hab => exact ⟨(hb a b hab).2.2.1, .some (hb a b hab).2.2.2, e2⟩

end FixedMap.Rust
