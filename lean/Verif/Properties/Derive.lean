import Verif.Spec.Derive

/-! # C49: what `#[derive(Key)]` accepts and rejects -/

set_option autoImplicit false
set_option linter.unusedSimpArgs false

namespace FixedMap.Derive

/-! ## Helper lemmas -/

theorem isAllUnit_iff (vs : List VariantFields) : isAllUnitVariants vs = true ↔ ∀ v ∈ vs, v = .unit := by
  induction vs with
  | nil => simp [isAllUnitVariants]
  | cons v vs ih => cases v <;> simp [isAllUnitVariants, ih]

theorem parseItems_bitset (items : List Meta) (cx : Cx) :
    (parseItems items cx).bitset = true ↔ cx.bitset = true ∨ .bitset ∈ items.takeWhile (· == .bitset) := by
  induction items generalizing cx with
  | nil => simp [parseItems]
  | cons m items ih =>
    cases m with
    | bitset =>
      rw [parseItems, ih]
      simp
    | unsupported => simp [parseItems]
    | syntaxError => simp [parseItems]

theorem parseAttrs_bitset (attrs : List KeyAttr) (cx : Cx) :
    (parseAttrs attrs cx).bitset = true ↔ cx.bitset = true ∨ asksBitset attrs := by
  induction attrs generalizing cx with
  | nil => simp [parseAttrs, asksBitset]
  | cons a attrs ih =>
    cases a with
    | list items =>
      rw [parseAttrs, ih, parseItems_bitset]
      constructor
      · rintro ((h | h) | ⟨it, h1, h2⟩)
        · exact .inl h
        · exact .inr ⟨items, .head _, h⟩
        · exact .inr ⟨it, .tail _ h1, h2⟩
      · rintro (h | ⟨it, h1, h2⟩)
        · exact .inl (.inl h)
        · rcases List.mem_cons.mp h1 with h1 | h1
          · obtain rfl := KeyAttr.list.inj h1; exact .inl (.inr h2)
          · exact .inr ⟨it, h1, h2⟩
    | notAList =>
      rw [parseAttrs, ih]
      constructor
      · rintro (h | ⟨it, h1, h2⟩)
        · exact .inl h
        · exact .inr ⟨it, .tail _ h1, h2⟩
      · rintro (h | ⟨it, h1, h2⟩)
        · exact .inl h
        · rcases List.mem_cons.mp h1 with h1 | h1
          · cases h1
          · exact .inr ⟨it, h1, h2⟩

/-- The variants the generated code covers. -/
def covered : Nat → List VariantFields → List (Nat × Kind)
  | _, [] => []
  | i, .unit :: l => (i, .simple) :: covered (i + 1) l
  | i, .unnamed n :: l => if n = 1 then (i, .complex) :: covered (i + 1) l else covered (i + 1) l
  | i, .named _ :: l => covered (i + 1) l

theorem collectFields_eq (i : Nat) (vs : List VariantFields) (errs : List Diag) :
    (.unnamed 0 ∈ vs ∧ collectFields i vs errs = none) ∨
    (.unnamed 0 ∉ vs ∧ ∃ errs', collectFields i vs errs = some (covered i vs, errs')) := by
  induction vs generalizing i errs with
  | nil => exact .inr ⟨by simp, errs, rfl⟩
  | cons v vs ih =>
    cases v with
    | unit =>
      rcases ih (i + 1) errs with ⟨h1, h2⟩ | ⟨h1, e, h2⟩
      · exact .inl ⟨.tail _ h1, by simp [collectFields, h2]⟩
      · exact .inr ⟨by simpa using h1, e, by simp [collectFields, h2, covered]⟩
    | named m =>
      rcases ih (i + 1) (errs ++ [.namedFields]) with ⟨h1, h2⟩ | ⟨h1, e, h2⟩
      · exact .inl ⟨.tail _ h1, by simp [collectFields, h2]⟩
      · exact .inr ⟨by simpa using h1, e, by simp [collectFields, h2, covered]⟩
    | unnamed m =>
      rcases Nat.lt_trichotomy m 1 with hm | hm | hm
      · obtain rfl : m = 0 := by omega
        exact .inl ⟨.head _, by simp [collectFields]⟩
      · subst hm
        rcases ih (i + 1) errs with ⟨h1, h2⟩ | ⟨h1, e, h2⟩
        · exact .inl ⟨.tail _ h1, by simp [collectFields, h2]⟩
        · exact .inr ⟨by simpa using h1, e, by simp [collectFields, h2, covered]⟩
      · rcases ih (i + 1) (errs ++ [.notASingleField]) with ⟨h1, h2⟩ | ⟨h1, e, h2⟩
        · exact .inl ⟨.tail _ h1, by simp [collectFields, h2, hm]⟩
        · refine .inr ⟨?_, e, by simp [collectFields, h2, covered, hm]; omega⟩
          simp only [List.mem_cons, not_or]
          exact ⟨fun h => by cases h; omega, h1⟩

theorem covered_ge (i : Nat) (vs : List VariantFields) : ∀ f ∈ covered i vs, i ≤ f.1 := by
  induction vs generalizing i with
  | nil => simp [covered]
  | cons v vs ih =>
    have ih' := ih (i + 1)
    intro f hf
    cases v with
    | unit =>
      rcases List.mem_cons.mp hf with rfl | hf
      · exact Nat.le_refl _
      · have := ih' f hf; omega
    | named m => have := ih' f hf; omega
    | unnamed m =>
      rw [covered] at hf
      split at hf
      · rcases List.mem_cons.mp hf with rfl | hf
        · exact Nat.le_refl _
        · have := ih' f hf; omega
      · have := ih' f hf; omega

theorem covered_all (i : Nat) (vs : List VariantFields) :
    (∀ j, j < vs.length → (covered i vs).any (fun f => f.1 == i + j) = true) ↔ ∀ v ∈ vs, v.supported := by
  induction vs generalizing i with
  | nil => simp
  | cons v vs ih =>
    have shift : (∀ j, j < vs.length → (covered (i + 1) vs).any (fun f => f.1 == i + (j + 1)) = true) ↔ ∀ v ∈ vs, v.supported := by
      rw [← ih (i + 1)]
      simp only [Nat.add_assoc, Nat.add_comm 1]
    have skip : ((covered (i + 1) vs).any fun f => f.1 == i) = false := by
      rw [List.any_eq_false]
      intro f hf
      have := covered_ge (i + 1) vs f hf
      simp; omega
    have step : ∀ (k : Kind), (∀ j, j < (v :: vs).length → ((i, k) :: covered (i + 1) vs).any (fun f => f.1 == i + j) = true) ↔
        ∀ v ∈ vs, v.supported := by
      intro k
      rw [← shift]
      constructor
      · intro h j hj
        have := h (j + 1) (by simp; omega)
        simp only [List.any_cons, Bool.or_eq_true, beq_iff_eq] at this
        exact this.resolve_left (by omega)
      · intro h j hj
        cases j with
        | zero => simp
        | succ j =>
          simp only [List.any_cons, Bool.or_eq_true]
          exact .inr (h j (by simp at hj; omega))
    rw [List.forall_mem_cons]
    cases v with
    | unit =>
      simp only [covered, VariantFields.supported, true_and]
      exact step _
    | named m =>
      simp only [covered, VariantFields.supported, false_and, iff_false]
      intro h
      have := h 0 (by simp)
      exact Bool.false_ne_true (skip.symm.trans this)
    | unnamed m =>
      simp only [covered, VariantFields.supported]
      by_cases hm : m = 1
      · simp only [hm, if_true, true_and]
        exact step _
      · simp only [hm, if_false, false_and, iff_false]
        intro h
        have := h 0 (by simp)
        exact Bool.false_ne_true (skip.symm.trans this)

theorem exhaustive_covered (vs : List VariantFields) :
    exhaustive vs (.any (covered 0 vs)) = true ↔ ∀ v ∈ vs, v.supported := by
  rw [← covered_all 0 vs, exhaustive, List.all_eq_true]
  simp only [List.mem_range, Nat.zero_add]

theorem determineBits_none (n : Nat) : determineBits n = none ↔ 128 < n := by
  unfold determineBits
  repeat' split
  all_goals simp
  all_goals omega

/-! ## The property -/

/-- C49, non-enums: structs and unions are rejected with a diagnostic, whatever the attributes. -/
theorem C49_non_enum (attrs : List KeyAttr) (data : Data) (h : ∀ vs, data ≠ .enum vs) :
    ∃ l, derive ⟨attrs, data⟩ = .compileErrors l ∧ Diag.notAnEnum ∈ l := by
  cases data with
  | enum vs => exact absurd rfl (h vs)
  | struct => exact ⟨_, rfl, by simp⟩
  | union => exact ⟨_, rfl, by simp⟩

/-- C49 for enums, what holds: rustc accepts the enum with its derive exactly when all variants are supported and it is not a bitset
enum with more than 128 variants. Full statement: moreover the attributes must be supported, and every rejection is a
diagnostic of the macro; both are false, see `C49_false_attributes`, `C49_false_panic`, `C49_false_no_diagnostic`. -/
theorem C49_accepts_partial (attrs : List KeyAttr) (vs : List VariantFields) :
    Accepted attrs vs ↔ (∀ v ∈ vs, v.supported) ∧ ¬tooLarge attrs vs := by
  have hb : (parseAttrs attrs ⟨false, []⟩).bitset = true ↔ asksBitset attrs := by
    rw [parseAttrs_bitset]; simp
  unfold Accepted derive
  by_cases hu : isAllUnitVariants vs = true
  · have hu' := (isAllUnit_iff vs).mp hu
    have hsup : ∀ v ∈ vs, v.supported := fun v hv => by rw [hu' v hv]; trivial
    simp only [hu, if_true, implementUnits]
    cases hbit : (parseAttrs attrs ⟨false, []⟩).bitset with
    | false =>
      have hna : ¬asksBitset attrs := fun h => by rw [hb.mpr h] at hbit; cases hbit
      simp only [Bool.false_eq_true, if_false]
      exact ⟨fun _ => ⟨hsup, fun h => hna h.1⟩, fun _ => ⟨_, rfl, by simp [exhaustive]⟩⟩
    | true =>
      have ha := hb.mp hbit
      simp only [if_true]
      cases hd : determineBits vs.length with
      | none =>
        have := (determineBits_none _).mp hd
        constructor
        · rintro ⟨c, hc, _⟩; cases hc
        · exact fun h => absurd ⟨ha, hu', this⟩ h.2
      | some w =>
        have : ¬128 < vs.length := fun h => by rw [(determineBits_none _).mpr h] at hd; cases hd
        exact ⟨fun _ => ⟨hsup, fun h => this h.2.2⟩, fun _ => ⟨_, rfl, by simp [exhaustive]⟩⟩
  · have hu' : ¬∀ v ∈ vs, v = .unit := fun h => hu ((isAllUnit_iff vs).mpr h)
    simp only [hu, if_false, Bool.false_eq_true]
    rcases collectFields_eq 0 vs (parseAttrs attrs ⟨false, []⟩).errors with ⟨h1, h2⟩ | ⟨h1, e, h2⟩
    · rw [h2]
      constructor
      · rintro ⟨c, hc, _⟩; cases hc
      · intro h
        have := h.1 _ h1
        simp [VariantFields.supported] at this
    · rw [h2]
      constructor
      · rintro ⟨c, hc, he⟩
        obtain rfl := Out.code.inj hc
        exact ⟨(exhaustive_covered vs).mp he, fun h => hu' h.2.1⟩
      · exact fun h => ⟨_, rfl, (exhaustive_covered vs).mpr h.1⟩

/-- C49, the accepted inputs get the intended storage: an array or a bitset of the right size for unit-only enums; otherwise one field per
variant in declaration order. -/
theorem C49_code (attrs : List KeyAttr) (vs : List VariantFields) (h : Accepted attrs vs) :
    ((∀ v ∈ vs, v = .unit) → ∃ b, derive ⟨attrs, .enum vs⟩ = .code (.units vs.length b) ∧
      (b.isSome = true ↔ asksBitset attrs) ∧ ∀ w, b = some w → determineBits vs.length = some w) ∧
    ((∃ v ∈ vs, v ≠ .unit) → ∃ fields, derive ⟨attrs, .enum vs⟩ = .code (.any fields) ∧
      fields = vs.mapIdx fun i v => (i, if v = .unit then .simple else .complex)) := by
  have hsup := (C49_accepts_partial attrs vs).mp h
  have hb : (parseAttrs attrs ⟨false, []⟩).bitset = true ↔ asksBitset attrs := by
    rw [parseAttrs_bitset]; simp
  constructor
  · intro hu
    have hu' := (isAllUnit_iff vs).mpr hu
    simp only [derive, hu', if_true, implementUnits]
    cases hbit : (parseAttrs attrs ⟨false, []⟩).bitset with
    | false =>
      have hna : ¬asksBitset attrs := fun h => by rw [hb.mpr h] at hbit; cases hbit
      exact ⟨none, rfl, by simp [hna], by simp⟩
    | true =>
      have ha := hb.mp hbit
      simp only [if_true]
      cases hd : determineBits vs.length with
      | none => exact absurd ⟨ha, hu, (determineBits_none _).mp hd⟩ hsup.2
      | some w => exact ⟨some w, rfl, by simp [ha], fun w' e => by rw [← Option.some.inj e]⟩
  · rintro ⟨v, hv, hne⟩
    have hu : ¬isAllUnitVariants vs = true := fun h => hne ((isAllUnit_iff vs).mp h v hv)
    simp only [derive, hu, if_false, Bool.false_eq_true]
    rcases collectFields_eq 0 vs (parseAttrs attrs ⟨false, []⟩).errors with ⟨h1, h2⟩ | ⟨h1, e, h2⟩
    · have := hsup.1 _ h1
      simp [VariantFields.supported] at this
    · rw [h2]
      refine ⟨_, rfl, ?_⟩
      have key : ∀ (i : Nat) (vs : List VariantFields), (∀ v ∈ vs, v.supported) →
          covered i vs = vs.mapIdx fun j v => (i + j, if v = .unit then Kind.simple else .complex) := by
        intro i vs
        induction vs generalizing i with
        | nil => simp [covered]
        | cons v vs ih =>
          intro h
          have ih := ih (i + 1) fun v hv => h v (.tail _ hv)
          have hv := h v (.head _)
          cases v with
          | unit => simp [covered, ih, List.mapIdx_cons, Nat.add_assoc, Nat.add_comm 1]
          | unnamed m =>
            obtain rfl : m = 1 := hv
            simp [covered, ih, List.mapIdx_cons, Nat.add_assoc, Nat.add_comm 1]
          | named m => exact absurd hv (by simp [VariantFields.supported])
      rw [key 0 vs hsup.1]
      simp

/-- C49, which rejections of enums are diagnostics of the macro: only the bitset size limit. -/
theorem C49_diagnosed_iff (attrs : List KeyAttr) (vs : List VariantFields) :
    Diagnosed ⟨attrs, .enum vs⟩ ↔ tooLarge attrs vs := by
  have hb : (parseAttrs attrs ⟨false, []⟩).bitset = true ↔ asksBitset attrs := by
    rw [parseAttrs_bitset]; simp
  unfold Diagnosed derive
  by_cases hu : isAllUnitVariants vs = true
  · have hu' := (isAllUnit_iff vs).mp hu
    simp only [hu, if_true, implementUnits]
    cases hbit : (parseAttrs attrs ⟨false, []⟩).bitset with
    | false =>
      have hna : ¬asksBitset attrs := fun h => by rw [hb.mpr h] at hbit; cases hbit
      constructor
      · rintro ⟨d, l, h⟩; cases h
      · exact fun h => absurd h.1 hna
    | true =>
      have ha := hb.mp hbit
      simp only [if_true]
      cases hd : determineBits vs.length with
      | none =>
        refine ⟨fun _ => ⟨ha, hu', (determineBits_none _).mp hd⟩, fun _ => ?_⟩
        show ∃ d l, Out.compileErrors ((parseAttrs attrs ⟨false, []⟩).errors ++ [.tooManyVariants]) = .compileErrors (d :: l)
        cases (parseAttrs attrs ⟨false, []⟩).errors with
        | nil => exact ⟨_, _, rfl⟩
        | cons d l => exact ⟨_, _, rfl⟩
      | some w =>
        constructor
        · rintro ⟨d, l, h⟩; cases h
        · intro h; rw [(determineBits_none _).mpr h.2.2] at hd; cases hd
  · have hu' : ¬∀ v ∈ vs, v = .unit := fun h => hu ((isAllUnit_iff vs).mpr h)
    simp only [hu, if_false, Bool.false_eq_true]
    constructor
    · rintro ⟨d, l, h⟩
      split at h <;> cases h
    · exact fun h => absurd h.2.1 hu'

/-- C49, when the macro panics: some variant is `A()` (which is not a unit variant). -/
theorem C49_panics_iff (input : Input) : derive input = .panic ↔ ∃ vs, input.data = .enum vs ∧ .unnamed 0 ∈ vs := by
  obtain ⟨attrs, data⟩ := input
  cases data with
  | struct =>
    constructor
    · intro h; cases h
    · rintro ⟨_, h, _⟩; cases h
  | union =>
    constructor
    · intro h; cases h
    · rintro ⟨_, h, _⟩; cases h
  | enum vs =>
    have : (∃ vs', Data.enum vs = .enum vs' ∧ .unnamed 0 ∈ vs') ↔ .unnamed 0 ∈ vs :=
      ⟨fun ⟨_, h1, h2⟩ => by cases h1; exact h2, fun h => ⟨vs, rfl, h⟩⟩
    rw [this]
    unfold derive
    by_cases hu : isAllUnitVariants vs = true
    · have hu' := (isAllUnit_iff vs).mp hu
      simp only [hu, if_true]
      constructor
      · intro h; split at h <;> cases h
      · intro h; cases hu' _ h
    · simp only [hu, if_false, Bool.false_eq_true]
      rcases collectFields_eq 0 vs (parseAttrs attrs ⟨false, []⟩).errors with ⟨h1, h2⟩ | ⟨h1, e, h2⟩
      · rw [h2]; simp [h1]
      · rw [h2]; simp [h1]

/-- C49 is false for attributes: on every enum with supported variants (and without `bitset`) any number of unsupported or malformed
`#[key(..)]` attributes is accepted without a diagnostic. -/
theorem C49_false_attributes (attrs : List KeyAttr) (vs : List VariantFields) (h : ∀ v ∈ vs, v.supported)
    (hb : ¬asksBitset attrs) : Accepted attrs vs ∧ ¬Diagnosed ⟨attrs, .enum vs⟩ :=
  ⟨(C49_accepts_partial attrs vs).mpr ⟨h, fun t => hb t.1⟩, fun d => hb ((C49_diagnosed_iff attrs vs).mp d).1⟩

/-- C49 is false for `A()`: the macro panics instead of reporting an error. -/
theorem C49_false_panic (attrs : List KeyAttr) : derive ⟨attrs, .enum [.unnamed 0]⟩ = .panic :=
  (C49_panics_iff _).mpr ⟨_, rfl, .head _⟩

/-- C49 is false for named fields and for several unnamed ones: the macro's diagnostic is not reported; it produces code that rustc
rejects because its matches are not exhaustive. -/
theorem C49_false_no_diagnostic (attrs : List KeyAttr) (n m : Nat) (hm : 1 < m) :
    derive ⟨attrs, .enum [.unit, .named n, .unnamed m]⟩ = .code (.any [(0, .simple)]) ∧
      ¬Accepted attrs [.unit, .named n, .unnamed m] := by
  constructor
  · simp only [derive, isAllUnitVariants]
    rcases collectFields_eq 0 [.unit, .named n, .unnamed m] (parseAttrs attrs ⟨false, []⟩).errors with ⟨h1, _⟩ | ⟨_, e, h2⟩
    · simp at h1; omega
    · rw [h2]
      have : m ≠ 1 := by omega
      simp [covered, this]
  · rw [C49_accepts_partial]
    intro h
    have := h.1 (.named n) (by simp)
    simp [VariantFields.supported] at this

/-- Cases: an accepted composite enum, a bitset enum with a stray attribute, and an unsupported attribute in front of `bitset`. -/
example : derive ⟨[], .enum [.unnamed 1, .unit]⟩ = .code (.any [(0, .complex), (1, .simple)]) ∧
    derive ⟨[.notAList, .list [.bitset, .unsupported]], .enum [.unit, .unit]⟩ = .code (.units 2 (some 8)) ∧
    derive ⟨[.list [.unsupported, .bitset]], .enum [.unit, .unit]⟩ = .code (.units 2 none) := by decide

end FixedMap.Derive
