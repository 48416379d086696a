import Verif.Spec.Compare
import Verif.Proofs.DropBatches

/-! # Comparisons with effects: proofs -/

set_option autoImplicit false
set_option linter.unusedSimpArgs false

namespace FixedMap

variable {σ V : Type} {e : EqFn σ V}

theorem unlessNe_eq (a : σ × Option Bool) (r : σ → σ × Option Bool) : unlessNe a r = andD a r := by
  rcases a with ⟨st, _ | _ | _⟩ <;> rfl

section
variable {K : Type} {a b : K → Option V}

theorem compareKeys_append (l l' : List K) (last : Bool) (st : σ) :
    compareKeys e a b last (l ++ l') st = andD (compareKeys e a b true l st) (compareKeys e a b last l') := by
  induction l generalizing st with
  | nil => rfl
  | cons k l ih =>
    simp only [List.cons_append, compareKeys]
    split
    · exact ih st
    · split
      · rfl
      · rfl
      · exact ih _
    · rfl

theorem compareKeys_false (l : List K) (x : σ → σ × Option Bool) (st : σ) :
    andD (compareKeys e a b false l st) x = compareKeys e a b false l st := by
  induction l generalizing st with
  | nil => rfl
  | cons k l ih =>
    simp only [compareKeys]
    split
    · exact ih st
    · split
      · rfl
      · rfl
      · exact ih _
    · rfl

theorem compareKeys_map {K' : Type} (g : K → K') (a' b' : K' → Option V) (ha : ∀ k, a' (g k) = a k) (hb : ∀ k, b' (g k) = b k)
    (last : Bool) (l : List K) (st : σ) : compareKeys e a' b' last (l.map g) st = compareKeys e a b last l st := by
  induction l generalizing st with
  | nil => rfl
  | cons k l ih =>
    simp only [List.map_cons, compareKeys, ha, hb]
    split
    · exact ih st
    · split
      · rfl
      · rfl
      · exact ih _
    · rfl

theorem slotEq_course (k : K) (st : σ) : slotEqD e (a k) (b k) st = compareKeys e a b true [k] st := by
  simp only [compareKeys]
  rcases a k with _ | v <;> rcases b k with _ | w
  · rfl
  · rfl
  · rfl
  · simp only [slotEqD]
    rcases e st v w with ⟨st', _ | _ | _⟩ <;> rfl

end

/-- What a comparison does, and that it is the right thing. -/
structure EqLaw {K : Type} (e : EqFn σ V) (T : K → K → Bool) (inT : K → Bool) (B : K → K → Prop) (la lb : List (K × V))
    (a b : K → Option V) (f : σ → σ × Option Bool) (ks : List K) (last : Bool) : Prop where
  course : Course T inT B la lb ks last
  run : ∀ st, f st = compareKeys e a b last ks st

/-- How two kinds of keys sit side by side in one, the first compared first. -/
structure Beside {A C K : Type} (g : A → K) (h : C → K) (T : K → K → Bool) (inT : K → Bool) (B : K → K → Prop)
    (T₁ : A → A → Bool) (inT₁ : A → Bool) (B₁ : A → A → Prop) (T₂ : C → C → Bool) (inT₂ : C → Bool) (B₂ : C → C → Prop) :
    Prop where
  cover : ∀ k, (∃ x, k = g x) ∨ ∃ y, k = h y
  gT : ∀ x y, T (g x) (g y) = T₁ x y
  hT : ∀ x y, T (h x) (h y) = T₂ x y
  ghT : ∀ x y, T (g x) (h y) = false
  hgT : ∀ x y, T (h y) (g x) = false
  gI : ∀ x, inT (g x) = inT₁ x
  hI : ∀ x, inT (h x) = inT₂ x
  gB : ∀ x y, B (g x) (g y) ↔ B₁ x y
  hB : ∀ x y, B (h x) (h y) ↔ B₂ x y
  ghB : ∀ x y, B (g x) (h y)
  hgB : ∀ x y, ¬ B (h y) (g x)
  g_inj : ∀ x y, g x = g y → x = y
  h_inj : ∀ x y, h x = h y → x = y
  ne : ∀ x y, g x ≠ h y

theorem filter_renameKeys {K K' : Type} (g : K → K') (p : K' × V → Bool) (q : K × V → Bool) (l : List (K × V))
    (h : ∀ k v, p (g k, v) = q (k, v)) : (renameKeys g l).filter p = renameKeys g (l.filter q) := by
  induction l with
  | nil => rfl
  | cons x l ih =>
    obtain ⟨k, v⟩ := x
    have e1 : renameKeys g ((k, v) :: l) = (g k, v) :: renameKeys g l := rfl
    rw [e1, List.filter_cons, List.filter_cons, h, ih]
    split <;> rfl

theorem filter_renameKeys_nil {K K' : Type} (g : K → K') (p : K' × V → Bool) (l : List (K × V))
    (h : ∀ k v, p (g k, v) = false) : (renameKeys g l).filter p = [] := by
  rw [List.filter_eq_nil_iff]
  intro x hx
  obtain ⟨⟨k, v⟩, -, rfl⟩ := List.mem_map.1 hx
  simp [h]

section
variable {A C K : Type} {g : A → K} {h : C → K} {T : K → K → Bool} {inT : K → Bool} {B : K → K → Prop}
  {T₁ : A → A → Bool} {inT₁ : A → Bool} {B₁ : A → A → Prop} {T₂ : C → C → Bool} {inT₂ : C → Bool} {B₂ : C → C → Prop}

/-- `l` lists `l₁` and `l₂`, in one order or the other. -/
def Joins (g : A → K) (h : C → K) (l : List (K × V)) (l₁ : List (A × V)) (l₂ : List (C × V)) : Prop :=
  l = renameKeys g l₁ ++ renameKeys h l₂ ∨ l = renameKeys h l₂ ++ renameKeys g l₁

theorem Beside.tableOf_g (hs : Beside g h T inT B T₁ inT₁ B₁ T₂ inT₂ B₂) {l : List (K × V)} {l₁ : List (A × V)} {l₂ : List (C × V)}
    (hl : Joins g h l l₁ l₂) (x : A) : tableOf T l (g x) = renameKeys g (tableOf T₁ l₁ x) := by
  have e1 : (renameKeys g l₁).filter (fun p => T p.1 (g x)) = renameKeys g (tableOf T₁ l₁ x) :=
    filter_renameKeys g _ _ l₁ fun k v => hs.gT k x
  have e2 : (renameKeys h l₂).filter (fun p => T p.1 (g x)) = [] := filter_renameKeys_nil h _ l₂ fun k v => hs.hgT x k
  rcases hl with rfl | rfl
  · rw [tableOf, List.filter_append, e1, e2, List.append_nil]
  · rw [tableOf, List.filter_append, e1, e2, List.nil_append]

theorem Beside.tableOf_h (hs : Beside g h T inT B T₁ inT₁ B₁ T₂ inT₂ B₂) {l : List (K × V)} {l₁ : List (A × V)} {l₂ : List (C × V)}
    (hl : Joins g h l l₁ l₂) (x : C) : tableOf T l (h x) = renameKeys h (tableOf T₂ l₂ x) := by
  have e1 : (renameKeys h l₂).filter (fun p => T p.1 (h x)) = renameKeys h (tableOf T₂ l₂ x) :=
    filter_renameKeys h _ _ l₂ fun k v => hs.hT k x
  have e2 : (renameKeys g l₁).filter (fun p => T p.1 (h x)) = [] := filter_renameKeys_nil g _ l₁ fun k v => hs.ghT k x
  rcases hl with rfl | rfl
  · rw [tableOf, List.filter_append, e1, e2, List.nil_append]
  · rw [tableOf, List.filter_append, e1, e2, List.append_nil]

theorem Beside.mem_g (hs : Beside g h T inT B T₁ inT₁ B₁ T₂ inT₂ B₂) {l : List (K × V)} {l₁ : List (A × V)} {l₂ : List (C × V)}
    (hl : Joins g h l l₁ l₂) (x : A) : g x ∈ l.map Prod.fst ↔ x ∈ l₁.map Prod.fst := by
  have e1 : g x ∈ (renameKeys g l₁).map Prod.fst ↔ x ∈ l₁.map Prod.fst := by
    simp only [renameKeys, List.map_map, List.mem_map]
    exact ⟨fun ⟨p, hp, hpe⟩ => ⟨p, hp, hs.g_inj _ _ hpe⟩, fun ⟨p, hp, hpe⟩ => ⟨p, hp, congrArg g hpe⟩⟩
  have e2 : ¬ g x ∈ (renameKeys h l₂).map Prod.fst := by
    simp only [renameKeys, List.map_map, List.mem_map]
    exact fun ⟨p, hp, hpe⟩ => hs.ne _ _ hpe.symm
  rcases hl with rfl | rfl
  · rw [List.map_append, List.mem_append, e1]; exact or_iff_left e2
  · rw [List.map_append, List.mem_append, e1]; exact or_iff_right e2

theorem Beside.mem_h (hs : Beside g h T inT B T₁ inT₁ B₁ T₂ inT₂ B₂) {l : List (K × V)} {l₁ : List (A × V)} {l₂ : List (C × V)}
    (hl : Joins g h l l₁ l₂) (x : C) : h x ∈ l.map Prod.fst ↔ x ∈ l₂.map Prod.fst := by
  have e1 : h x ∈ (renameKeys h l₂).map Prod.fst ↔ x ∈ l₂.map Prod.fst := by
    simp only [renameKeys, List.map_map, List.mem_map]
    exact ⟨fun ⟨p, hp, hpe⟩ => ⟨p, hp, hs.h_inj _ _ hpe⟩, fun ⟨p, hp, hpe⟩ => ⟨p, hp, congrArg h hpe⟩⟩
  have e2 : ¬ h x ∈ (renameKeys g l₁).map Prod.fst := by
    simp only [renameKeys, List.map_map, List.mem_map]
    exact fun ⟨p, hp, hpe⟩ => hs.ne _ _ hpe
  rcases hl with rfl | rfl
  · rw [List.map_append, List.mem_append, e1]; exact or_iff_right e2
  · rw [List.map_append, List.mem_append, e1]; exact or_iff_left e2

theorem renameKeys_length {K K' : Type} (g : K → K') (l : List (K × V)) : (renameKeys g l).length = l.length := List.length_map _

theorem Beside.course (hs : Beside g h T inT B T₁ inT₁ B₁ T₂ inT₂ B₂) {la lb : List (K × V)} {la₁ lb₁ : List (A × V)}
    {la₂ lb₂ : List (C × V)} (ha : Joins g h la la₁ la₂) (hb : Joins g h lb lb₁ lb₂) {ks₁ : List A} {ks₂ : List C}
    {last₁ last₂ : Bool} (h₁ : Course T₁ inT₁ B₁ la₁ lb₁ ks₁ last₁) (h₂ : Course T₂ inT₂ B₂ la₂ lb₂ ks₂ last₂) :
    Course T inT B la lb (ks₁.map g ++ if last₁ then ks₂.map h else []) (last₁ && last₂) := by
  have mg : ∀ x, g x ∈ ks₁.map g ↔ x ∈ ks₁ := fun x =>
    List.mem_map.trans ⟨fun ⟨y, hy, e⟩ => hs.g_inj _ _ e ▸ hy, fun hx => ⟨x, hx, rfl⟩⟩
  have mh : ∀ x, h x ∈ ks₂.map h ↔ x ∈ ks₂ := fun x =>
    List.mem_map.trans ⟨fun ⟨y, hy, e⟩ => hs.h_inj _ _ e ▸ hy, fun hx => ⟨x, hx, rfl⟩⟩
  have mgh : ∀ x, ¬ h x ∈ ks₁.map g := fun x hx => by
    obtain ⟨y, -, e⟩ := List.mem_map.1 hx; exact hs.ne _ _ e
  have mhg : ∀ x, ¬ g x ∈ ks₂.map h := fun x hx => by
    obtain ⟨y, -, e⟩ := List.mem_map.1 hx; exact hs.ne _ _ e.symm
  have fg : ∀ x, (ks₁.map g).filter (fun k' => T k' (g x)) = (ks₁.filter fun k' => T₁ k' x).map g := fun x => by
    rw [List.filter_map]
    exact congrArg (List.map g) (List.filter_congr fun k _ => hs.gT k x)
  have fh : ∀ x, (ks₂.map h).filter (fun k' => T k' (h x)) = (ks₂.filter fun k' => T₂ k' x).map h := fun x => by
    rw [List.filter_map]
    exact congrArg (List.map h) (List.filter_congr fun k _ => hs.hT k x)
  have fgh : ∀ x, (ks₁.map g).filter (fun k' => T k' (h x)) = [] := fun x => by
    rw [List.filter_map, List.map_eq_nil_iff, List.filter_eq_nil_iff]
    intro k _
    simp [hs.ghT]
  have fhg : ∀ x, (ks₂.map h).filter (fun k' => T k' (g x)) = [] := fun x => by
    rw [List.filter_map, List.map_eq_nil_iff, List.filter_eq_nil_iff]
    intro k _
    simp [hs.hgT]
  have og : (ks₁.map g).Pairwise B := List.pairwise_map.2 (h₁.order.imp fun {x y} => (hs.gB x y).2)
  have oh : (ks₂.map h).Pairwise B := List.pairwise_map.2 (h₂.order.imp fun {x y} => (hs.hB x y).2)
  have tg : ∀ x ∈ ks₁, inT (g x) = true → (ks₁.map g).filter (fun k' => T k' (g x)) = (tableOf T la (g x)).map Prod.fst ∧
      (tableOf T la (g x)).length = (tableOf T lb (g x)).length := fun x hx hi => by
    obtain ⟨e1, e2⟩ := h₁.table x hx ((hs.gI x).symm.trans hi)
    rw [fg, hs.tableOf_g ha, hs.tableOf_g hb, renameKeys_length, renameKeys_length, renameKeys_fst, e1]
    exact ⟨rfl, e2⟩
  have th : ∀ x ∈ ks₂, inT (h x) = true → (ks₂.map h).filter (fun k' => T k' (h x)) = (tableOf T la (h x)).map Prod.fst ∧
      (tableOf T la (h x)).length = (tableOf T lb (h x)).length := fun x hx hi => by
    obtain ⟨e1, e2⟩ := h₂.table x hx ((hs.hI x).symm.trans hi)
    rw [fh, hs.tableOf_h ha, hs.tableOf_h hb, renameKeys_length, renameKeys_length, renameKeys_fst, e1]
    exact ⟨rfl, e2⟩
  cases last₁ with
  | false =>
    simp only [Bool.false_eq_true, if_false, Bool.false_and, List.append_nil]
    refine ⟨og, fun k hk hi => ?_, fun k hk hi => ?_, fun e => (nomatch e), fun _ => ?_⟩
    · obtain ⟨x, hx, rfl⟩ := List.mem_map.1 hk
      exact (hs.mem_g ha x).2 (h₁.present x hx ((hs.gI x).symm.trans hi))
    · obtain ⟨x, hx, rfl⟩ := List.mem_map.1 hk
      exact tg x hx hi
    · obtain ⟨k, k1, k2, k3, k4⟩ := h₁.stop rfl
      refine ⟨g k, (hs.gI k).trans k1, ?_, fun k' => ?_, fun k' => ?_⟩
      · rw [hs.tableOf_g ha, hs.tableOf_g hb, renameKeys_length, renameKeys_length]; exact k2
      · rcases hs.cover k' with ⟨x, rfl⟩ | ⟨y, rfl⟩
        · rw [mg, hs.gB, hs.gT, hs.gI, hs.mem_g ha]; exact k3 x
        · exact ⟨fun hm => absurd hm (mgh y), fun hm => absurd hm.1.1 (hs.hgB _ _)⟩
      · rcases hs.cover k' with ⟨x, rfl⟩ | ⟨y, rfl⟩
        · rw [hs.gI, hs.gB, hs.gT, hs.tableOf_g ha, hs.tableOf_g hb, renameKeys_length, renameKeys_length]; exact k4 x
        · exact fun _ hm => absurd hm (hs.hgB _ _)
  | true =>
    simp only [if_true, Bool.true_and]
    have d1 := h₁.done rfl
    refine ⟨List.pairwise_append.2 ⟨og, oh, fun k hk k' hk' => ?_⟩, fun k hk hi => ?_, fun k hk hi => ?_, fun hl => ⟨fun k hk => ?_, fun k hk => ?_⟩,
      fun hl => ?_⟩
    · obtain ⟨x, -, rfl⟩ := List.mem_map.1 hk
      obtain ⟨y, -, rfl⟩ := List.mem_map.1 hk'
      exact hs.ghB x y
    · rcases List.mem_append.1 hk with hk | hk
      · obtain ⟨x, hx, rfl⟩ := List.mem_map.1 hk
        exact (hs.mem_g ha x).2 (h₁.present x hx ((hs.gI x).symm.trans hi))
      · obtain ⟨x, hx, rfl⟩ := List.mem_map.1 hk
        exact (hs.mem_h ha x).2 (h₂.present x hx ((hs.hI x).symm.trans hi))
    · rw [List.filter_append]
      rcases List.mem_append.1 hk with hk | hk
      · obtain ⟨x, hx, rfl⟩ := List.mem_map.1 hk
        rw [fhg, List.append_nil]
        exact tg x hx hi
      · obtain ⟨x, hx, rfl⟩ := List.mem_map.1 hk
        rw [fgh, List.nil_append]
        exact th x hx hi
    · rcases hs.cover k with ⟨x, rfl⟩ | ⟨y, rfl⟩
      · rw [hs.gI, hs.mem_g ha] at hk
        exact List.mem_append_left _ ((mg x).2 (d1.1 x hk))
      · rw [hs.hI, hs.mem_h ha] at hk
        exact List.mem_append_right _ ((mh y).2 ((h₂.done hl).1 y hk))
    · rcases hs.cover k with ⟨x, rfl⟩ | ⟨y, rfl⟩
      · rw [hs.gI] at hk
        rw [hs.tableOf_g ha, hs.tableOf_g hb, renameKeys_length, renameKeys_length]
        exact d1.2 x hk
      · rw [hs.hI] at hk
        rw [hs.tableOf_h ha, hs.tableOf_h hb, renameKeys_length, renameKeys_length]
        exact (h₂.done hl).2 y hk
    · obtain ⟨k, k1, k2, k3, k4⟩ := h₂.stop hl
      refine ⟨h k, (hs.hI k).trans k1, ?_, fun k' => ?_, fun k' => ?_⟩
      · rw [hs.tableOf_h ha, hs.tableOf_h hb, renameKeys_length, renameKeys_length]; exact k2
      · rcases hs.cover k' with ⟨x, rfl⟩ | ⟨y, rfl⟩
        · rw [List.mem_append, mg, hs.gI, hs.mem_g ha]
          refine ⟨fun hm => ⟨⟨hs.ghB _ _, hs.ghT _ _⟩, ?_⟩, fun hm => .inl (d1.1 x hm.2)⟩
          rcases hm with hm | hm
          · cases hi : inT₁ x with
            | false => exact .inl rfl
            | true =>
              exact .inr (h₁.present x hm hi)
          · exact absurd hm (mhg x)
        · rw [List.mem_append, mh, hs.hB, hs.hT, hs.hI, hs.mem_h ha]
          exact ⟨fun hm => hm.elim (fun hm => absurd hm (mgh y)) (k3 y).1, fun hm => .inr ((k3 y).2 hm)⟩
      · rcases hs.cover k' with ⟨x, rfl⟩ | ⟨y, rfl⟩
        · rw [hs.gI, hs.tableOf_g ha, hs.tableOf_g hb, renameKeys_length, renameKeys_length]
          exact fun hm _ _ => d1.2 x hm
        · rw [hs.hI, hs.hB, hs.hT, hs.tableOf_h ha, hs.tableOf_h hb, renameKeys_length, renameKeys_length]; exact k4 y
end

theorem EqLaw.seq {A C K : Type} {g : A → K} {h : C → K} {T : K → K → Bool} {inT : K → Bool} {B : K → K → Prop}
    {T₁ : A → A → Bool} {inT₁ : A → Bool} {B₁ : A → A → Prop} {T₂ : C → C → Bool} {inT₂ : C → Bool} {B₂ : C → C → Prop}
    (hs : Beside g h T inT B T₁ inT₁ B₁ T₂ inT₂ B₂) {la lb : List (K × V)} {la₁ lb₁ : List (A × V)} {la₂ lb₂ : List (C × V)}
    (ha : Joins g h la la₁ la₂) (hb : Joins g h lb lb₁ lb₂) {ks₁ : List A} {ks₂ : List C} {last₁ last₂ : Bool}
    {a b : K → Option V} {a₁ b₁ : A → Option V} {a₂ b₂ : C → Option V} {f₁ f₂ : σ → σ × Option Bool}
    (ga₁ : ∀ x, a (g x) = a₁ x) (gb₁ : ∀ x, b (g x) = b₁ x) (ga₂ : ∀ x, a (h x) = a₂ x) (gb₂ : ∀ x, b (h x) = b₂ x)
    (h₁ : EqLaw e T₁ inT₁ B₁ la₁ lb₁ a₁ b₁ f₁ ks₁ last₁) (h₂ : EqLaw e T₂ inT₂ B₂ la₂ lb₂ a₂ b₂ f₂ ks₂ last₂) :
    EqLaw e T inT B la lb a b (fun st => andD (f₁ st) f₂) (ks₁.map g ++ if last₁ then ks₂.map h else []) (last₁ && last₂) where
  course := hs.course ha hb h₁.course h₂.course
  run st := by
    rw [h₁.run st]
    cases last₁ with
    | false =>
      simp only [Bool.false_eq_true, if_false, Bool.false_and, List.append_nil]
      rw [compareKeys_false, compareKeys_map g a b ga₁ gb₁]
    | true =>
      simp only [if_true, Bool.true_and]
      rw [compareKeys_append, compareKeys_map g a b ga₁ gb₁]
      have : f₂ = compareKeys e a b last₂ (ks₂.map h) := by
        funext st'
        rw [h₂.run, compareKeys_map h a b ga₂ gb₂]
      rw [this]

/-- One slot. -/
theorem eqLaw_slot (x y : Option V) :
    EqLaw e (fun _ _ : Unit => true) (fun _ => false) (fun _ _ => False) (slotEntries () x) (slotEntries () y) (fun _ => x) (fun _ => y)
      (slotEqD e x y) [()] true where
  course := ⟨List.pairwise_singleton _ _, fun _ _ e => (nomatch e), fun _ _ e => (nomatch e),
    fun _ => ⟨fun _ _ => .head _, fun _ e => (nomatch e)⟩, fun e => (nomatch e)⟩
  run st := slotEq_course (a := fun _ => x) (b := fun _ => y) () st

theorem arrayEq_course {n : Nat} (a b : UnitsSt n V) (st : σ) : (is : List (Fin n)) →
    arrayEqD e (is.map fun i => a[i]) (is.map fun i => b[i]) st = compareKeys e (fun i => a[i]) (fun i => b[i]) true is st
  | [] => rfl
  | i :: is => by
    simp only [List.map_cons, arrayEqD]
    rw [show i :: is = [i] ++ is from rfl, compareKeys_append, ← slotEq_course (a := fun i : Fin n => a[i])]
    congr 1
    funext st'
    exact arrayEq_course a b st' is

theorem vector_toList_eq {n : Nat} (a : UnitsSt n V) : a.toList = (List.finRange n).map fun i => a[i] := by
  apply List.ext_getElem
  · simp
  · intro i h1 h2
    simp

theorem eqLaw_units {n : Nat} (a b : UnitsSt n V) (T : Fin n → Fin n → Bool) (la lb : List (Fin n × V)) :
    EqLaw e T (fun _ => false) (fun i j => i < j) la lb (fun i => a[i]) (fun i => b[i]) (arrayEqD e a.toList b.toList)
      (List.finRange n) true where
  course := ⟨List.pairwise_lt_finRange n, fun _ _ e => (nomatch e), fun _ _ e => (nomatch e),
    fun _ => ⟨fun k _ => List.mem_finRange k, fun _ e => (nomatch e)⟩, fun e => (nomatch e)⟩
  run st := by
    rw [vector_toList_eq, vector_toList_eq]
    exact arrayEq_course a b st _

theorem allEq_course {K : Type} (a b : K → Option V) (l : List (K × V)) (hl : ∀ p ∈ l, a p.1 = some p.2) (st : σ) :
    allEqD e b l st = compareKeys e a b true (l.map Prod.fst) st := by
  induction l generalizing st with
  | nil => rfl
  | cons p l ih =>
    simp only [allEqD, List.map_cons, compareKeys, hl p (.head _)]
    cases b p.1 with
    | none => rfl
    | some w =>
      simp only
      rcases e st p.2 w with ⟨st', _ | _ | _⟩
      · rfl
      · rfl
      · exact ih (fun q hq => hl q (.tail _ hq)) st'

theorem tableOf_all {K : Type} (l : List (K × V)) (k : K) : tableOf (fun _ _ => true) l k = l := by
  rw [tableOf, List.filter_eq_self]
  exact fun _ _ => rfl

/-- A hash table. -/
theorem eqLaw_table {K : Type} [DecidableEq K] {A : HashMapApi K V} (L : HashMapLaws A) (a b : A.Table) :
    ∃ ks last, EqLaw e (fun _ _ : K => true) (fun _ => true) (fun x y => x ≠ y) (L.entries a) (L.entries b) (A.get a) (A.get b)
      (tableEqD e A a b) ks last := by
  have hc : A.iter.I.collect (A.len a) (A.iter.init a) = L.entries a :=
    (L.iter_like a).yields.collect (Nat.le_of_eq (L.len_eq a).symm)
  by_cases hl : (L.entries a).length = (L.entries b).length
  · refine ⟨(L.entries a).map Prod.fst, true, ⟨L.nodup_keys a, fun k hk _ => hk, fun k _ _ => ?_, fun _ => ⟨fun k hk => ?_, fun k _ => ?_⟩,
      fun e => (nomatch e)⟩, fun st => ?_⟩
    · rw [tableOf_all, tableOf_all, List.filter_eq_self.2 fun _ _ => rfl]
      exact ⟨rfl, hl⟩
    · exact hk.elim (fun e => nomatch e) id
    · rw [tableOf_all, tableOf_all]; exact hl
    · rw [tableEqD, L.len_eq a, L.len_eq b, if_neg (fun h => h hl), ← L.len_eq a, hc]
      exact allEq_course (A.get a) (A.get b) _ (fun p hp => (L.mem_entries a p.1 p.2).1 hp) st
  · have hk : ∃ k : K, True := by
      cases ha : L.entries a with
      | cons p _ => exact ⟨p.1, trivial⟩
      | nil =>
        cases hb : L.entries b with
        | cons p _ => exact ⟨p.1, trivial⟩
        | nil => rw [ha, hb] at hl; exact absurd rfl hl
    obtain ⟨k, -⟩ := hk
    refine ⟨[], false, ⟨.nil, fun _ hk => (nomatch hk), fun _ hk => (nomatch hk), fun e => (nomatch e), fun _ => ?_⟩, fun st => ?_⟩
    · refine ⟨k, rfl, ?_, fun k' => ⟨fun hk => (nomatch hk), fun hk => (nomatch hk.1.2)⟩, fun _ _ _ h => (nomatch h)⟩
      rw [tableOf_all, tableOf_all]; exact hl
    · rw [tableEqD, L.len_eq a, L.len_eq b, if_pos hl]
      rfl

theorem EqLaw.congr {K : Type} {T : K → K → Bool} {inT : K → Bool} {B : K → K → Prop} {la lb : List (K × V)} {a b : K → Option V}
    {f f' : σ → σ × Option Bool} {ks : List K} {last : Bool} (h : EqLaw e T inT B la lb a b f ks last) (hf : ∀ st, f' st = f st) :
    EqLaw e T inT B la lb a b f' ks last := ⟨h.course, fun st => (hf st).trans (h.run st)⟩

theorem beside_bool : Beside (fun _ : Unit => true) (fun _ : Unit => false) (KeyTy.together .bool) (KeyTy.inTable .bool)
    (KeyTy.comparedBefore .bool) (fun _ _ => true) (fun _ => false) (fun _ _ => False) (fun _ _ => true) (fun _ => false)
    (fun _ _ => False) where
  cover k := match k with
    | true => .inl ⟨(), rfl⟩
    | false => .inr ⟨(), rfl⟩
  gT _ _ := rfl
  hT _ _ := rfl
  ghT _ _ := rfl
  hgT _ _ := rfl
  gI _ := rfl
  hI _ := rfl
  gB _ _ := ⟨fun h => (nomatch h.2), fun h => h.elim⟩
  hB _ _ := ⟨fun h => (nomatch h.1), fun h => h.elim⟩
  ghB _ _ := ⟨rfl, rfl⟩
  hgB _ _ h := nomatch h.1
  g_inj _ _ _ := rfl
  h_inj _ _ _ := rfl
  ne _ _ h := nomatch h

theorem beside_opt (κ : KeyTy) : Beside (fun _ : Unit => (none : Option κ.Key)) some (KeyTy.together (.opt κ)) (KeyTy.inTable (.opt κ))
    (KeyTy.comparedBefore (.opt κ)) (fun _ _ => true) (fun _ => false) (fun _ _ => False) κ.together κ.inTable
    κ.comparedBefore where
  cover k := match k with
    | none => .inl ⟨(), rfl⟩
    | some k => .inr ⟨k, rfl⟩
  gT _ _ := rfl
  hT _ _ := rfl
  ghT _ _ := rfl
  hgT _ _ := rfl
  gI _ := rfl
  hI _ := rfl
  gB _ _ := ⟨fun h => h.elim, fun h => h.elim⟩
  hB _ _ := Iff.rfl
  ghB _ _ := trivial
  hgB _ _ h := h
  g_inj _ _ _ := rfl
  h_inj _ _ h := Option.some.inj h
  ne _ _ h := nomatch h

theorem beside_sum {A C : Type} (T₁ : A → A → Bool) (inT₁ : A → Bool) (B₁ : A → A → Prop) (T₂ : C → C → Bool) (inT₂ : C → Bool)
    (B₂ : C → C → Prop) : Beside (Sum.inl : A → A ⊕ C) Sum.inr (sameSide T₁ T₂) (Sum.elim inT₁ inT₂) (sumBefore B₁ B₂)
      T₁ inT₁ B₁ T₂ inT₂ B₂ where
  cover k := match k with
    | .inl x => .inl ⟨x, rfl⟩
    | .inr x => .inr ⟨x, rfl⟩
  gT _ _ := rfl
  hT _ _ := rfl
  ghT _ _ := rfl
  hgT _ _ := rfl
  gI _ := rfl
  hI _ := rfl
  gB _ _ := Iff.rfl
  hB _ _ := Iff.rfl
  ghB _ _ := trivial
  hgB _ _ h := h
  g_inj _ _ h := Sum.inl.inj h
  h_inj _ _ h := Sum.inr.inj h
  ne _ _ h := nomatch h

section
variable (H : Hashbrown) (e)

mutual
theorem eq_law : (κ : KeyTy) → ∀ a b, ∃ ks last, EqLaw e κ.together κ.inTable κ.comparedBefore ((mapCore H V κ).entries a)
    ((mapCore H V κ).entries b) ((mapStorage H.api V κ).get a) ((mapStorage H.api V κ).get b) (κ.eqD H.api e a b) ks last
  | .bool => fun a b => ⟨_, _, EqLaw.seq beside_bool (la₁ := slotEntries () a.t) (lb₁ := slotEntries () b.t)
      (la₂ := slotEntries () a.f) (lb₂ := slotEntries () b.f)
      (.inl (by rcases a with ⟨_ | _, _ | _⟩ <;> rfl)) (.inl (by rcases b with ⟨_ | _, _ | _⟩ <;> rfl))
      (fun _ => rfl) (fun _ => rfl) (fun _ => rfl) (fun _ => rfl) (eqLaw_slot a.t b.t) (eqLaw_slot a.f b.f)⟩
  | .unit => fun a b => ⟨_, _, eqLaw_slot a b⟩
  | .opt κ => fun a b => by
    obtain ⟨ks, last, h⟩ := eq_law κ a.some b.some
    exact ⟨_, _, EqLaw.seq (beside_opt κ) (la₁ := slotEntries () a.none) (lb₁ := slotEntries () b.none)
      (.inr (by rcases a with ⟨_, _ | _⟩ <;> rfl)) (.inr (by rcases b with ⟨_, _ | _⟩ <;> rfl))
      (fun _ => rfl) (fun _ => rfl) (fun _ => rfl) (fun _ => rfl) (eqLaw_slot a.none b.none) h⟩
  | .prim p => fun a b => eqLaw_table (H.laws p.Key V) a b
  | .units n => fun (a b : UnitsSt n V) => ⟨_, _, eqLaw_units a b _ _ _⟩
  | .bitset n _ _ => fun (a b : UnitsSt n V) => ⟨_, _, eqLaw_units a b _ _ _⟩
  | .enum fs => fieldsEq_law fs
theorem fieldsEq_law : (fs : Fields) → ∀ a b, ∃ ks last, EqLaw e fs.together fs.inTable fs.comparedBefore ((fieldsCore H V fs).entries a)
    ((fieldsCore H V fs).entries b) ((mapFields H.api V fs).get a) ((mapFields H.api V fs).get b) (fs.eqD H.api e a b) ks last
  | .nil => fun _ _ => ⟨[], true, ⟨.nil, fun _ hk => (nomatch hk), fun _ hk => (nomatch hk),
      fun _ => ⟨fun k _ => k.elim, fun k _ => k.elim⟩, fun e => (nomatch e)⟩, fun _ => rfl⟩
  | .simple fs => fun a b => by
    obtain ⟨ks, last, h⟩ := fieldsEq_law fs a.2 b.2
    exact ⟨_, _, (EqLaw.seq (beside_sum _ _ _ _ _ _) (.inl rfl) (.inl rfl) (fun _ => rfl) (fun _ => rfl) (fun _ => rfl) (fun _ => rfl)
      (eqLaw_slot a.1 b.1) h).congr fun _ => unlessNe_eq _ _⟩
  | .complex κ fs => fun a b => by
    obtain ⟨ks₁, last₁, h₁⟩ := eq_law κ a.1 b.1
    obtain ⟨ks, last, h⟩ := fieldsEq_law fs a.2 b.2
    exact ⟨_, _, (EqLaw.seq (beside_sum _ _ _ _ _ _) (.inl rfl) (.inl rfl) (fun _ => rfl) (fun _ => rfl) (fun _ => rfl) (fun _ => rfl)
      h₁ h).congr fun _ => unlessNe_eq _ _⟩
end
end

/-! ## Without hash tables; without effects -/

section
variable (H : Hashbrown) (e)

mutual
theorem eq_plain : (κ : KeyTy) → κ.hashFree = true → ∀ (a b : (mapStorage H.api V κ).S) (st : σ), κ.eqD H.api e a b st =
    compareKeys e ((mapStorage H.api V κ).get a) ((mapStorage H.api V κ).get b) true κ.comparedKeys st
  | .bool => fun _ a b st => by
    refine Eq.trans ?_ (compareKeys_append (e := e) (a := (boolMap V).get a) (b := (boolMap V).get b) [true] [false] true st).symm
    rw [← slotEq_course]
    show andD (slotEqD e a.t b.t st) (slotEqD e a.f b.f) = _
    congr 1
    funext st'
    exact slotEq_course (a := (boolMap V).get a) (b := (boolMap V).get b) false st'
  | .unit => fun _ a b st => slotEq_course (a := (unitMap V).get a) (b := (unitMap V).get b) () st
  | .opt κ => fun hf a b st => by
    refine Eq.trans ?_ (compareKeys_append (e := e) (a := (optMap (mapStorage H.api V κ)).get a)
      (b := (optMap (mapStorage H.api V κ)).get b) [none] (κ.comparedKeys.map some) true st).symm
    rw [← slotEq_course]
    show andD (slotEqD e a.none b.none st) (κ.eqD H.api e a.some b.some) = _
    congr 1
    funext st'
    rw [eq_plain κ hf a.some b.some st']
    exact (compareKeys_map (a := (mapStorage H.api V κ).get a.some) (b := (mapStorage H.api V κ).get b.some) some
      ((optMap (mapStorage H.api V κ)).get a) ((optMap (mapStorage H.api V κ)).get b) (fun _ => rfl) (fun _ => rfl) true κ.comparedKeys st').symm
  | .prim _ => fun hf => nomatch hf
  | .units n => fun _ (a b : UnitsSt n V) st => (eqLaw_units (e := e) a b (fun _ _ => true) [] []).run st
  | .bitset n _ _ => fun _ (a b : UnitsSt n V) st => (eqLaw_units (e := e) a b (fun _ _ => true) [] []).run st
  | .enum fs => fun hf => fieldsEq_plain fs hf
theorem fieldsEq_plain : (fs : Fields) → fs.hashFree = true → ∀ (a b : (mapFields H.api V fs).S) (st : σ), fs.eqD H.api e a b st =
    compareKeys e ((mapFields H.api V fs).get a) ((mapFields H.api V fs).get b) true fs.comparedKeys st
  | .nil => fun _ _ _ _ => rfl
  | .simple fs => fun hf a b st => by
    refine Eq.trans ?_ (compareKeys_append (e := e) (a := (fieldsSimple (mapFields H.api V fs)).get a)
      (b := (fieldsSimple (mapFields H.api V fs)).get b) [Sum.inl ()] (fs.comparedKeys.map Sum.inr) true st).symm
    rw [← slotEq_course]
    show unlessNe (slotEqD e a.1 b.1 st) (fs.eqD H.api e a.2 b.2) = _
    rw [unlessNe_eq]
    congr 1
    funext st'
    rw [fieldsEq_plain fs hf a.2 b.2 st']
    exact (compareKeys_map (a := (mapFields H.api V fs).get a.2) (b := (mapFields H.api V fs).get b.2) Sum.inr
      ((fieldsSimple (mapFields H.api V fs)).get a) ((fieldsSimple (mapFields H.api V fs)).get b) (fun _ => rfl) (fun _ => rfl) true fs.comparedKeys st').symm
  | .complex κ fs => fun hf a b st => by
    have hf := (Bool.and_eq_true _ _).mp hf
    refine Eq.trans ?_ (compareKeys_append (e := e) (a := (fieldsComplex (mapStorage H.api V κ) (mapFields H.api V fs)).get a)
      (b := (fieldsComplex (mapStorage H.api V κ) (mapFields H.api V fs)).get b) (κ.comparedKeys.map Sum.inl)
      (fs.comparedKeys.map Sum.inr) true st).symm
    show unlessNe (κ.eqD H.api e a.1 b.1 st) (fs.eqD H.api e a.2 b.2) = _
    rw [unlessNe_eq, eq_plain κ hf.1 a.1 b.1 st]
    rw [show compareKeys e _ _ true (κ.comparedKeys.map Sum.inl) st = _ from
      compareKeys_map Sum.inl _ _ (fun _ => rfl) (fun _ => rfl) true κ.comparedKeys st]
    congr 1
    funext st'
    rw [fieldsEq_plain fs hf.2 a.2 b.2 st']
    exact (compareKeys_map (a := (mapFields H.api V fs).get a.2) (b := (mapFields H.api V fs).get b.2) Sum.inr
      ((fieldsComplex (mapStorage H.api V κ) (mapFields H.api V fs)).get a)
      ((fieldsComplex (mapStorage H.api V κ) (mapFields H.api V fs)).get b) (fun _ => rfl) (fun _ => rfl) true fs.comparedKeys st').symm
end

variable (veq : V → V → Bool) (he : ∀ st v w, e st v w = (st, some (veq v w)))
include he

theorem slotEq_pure (a b : Option V) (st : σ) : slotEqD e a b st = (st, some (optBeq veq a b)) := by
  cases a <;> cases b <;> simp [slotEqD, optBeq, he]

omit he in
theorem andD_pure (x y : Bool) (f : σ → σ × Option Bool) (hf : ∀ st, f st = (st, some y)) (st : σ) :
    andD (st, some x) f = (st, some (x && y)) := by
  cases x
  · rfl
  · exact hf st

theorem arrayEq_pure {n : Nat} (a b : UnitsSt n V) (st : σ) : (is : List (Fin n)) →
    arrayEqD e (is.map fun i => a[i]) (is.map fun i => b[i]) st = (st, some (is.all fun i => optBeq veq a[i] b[i]))
  | [] => rfl
  | i :: is => by
    simp only [List.map_cons, arrayEqD, List.all_cons, slotEq_pure e veq he]
    exact andD_pure _ _ _ (fun st' => arrayEq_pure a b st' is) st

theorem allEq_pure {K : Type} (get : K → Option V) (l : List (K × V)) (st : σ) :
    allEqD e get l st = (st, some (l.all fun p => match get p.1 with
      | some v => veq p.2 v
      | none => false)) := by
  induction l generalizing st with
  | nil => rfl
  | cons p l ih =>
    simp only [allEqD, List.all_cons]
    cases get p.1 with
    | none => rfl
    | some w =>
      simp only [he]
      exact andD_pure _ _ _ ih st

mutual
theorem eq_pure : (κ : KeyTy) → ∀ (a b : (mapStorage H.api V κ).S) (st : σ), κ.eqD H.api e a b st =
    (st, some ((mapStorage H.api V κ).eq veq a b))
  | .bool => fun a b st => by
    show andD (slotEqD e a.t b.t st) (slotEqD e a.f b.f) = _
    rw [slotEq_pure e veq he]
    exact andD_pure _ _ _ (slotEq_pure e veq he _ _) st
  | .unit => fun a b st => slotEq_pure e veq he a b st
  | .opt κ => fun a b st => by
    show andD (slotEqD e a.none b.none st) (κ.eqD H.api e a.some b.some) = _
    rw [slotEq_pure e veq he]
    exact andD_pure _ _ _ (eq_pure κ a.some b.some) st
  | .prim p => fun a b st => by
    show tableEqD e (H.api p.Key V) a b st = (st, some ((H.api p.Key V).eqVia veq _ a b))
    simp only [tableEqD, HashMapApi.eqVia]
    split
    · rfl
    · exact allEq_pure e veq he _ _ st
  | .units n => fun (a b : UnitsSt n V) st => by
    show arrayEqD e a.toList b.toList st = _
    rw [vector_toList_eq, vector_toList_eq]
    exact arrayEq_pure e veq he a b st _
  | .bitset n _ _ => fun (a b : UnitsSt n V) st => by
    show arrayEqD e a.toList b.toList st = _
    rw [vector_toList_eq, vector_toList_eq]
    exact arrayEq_pure e veq he a b st _
  | .enum fs => fieldsEq_pure fs
theorem fieldsEq_pure : (fs : Fields) → ∀ (a b : (mapFields H.api V fs).S) (st : σ), fs.eqD H.api e a b st =
    (st, some ((mapFields H.api V fs).eq veq a b))
  | .nil => fun _ _ _ => rfl
  | .simple fs => fun a b st => by
    show unlessNe (slotEqD e a.1 b.1 st) (fs.eqD H.api e a.2 b.2) =
      (st, some (if !(optBeq veq a.1 b.1) then false else (mapFields H.api V fs).eq veq a.2 b.2))
    rw [unlessNe_eq, slotEq_pure e veq he, andD_pure _ _ _ (fieldsEq_pure fs a.2 b.2) st]
    cases optBeq veq a.1 b.1 <;> rfl
  | .complex κ fs => fun a b st => by
    show unlessNe (κ.eqD H.api e a.1 b.1 st) (fs.eqD H.api e a.2 b.2) =
      (st, some (if !((mapStorage H.api V κ).eq veq a.1 b.1) then false else (mapFields H.api V fs).eq veq a.2 b.2))
    rw [unlessNe_eq, eq_pure κ a.1 b.1 st, andD_pure _ _ _ (fieldsEq_pure fs a.2 b.2) st]
    cases (mapStorage H.api V κ).eq veq a.1 b.1 <;> rfl
end
end

/-! ## Orders -/

section
variable {R : Type} {of : Ordering → R} {isEq : R → Bool} {c : CmpFn σ V R}

/-- The present entries with their indices. -/
def indexed {n : Nat} (is : List (Fin n)) (a : Fin n → Option V) : List (Nat × V) := is.filterMap fun i => (a i).map fun v => (i.val, v)

theorem indexed_eq {n : Nat} (a : UnitsSt n V) : (enumerate a.toList).filterMap flattenEntry = indexed (List.finRange n) fun i => a[i] := by
  have : enumerate a.toList = (List.finRange n).map fun i => (i.val, a[i]) := by
    apply List.ext_getElem
    · simp [enumerate]
    · intro i h1 h2
      simp [enumerate]
  rw [this, List.filterMap_map]
  refine congrArg (fun f => List.filterMap f (List.finRange n)) (funext fun i => ?_)
  show flattenEntry (i.val, a[i]) = (a[i]).map fun v => (i.val, v)
  cases a[i] <;> rfl

theorem indexed_head {n : Nat} (is : List (Fin n)) (a : Fin n → Option V) :
    match indexed is a with
    | [] => (is.any fun i => (a i).isSome) = false
    | p :: _ => (is.any fun i => (a i).isSome) = true ∧ ∃ i ∈ is, p.1 = i.val := by
  induction is with
  | nil => rfl
  | cons i is ih =>
    simp only [indexed, List.filterMap_cons]
    cases h : a i with
    | none =>
      simp only [Option.map_none]
      have hi : (i :: is).any (fun i => (a i).isSome) = is.any fun i => (a i).isSome := by simp [h]
      rw [hi]
      change match indexed is a with
        | [] => _
        | p :: _ => _ at ih
      show match indexed is a with
        | [] => _
        | p :: _ => _
      split
      · rename_i e1; rw [e1] at ih; exact ih
      · rename_i e1; rw [e1] at ih
        obtain ⟨h1, j, hj, h2⟩ := ih
        exact ⟨h1, j, .tail _ hj, h2⟩
    | some v => exact ⟨by simp [h], i, .head _, rfl⟩

theorem cmp_course (h1 : isEq (of .eq) = true) (h2 : isEq (of .lt) = false) (h3 : isEq (of .gt) = false) {n : Nat}
    (a b : Fin n → Option V) : (is : List (Fin n)) → is.Pairwise (· < ·) → (st : σ) →
    iterCmpD of isEq c (indexed is a) (indexed is b) st = orderKeys of isEq c a b is st
  | [], _, _ => rfl
  | i :: is, hp, st => by
    obtain ⟨hi, hp⟩ := List.pairwise_cons.1 hp
    have ia := indexed_head is a
    have ib := indexed_head is b
    have ea : indexed (i :: is) a = ((a i).map fun v => (i.val, v)).toList ++ indexed is a := by
      simp only [indexed, List.filterMap_cons]
      cases (a i) <;> rfl
    have eb : indexed (i :: is) b = ((b i).map fun v => (i.val, v)).toList ++ indexed is b := by
      simp only [indexed, List.filterMap_cons]
      cases (b i) <;> rfl
    rw [ea, eb]
    simp only [orderKeys]
    cases ha : a i with
    | none =>
      cases hb : b i with
      | none => exact cmp_course h1 h2 h3 a b is hp st
      | some w =>
        simp only [Option.map_none, Option.map_some, Option.toList_none, Option.toList_some, List.nil_append, List.cons_append]
        cases e1 : indexed is a with
        | nil => rw [e1] at ia; simp [iterCmpD, show (is.any fun i => (a i).isSome) = false from ia]
        | cons p l =>
          rw [e1] at ia
          obtain ⟨g1, j, hj, g2⟩ := ia
          have : compare p.1 i.val = .gt := by rw [g2]; exact Nat.compare_eq_gt.2 (hi j hj)
          simp [iterCmpD, pairCmpD, this, h3, show (is.any fun i => (a i).isSome) = true from g1]
    | some v =>
      cases hb : b i with
      | none =>
        simp only [Option.map_none, Option.map_some, Option.toList_none, Option.toList_some, List.nil_append, List.cons_append]
        cases e1 : indexed is b with
        | nil => rw [e1] at ib; simp [iterCmpD, show (is.any fun i => (b i).isSome) = false from ib]
        | cons p l =>
          rw [e1] at ib
          obtain ⟨g1, j, hj, g2⟩ := ib
          have : compare i.val p.1 = .lt := by rw [g2]; exact Nat.compare_eq_lt.2 (hi j hj)
          simp [iterCmpD, pairCmpD, this, h2, show (is.any fun i => (b i).isSome) = true from g1]
      | some w =>
        simp only [Option.map_some, Option.toList_some, List.cons_append, List.nil_append, iterCmpD, pairCmpD,
          show compare i.val i.val = .eq from Nat.compare_eq_eq.2 rfl, h1, if_true]
        rcases c st v w with ⟨st', _ | r⟩
        · rfl
        · simp only
          rw [cmp_course h1 h2 h3 a b is hp st']
end

end FixedMap
