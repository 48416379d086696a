import Verif.Spec.SetSpec
import Verif.Proofs.Order

/-! # What every set storage satisfies: helper structures -/

set_option autoImplicit false
set_option linter.unusedSimpArgs false

namespace FixedMap

/-- A run of `retain` did what the calls recorded in `q` ask for. -/
structure RetainOk {T σ : Type} (old new : T → Bool) (q : Visited T σ) (st : σ) (panicked : Bool) : Prop where
  st_eq : st = q.st
  pan : panicked = q.panicked
  kept : ∀ x ∈ q.kept, new x = true
  sub : ∀ x, new x = true → x ∈ q.kept ∨ (panicked = true ∧ old x = true)
  sup : ∀ x, old x = true → x ∉ q.rejected → new x = true

/-- Laws of a set storage without its iterators. `valid`: no stray bits. `elems`: the elements in order. `visits`: the
elements `retain` calls the closure with. -/
structure SetLaws {T : Type} (M : SetCore T) where
  valid : M.S → Prop
  elems : M.S → List T
  visits : M.S → List T
  mem_elems : ∀ s x, x ∈ elems s ↔ M.contains s x = true
  nodup : ∀ s, (elems s).Nodup
  valid_empty : valid M.empty
  contains_empty : ∀ x, M.contains M.empty x = false
  len_eq : ∀ s, valid s → M.len s = (elems s).length
  valid_insert : ∀ s x, valid s → valid (M.insert s x).2
  contains_insert : ∀ s x y, M.contains (M.insert s x).2 y = true ↔ y = x ∨ M.contains s y = true
  valid_remove : ∀ s x, valid s → valid (M.remove s x).2
  contains_remove : ∀ s x y, M.contains (M.remove s x).2 y = true ↔ y ≠ x ∧ M.contains s y = true
  valid_clear : ∀ s, valid (M.clear s)
  contains_clear : ∀ s x, M.contains (M.clear s) x = false
  eq_iff : ∀ s t, valid s → valid t → (M.eq s t = true ↔ ∀ x, M.contains s x = M.contains t x)
  valid_clone : ∀ s, valid s → valid (M.clone s)
  contains_clone : ∀ s x, M.contains (M.clone s) x = M.contains s x
  valid_retain : ∀ {σ : Type} (f : σ → T → σ × Option Bool) s st, valid s → valid (M.retain f s st).s
  retain_ok : ∀ {σ : Type} (f : σ → T → σ × Option Bool) s st,
    RetainOk (M.contains s) (M.contains (M.retain f s st).s) (visit f (visits s) st) (M.retain f s st).st
      (M.retain f s st).panicked

/-- Iterators of a set storage. -/
structure SetIterLaws {T : Type} (M : SetStorage T) (L : SetLaws M.toSetCore) : Prop where
  iter : ∀ s, L.valid s → YieldsAt M.iter s (L.elems s)
  intoIter : ∀ s, L.valid s → YieldsAt M.intoIter s (L.elems s)

structure SetFieldLaws {T : Type} (M : SetFields T) (L : SetLaws M.toSetCore) : Prop where
  iter : ∀ s, L.valid s → StepYieldsAt M.iter s (L.elems s)
  intoIter : ∀ s, L.valid s → StepYieldsAt M.intoIter s (L.elems s)

/-! ## `visit` -/

theorem visit_nil {T σ : Type} (f : σ → T → σ × Option Bool) (st : σ) : visit f [] st = ⟨[], [], st, false⟩ := rfl

theorem visit_append {T σ : Type} (f : σ → T → σ × Option Bool) (l l' : List T) (st : σ) :
    visit f (l ++ l') st =
      if (visit f l st).panicked then visit f l st
      else ⟨(visit f l st).kept ++ (visit f l' (visit f l st).st).kept,
        (visit f l st).rejected ++ (visit f l' (visit f l st).st).rejected,
        (visit f l' (visit f l st).st).st, (visit f l' (visit f l st).st).panicked⟩ := by
  induction l generalizing st with
  | nil => simp [visit]
  | cons x l ih =>
    rcases h : f st x with ⟨st', _ | _ | _⟩ <;> simp only [visit, List.cons_append, h, ih]
    · rfl
    · split <;> simp_all
    · split <;> simp_all

theorem visit_map {T U σ : Type} (f : σ → T → σ × Option Bool) (g : U → T) (l : List U) (st : σ) :
    visit f (l.map g) st =
      ⟨(visit (fun st x => f st (g x)) l st).kept.map g, (visit (fun st x => f st (g x)) l st).rejected.map g,
        (visit (fun st x => f st (g x)) l st).st, (visit (fun st x => f st (g x)) l st).panicked⟩ := by
  induction l generalizing st with
  | nil => rfl
  | cons x l ih => rcases h : f st (g x) with ⟨st', _ | _ | _⟩ <;> simp [visit, h, ih]

theorem visit_mem {T σ : Type} (f : σ → T → σ × Option Bool) (l : List T) (st : σ) :
    (∀ x ∈ (visit f l st).kept, x ∈ l) ∧ (∀ x ∈ (visit f l st).rejected, x ∈ l) := by
  induction l generalizing st with
  | nil => simp [visit]
  | cons x l ih =>
    rcases h : f st x with ⟨st', _ | _ | _⟩ <;> simp [visit, h]
    · exact ⟨fun y hy => .inr ((ih st').1 y hy), fun y hy => .inr ((ih st').2 y hy)⟩
    · exact ⟨fun y hy => .inr ((ih st').1 y hy), fun y hy => .inr ((ih st').2 y hy)⟩

/-- Without a panic every element is accepted or rejected. -/
theorem visit_total {T σ : Type} (f : σ → T → σ × Option Bool) (l : List T) (st : σ)
    (h : (visit f l st).panicked = false) : ∀ x ∈ l, x ∈ (visit f l st).kept ∨ x ∈ (visit f l st).rejected := by
  induction l generalizing st with
  | nil => simp
  | cons x l ih =>
    rcases e : f st x with ⟨st', _ | _ | _⟩ <;> simp only [visit, e] at h ⊢
    · simp at h
    · intro y hy
      rcases List.mem_cons.mp hy with rfl | hy
      · exact .inr (.head _)
      · exact (ih st' h y hy).imp id (.tail _)
    · intro y hy
      rcases List.mem_cons.mp hy with rfl | hy
      · exact .inl (.head _)
      · exact (ih st' h y hy).imp (.tail _) id

/-- No element is both accepted and rejected. -/
theorem visit_disjoint {T σ : Type} (f : σ → T → σ × Option Bool) (l : List T) (hn : l.Nodup) (st : σ) :
    ∀ x ∈ (visit f l st).kept, x ∉ (visit f l st).rejected := by
  induction l generalizing st with
  | nil => simp [visit]
  | cons x l ih =>
    rw [List.nodup_cons] at hn
    rcases e : f st x with ⟨st', _ | _ | _⟩ <;> simp only [visit, e]
    · simp
    · intro y hy hm
      rcases List.mem_cons.mp hm with rfl | hm
      · exact hn.1 ((visit_mem f l st').1 _ hy)
      · exact ih hn.2 st' y hy hm
    · intro y hy hm
      rcases List.mem_cons.mp hy with rfl | hy
      · exact hn.1 ((visit_mem f l st').2 _ hm)
      · exact ih hn.2 st' y hy hm

/-- The common case: exactly the rejected elements are gone. -/
theorem RetainOk.of_rejected {T σ : Type} {f : σ → T → σ × Option Bool} {l : List T} (hn : l.Nodup) {st : σ}
    {old new : T → Bool} (hl : ∀ x, x ∈ l ↔ old x = true)
    (hw : ∀ x, new x = true ↔ old x = true ∧ x ∉ (visit f l st).rejected)
    {st' : σ} {p : Bool} (hs : st' = (visit f l st).st) (hp : p = (visit f l st).panicked) :
    RetainOk old new (visit f l st) st' p := by
  refine ⟨hs, hp, ?_, ?_, ?_⟩
  · intro x hx
    exact (hw x).mpr ⟨(hl x).mp ((visit_mem f l st).1 x hx), visit_disjoint f l hn st x hx⟩
  · intro x hx
    have h := (hw x).mp hx
    cases hq : (visit f l st).panicked with
    | true => exact .inr ⟨hp.trans hq, h.1⟩
    | false =>
      exact .inl ((visit_total f l st hq x ((hl x).mpr h.1)).resolve_right h.2)
  · intro x h1 h2
    exact (hw x).mpr ⟨h1, h2⟩

/-! ## sequencing two parts of a storage -/

theorem RetainOk.seq {A B T SA SB σ : Type} (g : A → T) (h : B → T)
    (hc : ∀ x, (∃ a, x = g a) ∨ ∃ b, x = h b)
    {f : σ → T → σ × Option Bool} {la : List A} {lb : List B} {st : σ} {sa : SA} {sb : SB}
    {cA : SA → A → Bool} {cB : SB → B → Bool} {ra : SetRetainOut SA σ} {rb : σ → SetRetainOut SB σ}
    (HA : RetainOk (cA sa) (cA ra.s) (visit (fun st x => f st (g x)) la st) ra.st ra.panicked)
    (HB : ∀ st, RetainOk (cB sb) (cB (rb st).s) (visit (fun st x => f st (h x)) lb st) (rb st).st (rb st).panicked)
    {old new : T → Bool} (o1 : ∀ a, old (g a) = cA sa a) (o2 : ∀ b, old (h b) = cB sb b)
    (n1 : ∀ a, new (g a) = cA (ra.andThen sb rb).s.1 a) (n2 : ∀ b, new (h b) = cB (ra.andThen sb rb).s.2 b) :
    RetainOk old new (visit f (la.map g ++ lb.map h) st) (ra.andThen sb rb).st (ra.andThen sb rb).panicked := by
  have HB' := HB ra.st
  rw [visit_append]
  simp only [visit_map, ← HA.st_eq, ← HA.pan]
  cases hp : ra.panicked with
  | true =>
    have e : ra.andThen sb rb = ⟨(ra.s, sb), ra.st, true⟩ := by simp [SetRetainOut.andThen, hp]
    rw [e] at n1 n2 ⊢
    refine ⟨rfl, rfl, ?_, ?_, ?_⟩
    · intro x hx
      obtain ⟨a, ha, rfl⟩ := List.mem_map.mp hx
      rw [n1]; exact HA.kept a ha
    · intro x hx
      rcases hc x with ⟨a, rfl⟩ | ⟨b, rfl⟩
      · rw [n1] at hx
        rcases HA.sub a hx with h1 | h1
        · exact .inl (List.mem_map.mpr ⟨a, h1, rfl⟩)
        · exact .inr ⟨rfl, by rw [o1]; exact h1.2⟩
      · rw [n2] at hx
        exact .inr ⟨rfl, by rw [o2]; exact hx⟩
    · intro x hx hr
      rcases hc x with ⟨a, rfl⟩ | ⟨b, rfl⟩
      · rw [n1]; rw [o1] at hx
        exact HA.sup a hx fun hm => hr (List.mem_map.mpr ⟨a, hm, rfl⟩)
      · rw [n2]; rw [o2] at hx; exact hx
  | false =>
    have e : ra.andThen sb rb = ⟨(ra.s, (rb ra.st).s), (rb ra.st).st, (rb ra.st).panicked⟩ := by
      simp [SetRetainOut.andThen, hp]
    rw [e] at n1 n2 ⊢
    refine ⟨HB'.st_eq, HB'.pan, ?_, ?_, ?_⟩
    · intro x hx
      rcases List.mem_append.mp hx with hx | hx
      · obtain ⟨a, ha, rfl⟩ := List.mem_map.mp hx
        rw [n1]; exact HA.kept a ha
      · obtain ⟨a, ha, rfl⟩ := List.mem_map.mp hx
        rw [n2]; exact HB'.kept a ha
    · intro x hx
      rcases hc x with ⟨a, rfl⟩ | ⟨b, rfl⟩
      · rw [n1] at hx
        rcases HA.sub a hx with h1 | h1
        · exact .inl (List.mem_append.mpr (.inl (List.mem_map.mpr ⟨a, h1, rfl⟩)))
        · rw [hp] at h1; simp at h1
      · rw [n2] at hx
        rcases HB'.sub b hx with h1 | h1
        · exact .inl (List.mem_append.mpr (.inr (List.mem_map.mpr ⟨b, h1, rfl⟩)))
        · exact .inr ⟨h1.1, by rw [o2]; exact h1.2⟩
    · intro x hx hr
      rcases hc x with ⟨a, rfl⟩ | ⟨b, rfl⟩
      · rw [n1]; rw [o1] at hx
        exact HA.sup a hx fun hm => hr (List.mem_append.mpr (.inl (List.mem_map.mpr ⟨a, hm, rfl⟩)))
      · rw [n2]; rw [o2] at hx
        exact HB'.sup b hx fun hm => hr (List.mem_append.mpr (.inr (List.mem_map.mpr ⟨b, hm, rfl⟩)))

theorem RetainOk.flag {T σ : Type} (f : σ → T → σ × Option Bool) (v : T) (flag : Bool) (st : σ) :
    RetainOk (fun _ : Unit => flag) (fun _ : Unit => (retainFlag f v flag st).s)
      (visit (fun st (_ : Unit) => f st v) (if flag then [()] else []) st) (retainFlag f v flag st).st
      (retainFlag f v flag st).panicked := by
  cases flag with
  | false => exact ⟨rfl, rfl, by simp [visit, retainFlag], by simp [visit, retainFlag], by simp [visit, retainFlag]⟩
  | true =>
    rcases h : f st v with ⟨st', _ | _ | _⟩ <;>
      exact ⟨by simp [visit, retainFlag, h], by simp [visit, retainFlag, h], by simp [visit, retainFlag, h],
        by simp [visit, retainFlag, h], by simp [visit, retainFlag, h]⟩

end FixedMap
