import Verif.Spec.IterMethods
import Verif.Proofs.Fold
import Verif.Proofs.SetEnum

/-! # The methods of each adapter answer as on the list of its items -/

set_option autoImplicit false
set_option linter.unusedSimpArgs false

namespace FixedMap

/-! ## What each method has to do -/

/-- The relation as seen from the other end. -/
def RevRel {St α : Type} (R : St → List α → Prop) (st : St) (l : List α) : Prop := R st l.reverse

def Steps {St α : Type} (R : St → List α → Prop) (step : St → Option α × St) : Prop :=
  ∀ st l, R st l → (step st).1 = l.head? ∧ R (step st).2 l.tail

def Tries {St α : Type} (R : St → List α → Prop) (T : TryFoldFn St α) : Prop :=
  ∀ st l, R st l → ∀ fuel, l.length + 1 < fuel → ∀ (σ E : Type) (f : σ → α → Except E σ) (acc : σ),
    ∃ st', T σ E fuel f acc st = some ((tryItems f acc l).1, st') ∧ R st' (tryItems f acc l).2

def Advances {St α : Type} (R : St → List α → Prop) (A : AdvanceFn St) : Prop :=
  ∀ st l, R st l → ∀ n, ∃ st', A n st = some (n - l.length, st') ∧ R st' (l.drop n)

def Nths {St α : Type} (R : St → List α → Prop) (A : NthFn St α) : Prop :=
  ∀ st l, R st l → ∀ n, ∃ st', A n st = some (l[n]?, st') ∧ R st' (l.drop (n + 1))

def Finds {St α : Type} (R : St → List α → Prop) (A : FindFn St α) : Prop :=
  ∀ st l, R st l → ∀ fuel, l.length + 1 < fuel → ∀ (σ : Type) (p : σ → α → σ × Bool) (s : σ),
    ∃ st', A σ fuel p s st = some ((findItem p s l).1, st') ∧ R st' (findItem p s l).2

/-! ## Lists -/

theorem tryItems_length {σ E α : Type} (f : σ → α → Except E σ) (acc : σ) (l : List α) : (tryItems f acc l).2.length ≤ l.length := by
  induction l generalizing acc with
  | nil => exact Nat.le_refl _
  | cons x l ih =>
    rw [tryItems]
    rcases f acc x with e | acc'
    · simp
    · exact Nat.le_trans (ih acc') (by simp)

theorem tryItems_ok {σ E α : Type} {f : σ → α → Except E σ} {acc acc' : σ} {l : List α} (h : (tryItems f acc l).1 = .ok acc') :
    (tryItems f acc l).2 = [] := by
  induction l generalizing acc with
  | nil => rfl
  | cons x l ih =>
    rw [tryItems] at h ⊢
    rcases e : f acc x with e' | b
    · rw [e] at h; cases h
    · rw [e] at h; exact ih h

theorem tryItems_append_ok {σ E α : Type} {f : σ → α → Except E σ} {acc acc' : σ} {l l' : List α} (h : (tryItems f acc l).1 = .ok acc') :
    tryItems f acc (l ++ l') = tryItems f acc' l' := by
  induction l generalizing acc with
  | nil => cases h; rfl
  | cons x l ih =>
    rw [tryItems] at h
    rw [List.cons_append, tryItems]
    rcases e : f acc x with e' | b
    · rw [e] at h; cases h
    · rw [e] at h; exact ih h

theorem tryItems_append_error {σ E α : Type} {f : σ → α → Except E σ} {acc : σ} {l l' : List α} {e : E} (h : (tryItems f acc l).1 = .error e) :
    tryItems f acc (l ++ l') = (.error e, (tryItems f acc l).2 ++ l') := by
  induction l generalizing acc with
  | nil => cases h
  | cons x l ih =>
    rw [tryItems] at h
    rw [List.cons_append, tryItems, tryItems]
    rcases e : f acc x with e' | b
    · rw [e] at h; cases h; rfl
    · rw [e] at h; exact ih h

theorem tryItems_map {σ E α β : Type} (g : α → β) (f : σ → β → Except E σ) (acc : σ) (l : List α) :
    tryItems f acc (l.map g) = ((tryItems (fun acc x => f acc (g x)) acc l).1, (tryItems (fun acc x => f acc (g x)) acc l).2.map g) := by
  induction l generalizing acc with
  | nil => rfl
  | cons x l ih =>
    rw [List.map_cons, tryItems, tryItems]
    rcases f acc (g x) with e' | b
    · rfl
    · exact ih b

theorem findItem_length {σ α : Type} (p : σ → α → σ × Bool) (s : σ) (l : List α) : (findItem p s l).2.length ≤ l.length := by
  induction l generalizing s with
  | nil => exact Nat.le_refl _
  | cons x l ih =>
    rw [findItem]
    split
    · simp
    · exact Nat.le_trans (ih _) (by simp)

/-- `find` through `try_fold`. -/
theorem findItem_eq {σ α : Type} (p : σ → α → σ × Bool) (s : σ) (l : List α) :
    findItem p s l =
      match tryItems (fun s x => if (p s x).2 then Except.error (x, (p s x).1) else .ok (p s x).1) s l with
      | (.error (x, s'), l') => ((some x, s'), l')
      | (.ok s', l') => ((none, s'), l') := by
  induction l generalizing s with
  | nil => rfl
  | cons x l ih =>
    rw [findItem, tryItems]
    by_cases h : (p s x).2 = true
    · simp only [h, ↓reduceIte]
    · simp only [h]
      exact ih _

theorem findItem_none {σ α : Type} {p : σ → α → σ × Bool} {s : σ} {l : List α} (h : (findItem p s l).1.1 = none) : (findItem p s l).2 = [] := by
  induction l generalizing s with
  | nil => rfl
  | cons x l ih =>
    rw [findItem] at h ⊢
    by_cases hp : (p s x).2 = true
    · simp only [hp, ↓reduceIte] at h; cases h
    · simp only [hp] at h ⊢; exact ih h

theorem findItem_append_none {σ α : Type} {p : σ → α → σ × Bool} {s : σ} {l l' : List α} (h : (findItem p s l).1.1 = none) :
    findItem p s (l ++ l') = findItem p (findItem p s l).1.2 l' := by
  induction l generalizing s with
  | nil => rfl
  | cons x l ih =>
    rw [findItem] at h
    rw [List.cons_append, findItem, findItem]
    by_cases hp : (p s x).2 = true
    · simp only [hp, ↓reduceIte] at h; cases h
    · simp only [hp] at h ⊢; exact ih h

theorem findItem_append_some {σ α : Type} {p : σ → α → σ × Bool} {s : σ} {l l' : List α} {x : α} (h : (findItem p s l).1.1 = some x) :
    findItem p s (l ++ l') = ((findItem p s l).1, (findItem p s l).2 ++ l') := by
  induction l generalizing s with
  | nil => cases h
  | cons x l ih =>
    rw [findItem] at h
    rw [List.cons_append, findItem, findItem]
    by_cases hp : (p s x).2 = true
    · simp only [hp, ↓reduceIte]
    · simp only [hp] at h ⊢; exact ih h

theorem findItem_map {σ α β : Type} (g : α → β) (p : σ → β → σ × Bool) (s : σ) (l : List α) :
    findItem p s (l.map g) = (((findItem (fun s x => p s (g x)) s l).1.1.map g, (findItem (fun s x => p s (g x)) s l).1.2),
      (findItem (fun s x => p s (g x)) s l).2.map g) := by
  induction l generalizing s with
  | nil => rfl
  | cons x l ih =>
    rw [List.map_cons, findItem, findItem]
    by_cases hp : (p s (g x)).2 = true
    · simp only [hp, ↓reduceIte, Option.map_some]
    · simp only [hp]; exact ih _

/-! ## The definitions in the traits -/

theorem loopTryFold_tries {St α : Type} {R : St → List α → Prop} {step : St → Option α × St} (h : Steps R step) : Tries R (loopTryFold step) := by
  intro st l hr fuel hf σ E f acc
  induction l generalizing st fuel acc with
  | nil =>
    obtain ⟨n, rfl⟩ : ∃ n, fuel = n + 1 := ⟨fuel - 1, by simp at hf; omega⟩
    obtain ⟨h1, h2⟩ := h st [] hr
    rw [loopTryFold]
    rcases e : step st with ⟨o, st'⟩
    rw [e] at h1 h2
    cases h1
    exact ⟨st', rfl, h2⟩
  | cons x l ih =>
    obtain ⟨n, rfl⟩ : ∃ n, fuel = n + 1 := ⟨fuel - 1, by simp at hf; omega⟩
    obtain ⟨h1, h2⟩ := h st _ hr
    rw [loopTryFold]
    rcases e : step st with ⟨o, st'⟩
    rw [e] at h1 h2
    cases h1
    simp only
    rw [tryItems]
    rcases f acc x with e' | b
    · exact ⟨st', rfl, h2⟩
    · exact ih st' h2 n (by simp at hf; omega) b

theorem loopAdvance_advances {St α : Type} {R : St → List α → Prop} {step : St → Option α × St} (h : Steps R step) : Advances R (loopAdvance step) := by
  intro st l hr n
  induction n generalizing st l with
  | zero => exact ⟨st, by simp [loopAdvance], hr⟩
  | succ n ih =>
    obtain ⟨h1, h2⟩ := h st l hr
    rw [loopAdvance]
    rcases e : step st with ⟨o, st'⟩
    rw [e] at h1 h2
    cases l with
    | nil => cases h1; exact ⟨st', by simp, h2⟩
    | cons x l =>
      cases h1
      obtain ⟨st'', h3, h4⟩ := ih st' l h2
      exact ⟨st'', by simp only [h3, List.length_cons, Nat.add_sub_add_right], h4⟩

theorem nthVia_nths {St α : Type} {R : St → List α → Prop} {A : AdvanceFn St} {step : St → Option α × St} (h : Advances R A) (hs : Steps R step) :
    Nths R (nthVia A step) := by
  intro st l hr n
  obtain ⟨st', h1, h2⟩ := h st l hr n
  obtain ⟨h3, h4⟩ := hs st' _ h2
  rw [nthVia, h1]
  rcases e : n - l.length with _ | k
  · refine ⟨(step st').2, ?_, ?_⟩
    · rw [List.head?_drop] at h3
      simp only [← h3]
    · rw [List.tail_drop] at h4; exact h4
  · have e1 : l[n]? = none := List.getElem?_eq_none (by omega)
    have e2 : l.drop n = l.drop (n + 1) := by rw [List.drop_eq_nil_of_le (by omega), List.drop_eq_nil_of_le (by omega)]
    exact ⟨st', by rw [e1], e2 ▸ h2⟩

theorem findVia_finds {St α : Type} {R : St → List α → Prop} {T : TryFoldFn St α} (h : Tries R T) : Finds R (findVia T) := by
  intro st l hr fuel hf σ p s
  obtain ⟨st', h1, h2⟩ := h st l hr fuel hf σ (α × σ) (fun s x => if (p s x).2 then .error (x, (p s x).1) else .ok (p s x).1) s
  rw [findVia, h1, findItem_eq]
  revert h2
  rcases tryItems (fun s x => if (p s x).2 then Except.error (x, (p s x).1) else .ok (p s x).1) s l with ⟨⟨x, s'⟩ | s', l'⟩ <;>
    exact fun h2 => ⟨st', rfl, h2⟩

/-- `count` and `last` by a fold that goes through the items. -/
theorem countVia_eq {St α : Type} {F : FoldFn St α} {fuel : Nat} {st : St} {l : List α}
    (h : ∀ (B E : Type) (f : B → α → Except E B) (acc : B), F B E fuel f acc st = some (l.foldlM f acc)) : countVia F fuel st = some l.length := by
  rw [countVia, h]
  have : ∀ (l : List α) (c : Nat), l.foldlM (m := Except Empty) (fun c _ => .ok (c + 1)) c = .ok (c + l.length) := by
    intro l
    induction l with
    | nil => intro c; rfl
    | cons x l ih =>
      intro c
      rw [List.foldlM_cons]
      exact (ih (c + 1)).trans (congrArg _ (by simp only [List.length_cons]; omega))
  rw [this l 0, Nat.zero_add]

theorem lastVia_eq {St α : Type} {F : FoldFn St α} {fuel : Nat} {st : St} {l : List α}
    (h : ∀ (B E : Type) (f : B → α → Except E B) (acc : B), F B E fuel f acc st = some (l.foldlM f acc)) : lastVia F fuel st = some l.getLast? := by
  rw [lastVia, h]
  have : ∀ (l : List α) (c : Option α), l.foldlM (m := Except Empty) (fun _ x => .ok (some x)) c = .ok (l.getLast?.or c) := by
    intro l
    induction l with
    | nil => intro c; rfl
    | cons x l ih =>
      intro c
      rw [List.foldlM_cons]
      refine (ih (some x)).trans (congrArg _ ?_)
      rw [List.getLast?_cons]
      cases l.getLast? <;> rfl
  rw [this l none, Option.or_none]

/-! ## All methods of an iterator -/

structure Meets {α : Type} {I : IterImpl α} (X : Methods I) (R : I.St → List α → Prop) : Prop where
  sim : IsSim I R
  tryFold : Tries R X.tryFold
  advanceBy : Advances R X.advanceBy
  nth : Nths R X.nth
  find : Finds R X.find
  tryRfold : I.nextBack?.isSome → Tries (RevRel R) X.tryRfold
  advanceBackBy : I.nextBack?.isSome → Advances (RevRel R) X.advanceBackBy
  nthBack : I.nextBack?.isSome → Nths (RevRel R) X.nthBack
  rfind : I.nextBack?.isSome → Finds (RevRel R) X.rfind
  count : ∀ st l, R st l → ∃ N, ∀ fuel, N ≤ fuel → X.count fuel st = some l.length
  last : ∀ st l, R st l → ∃ N, ∀ fuel, N ≤ fuel → X.last fuel st = some l.getLast?

theorem IsSim.steps {α : Type} {I : IterImpl α} {R : I.St → List α → Prop} (h : IsSim I R) : Steps R I.next := h.next

theorem IsSim.backSteps {α : Type} {I : IterImpl α} {R : I.St → List α → Prop} (h : IsSim I R) (hb : I.nextBack?.isSome) :
    Steps (RevRel R) I.backStep := by
  intro st l hr
  obtain ⟨nb, e⟩ := Option.isSome_iff_exists.mp hb
  obtain ⟨h1, h2⟩ := h.back nb e st _ hr
  have eb : I.backStep st = nb st := by simp only [IterImpl.backStep, e]
  rw [eb]
  refine ⟨by rw [h1, List.getLast?_reverse], ?_⟩
  rw [List.dropLast_reverse] at h2
  exact h2

theorem IsSim.folds {α : Type} {I : IterImpl α} {R : I.St → List α → Prop} (h : IsSim I R) {F : Folds I} (hF : F.agrees) (st : I.St) (l : List α)
    (hr : R st l) :
    ∃ N, ∀ fuel, N ≤ fuel → ∀ (B E : Type) (f : B → α → Except E B) (acc : B), F.fold B E fuel f acc st = some (l.foldlM f acc) :=
  hF.1 st l ⟨_, (drain_eq _ _ _).symm.trans (Yields.drain ⟨R, h, hr⟩ (Nat.lt_succ_self _))⟩

theorem IsSim.rfolds {α : Type} {I : IterImpl α} {R : I.St → List α → Prop} (h : IsSim I R) {F : Folds I} (hF : F.agrees) (hb : I.nextBack?.isSome)
    (st : I.St) (l : List α) (hr : R st l) :
    ∃ N, ∀ fuel, N ≤ fuel → ∀ (B E : Type) (f : B → α → Except E B) (acc : B), F.rfold B E fuel f acc st = some (l.reverse.foldlM f acc) := by
  obtain ⟨nb, e⟩ := Option.isSome_iff_exists.mp hb
  exact hF.2 nb e st _ ⟨_, Yields.drainBack e _ ⟨R, h, hr⟩ rfl⟩

theorem Meets.default {α : Type} {I : IterImpl α} {R : I.St → List α → Prop} (h : IsSim I R) : Meets (Methods.default I) R where
  sim := h
  tryFold := loopTryFold_tries h.steps
  advanceBy := loopAdvance_advances h.steps
  nth := nthVia_nths (loopAdvance_advances h.steps) h.steps
  find := findVia_finds (loopTryFold_tries h.steps)
  tryRfold hb := loopTryFold_tries (h.backSteps hb)
  advanceBackBy hb := loopAdvance_advances (h.backSteps hb)
  nthBack hb := nthVia_nths (loopAdvance_advances (h.backSteps hb)) (h.backSteps hb)
  rfind hb := findVia_finds (loopTryFold_tries (h.backSteps hb))
  count st l hr := (h.folds (Folds.agrees_default I) st l hr).imp fun _ hN fuel hf => countVia_eq (hN fuel hf)
  last st l hr := (h.folds (Folds.agrees_default I) st l hr).imp fun _ hN fuel hf => lastVia_eq (hN fuel hf)

/-! ## `Map` and `Copied` -/

/-- The relation of `IsSim.map`. -/
def MapRel {St α β : Type} (g : α → β) (R : St → List α → Prop) (st : St) (l : List β) : Prop := ∃ l', l = l'.map g ∧ R st l'

theorem mapRel_rev {St α β : Type} {g : α → β} {R : St → List α → Prop} {st : St} {l : List β} :
    RevRel (MapRel g R) st l ↔ MapRel g (RevRel R) st l := by
  constructor
  · rintro ⟨l', e, hr⟩
    refine ⟨l'.reverse, ?_, by rw [RevRel, List.reverse_reverse]; exact hr⟩
    rw [List.map_reverse, ← e, List.reverse_reverse]
  · rintro ⟨l', rfl, hr⟩
    exact ⟨l'.reverse, List.map_reverse.symm, hr⟩

theorem mapRel_rev' {St α β : Type} (g : α → β) (R : St → List α → Prop) : RevRel (MapRel g R) = MapRel g (RevRel R) := by
  funext st l
  exact propext mapRel_rev

theorem Tries.map {St α β : Type} {R : St → List α → Prop} {T : TryFoldFn St α} (g : α → β) (h : Tries R T) : Tries (MapRel g R) (mapTryFold g T) := by
  rintro st _ ⟨l, rfl, hr⟩ fuel hf σ E f acc
  obtain ⟨st', h1, h2⟩ := h st l hr fuel (by simpa using hf) σ E (fun acc x => f acc (g x)) acc
  rw [tryItems_map]
  exact ⟨st', h1, _, rfl, h2⟩

theorem Advances.map {St α β : Type} {R : St → List α → Prop} {A : AdvanceFn St} (g : α → β) (h : Advances R A) : Advances (MapRel g R) A := by
  rintro st _ ⟨l, rfl, hr⟩ n
  obtain ⟨st', h1, h2⟩ := h st l hr n
  rw [List.length_map]
  exact ⟨st', h1, _, List.map_drop.symm, h2⟩

theorem Nths.map {St α β : Type} {R : St → List α → Prop} {A : NthFn St α} (g : α → β) (h : Nths R A) :
    Nths (MapRel g R) (fun n st => (A n st).map fun r => (r.1.map g, r.2)) := by
  rintro st _ ⟨l, rfl, hr⟩ n
  obtain ⟨st', h1, h2⟩ := h st l hr n
  refine ⟨st', by simp [h1], _, ?_, h2⟩
  rw [List.map_drop]

theorem Finds.map {St α β : Type} {R : St → List α → Prop} {A : FindFn St α} (g : α → β) (h : Finds R A) :
    Finds (MapRel g R) (fun σ fuel p s st => (A σ fuel (fun s x => p s (g x)) s st).map fun r => ((r.1.1.map g, r.1.2), r.2)) := by
  rintro st _ ⟨l, rfl, hr⟩ fuel hf σ p s
  obtain ⟨st', h1, h2⟩ := h st l hr fuel (by simpa using hf) σ (fun s x => p s (g x)) s
  rw [findItem_map]
  exact ⟨st', by simp [h1], _, rfl, h2⟩

theorem map_nextBack {α β : Type} {I : IterImpl α} {g : α → β} (h : (I.map g).nextBack?.isSome) : I.nextBack?.isSome := by
  simpa [IterImpl.map] using h

theorem Meets.map {α β : Type} {I : IterImpl α} {F : Folds I} {X : Methods I} {R : I.St → List α → Prop} (g : α → β) (hF : F.agrees)
    (h : Meets X R) : Meets (X.map g F) (MapRel g R) :=
  have hs : IsSim (I.map g) (MapRel g R) := h.sim.map g
  { sim := hs
    tryFold := h.tryFold.map g
    advanceBy := loopAdvance_advances hs.steps
    nth := nthVia_nths (loopAdvance_advances hs.steps) hs.steps
    find := findVia_finds (h.tryFold.map g)
    tryRfold := fun hb => mapRel_rev' g R ▸ (h.tryRfold (map_nextBack hb)).map g
    advanceBackBy := fun hb => loopAdvance_advances (hs.backSteps hb)
    nthBack := fun hb => nthVia_nths (loopAdvance_advances (hs.backSteps hb)) (hs.backSteps hb)
    rfind := fun hb => findVia_finds (mapRel_rev' g R ▸ (h.tryRfold (map_nextBack hb)).map g)
    count := fun st l hr => (hs.folds (hF.map g) st l hr).imp fun _ hN fuel hf => countVia_eq (hN fuel hf)
    last := fun st l hr => (hs.folds (hF.map g) st l hr).imp fun _ hN fuel hf => lastVia_eq (hN fuel hf) }

theorem count_map {St α β : Type} {R : St → List α → Prop} {C : Nat → St → Option Nat} (g : α → β)
    (h : ∀ st l, R st l → ∃ N, ∀ fuel, N ≤ fuel → C fuel st = some l.length) :
    ∀ st l, MapRel g R st l → ∃ N, ∀ fuel, N ≤ fuel → C fuel st = some l.length := by
  rintro st _ ⟨l, rfl, hr⟩
  rw [List.length_map]
  exact h st l hr

theorem last_map {St α β : Type} {R : St → List α → Prop} {C : Nat → St → Option (Option α)} (g : α → β)
    (h : ∀ st l, R st l → ∃ N, ∀ fuel, N ≤ fuel → C fuel st = some l.getLast?) :
    ∀ st l, MapRel g R st l → ∃ N, ∀ fuel, N ≤ fuel → (C fuel st).map (·.map g) = some l.getLast? := by
  rintro st _ ⟨l, rfl, hr⟩
  obtain ⟨N, hN⟩ := h st l hr
  exact ⟨N, fun fuel hf => by rw [hN fuel hf, List.getLast?_map]; rfl⟩

theorem Meets.copied {α β : Type} {I : IterImpl α} {X : Methods I} {R : I.St → List α → Prop} (g : α → β) (h : Meets X R) :
    Meets (X.copied g) (MapRel g R) :=
  have hs : IsSim (I.map g) (MapRel g R) := h.sim.map g
  { sim := hs
    tryFold := h.tryFold.map g
    advanceBy := h.advanceBy.map g
    nth := h.nth.map g
    find := findVia_finds (h.tryFold.map g)
    tryRfold := fun hb => mapRel_rev' g R ▸ (h.tryRfold (map_nextBack hb)).map g
    advanceBackBy := fun hb => mapRel_rev' g R ▸ (h.advanceBackBy (map_nextBack hb)).map g
    nthBack := fun hb => nthVia_nths (mapRel_rev' g R ▸ (h.advanceBackBy (map_nextBack hb)).map g) (hs.backSteps hb)
    rfind := fun hb => findVia_finds (mapRel_rev' g R ▸ (h.tryRfold (map_nextBack hb)).map g)
    count := count_map g h.count
    last := last_map g h.last }

theorem Meets.relabel {α β : Type} {I : IterImpl α} {X : Methods I} {R : I.St → List α → Prop} (g : α → β) (h : Meets X R) :
    Meets (X.relabel g) (MapRel g R) :=
  { sim := h.sim.map g
    tryFold := h.tryFold.map g
    advanceBy := h.advanceBy.map g
    nth := h.nth.map g
    find := h.find.map g
    tryRfold := fun hb => mapRel_rev' g R ▸ (h.tryRfold (map_nextBack hb)).map g
    advanceBackBy := fun hb => mapRel_rev' g R ▸ (h.advanceBackBy (map_nextBack hb)).map g
    nthBack := fun hb => mapRel_rev' g R ▸ (h.nthBack (map_nextBack hb)).map g
    rfind := fun hb => mapRel_rev' g R ▸ (h.rfind (map_nextBack hb)).map g
    count := count_map g h.count
    last := last_map g h.last }

/-! ## `Chain` -/

/-- The relation of `IsSim.chain`. -/
def ChainRel {A B α : Type} (R : A → List α → Prop) (T : B → List α → Prop) (st : Option A × Option B) (l : List α) : Prop :=
  ∃ la lb, l = la ++ lb ∧ OptRel R st.1 la ∧ OptRel T st.2 lb

theorem optRel_none {A α : Type} {R : A → List α → Prop} {l : List α} : OptRel R none l ↔ l = [] := by rfl

theorem optRel_some {A α : Type} {R : A → List α → Prop} {a : A} {l : List α} : OptRel R (some a) l ↔ R a l := by rfl

theorem optRel_rev {A α : Type} {R : A → List α → Prop} {o : Option A} {l : List α} : OptRel (RevRel R) o l ↔ OptRel R o l.reverse := by
  cases o with
  | none => rw [optRel_none, optRel_none, List.reverse_eq_nil_iff]
  | some a => exact Iff.rfl

theorem chainRel_rev {A B α : Type} {R : A → List α → Prop} {T : B → List α → Prop} {st : Option A × Option B} {l : List α} :
    RevRel (ChainRel R T) st l ↔ ChainRel (RevRel T) (RevRel R) st.swap l := by
  constructor
  · rintro ⟨la, lb, e, ha, hb⟩
    refine ⟨lb.reverse, la.reverse, ?_, optRel_rev.mpr (by rw [List.reverse_reverse]; exact hb), optRel_rev.mpr (by rw [List.reverse_reverse]; exact ha)⟩
    rw [← List.reverse_append, ← e, List.reverse_reverse]
  · rintro ⟨lb, la, rfl, hb, ha⟩
    exact ⟨la.reverse, lb.reverse, List.reverse_append, optRel_rev.mp ha, optRel_rev.mp hb⟩

theorem chainRel_second {A B α : Type} {R : A → List α → Prop} {T : B → List α → Prop} {b : B} {l : List α} (h : T b l) :
    ChainRel R T (none, some b) l := ⟨[], l, rfl, rfl, h⟩

theorem chainTryFold_tries {A B α : Type} {R : A → List α → Prop} {T : B → List α → Prop} {F : TryFoldFn A α} {G : TryFoldFn B α} (hF : Tries R F)
    (hG : Tries T G) : Tries (ChainRel R T) (chainTryFold F G) := by
  rintro ⟨oa, ob⟩ _ ⟨la, lb, rfl, ha, hb⟩ fuel hf σ E f acc
  simp only [List.length_append] at hf
  have second : ∀ acc, ∃ st', (match ob with
      | none => some (Except.ok acc, ((none : Option A), (none : Option B)))
      | some b => (G σ E fuel f acc b).map fun r => (r.1, (none, some r.2))) = some ((tryItems f acc lb).1, st') ∧
        ChainRel R T st' (tryItems f acc lb).2 := by
    intro acc
    cases ob with
    | none => cases hb; exact ⟨_, rfl, [], [], rfl, rfl, rfl⟩
    | some b =>
      obtain ⟨b', h1, h2⟩ := hG b lb hb fuel (by omega) σ E f acc
      exact ⟨(none, some b'), by simp only [h1, Option.map_some], chainRel_second h2⟩
  cases oa with
  | none => cases ha; exact second acc
  | some a =>
    obtain ⟨a', h1, h2⟩ := hF a la ha fuel (by omega) σ E f acc
    simp only [chainTryFold, h1]
    rcases e : (tryItems f acc la).1 with e' | acc'
    · rw [tryItems_append_error e]
      exact ⟨_, rfl, _, _, rfl, h2, hb⟩
    · rw [tryItems_append_ok e]
      exact second acc'

theorem chainAdvance_advances {A B α : Type} {R : A → List α → Prop} {T : B → List α → Prop} {F : AdvanceFn A} {G : AdvanceFn B} (hF : Advances R F)
    (hG : Advances T G) : Advances (ChainRel R T) (chainAdvance F G) := by
  rintro ⟨oa, ob⟩ _ ⟨la, lb, rfl, ha, hb⟩ n
  have second : ∀ n, ∃ st', (match ob with
      | none => some (n, ((none : Option A), (none : Option B)))
      | some b => (G n b).map fun r => (r.1, (none, some r.2))) = some (n - lb.length, st') ∧ ChainRel R T st' (lb.drop n) := by
    intro n
    cases ob with
    | none => cases hb; exact ⟨_, rfl, [], [], by simp, rfl, rfl⟩
    | some b =>
      obtain ⟨b', h1, h2⟩ := hG b lb hb n
      exact ⟨(none, some b'), by simp only [h1, Option.map_some], chainRel_second h2⟩
  cases oa with
  | none => cases ha; exact second n
  | some a =>
    obtain ⟨a', h1, h2⟩ := hF a la ha n
    simp only [chainAdvance, h1]
    rcases e : n - la.length with _ | k
    · refine ⟨(some a', ob), by simp only [List.length_append, Nat.sub_add_eq, e, Nat.zero_sub], la.drop n, lb, ?_, h2, hb⟩
      rw [List.drop_append_of_le_length (by omega)]
    · have := second (k + 1)
      rw [List.length_append, Nat.sub_add_eq, e, List.drop_append, List.drop_eq_nil_of_le (by omega), e]
      exact this

theorem chainNth_nths {A B α : Type} {R : A → List α → Prop} {T : B → List α → Prop} {F : AdvanceFn A} {step : A → Option α × A} {G : NthFn B α}
    (hF : Advances R F) (hs : Steps R step) (hG : Nths T G) : Nths (ChainRel R T) (chainNth F step G) := by
  rintro ⟨oa, ob⟩ _ ⟨la, lb, rfl, ha, hb⟩ n
  have second : ∀ n, ∃ st', (match ob with
      | none => some ((none : Option α), ((none : Option A), (none : Option B)))
      | some b => (G n b).map fun r => (r.1, (none, some r.2))) = some (lb[n]?, st') ∧ ChainRel R T st' (lb.drop (n + 1)) := by
    intro n
    cases ob with
    | none => cases hb; exact ⟨_, rfl, [], [], by simp, rfl, rfl⟩
    | some b =>
      obtain ⟨b', h1, h2⟩ := hG b lb hb n
      exact ⟨(none, some b'), by simp only [h1, Option.map_some], chainRel_second h2⟩
  cases oa with
  | none => cases ha; exact second n
  | some a =>
    obtain ⟨a', h1, h2⟩ := hF a la ha n
    obtain ⟨h3, h4⟩ := hs a' _ h2
    simp only [chainNth, h1]
    rw [List.head?_drop] at h3
    rw [List.tail_drop] at h4
    have skip : la.length ≤ n → (la ++ lb)[n]? = lb[n - la.length]? ∧ (la ++ lb).drop (n + 1) = lb.drop (n - la.length + 1) := by
      intro hle
      refine ⟨List.getElem?_append_right hle, ?_⟩
      rw [List.drop_append, List.drop_eq_nil_of_le (by omega), List.nil_append]
      congr 1
      omega
    rcases e : n - la.length with _ | k
    · rcases e2 : step a' with ⟨_ | x, a''⟩
      · rw [e2] at h3
        have hle : la.length ≤ n := List.getElem?_eq_none_iff.mp h3.symm
        rw [(skip hle).1, (skip hle).2, e]
        simp only [e2]
        exact second 0
      · rw [e2] at h3 h4
        have hlt : n < la.length := (List.getElem?_eq_some_iff.mp h3.symm).1
        refine ⟨(some a'', ob), by simp only [e2, List.getElem?_append_left hlt, ← h3], la.drop (n + 1), lb, ?_, h4, hb⟩
        rw [List.drop_append_of_le_length hlt]
    · rw [(skip (by omega)).1, (skip (by omega)).2, e]
      exact second (k + 1)

theorem chainFind_finds {A B α : Type} {R : A → List α → Prop} {T : B → List α → Prop} {F : FindFn A α} {G : FindFn B α} (hF : Finds R F)
    (hG : Finds T G) : Finds (ChainRel R T) (chainFind F G) := by
  rintro ⟨oa, ob⟩ _ ⟨la, lb, rfl, ha, hb⟩ fuel hf σ p s
  simp only [List.length_append] at hf
  have second : ∀ s, ∃ st', (match ob with
      | none => some (((none : Option α), s), ((none : Option A), (none : Option B)))
      | some b => (G σ fuel p s b).map fun r => (r.1, (none, some r.2))) = some ((findItem p s lb).1, st') ∧
        ChainRel R T st' (findItem p s lb).2 := by
    intro s
    cases ob with
    | none => cases hb; exact ⟨_, rfl, [], [], rfl, rfl, rfl⟩
    | some b =>
      obtain ⟨b', h1, h2⟩ := hG b lb hb fuel (by omega) σ p s
      exact ⟨(none, some b'), by simp only [h1, Option.map_some], chainRel_second h2⟩
  cases oa with
  | none => cases ha; exact second s
  | some a =>
    obtain ⟨a', h1, h2⟩ := hF a la ha fuel (by omega) σ p s
    simp only [chainFind, h1]
    rcases e : (findItem p s la).1 with ⟨_ | x, s'⟩
    · have e1 : (findItem p s la).1.1 = none := by rw [e]
      rw [findItem_append_none e1, e]
      exact second s'
    · have e1 : (findItem p s la).1.1 = some x := by rw [e]
      rw [findItem_append_some e1, e]
      exact ⟨_, rfl, _, _, rfl, h2, hb⟩

theorem Tries.swap {A B α : Type} {R : A → List α → Prop} {T : B → List α → Prop} {F : TryFoldFn (Option B × Option A) α}
    (h : Tries (ChainRel (RevRel T) (RevRel R)) F) : Tries (RevRel (ChainRel R T)) (fun σ E fuel f acc => swapState (F σ E fuel f acc)) := by
  intro st l hr fuel hf σ E f acc
  obtain ⟨st', h1, h2⟩ := h st.swap l (chainRel_rev.mp hr) fuel hf σ E f acc
  exact ⟨st'.swap, by simp only [swapState, h1, Option.map_some], chainRel_rev.mpr h2⟩

theorem Advances.swap {A B α : Type} {R : A → List α → Prop} {T : B → List α → Prop} {F : AdvanceFn (Option B × Option A)}
    (h : Advances (ChainRel (RevRel T) (RevRel R)) F) : Advances (RevRel (ChainRel R T)) (fun n => swapState (F n)) := by
  intro st l hr n
  obtain ⟨st', h1, h2⟩ := h st.swap l (chainRel_rev.mp hr) n
  exact ⟨st'.swap, by simp only [swapState, h1, Option.map_some], chainRel_rev.mpr h2⟩

theorem Nths.swap {A B α : Type} {R : A → List α → Prop} {T : B → List α → Prop} {F : NthFn (Option B × Option A) α}
    (h : Nths (ChainRel (RevRel T) (RevRel R)) F) : Nths (RevRel (ChainRel R T)) (fun n => swapState (F n)) := by
  intro st l hr n
  obtain ⟨st', h1, h2⟩ := h st.swap l (chainRel_rev.mp hr) n
  exact ⟨st'.swap, by simp only [swapState, h1, Option.map_some], chainRel_rev.mpr h2⟩

theorem Finds.swap {A B α : Type} {R : A → List α → Prop} {T : B → List α → Prop} {F : FindFn (Option B × Option A) α}
    (h : Finds (ChainRel (RevRel T) (RevRel R)) F) : Finds (RevRel (ChainRel R T)) (fun σ fuel p s => swapState (F σ fuel p s)) := by
  intro st l hr fuel hf σ p s
  obtain ⟨st', h1, h2⟩ := h st.swap l (chainRel_rev.mp hr) fuel hf σ p s
  exact ⟨st'.swap, by simp only [swapState, h1, Option.map_some], chainRel_rev.mpr h2⟩

theorem chain_nextBack {α : Type} {I J : IterImpl α} (h : (I.chain J).nextBack?.isSome) : I.nextBack?.isSome ∧ J.nextBack?.isSome := by
  simp only [IterImpl.chain] at h
  rcases ha : I.nextBack? with _ | inb
  · rw [ha] at h; cases h
  rcases hb : J.nextBack? with _ | jnb
  · rw [ha, hb] at h; cases h
  exact ⟨rfl, rfl⟩

theorem partOr_eq {A α C : Type} {R : A → List α → Prop} {f : Nat → A → Option C} {q : List α → C}
    (h : ∀ st l, R st l → ∃ N, ∀ fuel, N ≤ fuel → f fuel st = some (q l)) {o : Option A} {l : List α} (ho : OptRel R o l) :
    ∃ N, ∀ fuel, N ≤ fuel → partOr (f fuel) (q []) o = some (q l) := by
  cases o with
  | none => cases ho; exact ⟨0, fun _ _ => rfl⟩
  | some a => exact h a l ho

theorem Meets.chain {α : Type} {I J : IterImpl α} {X : Methods I} {Y : Methods J} {R : I.St → List α → Prop} {T : J.St → List α → Prop}
    (h : Meets X R) (k : Meets Y T) : Meets (X.chain Y) (ChainRel R T) where
  sim := h.sim.chain k.sim
  tryFold := chainTryFold_tries h.tryFold k.tryFold
  advanceBy := chainAdvance_advances h.advanceBy k.advanceBy
  nth := chainNth_nths h.advanceBy h.sim.steps k.nth
  find := chainFind_finds h.find k.find
  tryRfold hb := (chainTryFold_tries (k.tryRfold (chain_nextBack hb).2) (h.tryRfold (chain_nextBack hb).1)).swap
  advanceBackBy hb := (chainAdvance_advances (k.advanceBackBy (chain_nextBack hb).2) (h.advanceBackBy (chain_nextBack hb).1)).swap
  nthBack hb := (chainNth_nths (k.advanceBackBy (chain_nextBack hb).2) (k.sim.backSteps (chain_nextBack hb).2) (h.nthBack (chain_nextBack hb).1)).swap
  rfind hb := (chainFind_finds (k.rfind (chain_nextBack hb).2) (h.rfind (chain_nextBack hb).1)).swap
  count := by
    rintro ⟨oa, ob⟩ _ ⟨la, lb, rfl, ha, hb⟩
    obtain ⟨N, hN⟩ := partOr_eq (q := List.length) h.count ha
    obtain ⟨N', hN'⟩ := partOr_eq (q := List.length) k.count hb
    refine ⟨max N N', fun fuel hf => ?_⟩
    have e1 := hN fuel (by omega)
    have e2 := hN' fuel (by omega)
    simp only [List.length_nil] at e1 e2
    simp only [Methods.chain, e1, e2, Option.bind_some, Option.map_some, List.length_append]
  last := by
    rintro ⟨oa, ob⟩ _ ⟨la, lb, rfl, ha, hb⟩
    obtain ⟨N, hN⟩ := partOr_eq (q := List.getLast?) h.last ha
    obtain ⟨N', hN'⟩ := partOr_eq (q := List.getLast?) k.last hb
    refine ⟨max N N', fun fuel hf => ?_⟩
    have e1 := hN fuel (by omega)
    have e2 := hN' fuel (by omega)
    simp only [List.getLast?_nil] at e1 e2
    simp only [Methods.chain, e1, e2, Option.bind_some, Option.map_some, List.getLast?_append]

/-! ## `FlatMap` and `Flatten` -/

theorem innerList_some {α : Type} (u : Option α) : innerList (some u) = u.toList := by cases u <;> rfl

theorem filterMap_cons_toList {β α : Type} (g : β → Option α) (b : β) (l : List β) : (b :: l).filterMap g = (g b).toList ++ l.filterMap g := by
  rw [List.filterMap_cons]
  cases g b <;> rfl

/-- One step of a fold over inner iterators: `Good` holds of the accumulator and all items to come, `Done` of the value that stops the fold and the
items that are left. -/
def FoldsInner {α σ E : Type} (Good : σ → List α → Prop) (Done : E → List α → Prop) (fold : σ → Option α → Option (Except E σ × Option α)) : Prop :=
  ∀ acc u rest, Good acc (u.toList ++ rest) → ∃ r u', fold acc u = some (r, u') ∧
    match r with
    | .ok acc' => Good acc' rest
    | .error e => Done e (u'.toList ++ rest)

theorem arrayTry_spec {β α σ E : Type} (g : β → Option α) {Good : σ → List α → Prop} {Done : E → List α → Prop}
    {fold : σ → Option α → Option (Except E σ × Option α)} (h : FoldsInner Good Done fold) (rest : List α) (l : List β) :
    ∀ (acc : σ) (u : Option (Option α)), Good acc (l.filterMap g ++ rest) → ∃ r u' l', arrayTry g fold acc u l = some (r, u', l') ∧
      match r with
      | .ok acc' => Good acc' rest
      | .error e => Done e (innerList u' ++ l'.filterMap g ++ rest) := by
  induction l with
  | nil => intro acc u hg; exact ⟨_, _, _, rfl, hg⟩
  | cons b l ih =>
    intro acc u hg
    rw [filterMap_cons_toList, List.append_assoc] at hg
    obtain ⟨r, u', h1, h2⟩ := h acc (g b) _ hg
    rw [arrayTry, h1]
    rcases r with e | acc'
    · refine ⟨_, _, _, rfl, ?_⟩
      rw [innerList_some, List.append_assoc]
      exact h2
    · exact ih acc' (some u') h2

theorem flatTry_spec {β α σ E : Type} (g : β → Option α) {Good : σ → List α → Prop} {Done : E → List α → Prop}
    {fold : σ → Option α → Option (Except E σ × Option α)} (h : FoldsInner Good Done fold) (acc : σ) (near : Option (Option α)) (l : List β)
    (far : Option (Option α)) (hg : Good acc (innerList near ++ l.filterMap g ++ innerList far)) :
    ∃ r near' l' far', flatTry g fold acc near l far = some (r, near', l', far') ∧
      match r with
      | .ok acc' => Good acc' [] ∧ near' = none ∧ l' = [] ∧ far' = none
      | .error e => Done e (innerList near' ++ l'.filterMap g ++ innerList far') := by
  have third : ∀ acc, Good acc (innerList far) → ∃ r near' l' far', (match far with
      | none => some (Except.ok acc, ((none : Option (Option α)), ([] : List β), none))
      | some u =>
        match fold acc u with
        | none => none
        | some (.error e, u') => some (.error e, (none, [], some u'))
        | some (.ok acc', _) => some (.ok acc', (none, [], none))) = some (r, near', l', far') ∧
      match r with
      | .ok acc' => Good acc' [] ∧ near' = none ∧ l' = [] ∧ far' = none
      | .error e => Done e (innerList near' ++ l'.filterMap g ++ innerList far') := by
    intro acc hg
    cases far with
    | none => exact ⟨_, _, _, _, rfl, hg, rfl, rfl, rfl⟩
    | some u =>
      rw [innerList_some] at hg
      obtain ⟨r, u', h1, h2⟩ := h acc u [] (by rw [List.append_nil]; exact hg)
      simp only [h1]
      rcases r with e | acc'
      · refine ⟨_, _, _, _, rfl, ?_⟩
        simp only [innerList_some]
        rw [List.append_nil] at h2
        exact h2
      · exact ⟨_, _, _, _, rfl, h2, rfl, rfl, rfl⟩
  have second : ∀ acc, Good acc (l.filterMap g ++ innerList far) → ∃ r near' l' far', (match arrayTry g fold acc none l with
      | none => none
      | some (.error e, u, bs) => some (.error e, (u, bs, far))
      | some (.ok acc', _, _) => (match far with
        | none => some (Except.ok acc', ((none : Option (Option α)), ([] : List β), none))
        | some u =>
          match fold acc' u with
          | none => none
          | some (.error e, u') => some (.error e, (none, [], some u'))
          | some (.ok acc', _) => some (.ok acc', (none, [], none)))) = some (r, near', l', far') ∧
      match r with
      | .ok acc' => Good acc' [] ∧ near' = none ∧ l' = [] ∧ far' = none
      | .error e => Done e (innerList near' ++ l'.filterMap g ++ innerList far') := by
    intro acc hg
    obtain ⟨r, u', l', h1, h2⟩ := arrayTry_spec g h _ l acc none hg
    simp only [h1]
    rcases r with e | acc'
    · exact ⟨_, _, _, _, rfl, h2⟩
    · exact third acc' h2
  cases near with
  | none => exact second acc hg
  | some u =>
    rw [innerList_some, List.append_assoc] at hg
    obtain ⟨r, u', h1, h2⟩ := h acc u _ hg
    simp only [flatTry, h1]
    rcases r with e | acc'
    · refine ⟨_, _, _, _, rfl, ?_⟩
      simp only [innerList_some, List.append_assoc]
      exact h2
    · exact second acc' h2

/-- `fold` over the inner iterator by its own `try_fold`. -/
theorem tryItems_inner {α σ E : Type} {fuel : Nat} (hf : 2 ≤ fuel) (f : σ → α → Except E σ) (target : Except E σ × List α) :
    FoldsInner (fun acc l => tryItems f acc l = target) (fun e l => ((.error e : Except E σ), l) = target) (loopTryFold optNext σ E fuel f) := by
  intro acc u rest hg
  obtain ⟨n, rfl⟩ : ∃ n, fuel = n + 2 := ⟨fuel - 2, by omega⟩
  cases u with
  | none => exact ⟨_, _, rfl, hg⟩
  | some x =>
    rw [Option.toList, List.singleton_append, tryItems] at hg
    rw [loopTryFold]
    simp only [optNext]
    rcases e : f acc x with e' | acc'
    · rw [e] at hg
      exact ⟨_, _, rfl, hg⟩
    · rw [e] at hg
      exact ⟨_, _, rfl, hg⟩

theorem advance_inner {α : Type} (target : Nat × List α) :
    FoldsInner (fun n l => (n - l.length, l.drop n) = target) (fun (_ : Unit) l => (0, l) = target) flatAdvance := by
  intro n u rest hg
  subst hg
  rcases n with _ | n
  · exact ⟨_, _, rfl, by simp⟩
  · rcases u with _ | x
    · exact ⟨.ok (n + 1), none, rfl, rfl⟩
    · rcases n with _ | n
      · exact ⟨.error (), none, rfl, by simp⟩
      · refine ⟨.ok (n + 1), none, rfl, ?_⟩
        simp only [Option.toList, List.singleton_append, List.length_cons, List.drop_succ_cons, Nat.add_sub_add_right]

/-- What a flatten state stands for. -/
def FlatRel {β α : Type} (g : β → Option α) (st : FlatSt β α) (l : List α) : Prop := l = flatList g st

theorem inner_reverse {α : Type} (o : Option (Option α)) : (innerList o).reverse = innerList o := by rcases o with _ | _ | a <;> rfl

theorem flatRel_rev {β α : Type} {g : β → Option α} {st : FlatSt β α} {l : List α} :
    RevRel (FlatRel g) st l ↔ l = innerList st.back ++ st.iter.reverse.filterMap g ++ innerList st.front := by
  rw [RevRel, FlatRel, List.reverse_eq_iff, flatList, List.reverse_append, List.reverse_append, inner_reverse, inner_reverse, ← List.filterMap_reverse,
    List.append_assoc]

theorem flatTry_front {β α σ E : Type} (g : β → Option α) {Good : σ → List α → Prop} {Done : E → List α → Prop}
    {fold : σ → Option α → Option (Except E σ × Option α)} (h : FoldsInner Good Done fold) (acc : σ) {st : FlatSt β α} {l : List α}
    (hr : FlatRel g st l) (hg : Good acc l) :
    ∃ r st', flatTryFront g fold acc st = some (r, st') ∧
      match r with
      | .ok acc' => Good acc' [] ∧ FlatRel g st' []
      | .error e => ∃ l', Done e l' ∧ FlatRel g st' l' := by
  cases hr
  obtain ⟨r, n', l', f', h1, h2⟩ := flatTry_spec g h acc st.front st.iter st.back hg
  refine ⟨r, ⟨n', l', f'⟩, by simp only [flatTryFront, h1, Option.map_some], ?_⟩
  rcases r with e | acc'
  · exact ⟨_, h2, rfl⟩
  · obtain ⟨h3, rfl, rfl, rfl⟩ := h2
    exact ⟨h3, rfl⟩

theorem flatTry_back {β α σ E : Type} (g : β → Option α) {Good : σ → List α → Prop} {Done : E → List α → Prop}
    {fold : σ → Option α → Option (Except E σ × Option α)} (h : FoldsInner Good Done fold) (acc : σ) {st : FlatSt β α} {l : List α}
    (hr : RevRel (FlatRel g) st l) (hg : Good acc l) :
    ∃ r st', flatTryBack g fold acc st = some (r, st') ∧
      match r with
      | .ok acc' => Good acc' [] ∧ RevRel (FlatRel g) st' []
      | .error e => ∃ l', Done e l' ∧ RevRel (FlatRel g) st' l' := by
  rw [flatRel_rev] at hr
  cases hr
  obtain ⟨r, n', l', f', h1, h2⟩ := flatTry_spec g h acc st.back st.iter.reverse st.front hg
  refine ⟨r, ⟨f', l'.reverse, n'⟩, by simp only [flatTryBack, h1, Option.map_some], ?_⟩
  rcases r with e | acc'
  · exact ⟨_, h2, flatRel_rev.mpr (by rw [List.reverse_reverse])⟩
  · obtain ⟨h3, rfl, rfl, rfl⟩ := h2
    exact ⟨h3, rfl⟩

theorem tries_of {St α : Type} {R : St → List α → Prop} {T : TryFoldFn St α}
    (h : ∀ st l, R st l → ∀ fuel, 2 ≤ fuel → ∀ (σ E : Type) (f : σ → α → Except E σ) (acc : σ),
      ∃ r st', T σ E fuel f acc st = some (r, st') ∧
        match r with
        | .ok acc' => tryItems f acc' [] = tryItems f acc l ∧ R st' []
        | .error e => ∃ l', (.error e, l') = tryItems f acc l ∧ R st' l') : Tries R T := by
  intro st l hr fuel hf σ E f acc
  obtain ⟨r, st', h1, h2⟩ := h st l hr fuel (by omega) σ E f acc
  rcases r with e | acc'
  · obtain ⟨l', h2, h3⟩ := h2
    exact ⟨st', by rw [h1, ← h2], by rw [← h2]; exact h3⟩
  · obtain ⟨h2, h3⟩ := h2
    exact ⟨st', by rw [h1, ← h2]; rfl, by rw [← h2]; exact h3⟩

theorem advances_of {St α : Type} {R : St → List α → Prop} {T : Nat → St → Option (Except Unit Nat × St)}
    (h : ∀ st l, R st l → ∀ n, ∃ r st', T n st = some (r, st') ∧
        match r with
        | .ok k => (k - ([] : List α).length, ([] : List α).drop k) = (n - l.length, l.drop n) ∧ R st' []
        | .error _ => ∃ l', (0, l') = (n - l.length, l.drop n) ∧ R st' l') : Advances R (fun n st => (T n st).map flatAdvanced) := by
  intro st l hr n
  obtain ⟨r, st', h1, h2⟩ := h st l hr n
  refine ⟨st', ?_⟩
  simp only [h1, Option.map_some]
  rcases r with ⟨⟩ | k
  · obtain ⟨l', h2, h3⟩ := h2
    obtain ⟨e1, rfl⟩ := Prod.mk.inj h2
    exact ⟨by rw [← e1]; rfl, h3⟩
  · obtain ⟨h2, h3⟩ := h2
    obtain ⟨e1, e2⟩ := Prod.mk.inj h2
    exact ⟨by rw [← e1]; rfl, by rw [← e2, List.drop_nil]; exact h3⟩

theorem flat_tryFold {β α : Type} (g : β → Option α) : Tries (FlatRel g) (Methods.flat g).tryFold :=
  tries_of fun _ _ hr _ hf _ _ f acc => flatTry_front g (tryItems_inner hf f _) acc hr rfl

theorem flat_tryRfold {β α : Type} (g : β → Option α) : Tries (RevRel (FlatRel g)) (Methods.flat g).tryRfold :=
  tries_of fun _ _ hr _ hf _ _ f acc => flatTry_back g (tryItems_inner hf f _) acc hr rfl

theorem flat_advanceBy {β α : Type} (g : β → Option α) : Advances (FlatRel g) (Methods.flat g).advanceBy :=
  advances_of fun _ l hr n => by
    obtain ⟨r, st', h1, h2⟩ := flatTry_front g (advance_inner (n - l.length, l.drop n)) n hr rfl
    exact ⟨r, st', h1, by cases r <;> exact h2⟩

theorem flat_advanceBackBy {β α : Type} (g : β → Option α) : Advances (RevRel (FlatRel g)) (Methods.flat g).advanceBackBy :=
  advances_of fun _ l hr n => by
    obtain ⟨r, st', h1, h2⟩ := flatTry_back g (advance_inner (n - l.length, l.drop n)) n hr rfl
    exact ⟨r, st', h1, by cases r <;> exact h2⟩

/-- `iter_fold` -/
theorem flatFold_eq {β α C : Type} (g : β → Option α) (fold : C → Option α → Option C) (q : C → List α → C) (h0 : ∀ c, q c [] = c)
    (ha : ∀ c l l', q c (l ++ l') = q (q c l) l') (h : ∀ c u, fold c u = some (q c u.toList)) (c : C) (st : FlatSt β α) :
    flatFold g fold c st = some (q c (flatList g st)) := by
  have part : ∀ (c : C) (o : Option (Option α)), partOr (fold c) c o = some (q c (innerList o)) := by
    intro c o
    rcases o with _ | u
    · exact congrArg some (h0 c).symm
    · rw [innerList_some]; exact h c u
  have arr : ∀ (l : List β) (c : C), (l.map g).foldlM fold c = some (q c (l.filterMap g)) := by
    intro l
    induction l with
    | nil => intro c; exact congrArg some (h0 c).symm
    | cons b l ih =>
      intro c
      rw [filterMap_cons_toList, ha, List.map_cons, List.foldlM_cons, h]
      exact ih _
  rw [flatFold, part, flatList, ha, ha, Option.bind_some, arr, Option.bind_some, part]

theorem Meets.flat {β α : Type} (g : β → Option α) : Meets (Methods.flat g) (FlatRel g) where
  sim := flat_sim g
  tryFold := flat_tryFold g
  advanceBy := flat_advanceBy g
  nth := nthVia_nths (flat_advanceBy g) (flat_sim g).steps
  find := findVia_finds (flat_tryFold g)
  tryRfold _ := flat_tryRfold g
  advanceBackBy _ := flat_advanceBackBy g
  nthBack hb := nthVia_nths (flat_advanceBackBy g) ((flat_sim g).backSteps hb)
  rfind _ := findVia_finds (flat_tryRfold g)
  count := by
    rintro st _ rfl
    refine ⟨2, fun fuel hf => ?_⟩
    refine (flatFold_eq g (fun c u => (countVia (loopFold optNext) fuel u).map (c + ·)) (fun c l => c + l.length) (fun _ => rfl) (fun c l l' => by rw [List.length_append, Nat.add_assoc]) ?_ 0 st).trans ?_
    · intro c u
      rw [countVia_eq (l := u.toList) fun B E f acc => optFold hf B E f acc u]
      rfl
    · rw [Nat.zero_add]
  last := by
    rintro st _ rfl
    refine ⟨2, fun fuel hf => ?_⟩
    refine (flatFold_eq g (fun (c : Option α) u => (lastVia (loopFold optNext) fuel u).map (·.or c)) (fun c l => l.getLast?.or c) (fun _ => rfl) (fun c l l' => by rw [List.getLast?_append, Option.or_assoc]) ?_ none st).trans ?_
    · intro c u
      rw [lastVia_eq (l := u.toList) fun B E f acc => optFold hf B E f acc u]
      rfl
    · rw [Option.or_none]

/-! ## Sequences of calls -/

theorem Meets.call {σ α : Type} {I : IterImpl α} {X : Methods I} {R : I.St → List α → Prop} (h : Meets X R) (c : Call σ α)
    (hc : I.nextBack?.isSome ∨ c.isFront) {st : I.St} {l : List α} (hr : R st l) {fuel : Nat} (hf : l.length + 1 < fuel) :
    ∃ st', X.call fuel c st = some ((dequeCall c l).1, st') ∧ R st' (dequeCall c l).2 := by
  have hr' : RevRel R st l.reverse := by rw [RevRel, List.reverse_reverse]; exact hr
  have hf' : l.reverse.length + 1 < fuel := by rw [List.length_reverse]; exact hf
  have back : c.isFront = false → I.nextBack?.isSome := fun e => hc.resolve_right (by rw [e]; exact Bool.false_ne_true)
  have toTake : ∀ n, l.take (l.length - n) = (l.reverse.drop n).reverse := fun n => by rw [List.drop_reverse, List.reverse_reverse]
  cases c with
  | next =>
    obtain ⟨h1, h2⟩ := h.sim.steps st l hr
    exact ⟨_, by rw [Methods.call, h1]; rfl, h2⟩
  | nextBack =>
    obtain ⟨h1, h2⟩ := h.sim.backSteps (back rfl) st _ hr'
    rw [List.head?_reverse] at h1
    rw [RevRel, List.tail_reverse, List.reverse_reverse] at h2
    exact ⟨_, by rw [Methods.call, h1]; rfl, h2⟩
  | advanceBy n =>
    obtain ⟨st', h1, h2⟩ := h.advanceBy st l hr n
    exact ⟨st', by rw [Methods.call, h1]; rfl, h2⟩
  | advanceBackBy n =>
    obtain ⟨st', h1, h2⟩ := h.advanceBackBy (back rfl) st _ hr' n
    rw [List.length_reverse] at h1
    exact ⟨st', by rw [Methods.call, h1]; rfl, by rw [dequeCall, toTake]; exact h2⟩
  | nth n =>
    obtain ⟨st', h1, h2⟩ := h.nth st l hr n
    exact ⟨st', by rw [Methods.call, h1]; rfl, h2⟩
  | nthBack n =>
    obtain ⟨st', h1, h2⟩ := h.nthBack (back rfl) st _ hr' n
    exact ⟨st', by rw [Methods.call, h1]; rfl, by rw [dequeCall, toTake]; exact h2⟩
  | tryFold f init =>
    obtain ⟨st', h1, h2⟩ := h.tryFold st l hr fuel hf σ σ f init
    exact ⟨st', by rw [Methods.call, h1]; rfl, h2⟩
  | tryRfold f init =>
    obtain ⟨st', h1, h2⟩ := h.tryRfold (back rfl) st _ hr' fuel hf' σ σ f init
    exact ⟨st', by rw [Methods.call, h1]; rfl, h2⟩
  | find p s =>
    obtain ⟨st', h1, h2⟩ := h.find st l hr fuel hf σ p s
    exact ⟨st', by rw [Methods.call, h1]; rfl, h2⟩
  | rfind p s =>
    obtain ⟨st', h1, h2⟩ := h.rfind (back rfl) st _ hr' fuel hf' σ p s
    exact ⟨st', by rw [Methods.call, h1]; rfl, h2⟩

theorem dequeCall_length {σ α : Type} (c : Call σ α) (l : List α) : (dequeCall c l).2.length ≤ l.length := by
  cases c with
  | tryFold f init => exact tryItems_length f init l
  | tryRfold f init =>
    simp only [dequeCall, List.length_reverse]
    exact (List.length_reverse (as := l)) ▸ tryItems_length f init l.reverse
  | find p s => exact findItem_length p s l
  | rfind p s =>
    simp only [dequeCall, List.length_reverse]
    exact (List.length_reverse (as := l)) ▸ findItem_length p s l.reverse
  | _ => simp [dequeCall] <;> omega

theorem Meets.calls {σ α : Type} {I : IterImpl α} {X : Methods I} {R : I.St → List α → Prop} (h : Meets X R) (cs : List (Call σ α))
    (hc : I.nextBack?.isSome ∨ ∀ c ∈ cs, c.isFront) {st : I.St} {l : List α} (hr : R st l) {fuel : Nat} (hf : l.length + 1 < fuel) :
    ∃ st', X.calls fuel cs st = some ((dequeCalls cs l).1, st') ∧ R st' (dequeCalls cs l).2 := by
  induction cs generalizing st l with
  | nil => exact ⟨st, rfl, hr⟩
  | cons c cs ih =>
    obtain ⟨st', h1, h2⟩ := h.call c (hc.imp id fun h => h c (.head _)) hr hf
    obtain ⟨st'', h3, h4⟩ := ih (hc.imp id fun h c hc => h c (.tail _ hc)) h2 (by have := dequeCall_length c l; omega)
    exact ⟨st'', by rw [Methods.calls, h1]; simp only [h3, Option.map_some]; rfl, h4⟩

theorem Meets.answersAs {S α : Type} {it : IterOf S α} {F : Folds it.I} {X : Methods it.I} {R : it.I.St → List α → Prop} (h : Meets X R)
    (hF : F.agrees) {s : S} {l : List α} (hr : R (it.init s) l) : it.answersAs F X s l := by
  intro σ cs hc
  refine ⟨l.length + 2, fun fuel hf => ?_⟩
  obtain ⟨st, h1, h2⟩ := h.calls cs hc hr hf
  refine ⟨st, h1, h.sim.hint _ _ h2, ?_⟩
  obtain ⟨N1, h3⟩ := h.count _ _ h2
  obtain ⟨N2, h4⟩ := h.last _ _ h2
  obtain ⟨N3, h5⟩ := h.sim.folds hF _ _ h2
  by_cases hb : it.I.nextBack?.isSome
  · obtain ⟨N4, h6⟩ := h.sim.rfolds hF hb _ _ h2
    exact ⟨max (max N1 N2) (max N3 N4), fun fuel hf => ⟨h3 fuel (by omega), h4 fuel (by omega), fun B E f acc =>
      ⟨h5 fuel (by omega) B E f acc, fun _ => h6 fuel (by omega) B E f acc⟩⟩⟩
  · exact ⟨max (max N1 N2) N3, fun fuel hf => ⟨h3 fuel (by omega), h4 fuel (by omega), fun B E f acc =>
      ⟨h5 fuel (by omega) B E f acc, fun h => absurd h hb⟩⟩⟩

/-! ## Storages -/

/-- All methods of what `it` returns answer as on the list of its items. -/
def Answers {S α : Type} (it : IterOf S α) (X : Methods it.I) (P : S → Prop) : Prop :=
  ∃ R, Meets X R ∧ ∀ s, P s → ∃ l, R (it.init s) l

theorem Answers.default {S α : Type} {it : IterOf S α} {P : S → Prop} (h : ∀ s, P s → ∃ l, YieldsAt it s l) : Answers it (.default it.I) P :=
  ⟨_, .default (Yields.isSim it.I), h⟩

theorem Answers.map {S α β : Type} {it : IterOf S α} {F : Folds it.I} {X : Methods it.I} {P : S → Prop} (g : α → β) (hF : F.agrees)
    (h : Answers it X P) : Answers (it.map g) (X.map g F) P := by
  obtain ⟨R, h1, h2⟩ := h
  exact ⟨_, h1.map g hF, fun s hs => (h2 s hs).elim fun l hl => ⟨_, l, rfl, hl⟩⟩

theorem Answers.copied {S α β : Type} {it : IterOf S α} {X : Methods it.I} {P : S → Prop} (g : α → β) (h : Answers it X P) :
    Answers (it.map g) (X.copied g) P := by
  obtain ⟨R, h1, h2⟩ := h
  exact ⟨_, h1.copied g, fun s hs => (h2 s hs).elim fun l hl => ⟨_, l, rfl, hl⟩⟩

theorem Answers.relabel {S α β : Type} {it : IterOf S α} {X : Methods it.I} {P : S → Prop} (g : α → β) (h : Answers it X P) :
    Answers (it.map g) (X.relabel g) P := by
  obtain ⟨R, h1, h2⟩ := h
  exact ⟨_, h1.relabel g, fun s hs => (h2 s hs).elim fun l hl => ⟨_, l, rfl, hl⟩⟩

theorem Answers.comap {S T α : Type} {it : IterOf S α} {X : Methods it.I} {P : S → Prop} {Q : T → Prop} (p : T → S) (h : Answers it X P)
    (hp : ∀ t, Q t → P (p t)) : Answers (it.comap p) X Q := by
  obtain ⟨R, h1, h2⟩ := h
  exact ⟨R, h1, fun t ht => h2 (p t) (hp t ht)⟩

theorem Answers.chain {S α : Type} {a b : IterOf S α} {X : Methods a.I} {Y : Methods b.I} {P : S → Prop} (h : Answers a X P) (k : Answers b Y P) :
    Answers (a.chain b) (X.chain Y) P := by
  obtain ⟨R, h1, h2⟩ := h
  obtain ⟨T, k1, k2⟩ := k
  refine ⟨_, h1.chain k1, fun s hs => ?_⟩
  obtain ⟨la, ha⟩ := h2 s hs
  obtain ⟨lb, hb⟩ := k2 s hs
  exact ⟨_, la, lb, rfl, ha, hb⟩

theorem Answers.option {S α : Type} (p : S → Option α) (P : S → Prop) : Answers (IterOf.option p) (.default (optionIter α)) P :=
  .default fun s _ => ⟨_, yieldsAt_option p s⟩

theorem Answers.mapOption {S α β : Type} (p : S → Option α) (g : α → β) (P : S → Prop) : Answers ((IterOf.option p).map g) (.mapOption g) P :=
  .map g (Folds.agrees_default _) (.option p P)

theorem Answers.flat {S α β : Type} (f : β → Option α) (p : S → List β) (P : S → Prop) : Answers (IterOf.flat f p) (.flat f) P :=
  ⟨_, .flat f, fun _ _ => ⟨_, rfl⟩⟩

/-- The list is the one which the loop over `next` goes through. -/
theorem Answers.answersAs {S α : Type} {it : IterOf S α} {F : Folds it.I} {X : Methods it.I} {P : S → Prop} (h : Answers it X P) (hF : F.agrees)
    {s : S} {l : List α} (hs : P s) (hy : YieldsAt it s l) : it.answersAs F X s l := by
  obtain ⟨R, h1, h2⟩ := h
  obtain ⟨l', hl⟩ := h2 s hs
  have hy' : Yields it.I (it.init s) l' := ⟨R, h1.sim, hl⟩
  have e : l = l' := drainBy_unique ((drain_eq _ _ _).symm.trans (Yields.drain hy (Nat.lt_succ_self _)))
    ((drain_eq _ _ _).symm.trans (hy'.drain (Nat.lt_succ_self _)))
  exact h1.answersAs hF (e ▸ hl)

structure MapMethods.answer {K V : Type} {M : MapStorage K V} (X : MapMethods M) : Prop where
  iter : Answers M.iter X.iter fun _ => True
  keys : Answers M.keys X.keys fun _ => True
  values : Answers M.values X.values fun _ => True
  iterMut : Answers M.iterMut X.iterMut fun _ => True
  valuesMut : Answers M.valuesMut X.valuesMut fun _ => True
  intoIter : Answers M.intoIter X.intoIter fun _ => True

theorem MapMethods.answer_default {K V : Type} {M : MapStorage K V} {L : CoreLaws M.toMapCore} {ku : Bool} (h : IterLaws M L ku) :
    (MapMethods.default M).answer :=
  ⟨.default fun s _ => ⟨_, h.iter s⟩, .default fun s _ => ⟨_, h.keys s⟩, .default fun s _ => ⟨_, h.values s⟩, .default fun s _ => ⟨_, h.iterMut s⟩,
    .default fun s _ => ⟨_, h.valuesMut s⟩, .default fun s _ => ⟨_, h.intoIter s⟩⟩

theorem boolMapMethods_answer (V : Type) : (boolMapMethods V).answer :=
  ⟨.chain (.mapOption _ _ _) (.mapOption _ _ _), .default fun s _ => ⟨_, (boolIters V).keys s⟩, .chain (.option _ _) (.option _ _),
    .chain (.mapOption _ _ _) (.mapOption _ _ _), .chain (.option _ _) (.option _ _), .chain (.mapOption _ _ _) (.mapOption _ _ _)⟩

theorem optMapMethods_answer {K V : Type} {M : MapStorage K V} {f : MapFolds M} {t : MapMethods M} (hf : f.agree) (ht : t.answer) :
    (optMapMethods f t).answer :=
  ⟨.chain (.map _ hf.iter (.comap _ ht.iter fun _ h => h)) (.mapOption _ _ _),
    .chain (.map _ hf.keys (.comap _ ht.keys fun _ h => h)) (.option _ _),
    .chain (.comap _ ht.values fun _ h => h) (.option _ _),
    .chain (.map _ hf.iterMut (.comap _ ht.iterMut fun _ h => h)) (.mapOption _ _ _),
    .chain (.relabel _ (.comap _ ht.valuesMut fun _ h => h)) (.option _ _),
    .chain (.map _ hf.intoIter (.comap _ ht.intoIter fun _ h => h)) (.mapOption _ _ _)⟩

theorem hashMapMethods_answer {K V : Type} {A : HashMapApi K V} (L : HashMapLaws A) : (hashMapMethods A).answer :=
  ⟨.map _ (Folds.agrees_default _) (.default fun s _ => ⟨_, (L.iter_like s).yields⟩), .copied _ (.default fun s _ => ⟨_, (L.keys_like s).yields⟩),
    .default fun s _ => ⟨_, (L.values_like s).yields⟩, .map _ (Folds.agrees_default _) (.default fun s _ => ⟨_, (L.iter_mut_like s).yields⟩),
    .default fun s _ => ⟨_, (L.values_mut_like s).yields⟩, .default fun s _ => ⟨_, (L.into_iter_like s).yields⟩⟩

theorem unitsMapMethods_answer (n : Nat) (V : Type) : (unitsMapMethods n V).answer :=
  ⟨.flat _ _ _, .flat _ _ _, .flat _ _ _, .flat _ _ _, .flat _ _ _, .flat _ _ _⟩

theorem mapMethods_answer (H : Hashbrown) (V : Type) : (κ : KeyTy) → (mapMethods H.api V κ).answer
  | .bool => boolMapMethods_answer V
  | .unit => MapMethods.answer_default (unitIters V)
  | .opt κ => optMapMethods_answer (mapFolds_agree H.api V κ) (mapMethods_answer H V κ)
  | .prim p => hashMapMethods_answer (H.laws p.Key V)
  | .units n => unitsMapMethods_answer n V
  | .bitset n _ _ => unitsMapMethods_answer n V
  | .enum fs => MapMethods.answer_default (enumIters (fieldsIters H V fs))

theorem setMethods_answer (H : Hashbrown) : (κ : KeyTy) →
    Answers (setStorage H.api κ).iter (setMethods H.api κ).iter (setLaws H κ).valid ∧
      Answers (setStorage H.api κ).intoIter (setMethods H.api κ).intoIter (setLaws H κ).valid
  | .bool => ⟨.default fun s hs => ⟨_, boolSetIters.iter s hs⟩, .default fun s hs => ⟨_, boolSetIters.intoIter s hs⟩⟩
  | .unit => ⟨.default fun s hs => ⟨_, unitSetIters.iter s hs⟩, .default fun s hs => ⟨_, unitSetIters.intoIter s hs⟩⟩
  | .opt κ =>
    have h := setMethods_answer H κ
    have hF := setFolds_agree H.api κ
    ⟨.chain (.map _ hF.1 (.comap _ h.1 fun _ h => h)) (.option _ _), .chain (.map _ hF.2 (.comap _ h.2 fun _ h => h)) (.option _ _)⟩
  | .prim p => ⟨.copied _ (.default fun s _ => ⟨_, ((H.laws p.Key Unit).keys_like s).yields⟩),
      .default fun s hs => ⟨_, (hashSetIters (H.laws p.Key Unit)).intoIter s hs⟩⟩
  | .units _ => ⟨.flat _ _ _, .flat _ _ _⟩
  | .bitset _ _ _ => ⟨.flat _ _ _, .flat _ _ _⟩
  | .enum fs => ⟨.default fun s hs => ⟨_, (enumSetIters (setFieldsIters H fs)).iter s hs⟩,
      .default fun s hs => ⟨_, (enumSetIters (setFieldsIters H fs)).intoIter s hs⟩⟩

/-! ## `any`, `all` and `position` -/

theorem tryItems_any {α : Type} (f : α → Bool) (l : List α) :
    (tryItems (fun _ x => if f x then Except.error () else .ok ()) () l).1 = if l.any f then .error () else .ok () := by
  induction l with
  | nil => rfl
  | cons x l ih =>
    rw [tryItems]
    by_cases h : f x = true
    · simp [h]
    · simp only [h, List.any_cons, Bool.false_or]
      exact ih

theorem tryItems_position {α : Type} (f : α → Bool) (l : List α) (i : Nat) :
    (tryItems (fun i x => if f x then Except.error i else .ok (i + 1)) i l).1 =
      match l.findIdx? f with
      | some j => .error (i + j)
      | none => .ok (i + l.length) := by
  induction l generalizing i with
  | nil => rfl
  | cons x l ih =>
    rw [tryItems, List.findIdx?_cons]
    by_cases h : f x = true
    · simp [h]
    · simp only [h]
      refine (ih (i + 1)).trans ?_
      cases l.findIdx? f with
      | none => simp only [Bool.false_eq_true, ↓reduceIte, Option.map_none, List.length_cons]; congr 1; omega
      | some j => simp only [Bool.false_eq_true, ↓reduceIte, Option.map_some]; congr 1; omega

theorem Tries.any {St α : Type} {R : St → List α → Prop} {T : TryFoldFn St α} (h : Tries R T) {st : St} {l : List α} (hr : R st l) {fuel : Nat}
    (hf : l.length + 1 < fuel) (f : α → Bool) : (anyVia T fuel f st).map Prod.fst = some (l.any f) := by
  obtain ⟨st', h1, -⟩ := h st l hr fuel hf Unit Unit (fun _ x => if f x then .error () else .ok ()) ()
  rw [anyVia, h1, tryItems_any]
  cases l.any f <;> rfl

theorem Tries.all {St α : Type} {R : St → List α → Prop} {T : TryFoldFn St α} (h : Tries R T) {st : St} {l : List α} (hr : R st l) {fuel : Nat}
    (hf : l.length + 1 < fuel) (f : α → Bool) : (allVia T fuel f st).map Prod.fst = some (l.all f) := by
  obtain ⟨r, h1, h2⟩ := Option.map_eq_some_iff.mp (h.any hr hf fun x => !f x)
  rw [allVia, h1]
  simp only [Option.map_some, h2, Option.some.injEq]
  rw [List.all_eq_not_any_not]

theorem Tries.position {St α : Type} {R : St → List α → Prop} {T : TryFoldFn St α} (h : Tries R T) {st : St} {l : List α} (hr : R st l) {fuel : Nat}
    (hf : l.length + 1 < fuel) (f : α → Bool) : (positionVia T fuel f st).map Prod.fst = some (l.findIdx? f) := by
  obtain ⟨st', h1, -⟩ := h st l hr fuel hf Nat Nat (fun i x => if f x then .error i else .ok (i + 1)) 0
  rw [positionVia, h1, tryItems_position]
  cases l.findIdx? f with
  | none => rfl
  | some j => simp

theorem Answers.queriesAs {S α : Type} {it : IterOf S α} {X : Methods it.I} {P : S → Prop} (h : Answers it X P)
    {s : S} {l : List α} (hs : P s) (hy : YieldsAt it s l) : it.queriesAs X s l := by
  obtain ⟨R, h1, h2⟩ := h
  obtain ⟨l', hl⟩ := h2 s hs
  have hy' : Yields it.I (it.init s) l' := ⟨R, h1.sim, hl⟩
  have e : l = l' := drainBy_unique ((drain_eq _ _ _).symm.trans (Yields.drain hy (Nat.lt_succ_self _)))
    ((drain_eq _ _ _).symm.trans (hy'.drain (Nat.lt_succ_self _)))
  subst e
  exact ⟨l.length + 2, fun fuel hf f => ⟨h1.tryFold.any hl hf f, h1.tryFold.all hl hf f, h1.tryFold.position hl hf f⟩⟩

end FixedMap
