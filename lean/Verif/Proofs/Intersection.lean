import Verif.Spec.Intersection
import Verif.Proofs.SetEnum

/-! # Helper lemmas on intersections -/

set_option autoImplicit false
set_option linter.unusedSimpArgs false

namespace FixedMap

namespace Intersection

variable {T : Type} {M : SetStorage T}

/-- The state stands for the list: the inner iterator for one whose elements in `other` are the list. -/
def Holds (st : Intersection M) (l : List T) : Prop :=
  ∃ inner, Yields M.iter.I st.iter inner ∧ l = inner.filter (FSet.contains M st.other)

theorem next_eq (fuel : Nat) (inner : List T) (st : Intersection M) (h : Yields M.iter.I st.iter inner)
    (hf : inner.length < fuel) :
    ∃ st' inner', next M fuel st = some ((inner.filter (FSet.contains M st.other)).head?, st') ∧
      st'.other = st.other ∧ Yields M.iter.I st'.iter inner' ∧ inner'.length ≤ inner.length ∧
      inner'.filter (FSet.contains M st.other) = (inner.filter (FSet.contains M st.other)).tail := by
  induction inner generalizing fuel st with
  | nil =>
    obtain ⟨n, rfl⟩ : ∃ n, fuel = n + 1 := ⟨fuel - 1, by simp at hf; omega⟩
    have h1 := h.next
    rcases e : M.iter.I.next st.iter with ⟨o, it⟩
    rw [e] at h1
    obtain ⟨rfl, h2⟩ := (show o = none ∧ Yields M.iter.I it [] from h1)
    exact ⟨{ st with iter := it }, [], by simp [next, e], rfl, h2, Nat.le_refl _, rfl⟩
  | cons x l ih =>
    obtain ⟨n, rfl⟩ : ∃ n, fuel = n + 1 := ⟨fuel - 1, by simp at hf; omega⟩
    have h1 := h.next
    rcases e : M.iter.I.next st.iter with ⟨o, it⟩
    rw [e] at h1
    obtain ⟨rfl, h2⟩ := (show o = some x ∧ Yields M.iter.I it l from h1)
    by_cases hc : FSet.contains M st.other x = true
    · exact ⟨{ st with iter := it }, l, by simp [next, e, hc], rfl, h2, by simp, by simp [hc]⟩
    · obtain ⟨st', inner', a1, a2, a3, a4, a5⟩ := ih n { st with iter := it } h2 (by simp at hf; omega)
      refine ⟨st', inner', ?_, a2, a3, by simp; omega, ?_⟩
      · simp only [next, e, hc]
        simpa [hc] using a1
      · simpa [hc] using a5

/-- From a state with inner list `inner`, all methods with fuel more than its length. -/
theorem methods {inner : List T} {st : Intersection M} (h : Yields M.iter.I st.iter inner) {fuel : Nat}
    (hf : inner.length < fuel) :
    (∀ n, inner.length < n → toList M fuel n st = some (inner.filter (FSet.contains M st.other))) ∧
    (∀ (β : Type) (init : β) (f : β → T → β),
      fold M fuel st init f = some ((inner.filter (FSet.contains M st.other)).foldl f init)) ∧
    (sizeHint M st).1 = 0 ∧
    (∀ hi, (sizeHint M st).2 = some hi → (inner.filter (FSet.contains M st.other)).length ≤ hi) := by
  refine ⟨?_, ?_, rfl, ?_⟩
  · intro n hn
    have key : ∀ n (l inner : List T) (st : Intersection M), Yields M.iter.I st.iter inner → inner.length < fuel →
        l = inner.filter (FSet.contains M st.other) → l.length < n → toList M fuel n st = some l := by
      intro n
      induction n with
      | zero => intro l inner st _ _ _ h; omega
      | succ n ih =>
        intro l inner st hy hf' hl hn
        obtain ⟨st', inner', a1, a2, a3, a4, a5⟩ := next_eq fuel inner st hy hf'
        rw [← hl] at a1 a5
        rw [toList, a1]
        cases l with
        | nil => rfl
        | cons x l =>
          have := ih l inner' st' a3 (by omega) (by rw [a2, a5]; rfl) (by simp at hn; omega)
          simp [this]
    exact key n _ inner st h hf rfl (by have := List.length_filter_le (FSet.contains M st.other) inner; omega)
  · intro β init f
    rw [fold, h.drain hf]
    simp only [Option.map_some, Option.some.injEq]
    rw [List.foldl_filter]
  · intro hi hhi
    have := h.hint.2 hi hhi
    have := List.length_filter_le (FSet.contains M st.other) inner
    omega

/-- After `n` calls. -/
theorem calls_eq (n : Nat) {inner : List T} {st : Intersection M} (h : Yields M.iter.I st.iter inner) {fuel : Nat}
    (hf : inner.length < fuel) :
    ∃ st' inner', calls M fuel n st =
        some ((List.range n).map fun i => (inner.filter (FSet.contains M st.other))[i]?, st') ∧
      st'.other = st.other ∧ Yields M.iter.I st'.iter inner' ∧ inner'.length ≤ inner.length ∧
      inner'.filter (FSet.contains M st.other) = (inner.filter (FSet.contains M st.other)).drop n := by
  induction n generalizing inner st with
  | zero => exact ⟨st, inner, rfl, rfl, h, Nat.le_refl _, rfl⟩
  | succ n ih =>
    obtain ⟨st1, inner1, a1, a2, a3, a4, a5⟩ := next_eq fuel inner st h hf
    obtain ⟨st2, inner2, b1, b2, b3, b4, b5⟩ := ih a3 (by omega)
    rw [a2] at b1 b2 b5
    rw [a5] at b1 b5
    refine ⟨st2, inner2, ?_, b2, b3, by omega, ?_⟩
    · rw [calls, a1]
      simp only [b1, Option.map_some, Option.some.injEq, Prod.mk.injEq, and_true]
      rw [List.range_succ_eq_map]
      simp [List.head?_eq_getElem?, Function.comp_def]
    · rw [b5]; simp [List.drop_tail]

end Intersection

end FixedMap
