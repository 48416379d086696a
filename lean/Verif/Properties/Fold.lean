import Verif.Proofs.Fold
import Verif.Properties.SetIter

/-!
# C84: internal and external iteration agree

`for_each`, `count`, `sum`, `collect`, `max` and others run on `fold`, which the adapters of core implement without `next`.
-/

set_option autoImplicit false
set_option linter.unusedSimpArgs false

namespace FixedMap

/-- C84, maps: in every state in which the loop over `next` ends, `fold` calls the closure on the same items in the same order and stops where the
closure panics; likewise `rfold` and the loop over `next_back`. For any hash table, lawful or not. -/
theorem C84_map (H : HashbrownApi) (V : Type) (κ : KeyTy) :
    (mapFolds H V κ).iter.agrees ∧ (mapFolds H V κ).keys.agrees ∧ (mapFolds H V κ).values.agrees ∧ (mapFolds H V κ).iterMut.agrees ∧
      (mapFolds H V κ).valuesMut.agrees ∧ (mapFolds H V κ).intoIter.agrees :=
  have h := mapFolds_agree H V κ
  ⟨h.iter, h.keys, h.values, h.iterMut, h.valuesMut, h.intoIter⟩

/-- C84, sets. -/
theorem C84_set (H : HashbrownApi) (κ : KeyTy) : (setFolds H κ).iter.agrees ∧ (setFolds H κ).intoIter.agrees := setFolds_agree H κ

/-- C84, after any schedule of calls from both ends: the fold goes through what a deque over the items still holds. -/
theorem C84_map_after (H : Hashbrown) (V : Type) (κ : KeyTy) (m : (mapStorage H.api V κ).S) :
    let M := mapStorage H.api V κ
    let F := mapFolds H.api V κ
    (∃ l, M.iter.runsTo m l ∧ M.intoIter.runsTo m l ∧ M.values.runsTo m (l.map Prod.snd) ∧ M.iter.foldsTo F.iter m l ∧
        M.intoIter.foldsTo F.intoIter m l ∧ M.values.foldsTo F.values m (l.map Prod.snd)) ∧
      (∃ l, M.keys.runsTo m l ∧ M.keys.foldsTo F.keys m l) ∧
      ∃ l, M.iterMut.runsTo m l ∧ M.valuesMut.runsTo m (l.map Prod.snd) ∧ M.iterMut.foldsTo F.iterMut m l ∧
        M.valuesMut.foldsTo F.valuesMut m (l.map Prod.snd) :=
  have h := mapFolds_agree H.api V κ
  ⟨⟨_, Yields.runsTo ((mapIters H V κ).iter m), Yields.runsTo ((mapIters H V κ).intoIter m), Yields.runsTo ((mapIters H V κ).values m),
      h.iter.foldsTo ((mapIters H V κ).iter m), h.intoIter.foldsTo ((mapIters H V κ).intoIter m), h.values.foldsTo ((mapIters H V κ).values m)⟩,
    ⟨_, Yields.runsTo ((mapIters H V κ).keys m), h.keys.foldsTo ((mapIters H V κ).keys m)⟩,
    ⟨_, Yields.runsTo ((mapIters H V κ).iterMut m), Yields.runsTo ((mapIters H V κ).valuesMut m), h.iterMut.foldsTo ((mapIters H V κ).iterMut m),
      h.valuesMut.foldsTo ((mapIters H V κ).valuesMut m)⟩⟩

/-- C84, sets, after any schedule. -/
theorem C84_set_after (H : Hashbrown) (κ : KeyTy) (s : (setStorage H.api κ).S) (hs : Reachable (setStorage H.api κ) s) :
    let M := setStorage H.api κ
    let F := setFolds H.api κ
    ∃ l, M.iter.runsTo s l ∧ M.intoIter.runsTo s l ∧ M.iter.foldsTo F.iter s l ∧ M.intoIter.foldsTo F.intoIter s l :=
  have hv := hs.valid (setLaws H κ)
  ⟨_, Yields.runsTo ((setIters H κ).iter s hv), Yields.runsTo ((setIters H κ).intoIter s hv),
    (setFolds_agree H.api κ).1.foldsTo ((setIters H κ).iter s hv), (setFolds_agree H.api κ).2.foldsTo ((setIters H κ).intoIter s hv)⟩

theorem Intersection.next_cases {T : Type} {M : SetStorage T} :
    ∀ (fuel : Nat) (st st' : Intersection M) (o : Option T), Intersection.next M fuel st = some (o, st') →
      st'.other = st.other ∧
      match o with
      | none => ∃ n l, drainBy M.iter.I.next n st.iter = some l ∧ l.filter (FSet.contains M st.other) = []
      | some x => FSet.contains M st.other x = true ∧ ∀ n l, drainBy M.iter.I.next n st'.iter = some l →
          ∃ n pre, drainBy M.iter.I.next n st.iter = some (pre ++ x :: l) ∧ pre.filter (FSet.contains M st.other) = []
  | 0, _, _, _, h => by cases h
  | fuel + 1, st, st', o, h => by
    rw [Intersection.next] at h
    rcases e : M.iter.I.next st.iter with ⟨_ | y, it⟩
    · simp only [e] at h
      cases h
      exact ⟨rfl, 1, [], by simp [drainBy, e], rfl⟩
    · simp only [e] at h
      by_cases hc : FSet.contains M st.other y = true
      · simp only [hc, ↓reduceIte] at h
        cases h
        exact ⟨rfl, hc, fun n l hl => ⟨n + 1, [], by simp only [drainBy, e, hl, Option.map_some, List.nil_append], rfl⟩⟩
      · simp only [hc] at h
        obtain ⟨h1, h2⟩ := Intersection.next_cases fuel _ st' o h
        refine ⟨h1, ?_⟩
        cases o with
        | none =>
          obtain ⟨n, l, hl, hf⟩ := h2
          exact ⟨n + 1, y :: l, by simp only [drainBy, e, hl, Option.map_some], by rw [List.filter_cons_of_neg hc]; exact hf⟩
        | some x =>
          refine ⟨h2.1, fun n l hl => ?_⟩
          obtain ⟨n', pre, hp, hf⟩ := h2.2 n l hl
          exact ⟨n' + 1, y :: pre, by simp only [drainBy, e, hp, Option.map_some, List.cons_append], by rw [List.filter_cons_of_neg hc]; exact hf⟩

/-- C84, intersections: their own `fold`, which goes through the `fold` of the inner iterator, agrees with the loop over their `next`. -/
theorem C84_intersection (H : HashbrownApi) (κ : KeyTy) (st : Intersection (setStorage H κ)) (l : List κ.Key)
    (hl : ∃ fuel n, Intersection.toList (setStorage H κ) fuel n st = some l) :
    ∃ N, ∀ fuel, N ≤ fuel → ∀ (B E : Type) (f : B → κ.Key → Except E B) (acc : B),
      Intersection.foldVia (setFolds H κ) B E fuel f acc st = some (l.foldlM f acc) := by
  obtain ⟨fuel, n, hl⟩ := hl
  have key : ∀ (n : Nat) (st : Intersection (setStorage H κ)) (l : List κ.Key), Intersection.toList (setStorage H κ) fuel n st = some l →
      ∃ k inner, drainBy (setStorage H κ).iter.I.next k st.iter = some inner ∧ l = inner.filter (FSet.contains (setStorage H κ) st.other) := by
    intro n
    induction n with
    | zero => intro st l h; cases h
    | succ n ih =>
      intro st l h
      rw [Intersection.toList] at h
      rcases e : Intersection.next (setStorage H κ) fuel st with _ | ⟨_ | x, st'⟩
      · simp only [e] at h; cases h
      · simp only [e] at h
        cases h
        obtain ⟨-, k, inner, h1, h2⟩ := Intersection.next_cases fuel st st' none e
        exact ⟨k, inner, h1, h2.symm⟩
      · simp only [e] at h
        obtain ⟨l', h', rfl⟩ := Option.map_eq_some_iff.mp h
        obtain ⟨k, inner, h1, rfl⟩ := ih st' l' h'
        obtain ⟨ho, hc, h2⟩ := Intersection.next_cases fuel st st' (some x) e
        obtain ⟨k', pre, h3, h4⟩ := h2 k inner h1
        refine ⟨k', pre ++ x :: inner, h3, ?_⟩
        rw [List.filter_append, h4, List.filter_cons_of_pos hc, ho]
        rfl
  obtain ⟨k, inner, h1, rfl⟩ := key n st l hl
  obtain ⟨N, hN⟩ := (setFolds_agree H κ).1.1 st.iter inner ⟨k, h1⟩
  refine ⟨N, fun fuel hf B E f acc => (hN fuel hf B E _ acc).trans (congrArg some ?_)⟩
  generalize FSet.contains (setStorage H κ) st.other = p
  clear hN h1 hl
  induction inner generalizing acc with
  | nil => rfl
  | cons x inner ih =>
    rw [List.foldlM_cons]
    by_cases hp : p x = true
    · rw [List.filter_cons_of_pos hp, List.foldlM_cons]
      simp only [hp, ↓reduceIte]
      rcases f acc x with e | b
      · rfl
      · exact ih b
    · rw [List.filter_cons_of_neg hp]
      simp only [hp]
      exact ih acc

/-! ## Concrete cases -/

/-- The entries of a map whose keys are `Option`s of an enum, from the middle: one item taken from each end, then `fold` and `rfold`. -/
example :
    let κ : KeyTy := .opt (.units 3)
    let M := mapStorage Ex.H.api Nat κ
    let F := mapFolds Ex.H.api Nat κ
    let m : M.S := (Map.fromIter M ([(none, 1), (some (0 : Fin 3), 2), (some (1 : Fin 3), 3), (some (2 : Fin 3), 4)] : List (Option (Fin 3) × Nat))).1
    let show_ : List Nat → Option (Fin 3) × Nat → Except Nat (List Nat) := fun l p => .ok (l ++ [p.2])
    (M.iter.I.run [.front, .back] (M.iter.init m)).map (fun r => (F.iter.fold _ _ 5 show_ [] r.2, F.iter.rfold _ _ 5 show_ [] r.2)) =
      some (some (.ok [3, 4]), some (.ok [4, 3])) := rfl

/-- A closure that panics at the second item. -/
example :
    let F := mapFolds Ex.H.api Nat Ex.key
    F.iter.fold (List Nat) (List Nat) 8 (fun l p => if p.2 = 3 then .error l else .ok (l ++ [p.2])) [] (Ex.M.iter.init Ex.map) = some (.error [6, 1]) := rfl

end FixedMap
