import Verif.Proofs.CoreLaws
import Verif.Spec.Refers

/-! # Entries of a lawful map storage: helper lemmas -/

set_option autoImplicit false
set_option linter.unusedSimpArgs false

namespace FixedMap

variable {K V : Type} [DecidableEq K] {M : MapStorage K V} (L : CoreLaws M.toMapCore)
include L

theorem CoreLaws.refers {s : M.S} {a : M.Addr} {k : K} (h : L.keyAt s a = some k) : RefersTo M s a k := by
  refine ⟨?_, L.read_eq s a k h, ?_⟩
  · rw [L.read_eq s a k h]
    exact L.keyAt_live s a k h
  · intro w k'
    show M.get _ _ = _
    split
    · rename_i hk
      subst hk
      exact L.get_write_self s a _ w h
    · exact L.get_write_ne s a k w k' h (by assumption)

omit [DecidableEq K] in
/-- `entry(k)` by cases on presence of `k`. -/
theorem CoreLaws.entry_cases (s : M.S) (k : K) :
    (∃ v e s', M.get s k = some v ∧ M.entry s k = .ok (.inl e, s') ∧ (∀ k', M.get s' k' = M.get s k') ∧ L.occFits e s' k) ∨
    (∃ e s', M.get s k = none ∧ M.entry s k = .ok (.inr e, s') ∧ (∀ k', M.get s' k' = M.get s k') ∧ L.vacFits e s' k) := by
  cases h : M.get s k with
  | some v =>
    obtain ⟨e, s', h1, h2, h3⟩ := L.entry_some s k v h
    exact .inl ⟨v, e, s', rfl, h1, h2, h3⟩
  | none =>
    obtain ⟨e, s', h1, h2, h3⟩ := L.entry_none s k h
    exact .inr ⟨e, s', rfl, h1, h2, h3⟩

theorem CoreLaws.occCalls_ok (e : M.Occ) (k : K) (cs : List (OccCall V)) :
    ∀ (s : M.S) (v : V), L.occFits e s k → M.get s k = some v →
      ∃ s', occCalls M e s cs = .ok ((occCallsRef k v cs).1, s') ∧ L.occFits e s' k ∧
        ∀ k', M.get s' k' = if k' = k then some (occCallsRef k v cs).2 else M.get s k' := by
  induction cs with
  | nil =>
    intro s v hf hg
    refine ⟨s, rfl, hf, ?_⟩
    intro k'
    split
    · rename_i hk; rw [hk, hg]; rfl
    · rfl
  | cons c cs ih =>
    intro s v hf hg
    have step : ∀ (s1 : M.S) (w : V) (o : OccOut K V), occCall M e s c = .ok (o, s1) → L.occFits e s1 k →
        M.get s1 k = some w → (∀ k', k' ≠ k → M.get s1 k' = M.get s k') →
        occCallsRef k v (c :: cs) = (o :: (occCallsRef k w cs).1, (occCallsRef k w cs).2) →
        ∃ s', occCalls M e s (c :: cs) = .ok ((occCallsRef k v (c :: cs)).1, s') ∧ L.occFits e s' k ∧
          ∀ k', M.get s' k' = if k' = k then some (occCallsRef k v (c :: cs)).2 else M.get s k' := by
      intro s1 w o h1 h2 h3 h4 h5
      obtain ⟨s', h6, h7, h8⟩ := ih s1 w h2 h3
      refine ⟨s', ?_, h7, ?_⟩
      · simp only [occCalls, h1, Res.bind, h6, Res.map, h5]
      · intro k'
        rw [h8, h5]
        split
        · rfl
        · exact h4 k' (by assumption)
    cases c with
    | key =>
      exact step s v (.key k) (by simp only [occCall, L.occKey_eq e s k hf]) hf hg (fun _ _ => rfl) rfl
    | get =>
      obtain ⟨v', h1, h2⟩ := L.occGet_eq e s k hf
      obtain rfl : v' = v := by rw [hg] at h2; exact (Option.some.inj h2).symm
      exact step s v' (.val v') (by simp only [occCall, h1, Res.map]) hf hg (fun _ _ => rfl) rfl
    | replace w =>
      obtain ⟨a, h1, h2⟩ := L.occGetMut_eq e s k hf
      have hr : M.read s a = some v := (L.read_eq s a k h2).trans hg
      exact step (M.write s a w) w (.val v) (by simp only [occCall, h1, Res.bind, hr]) (L.occFits_write e s k a w hf h2)
        (L.get_write_self s a k w h2) (fun k' => L.get_write_ne s a k w k' h2) rfl
    | insert w =>
      obtain ⟨old, s1, h1, h2, h3, h4, h5⟩ := L.occInsert_eq e s k w hf
      obtain rfl : old = v := by rw [hg] at h2; exact (Option.some.inj h2).symm
      exact step s1 w (.val old) (by simp only [occCall, h1, Res.map]) h5 h3 h4 rfl

theorem CoreLaws.occEnd_ok (e : M.Occ) (k : K) (c : OccEnd V) (s : M.S) (v : V) (hf : L.occFits e s k)
    (hg : M.get s k = some v) :
    ∃ s', occEnd M e s c = .ok ((occEndRef v c).1, s') ∧
      ∀ k', M.get s' k' = if k' = k then (occEndRef (K := K) v c).2 else M.get s k' := by
  cases c with
  | drop =>
    refine ⟨s, rfl, ?_⟩
    intro k'
    split
    · rename_i hk; rw [hk, hg]; rfl
    · rfl
  | intoMut w =>
    obtain ⟨a, h1, h2⟩ := L.occIntoMut_eq e s k hf
    have hr : M.read s a = some v := (L.read_eq s a k h2).trans hg
    refine ⟨M.write s a w, by simp only [occEnd, h1, Res.bind, hr, occEndRef], ?_⟩
    exact (L.refers h2).2.2 w
  | remove =>
    obtain ⟨old, s1, h1, h2, h3, h4⟩ := L.occRemove_eq e s k hf
    obtain rfl : old = v := by rw [hg] at h2; exact (Option.some.inj h2).symm
    refine ⟨s1, by simp only [occEnd, h1, Res.map, occEndRef], ?_⟩
    intro k'
    split
    · rename_i hk; rw [hk, h3]; rfl
    · exact h4 k' (by assumption)

end FixedMap
