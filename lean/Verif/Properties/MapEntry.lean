import Verif.Proofs.MapHash
import Verif.Proofs.Entry
import Verif.Spec.Example

/-! # C16-C19 and the bucket part of C20: entries -/

set_option autoImplicit false
set_option linter.unusedSimpArgs false

namespace FixedMap

section
variable {K V : Type} [DecidableEq K] (M : MapStorage K V)

/-- C17: what a call of the `or_insert` family must do. `call f st` is the whole chain `m.entry(k).or_…(f)` with the closure `f`
(which gets the key) and its initial state `st`.
* Present key: the outcome does not depend on the closure at all, the map is unchanged and the reference points to the value of `k`.
* Absent key: the closure is called once, with `k`; its value is inserted and the reference points to it. If it panics, the map is
unchanged. -/
def OrInsertLike (m : M.S) (k : K)
    (call : {σ : Type} → (σ → K → σ × Option V) → σ → Res (Option M.Addr × M.S × σ)) : Prop :=
  ((Map.get M m k).isSome → ∃ a m', (∀ {σ : Type} (f : σ → K → σ × Option V) (st : σ), call f st = .ok (some a, m', st)) ∧
    (∀ k', Map.get M m' k' = Map.get M m k') ∧ RefersTo M m' a k) ∧
  (Map.get M m k = none →
    ∀ {σ : Type} (f : σ → K → σ × Option V) (st : σ),
      (∀ v, (f st k).2 = some v → ∃ a m', call f st = .ok (some a, m', (f st k).1) ∧
        (∀ k', Map.get M m' k' = if k' = k then some v else Map.get M m k') ∧ RefersTo M m' a k) ∧
      ((f st k).2 = none → ∃ m', call f st = .ok (none, m', (f st k).1) ∧ ∀ k', Map.get M m' k' = Map.get M m k'))

end

variable (H : Hashbrown) (V : Type) (κ : KeyTy)

/-- C16 -/
theorem C16_entry (m : (mapStorage H.api V κ).S) (k : κ.Key) :
    let M := mapStorage H.api V κ
    ∃ e m', Map.entry M m k = .ok (e, m') ∧ e.isLeft = (Map.get M m k).isSome ∧ Entry.key M e = k ∧
      ∀ k', Map.get M m' k' = Map.get M m k' := by
  intro M
  let L := mapCore H V κ
  rcases L.entry_cases m k with ⟨v, e, s', h1, h2, h3, h4⟩ | ⟨e, s', h1, h2, h3, h4⟩
  · exact ⟨.inl e, s', h2, (congrArg Option.isSome h1).symm, L.occKey_eq e s' k h4, h3⟩
  · exact ⟨.inr e, s', h2, (congrArg Option.isSome h1).symm, L.vacKey_eq e s' k h4, h3⟩

/-- Case: an occupied and a vacant entry. -/
example : (∃ e m', Map.entry Ex.M Ex.map (Ex.byte 7) = .ok (.inl e, m') ∧ Entry.key Ex.M (.inl e) = Ex.byte 7) ∧
    (∃ e m', Map.entry Ex.M Ex.map (Ex.opt (some 0)) = .ok (.inr e, m') ∧ Entry.key Ex.M (.inr e) = Ex.opt (some 0)) :=
  ⟨⟨_, _, rfl, rfl⟩, ⟨_, _, rfl, rfl⟩⟩

/-- C17 for `or_insert_with_key`. -/
theorem C17_orInsertWithKey (m : (mapStorage H.api V κ).S) (k : κ.Key) :
    let M := mapStorage H.api V κ
    OrInsertLike M m k fun f st => (Map.entry M m k).bind fun r => Entry.orInsertWithKey M r.1 r.2 f st := by
  intro M
  let L := mapCore H V κ
  rcases L.entry_cases m k with ⟨v, e, s', h1, h2, h3, h4⟩ | ⟨e, s', h1, h2, h3, h4⟩
  · refine ⟨fun _ => ?_, fun h => ?_⟩
    · obtain ⟨a, h5, h6⟩ := L.occIntoMut_eq e s' k h4
      refine ⟨a, s', ?_, h3, L.refers h6⟩
      intro σ f st
      simp only [Map.entry, M, h2, Res.bind, Entry.orInsertWithKey, h5, Res.map]
    · exact absurd (h1.symm.trans h) (by simp)
  · refine ⟨fun h => ?_, fun _ σ f st => ⟨?_, ?_⟩⟩
    · have h1' : Map.get M m k = none := h1
      rw [h1'] at h
      exact absurd h (by simp)
    · intro v hv
      obtain ⟨_, a, s1, h5, h6, h7, h8⟩ := L.vacInsert_eq e s' k v h4
      refine ⟨a, s1, ?_, ?_, L.refers h8⟩
      · have hk : M.vacKey e = k := L.vacKey_eq e s' k h4
        rcases hf : f st k with ⟨st', ov⟩
        rw [hf] at hv
        simp only at hv
        subst hv
        simp only [Map.entry, M, h2, Res.bind, Entry.orInsertWithKey]
        rw [show (mapStorage H.api V κ).vacKey e = k from hk, hf]
        simp only [h5, Res.map]
      · intro k'
        show (mapStorage H.api V κ).get _ _ = _
        split
        · rename_i hk; rw [hk]; exact h6
        · rename_i hk; exact (h7 k' hk).trans (h3 k')
    · intro hv
      refine ⟨s', ?_, h3⟩
      have hk : M.vacKey e = k := L.vacKey_eq e s' k h4
      rcases hf : f st k with ⟨st', ov⟩
      rw [hf] at hv
      simp only at hv
      subst hv
      simp only [Map.entry, M, h2, Res.bind, Entry.orInsertWithKey]
      rw [show (mapStorage H.api V κ).vacKey e = k from hk, hf]

/-- `or_insert_with(f)` is `or_insert_with_key(|_| f())`. -/
theorem orInsertWith_eq {K : Type} (M : MapStorage K V) (e : Entry.T M) (s : M.S) {σ : Type} (f : σ → σ × Option V) (st : σ) :
    Entry.orInsertWith M e s f st = Entry.orInsertWithKey M e s (fun st _ => f st) st := by
  cases e <;> rfl

theorem orDefault_eq {K : Type} (M : MapStorage K V) (e : Entry.T M) (s : M.S) {σ : Type} (f : σ → σ × Option V) (st : σ) :
    Entry.orDefault M e s f st = Entry.orInsertWithKey M e s (fun st _ => f st) st := by
  cases e <;> rfl

/-- C17 for `or_insert_with`: as C17_orInsertWithKey with a closure that ignores the key. -/
theorem C17_orInsertWith (m : (mapStorage H.api V κ).S) (k : κ.Key) :
    let M := mapStorage H.api V κ
    ((Map.get M m k).isSome → ∃ a m', (∀ {σ : Type} (f : σ → σ × Option V) (st : σ),
        ((Map.entry M m k).bind fun r => Entry.orInsertWith M r.1 r.2 f st) = .ok (some a, m', st)) ∧
      (∀ k', Map.get M m' k' = Map.get M m k') ∧ RefersTo M m' a k) ∧
    (Map.get M m k = none → ∀ {σ : Type} (f : σ → σ × Option V) (st : σ),
      (∀ v, (f st).2 = some v → ∃ a m',
        ((Map.entry M m k).bind fun r => Entry.orInsertWith M r.1 r.2 f st) = .ok (some a, m', (f st).1) ∧
        (∀ k', Map.get M m' k' = if k' = k then some v else Map.get M m k') ∧ RefersTo M m' a k) ∧
      ((f st).2 = none → ∃ m',
        ((Map.entry M m k).bind fun r => Entry.orInsertWith M r.1 r.2 f st) = .ok (none, m', (f st).1) ∧
        ∀ k', Map.get M m' k' = Map.get M m k')) := by
  intro M
  simp only [orInsertWith_eq]
  obtain ⟨h1, h2⟩ := C17_orInsertWithKey H V κ m k
  refine ⟨fun h => ?_, fun h σ f st => h2 h (fun st _ => f st) st⟩
  obtain ⟨a, m', h3, h4⟩ := h1 h
  exact ⟨a, m', fun f st => h3 (fun st _ => f st) st, h4⟩

/-- C17 for `or_default`, with `V`'s `Default::default` as the closure. -/
theorem C17_orDefault (m : (mapStorage H.api V κ).S) (k : κ.Key) :
    let M := mapStorage H.api V κ
    ((Map.get M m k).isSome → ∃ a m', (∀ {σ : Type} (dflt : σ → σ × Option V) (st : σ),
        ((Map.entry M m k).bind fun r => Entry.orDefault M r.1 r.2 dflt st) = .ok (some a, m', st)) ∧
      (∀ k', Map.get M m' k' = Map.get M m k') ∧ RefersTo M m' a k) ∧
    (Map.get M m k = none → ∀ {σ : Type} (dflt : σ → σ × Option V) (st : σ),
      (∀ v, (dflt st).2 = some v → ∃ a m',
        ((Map.entry M m k).bind fun r => Entry.orDefault M r.1 r.2 dflt st) = .ok (some a, m', (dflt st).1) ∧
        (∀ k', Map.get M m' k' = if k' = k then some v else Map.get M m k') ∧ RefersTo M m' a k) ∧
      ((dflt st).2 = none → ∃ m',
        ((Map.entry M m k).bind fun r => Entry.orDefault M r.1 r.2 dflt st) = .ok (none, m', (dflt st).1) ∧
        ∀ k', Map.get M m' k' = Map.get M m k')) := by
  intro M
  simp only [orDefault_eq]
  obtain ⟨h1, h2⟩ := C17_orInsertWithKey H V κ m k
  refine ⟨fun h => ?_, fun h σ f st => h2 h (fun st _ => f st) st⟩
  obtain ⟨a, m', h3, h4⟩ := h1 h
  exact ⟨a, m', fun f st => h3 (fun st _ => f st) st, h4⟩

/-- C17 for `or_insert`: present key: unchanged, `default` dropped, the reference points to the old value; absent key:
`default` is inserted and nothing dropped. -/
theorem C17_orInsert (m : (mapStorage H.api V κ).S) (k : κ.Key) (default : V) :
    let M := mapStorage H.api V κ
    ∃ a m' d, ((Map.entry M m k).bind fun r => Entry.orInsert M r.1 r.2 default) = .ok (a, m', d) ∧
      d = (if (Map.get M m k).isSome then [default] else []) ∧
      (∀ k', Map.get M m' k' = if k' = k then some ((Map.get M m k).getD default) else Map.get M m k') ∧
      RefersTo M m' a k := by
  intro M
  let L := mapCore H V κ
  have hget : ∀ o, (mapStorage H.api V κ).get m k = o → Map.get M m k = o := fun _ h => h
  rcases L.entry_cases m k with ⟨v, e, s', h1, h2, h3, h4⟩ | ⟨e, s', h1, h2, h3, h4⟩
  · obtain ⟨a, h5, h6⟩ := L.occIntoMut_eq e s' k h4
    refine ⟨a, s', [default], ?_, ?_, ?_, L.refers h6⟩
    · simp only [Map.entry, M, h2, Res.bind, Entry.orInsert, h5, Res.map]
    · rw [hget _ h1]; rfl
    · intro k'
      rw [hget _ h1]
      split
      · rename_i hk; rw [hk]; exact (h3 k).trans h1
      · exact h3 k'
  · obtain ⟨_, a, s1, h5, h6, h7, h8⟩ := L.vacInsert_eq e s' k default h4
    refine ⟨a, s1, [], ?_, ?_, ?_, L.refers h8⟩
    · simp only [Map.entry, M, h2, Res.bind, Entry.orInsert, h5, Res.map]
    · rw [hget _ h1]; rfl
    · intro k'
      rw [hget _ h1]
      split
      · rename_i hk; rw [hk]; exact h6
      · rename_i hk; exact (h7 k' hk).trans (h3 k')

/-- Case: a present and an absent key, and a closure that counts its calls. -/
example :
    (∃ a m', ((Map.entry Ex.M Ex.map (Ex.byte 7)).bind fun r =>
      Entry.orInsertWithKey Ex.M r.1 r.2 (fun (n : Nat) _ => (n + 1, some 9)) 0) = .ok (some a, m', 0) ∧
      Ex.M.read m' a = some 2) ∧
    (∃ a m', ((Map.entry Ex.M Ex.map (Ex.opt (some 0))).bind fun r =>
      Entry.orInsertWithKey Ex.M r.1 r.2 (fun (n : Nat) _ => (n + 1, some 9)) 0) = .ok (some a, m', 1) ∧
      Ex.M.read m' a = some 9) := ⟨⟨_, _, rfl, rfl⟩, ⟨_, _, rfl, rfl⟩⟩

/-- C18: `and_modify` on a present key calls the closure once, on the value of `k`, and stores what it leaves, also when it panics;
on an absent key it does not call it (the outcome is the same for all closures). -/
theorem C18_andModify (m : (mapStorage H.api V κ).S) (k : κ.Key) :
    let M := mapStorage H.api V κ
    (∀ v, Map.get M m k = some v → ∀ {σ : Type} (f : σ → V → σ × V × Bool) (st : σ),
      ∃ e m', ((Map.entry M m k).bind fun r => Entry.andModify M r.1 r.2 f st) = .ok (e, m', (f st v).1) ∧
        e.isSome = (f st v).2.2 ∧ (∀ e' ∈ e, Entry.key M e' = k ∧ e'.isLeft) ∧
        ∀ k', Map.get M m' k' = if k' = k then some (f st v).2.1 else Map.get M m k') ∧
    (Map.get M m k = none → ∃ e m', (∀ {σ : Type} (f : σ → V → σ × V × Bool) (st : σ),
        ((Map.entry M m k).bind fun r => Entry.andModify M r.1 r.2 f st) = .ok (some (.inr e), m', st)) ∧
      M.vacKey e = k ∧ ∀ k', Map.get M m' k' = Map.get M m k') := by
  intro M
  let L := mapCore H V κ
  rcases L.entry_cases m k with ⟨v, e, s', h1, h2, h3, h4⟩ | ⟨e, s', h1, h2, h3, h4⟩
  · refine ⟨fun v' hv' σ f st => ?_, fun h => absurd (h1.symm.trans h) (by simp)⟩
    obtain rfl : v = v' := Option.some.inj (h1.symm.trans hv')
    obtain ⟨a, h5, h6⟩ := L.occGetMut_eq e s' k h4
    have hr : (mapStorage H.api V κ).read s' a = some v := (L.read_eq s' a k h6).trans ((h3 k).trans h1)
    have hw : ∀ w k', Map.get M (M.write s' a w) k' = if k' = k then some w else Map.get M m k' := by
      intro w k'
      rw [(L.refers h6).2.2 w k']
      split
      · rfl
      · exact h3 k'
    rcases hf : f st v with ⟨st', v', b⟩
    cases b
    · refine ⟨none, M.write s' a v', ?_, rfl, by simp, hw v'⟩
      simp only [Map.entry, M, h2, Res.bind, Entry.andModify, h5, hr, hf]
    · refine ⟨some (.inl e), M.write s' a v', ?_, rfl, ?_, hw v'⟩
      · simp only [Map.entry, M, h2, Res.bind, Entry.andModify, h5, hr, hf]
      · intro e' he
        cases he
        exact ⟨L.occKey_eq e s' k h4, rfl⟩
  · refine ⟨fun v' hv' => absurd (h1.symm.trans hv') (by simp), fun h => ⟨e, s', ?_, L.vacKey_eq e s' k h4, h3⟩⟩
    intro σ f st
    simp only [Map.entry, M, h2, Res.bind, Entry.andModify]

/-- C18, the chain `entry(k).and_modify(f).or_insert(default)` with a pure `f`. -/
theorem C18_modify_or_insert (m : (mapStorage H.api V κ).S) (k : κ.Key) (f : V → V) (default : V) :
    let M := mapStorage H.api V κ
    ∃ a m' d, ((Map.entry M m k).bind fun r =>
      (Entry.andModify M r.1 r.2 (fun (st : Unit) v => (st, f v, true)) ()).bind fun q =>
        match q.1 with
        | some e => Entry.orInsert M e q.2.1 default
        | none => .panic) = .ok (a, m', d) ∧
      (∀ k', Map.get M m' k' = if k' = k then some (((Map.get M m k).map f).getD default) else Map.get M m k') ∧
      RefersTo M m' a k := by
  intro M
  let L := mapCore H V κ
  have hget : ∀ o, (mapStorage H.api V κ).get m k = o → Map.get M m k = o := fun _ h => h
  rcases L.entry_cases m k with ⟨v, e, s', h1, h2, h3, h4⟩ | ⟨e, s', h1, h2, h3, h4⟩
  · obtain ⟨a, h5, h6⟩ := L.occGetMut_eq e s' k h4
    have hr : (mapStorage H.api V κ).read s' a = some v := (L.read_eq s' a k h6).trans ((h3 k).trans h1)
    have h7 := L.occFits_write e s' k a (f v) h4 h6
    obtain ⟨b, h8, h9⟩ := L.occIntoMut_eq e _ k h7
    refine ⟨b, M.write s' a (f v), [default], ?_, ?_, L.refers h9⟩
    · simp only [Map.entry, M, h2, Res.bind, Entry.andModify, h5, hr, Entry.orInsert]
      exact congrArg (Res.map _) h8
    · intro k'
      rw [hget _ h1, (L.refers h6).2.2]
      split
      · rfl
      · exact h3 k'
  · obtain ⟨_, a, s1, h5, h6, h7, h8⟩ := L.vacInsert_eq e s' k default h4
    refine ⟨a, s1, [], ?_, ?_, L.refers h8⟩
    · simp only [Map.entry, M, h2, Res.bind, Entry.andModify, Entry.orInsert, h5, Res.map]
    · intro k'
      rw [hget _ h1]
      split
      · rename_i hk; rw [hk]; exact h6
      · rename_i hk; exact (h7 k' hk).trans (h3 k')

/-- Case: modify a present key, insert for an absent one. -/
example :
    (∃ e m', ((Map.entry Ex.M Ex.map (Ex.opt none)).bind fun r =>
      Entry.andModify Ex.M r.1 r.2 (fun (n : Nat) v => (n + 1, v + 100, true)) 0) = .ok (some e, m', 1) ∧
      Map.get Ex.M m' (Ex.opt none) = some 105) ∧
    (∃ e m', ((Map.entry Ex.M Ex.map (Ex.flag true)).bind fun r =>
      Entry.andModify Ex.M r.1 r.2 (fun (n : Nat) v => (n + 1, v + 100, true)) 0) = .ok (some e, m', 0)) :=
  ⟨⟨_, _, rfl, rfl⟩, ⟨_, _, rfl⟩⟩

/-- C19, occupied entries: every sequence of calls on the entry, followed by a consuming call, acts on the value of `k` alone and
answers accordingly; it never reaches UB. -/
theorem C19_occupied (m : (mapStorage H.api V κ).S) (k : κ.Key) (v : V) (cs : List (OccCall V)) (last : OccEnd V) :
    let M := mapStorage H.api V κ
    Map.get M m k = some v →
    ∃ e m0 m1 m2, Map.entry M m k = .ok (.inl e, m0) ∧
      occCalls M e m0 cs = .ok ((occCallsRef k v cs).1, m1) ∧
      occEnd M e m1 last = .ok ((occEndRef (occCallsRef k v cs).2 last).1, m2) ∧
      ∀ k', Map.get M m2 k' =
        if k' = k then (occEndRef (K := κ.Key) (occCallsRef k v cs).2 last).2 else Map.get M m k' := by
  intro M hv
  let L := mapCore H V κ
  obtain ⟨e, s', h2, h3, h4⟩ := L.entry_some m k v hv
  obtain ⟨s1, h5, h6, h7⟩ := L.occCalls_ok e k cs s' v h4 ((h3 k).trans hv)
  obtain ⟨s2, h8, h9⟩ := L.occEnd_ok e k last s1 (occCallsRef k v cs).2 h6 (by rw [h7, if_pos rfl])
  refine ⟨e, s', s1, s2, h2, h5, h8, ?_⟩
  intro k'
  show (mapStorage H.api V κ).get _ _ = _
  rw [h9, h7, h3]
  split
  · rfl
  · rfl

/-- Case: `key`, `get`, `insert`, `get_mut`, then `remove`. -/
example : ∃ e m0 m1 m2, Map.entry Ex.M Ex.map (Ex.opt (some 1)) = .ok (.inl e, m0) ∧
    occCalls Ex.M e m0 [.key, .get, .insert 8, .replace 9, .get] =
      .ok ([.key (Ex.opt (some 1)), .val 4, .val 4, .val 8, .val 9], m1) ∧
    occEnd Ex.M e m1 .remove = .ok (.val 9, m2) ∧ Map.get Ex.M m2 (Ex.opt (some 1)) = none :=
  ⟨_, _, _, _, rfl, rfl, rfl, rfl⟩

/-- C19, vacant entries: `key` is `k`; `insert` stores the value under `k` alone and returns a reference to it; neither
reaches UB. -/
theorem C19_vacant (m : (mapStorage H.api V κ).S) (k : κ.Key) (v : V) :
    let M := mapStorage H.api V κ
    Map.get M m k = none →
    ∃ e m0 a m1, Map.entry M m k = .ok (.inr e, m0) ∧ M.vacKey e = k ∧ M.vacInsert e m0 v = .ok (a, m1) ∧
      RefersTo M m1 a k ∧ ∀ k', Map.get M m1 k' = if k' = k then some v else Map.get M m k' := by
  intro M hv
  let L := mapCore H V κ
  obtain ⟨e, s', h2, h3, h4⟩ := L.entry_none m k hv
  obtain ⟨_, a, s1, h5, h6, h7, h8⟩ := L.vacInsert_eq e s' k v h4
  refine ⟨e, s', a, s1, h2, L.vacKey_eq e s' k h4, h5, L.refers h8, ?_⟩
  intro k'
  show (mapStorage H.api V κ).get _ _ = _
  split
  · rename_i hk; rw [hk]; exact h6
  · rename_i hk; exact (h7 k' hk).trans (h3 k')

/-- Case: an absent key of a hashed field. -/
example : ∃ e m0 a m1, Map.entry Ex.M Ex.map (Ex.byte 1) = .ok (.inr e, m0) ∧
    Ex.M.vacInsert e m0 9 = .ok (a, m1) ∧ Ex.M.read m1 a = some 9 := ⟨_, _, _, _, rfl, rfl, rfl⟩

end FixedMap
