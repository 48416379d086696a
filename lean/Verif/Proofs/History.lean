import Verif.Proofs.CoreLaws
import Verif.Spec.History
import Verif.Spec.HashbrownRef

/-! # Every map storage simulates a finite map -/

set_option autoImplicit false
set_option linter.unusedSimpArgs false

namespace FixedMap

variable {σ K V : Type} [DecidableEq K]

theorem FinMap.get_put (l : List (K × V)) (k k' : K) (v : V) :
    FinMap.get (FinMap.put l k v) k' = if k' = k then some v else FinMap.get l k' := by
  simp only [FinMap.put, FinMap.get, Assoc.lookup_erase]
  by_cases h : k' = k
  · simp [h]
  · simp [h, Ne.symm h]

theorem FinMap.put_nodup {l : List (K × V)} (h : (l.map Prod.fst).Nodup) (k : K) (v : V) :
    ((FinMap.put l k v).map Prod.fst).Nodup :=
  List.nodup_cons.mpr ⟨Assoc.not_mem_erase _ _, Assoc.erase_nodup h _⟩

namespace CoreLaws

variable {M : MapCore K V} (L : CoreLaws M)
include L

theorem finGet (s : M.S) (k : K) : FinMap.get (L.entries s) k = M.get s k := by
  apply Option.ext
  intro v
  rw [← L.mem_entries, Assoc.lookup_iff (L.nodup_keys s)]

theorem perm_of_finGet {s : M.S} {l : List (K × V)} (hn : (l.map Prod.fst).Nodup)
    (h : ∀ k, FinMap.get l k = M.get s k) : (L.entries s).Perm l := by
  have hn' : l.Nodup := List.Pairwise.imp (fun h e => h (by rw [e])) (List.pairwise_map.mp hn)
  rw [List.perm_ext_iff_of_nodup (L.nodup_entries s) hn']
  rintro ⟨k, v⟩
  rw [L.mem_entries, Assoc.lookup_iff hn, h]

theorem perm_put {s s' : M.S} {k : K} {v : V} (h : M.get s' k = some v)
    (h' : ∀ k', k' ≠ k → M.get s' k' = M.get s k') :
    (L.entries s').Perm (FinMap.put (L.entries s) k v) := by
  refine L.perm_of_finGet (FinMap.put_nodup (L.nodup_keys s) k v) fun k' => ?_
  rw [FinMap.get_put]
  split
  · rename_i e; rw [e, h]
  · rename_i e; rw [h' k' e, L.finGet]

theorem perm_erase {s s' : M.S} {k : K} (h : M.get s' k = none)
    (h' : ∀ k', k' ≠ k → M.get s' k' = M.get s k') :
    (L.entries s').Perm (FinMap.erase (L.entries s) k) := by
  refine L.perm_of_finGet (Assoc.erase_nodup (L.nodup_keys s) k) fun k' => ?_
  rw [Assoc.lookup_erase]
  split
  · rename_i e; rw [e, h]
  · rename_i e; rw [h' k' e, L.finGet]

end CoreLaws

omit [DecidableEq K] in
/-- The recording closure of `apiStep` changes nothing else. -/
theorem retainRef_logged (f : σ → K → V → σ × V × Option Bool) (l : List (K × V)) (st : σ) (a b : List V) :
    let g : σ × List V × List V → K → V → (σ × List V × List V) × V × Option Bool := fun st k v =>
      ((((f st.1 k v).1, st.2.1 ++ [(f st.1 k v).2.1], st.2.2 ++ [v])), (f st.1 k v).2)
    retainRef g l (st, a, b) =
      ⟨(retainRef f l st).s, ((retainRef f l st).st, a ++ (retainWrites f l st).1, b ++ (retainWrites f l st).2),
        (retainRef f l st).panicked, (retainRef f l st).dropped⟩ := by
  intro g
  induction l generalizing st a b with
  | nil => simp [retainRef, retainWrites]
  | cons p l ih =>
    obtain ⟨k, v⟩ := p
    simp only [retainRef, retainWrites, g]
    rcases h : f st k v with ⟨st', v', _ | _ | _⟩
    · simp
    · have := ih st' (a ++ [v']) (b ++ [v]); simp only [g] at this; simp [this]
    · have := ih st' (a ++ [v']) (b ++ [v]); simp only [g] at this; simp [this]

variable {M : MapStorage K V} {L : CoreLaws M.toMapCore} {ku : Bool}

omit [DecidableEq K] in
theorem readLive_eq (L : CoreLaws M.toMapCore) {s : M.S} {a : M.Addr} {k : K} {v : V} (h : L.keyAt s a = some k)
    (hv : M.get s k = some v) : readLive M s a = .ok v := by
  simp [readLive, L.read_eq s a k h, hv]

/-- A step on a map does what a step on the finite map of its entries does. -/
structure StepMatches (L : CoreLaws M.toMapCore) (r : StepOut σ K V M.S) (q : StepOut σ K V (List (K × V))) : Prop where
  out : r.out = q.out
  entries : (L.entries r.s).Perm q.s
  puts : r.puts = q.puts
  moved : r.moved = q.moved
  dropped : q.dropped.Perm r.dropped

omit [DecidableEq K] in
theorem perm_same {s s' : M.S} (L : CoreLaws M.toMapCore) (h : ∀ k, M.get s' k = M.get s k) :
    (L.entries s').Perm (L.entries s) := L.perm_of_get h

theorem updateList_keys {σ K V : Type} (f : σ → K → V → σ × V) (l : List (K × V)) (st : σ) :
    (updateList f l st).1.map Prod.fst = l.map Prod.fst := by
  induction l generalizing st with
  | nil => rfl
  | cons p l ih => simp [updateList, ih]

theorem updateRefs_eq (L : CoreLaws M.toMapCore) (f : σ → K → V → σ × V) (l : List (K × V)) :
    ∀ (refs : List (K × M.Addr)) (s : M.S) (st : σ), refs.map Prod.fst = l.map Prod.fst →
      (l.map Prod.fst).Nodup →
      (∀ r ∈ refs, L.keyAt s r.2 = some r.1) → (∀ p ∈ l, M.get s p.1 = some p.2) →
      ∃ s', updateRefs M f refs s st = .ok (s', (updateList f l st).2, (updateList f l st).1.map Prod.snd, l.map Prod.snd) ∧
        ∀ k, M.get s' k = (FinMap.get (updateList f l st).1 k).or (M.get s k) := by
  induction l with
  | nil =>
    intro refs s st hk _ _ _
    obtain rfl : refs = [] := List.map_eq_nil_iff.mp hk
    exact ⟨s, rfl, fun k => rfl⟩
  | cons p l ih =>
    obtain ⟨k, v⟩ := p
    intro refs s st hk hn ha hg
    cases refs with
    | nil => cases hk
    | cons r refs =>
      obtain ⟨k', a⟩ := r
      simp only [List.map_cons, List.cons.injEq, List.nodup_cons] at hk hn
      obtain ⟨rfl, hk⟩ := hk
      have ha0 := ha (k', a) (by simp)
      simp only at ha0
      obtain ⟨s', h1, h2⟩ := ih refs (M.write s a (f st k' v).2) (f st k' v).1 hk hn.2
        (fun r hr => (L.keyAt_write s a k' _ _ ha0).trans (ha r (by simp [hr])))
        (fun p hp => (L.get_write_ne s a k' _ p.1 ha0 (fun e => hn.1 (e ▸ List.mem_map_of_mem hp))).trans
          (hg p (by simp [hp])))
      refine ⟨s', ?_, ?_⟩
      · simp only [updateRefs, readLive_eq L ha0 (hg (k', v) (by simp)), Res.bind, h1, Res.map, updateList, List.map_cons]
      · intro k
        rw [h2]
        simp only [updateList, FinMap.get]
        by_cases hkk : k' = k
        · subst hkk
          have : FinMap.get (updateList f l (f st k' v).1).1 k' = none := by
            cases e : FinMap.get (updateList f l (f st k' v).1).1 k' with
            | none => rfl
            | some w =>
              have hm := (Assoc.lookup_isSome (updateList f l (f st k' v).1).1 k').mp (by rw [e]; rfl)
              rw [updateList_keys] at hm
              exact absurd hm hn.1
          simp [this, L.get_write_self s a k' _ ha0]
        · simp [hkk, L.get_write_ne s a k' (f st k' v).2 k ha0 (fun e => hkk e.symm)]

theorem step_sim (T : IterLaws M L ku) (s : M.S) (op : Op σ K V) :
    ∃ r, apiStep M s op = .ok r ∧ StepMatches L r (refStep (L.entries s) op) := by
  have hg := L.finGet s
  cases op with
  | insert k v =>
    refine ⟨_, rfl, ?_⟩
    simp only [refStep, Map.insert, L.insert_ret, hg]
    exact ⟨rfl, L.perm_put (L.get_insert_self s k v) (L.get_insert_ne s k v), rfl, rfl, .refl _⟩
  | remove k =>
    refine ⟨_, rfl, ?_⟩
    simp only [refStep, Map.remove, L.remove_ret, hg]
    exact ⟨rfl, L.perm_erase (L.get_remove_self s k) (L.get_remove_ne s k), rfl, rfl, .refl _⟩
  | get k =>
    refine ⟨_, rfl, ?_⟩
    simp only [refStep, Map.get, hg]
    exact ⟨rfl, .refl _, rfl, rfl, .refl _⟩
  | containsKey k =>
    refine ⟨_, rfl, ?_⟩
    simp only [refStep, Map.containsKey, hg, L.containsKey_eq]
    exact ⟨rfl, .refl _, rfl, rfl, .refl _⟩
  | len =>
    refine ⟨_, rfl, ?_⟩
    simp only [refStep, Map.len, L.len_eq]
    exact ⟨rfl, .refl _, rfl, rfl, .refl _⟩
  | isEmpty =>
    refine ⟨_, rfl, ?_⟩
    simp only [refStep, Map.isEmpty, L.isEmpty_eq]
    exact ⟨rfl, .refl _, rfl, rfl, .refl _⟩
  | clear =>
    refine ⟨_, rfl, rfl, ?_, rfl, rfl, (L.clear_dropped s).symm⟩
    show (L.entries (M.clear s).1).Perm []
    rw [L.clear_entries]
  | retain f st =>
    refine ⟨_, rfl, ?_⟩
    have h := retainRef_logged f (L.entries s) st [] []
    simp only [List.nil_append] at h
    constructor
    · simp only [refStep, Map.retain, L.retain_st, L.retain_panicked, h]
    · refine (L.retain_entries _ s _).trans ?_
      simp only [refStep, h]
      exact .refl _
    · simp only [refStep, Map.retain, L.retain_st, h]
    · simp only [refStep, Map.retain, L.retain_st, h]
    · simp only [refStep, Map.retain, L.retain_dropped, h]
      exact .refl _
  | replace k v =>
    simp only [refStep, hg, apiStep, Map.getMut]
    cases h : M.get s k with
    | none =>
      rw [L.getMut_none s k h]
      exact ⟨_, rfl, rfl, .refl _, rfl, rfl, .refl _⟩
    | some old =>
      obtain ⟨a, ha, hk⟩ := L.getMut_some s k old h
      simp only [ha, readLive_eq L hk h]
      exact ⟨_, rfl, rfl, L.perm_put (L.get_write_self s a k v hk) (fun k' => L.get_write_ne s a k v k' hk), rfl, rfl,
        .refl _⟩
  | iter =>
    have : (Map.iter M).I.drain (Map.len M s + 1) ((Map.iter M).init s) = some (L.entries s) :=
      (T.iter s).drain (by simp only [Map.len, L.len_eq]; omega)
    simp only [apiStep, this]
    exact ⟨_, rfl, rfl, .refl _, rfl, rfl, .refl _⟩
  | updateAll f st =>
    have hd : (Map.iterMut M).I.drain (Map.len M s + 1) ((Map.iterMut M).init s) = some (T.addrs s) := by
      refine (T.iterMut s).drain ?_
      have := congrArg List.length (T.addrs_keys s)
      simp only [List.length_map] at this
      simp only [Map.len, L.len_eq]
      omega
    obtain ⟨s', h1, h2⟩ := updateRefs_eq L f (L.entries s) (T.addrs s) s st (T.addrs_keys s) (L.nodup_keys s)
      (fun r hr => T.addrs_at s r.1 r.2 hr) (fun p hp => (L.mem_entries s p.1 p.2).mp hp)
    simp only [apiStep, hd, h1, Res.map, refStep]
    refine ⟨_, rfl, rfl, ?_, rfl, rfl, .refl _⟩
    refine L.perm_of_finGet (by rw [updateList_keys]; exact L.nodup_keys s) fun k => ?_
    rw [h2]
    cases e : FinMap.get (updateList f (L.entries s) st).1 k with
    | some w => rfl
    | none =>
      cases e' : M.get s k with
      | none => rfl
      | some w =>
        have hm := List.mem_map_of_mem (f := Prod.fst) ((L.mem_entries s k w).mpr e')
        rw [← updateList_keys f (L.entries s) st, ← Assoc.lookup_isSome, e] at hm
        cases hm
  | orInsert k v =>
    simp only [refStep, hg, apiStep, Map.entry]
    cases h : M.get s k with
    | some old =>
      obtain ⟨e, s', he, hs, hf⟩ := L.entry_some s k old h
      obtain ⟨a, ha, hk⟩ := L.occIntoMut_eq e s' k hf
      simp only [he, Res.bind, Entry.orInsert, ha, Res.map, readLive_eq L hk ((hs k).trans h)]
      exact ⟨_, rfl, rfl, perm_same L hs, rfl, rfl, .refl _⟩
    | none =>
      obtain ⟨e, s', he, hs, hf⟩ := L.entry_none s k h
      obtain ⟨_, a, s'', ha, hk, hne, hka⟩ := L.vacInsert_eq e s' k v hf
      simp only [he, Res.bind, Entry.orInsert, ha, Res.map, readLive_eq L hka hk]
      exact ⟨_, rfl, rfl, L.perm_put hk (fun k' hk' => (hne k' hk').trans (hs k')), rfl, rfl, .refl _⟩
  | orInsertWith k f st =>
    simp only [refStep, hg, apiStep, Map.entry]
    cases h : M.get s k with
    | some old =>
      obtain ⟨e, s', he, hs, hf⟩ := L.entry_some s k old h
      obtain ⟨a, ha, hk⟩ := L.occIntoMut_eq e s' k hf
      simp only [he, Res.bind, Entry.orInsertWith, ha, Res.map, readLive_eq L hk ((hs k).trans h)]
      exact ⟨_, rfl, rfl, perm_same L hs, rfl, rfl, .refl _⟩
    | none =>
      obtain ⟨e, s', he, hs, hf⟩ := L.entry_none s k h
      rcases hff : f st with ⟨st', _ | v⟩
      · simp only [he, Res.bind, Entry.orInsertWith, hff, Res.map]
        exact ⟨_, rfl, rfl, perm_same L hs, rfl, rfl, .refl _⟩
      · obtain ⟨_, a, s'', ha, hk, hne, hka⟩ := L.vacInsert_eq e s' k v hf
        simp only [he, Res.bind, Entry.orInsertWith, hff, ha, Res.map, readLive_eq L hka hk]
        exact ⟨_, rfl, rfl, L.perm_put hk (fun k' hk' => (hne k' hk').trans (hs k')), rfl, rfl, .refl _⟩
  | orInsertWithKey k f st =>
    simp only [refStep, hg, apiStep, Map.entry]
    cases h : M.get s k with
    | some old =>
      obtain ⟨e, s', he, hs, hf⟩ := L.entry_some s k old h
      obtain ⟨a, ha, hk⟩ := L.occIntoMut_eq e s' k hf
      simp only [he, Res.bind, Entry.orInsertWithKey, ha, Res.map, readLive_eq L hk ((hs k).trans h)]
      exact ⟨_, rfl, rfl, perm_same L hs, rfl, rfl, .refl _⟩
    | none =>
      obtain ⟨e, s', he, hs, hf⟩ := L.entry_none s k h
      have hkey := L.vacKey_eq e s' k hf
      rcases hff : f st k with ⟨st', _ | v⟩
      · simp only [he, Res.bind, Entry.orInsertWithKey, hkey, hff, Res.map]
        exact ⟨_, rfl, rfl, perm_same L hs, rfl, rfl, .refl _⟩
      · obtain ⟨_, a, s'', ha, hk, hne, hka⟩ := L.vacInsert_eq e s' k v hf
        simp only [he, Res.bind, Entry.orInsertWithKey, hkey, hff, ha, Res.map, readLive_eq L hka hk]
        exact ⟨_, rfl, rfl, L.perm_put hk (fun k' hk' => (hne k' hk').trans (hs k')), rfl, rfl, .refl _⟩
  | orDefault k f st =>
    simp only [refStep, hg, apiStep, Map.entry]
    cases h : M.get s k with
    | some old =>
      obtain ⟨e, s', he, hs, hf⟩ := L.entry_some s k old h
      obtain ⟨a, ha, hk⟩ := L.occIntoMut_eq e s' k hf
      simp only [he, Res.bind, Entry.orDefault, ha, Res.map, readLive_eq L hk ((hs k).trans h)]
      exact ⟨_, rfl, rfl, perm_same L hs, rfl, rfl, .refl _⟩
    | none =>
      obtain ⟨e, s', he, hs, hf⟩ := L.entry_none s k h
      rcases hff : f st with ⟨st', _ | v⟩
      · simp only [he, Res.bind, Entry.orDefault, hff, Res.map]
        exact ⟨_, rfl, rfl, perm_same L hs, rfl, rfl, .refl _⟩
      · obtain ⟨_, a, s'', ha, hk, hne, hka⟩ := L.vacInsert_eq e s' k v hf
        simp only [he, Res.bind, Entry.orDefault, hff, ha, Res.map, readLive_eq L hka hk]
        exact ⟨_, rfl, rfl, L.perm_put hk (fun k' hk' => (hne k' hk').trans (hs k')), rfl, rfl, .refl _⟩
  | modifyOrInsert k v w =>
    simp only [refStep, hg, apiStep, Map.entry]
    cases h : M.get s k with
    | some old =>
      obtain ⟨e, s', he, hs, hf⟩ := L.entry_some s k old h
      obtain ⟨a, ha, hk⟩ := L.occGetMut_eq e s' k hf
      have hf' := L.occFits_write e s' k a v hf hk
      obtain ⟨a', ha', hk'⟩ := L.occIntoMut_eq e _ k hf'
      have hself := L.get_write_self s' a k v hk
      simp only [he, Res.bind, Entry.andModify, ha, L.read_eq s' a k hk, hs k, h, Entry.orInsert, ha', Res.map,
        readLive_eq L hk' hself]
      exact ⟨_, rfl, rfl, L.perm_put hself
        (fun k' hne => (L.get_write_ne s' a k v k' hk hne).trans (hs k')), rfl, rfl, .refl _⟩
    | none =>
      obtain ⟨e, s', he, hs, hf⟩ := L.entry_none s k h
      obtain ⟨_, a, s'', ha, hk, hne, hka⟩ := L.vacInsert_eq e s' k w hf
      simp only [he, Res.bind, Entry.andModify, Entry.orInsert, ha, Res.map, readLive_eq L hka hk]
      exact ⟨_, rfl, rfl, L.perm_put hk (fun k' hk' => (hne k' hk').trans (hs k')), rfl, rfl, .refl _⟩
  | entryInsert k v =>
    simp only [refStep, hg, apiStep, Map.entry]
    cases h : M.get s k with
    | some old =>
      obtain ⟨e, s', he, hs, hf⟩ := L.entry_some s k old h
      obtain ⟨old', s'', ho, hgo, hk, hne, _⟩ := L.occInsert_eq e s' k v hf
      obtain rfl : old' = old := by rw [hs, h] at hgo; exact (Option.some.inj hgo).symm
      simp only [he, Res.bind, ho, Res.map]
      exact ⟨_, rfl, rfl, L.perm_put hk (fun k' hk' => (hne k' hk').trans (hs k')), rfl, rfl, .refl _⟩
    | none =>
      obtain ⟨e, s', he, hs, hf⟩ := L.entry_none s k h
      obtain ⟨_, a, s'', ha, hk, hne, hka⟩ := L.vacInsert_eq e s' k v hf
      simp only [he, Res.bind, ha, Res.map]
      exact ⟨_, rfl, rfl, L.perm_put hk (fun k' hk' => (hne k' hk').trans (hs k')), rfl, rfl, .refl _⟩
  | entryRemove k =>
    simp only [refStep, hg, apiStep, Map.entry]
    cases h : M.get s k with
    | some old =>
      obtain ⟨e, s', he, hs, hf⟩ := L.entry_some s k old h
      obtain ⟨old', s'', ho, hgo, hk, hne⟩ := L.occRemove_eq e s' k hf
      obtain rfl : old' = old := by rw [hs, h] at hgo; exact (Option.some.inj hgo).symm
      simp only [he, Res.bind, ho, Res.map]
      exact ⟨_, rfl, rfl, L.perm_erase hk (fun k' hk' => (hne k' hk').trans (hs k')), rfl, rfl, .refl _⟩
    | none =>
      obtain ⟨e, s', he, hs, hf⟩ := L.entry_none s k h
      simp only [he, Res.bind]
      exact ⟨_, rfl, rfl, L.perm_erase ((hs k).trans h) (fun k' _ => hs k'), rfl, rfl, .refl _⟩
  | entryKey k =>
    simp only [refStep, hg, apiStep, Map.entry]
    cases h : M.get s k with
    | some old =>
      obtain ⟨e, s', he, hs, hf⟩ := L.entry_some s k old h
      simp only [he, Res.map, Entry.key, L.occKey_eq e s' k hf]
      exact ⟨_, rfl, rfl, perm_same L hs, rfl, rfl, .refl _⟩
    | none =>
      obtain ⟨e, s', he, hs, hf⟩ := L.entry_none s k h
      simp only [he, Res.map, Entry.key, L.vacKey_eq e s' k hf]
      exact ⟨_, rfl, rfl, perm_same L hs, rfl, rfl, .refl _⟩

theorem run_sim (T : IterLaws M L ku) {R : K → K → Prop}
    (hR : ∀ s, (L.entries s).Pairwise fun p q => R p.1 q.1) (ops : List (Op σ K V)) (s : M.S) (l : List (K × V))
    (h : l.Perm (L.entries s)) :
    ∃ rs s', apiRun M ops s = .ok (rs, s') ∧ RefRun R ops l rs (L.entries s') := by
  induction ops generalizing s l with
  | nil => exact ⟨[], s, rfl, .nil h⟩
  | cons op ops ih =>
    obtain ⟨r, hr, hm⟩ := step_sim T s op
    obtain ⟨rs, s', hrs, hr'⟩ := ih r.s (refStep (L.entries s) op).s hm.entries.symm
    refine ⟨⟨r.out, (), r.puts, r.moved, r.dropped⟩ :: rs, s', by simp only [apiRun, hr, Res.bind, hrs, Res.map], ?_⟩
    rw [hm.out, hm.puts, hm.moved]
    exact .cons h (hR s) hm.dropped hr'

/-! ## Conservation on finite maps -/

/-- Values of a list of entries. -/
abbrev vals {K V : Type} (l : List (K × V)) : List V := l.map Prod.snd

theorem erase_perm {l : List (K × V)} (hn : (l.map Prod.fst).Nodup) (k : K) :
    (vals l).Perm ((FinMap.get l k).toList ++ vals (FinMap.erase l k)) := by
  induction l with
  | nil => exact .refl _
  | cons p l ih =>
    simp only [List.map_cons, List.nodup_cons] at hn
    have ih := ih hn.2
    by_cases e : p.1 = k
    · subst e
      have : FinMap.erase l p.1 = l := by
        rw [FinMap.erase, List.filter_eq_self]
        intro q hq
        have : q.1 ≠ p.1 := fun e => hn.1 (List.mem_map.mpr ⟨q, hq, e⟩)
        simpa using this
      simp [FinMap.get, FinMap.erase] at this ⊢
      rw [List.filter_eq_self.mpr (by simpa using this)]
    · simp only [FinMap.get, FinMap.erase, e, if_false, List.map_cons] at ih ⊢
      rw [List.filter_cons, if_pos (by simpa using e)]
      simp only [List.map_cons]
      exact (ih.cons _).trans List.perm_middle.symm

omit [DecidableEq K] in
theorem retainRef_vals (f : σ → K → V → σ × V × Option Bool) (l : List (K × V)) (st : σ) :
    (vals l ++ (retainWrites f l st).1).Perm
      (vals (retainRef f l st).s ++ (retainWrites f l st).2 ++ (retainRef f l st).dropped) := by
  classical
  rw [List.perm_iff_count]
  intro a
  induction l generalizing st with
  | nil => simp [retainRef, retainWrites]
  | cons p l ih =>
    obtain ⟨k, v⟩ := p
    simp only [retainRef, retainWrites]
    rcases h : f st k v with ⟨st', v', _ | _ | _⟩
    · simp [vals, List.count_append, List.count_cons]; omega
    · have := ih st'; simp [vals, List.count_append, List.count_cons] at this ⊢; omega
    · have := ih st'; simp [vals, List.count_append, List.count_cons] at this ⊢; omega

/-- Distinct keys are kept by the reference step. -/
theorem refStep_nodup {l : List (K × V)} (hn : (l.map Prod.fst).Nodup) (op : Op σ K V) :
    ((refStep l op).s.map Prod.fst).Nodup := by
  have hp := fun k v => FinMap.put_nodup hn k v
  have he := fun k => Assoc.erase_nodup hn k
  cases op with
  | retain f st => exact List.Sublist.nodup (Assoc.retainRef_keys f l st) hn
  | clear => simp [refStep]
  | updateAll f st =>
    simp only [refStep, updateList_keys]
    exact hn
  | _ =>
    simp only [refStep]
    repeat' split
    all_goals first | exact hn | exact hp _ _ | exact he _

theorem refStep_vals {l : List (K × V)} (hn : (l.map Prod.fst).Nodup) (op : Op σ K V) :
    (vals l ++ (refStep l op).puts).Perm
      (vals (refStep l op).s ++ (refStep l op).moved ++ (refStep l op).dropped) := by
  classical
  have key : ∀ k a, List.count a (vals l) =
      List.count a (FinMap.get l k).toList + List.count a (vals (FinMap.erase l k)) := by
    intro k a
    rw [(List.perm_iff_count.mp (erase_perm hn k)) a, List.count_append]
  have put : ∀ k v a, List.count a (vals (FinMap.put l k v)) =
      (if v = a then 1 else 0) + List.count a (vals (FinMap.erase l k)) := by
    intro k v a
    simp only [FinMap.put, vals, List.map_cons, List.count_cons, beq_iff_eq]
    omega
  have one : ∀ (v a : V), List.count a [v] = if v = a then 1 else 0 := by
    intro v a; simp [List.count_cons]
  cases op with
  | retain f st => exact retainRef_vals f l st
  | modifyOrInsert k v w =>
    rw [List.perm_iff_count]
    intro a
    have := key k a
    have := put k v a
    have := put k w a
    cases h : FinMap.get l k <;>
      simp only [h, refStep, List.count_append, List.count_cons, beq_iff_eq, List.count_nil, Option.toList] at * <;> omega
  | clear => simp [refStep, vals]
  | get k => simp [refStep]
  | len => simp [refStep]
  | isEmpty => simp [refStep]
  | iter => simp [refStep]
  | updateAll f st =>
    simp only [refStep, List.append_nil]
    exact List.perm_append_comm
  | containsKey k => simp [refStep]
  | entryKey k => simp [refStep]
  | remove k =>
    rw [List.perm_iff_count]
    intro a
    have := key k a
    simp only [refStep, List.count_append, List.count_nil] at *
    omega
  | entryRemove k =>
    rw [List.perm_iff_count]
    intro a
    have := key k a
    simp only [refStep, List.count_append, List.count_nil] at *
    omega
  | insert k v =>
    rw [List.perm_iff_count]
    intro a
    have := key k a
    have := put k v a
    have := one v a
    simp only [refStep, List.count_append, List.count_nil] at *
    omega
  | entryInsert k v =>
    rw [List.perm_iff_count]
    intro a
    have := key k a
    have := put k v a
    have := one v a
    simp only [refStep, List.count_append, List.count_nil] at *
    omega
  | replace k v =>
    rw [List.perm_iff_count]
    intro a
    have := key k a
    have := put k v a
    cases h : FinMap.get l k <;>
      simp only [h, refStep, List.count_append, List.count_cons, beq_iff_eq, List.count_nil, Option.toList] at * <;> omega
  | orInsert k v =>
    rw [List.perm_iff_count]
    intro a
    have := key k a
    have := put k v a
    cases h : FinMap.get l k <;>
      simp only [h, refStep, List.count_append, List.count_cons, beq_iff_eq, List.count_nil, Option.toList] at * <;> omega
  | orInsertWith k f st =>
    rw [List.perm_iff_count]
    intro a
    have := key k a
    rcases hf : f st with ⟨st', _ | v⟩
    · cases h : FinMap.get l k <;>
        simp only [h, hf, refStep, List.count_append, List.count_nil]
    · have := put k v a
      cases h : FinMap.get l k <;>
        simp only [h, hf, refStep, List.count_append, List.count_cons, beq_iff_eq, List.count_nil, Option.toList] at * <;> omega
  | orDefault k f st =>
    rw [List.perm_iff_count]
    intro a
    have := key k a
    rcases hf : f st with ⟨st', _ | v⟩
    · cases h : FinMap.get l k <;>
        simp only [h, hf, refStep, List.count_append, List.count_nil]
    · have := put k v a
      cases h : FinMap.get l k <;>
        simp only [h, hf, refStep, List.count_append, List.count_cons, beq_iff_eq, List.count_nil, Option.toList] at * <;> omega
  | orInsertWithKey k f st =>
    rw [List.perm_iff_count]
    intro a
    have := key k a
    rcases hf : f st k with ⟨st', _ | v⟩
    · cases h : FinMap.get l k <;>
        simp only [h, hf, refStep, List.count_append, List.count_nil]
    · have := put k v a
      cases h : FinMap.get l k <;>
        simp only [h, hf, refStep, List.count_append, List.count_cons, beq_iff_eq, List.count_nil, Option.toList] at * <;> omega

/-- Conservation over a whole history on finite maps. -/
theorem refRun_vals {ops : List (Op σ K V)} {l l' : List (K × V)} {rs : List (StepOut σ K V Unit)}
    {R : K → K → Prop}
    (h : RefRun R ops l rs l') (hn : (l.map Prod.fst).Nodup) :
    (vals l ++ (rs.map StepOut.puts).flatten).Perm
      (vals l' ++ (rs.map StepOut.moved).flatten ++ (rs.map StepOut.dropped).flatten) := by
  classical
  induction h with
  | nil hp => simpa using hp.map Prod.snd
  | @cons op ops l l₀ l' dropped rs hp _ hd hr ih =>
    have hn₀ : (l₀.map Prod.fst).Nodup := (hp.map Prod.fst).nodup_iff.mp hn
    have ih := ih (refStep_nodup hn₀ op)
    have hs := refStep_vals hn₀ op
    rw [List.perm_iff_count]
    intro a
    have h1 := List.perm_iff_count.mp ih a
    have h2 := List.perm_iff_count.mp hs a
    have h3 := List.perm_iff_count.mp (hp.map Prod.snd) a
    have h4 := List.perm_iff_count.mp hd a
    simp only [List.map_cons, List.flatten_cons, List.count_append, vals] at *
    omega

theorem refRun_nodup {ops : List (Op σ K V)} {l l' : List (K × V)} {rs : List (StepOut σ K V Unit)}
    {R : K → K → Prop}
    (h : RefRun R ops l rs l') (hn : (l.map Prod.fst).Nodup) : (l'.map Prod.fst).Nodup := by
  induction h with
  | nil hp => exact (hp.map Prod.fst).nodup_iff.mp hn
  | cons hp _ hd hr ih => exact ih (refStep_nodup ((hp.map Prod.fst).nodup_iff.mp hn) _)

end FixedMap
