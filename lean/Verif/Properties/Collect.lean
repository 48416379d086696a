import Verif.Proofs.Collect
import Verif.Model.Text
import Verif.Properties.SetHistory

/-! # C72: collecting from an iterator or deserializer that fails or panics -/

set_option autoImplicit false
set_option linter.unusedSimpArgs false

namespace FixedMap

section
variable (H : Hashbrown) {σ V E : Type} (κ : KeyTy) (d : Dtor σ V)

/-- C72, `from_iter`: items are taken one by one. Those taken are in the map `m`, except for the values replaced, which were dropped
at once. When no more are taken the iterator is dropped. If there was no panic so far, `m` is returned; otherwise it is dropped, batch after batch. -/
theorem C72_from_iter (next : σ → σ × Pull (κ.Key × V) Empty) (drop : Drops σ V → Drops σ V) (fuel : Nat) (st : σ) :
    let M := mapStorage H.api V κ
    match takeItems d next fuel [] [] st with
    | none => Map.collectFrom H.api d κ next drop fuel st = none
    | some t => ∃ m l bs, (∀ k, Map.get M m k = FinMap.get t.items k) ∧ (Map.iter M).runsTo m l ∧
        (l.map Prod.snd ++ t.replaced).Perm (t.items.map Prod.snd) ∧ IsBatches κ.together κ.inTable bs l ∧
        Map.collectFrom H.api d κ next drop fuel st = some
          (let y := drop t.drops
           if y.fate = .normal then (.ok m, y) else (.panicked, dropBatches d bs y)) := by
  intro M
  have h := collect_law H κ d next fuel [] [] (Map.new M) st (.start H κ)
  cases ht : takeItems d next fuel [] [] st with
  | none => rw [ht] at h; exact congrArg (Option.map _) h
  | some t =>
    rw [ht] at h
    obtain ⟨m, h1, h2⟩ := h
    obtain ⟨bs, hb⟩ := batch_law H d κ m
    refine ⟨m, _, bs, h1.get, Yields.runsTo ((mapIters H V κ).iter m), h1.vals, hb.is, (congrArg (Option.map _) h2).trans ?_⟩
    simp only [Option.map_some, hb.drop]

/-- C72, deserializing: the same, except that an error of the source drops the map and is returned. -/
theorem C72_visit_map (next : σ → σ × Pull (κ.Key × V) E) (fuel : Nat) (st : σ) :
    let M := mapStorage H.api V κ
    match takeItems d next fuel [] [] st with
    | none => Map.visitFrom H.api d κ next fuel st = none
    | some t => ∃ m l bs, (∀ k, Map.get M m k = FinMap.get t.items k) ∧ (Map.iter M).runsTo m l ∧
        (l.map Prod.snd ++ t.replaced).Perm (t.items.map Prod.snd) ∧ IsBatches κ.together κ.inTable bs l ∧
        Map.visitFrom H.api d κ next fuel st = some
          (let y := dropBatches d bs t.drops
           match t.stop with
           | .done => (.ok m, t.drops)
           | .fail err => (if y.fate = .normal then .fail err else .panicked, y)
           | .panicked => (.panicked, y)) := by
  intro M
  have h := collect_law H κ d next fuel [] [] (Map.new M) st (.start H κ)
  cases ht : takeItems d next fuel [] [] st with
  | none => rw [ht] at h; exact congrArg (Option.map _) h
  | some t =>
    rw [ht] at h
    obtain ⟨m, h1, h2⟩ := h
    obtain ⟨bs, hb⟩ := batch_law H d κ m
    refine ⟨m, _, bs, h1.get, Yields.runsTo ((mapIters H V κ).iter m), h1.vals, hb.is, (congrArg (Option.map _) h2).trans ?_⟩
    simp only [Option.map_some, hb.drop]
    cases t.stop <;> rfl

theorem takeItems_vec : ∀ (l : List (κ.Key × V)) fuel items replaced (st : σ), l.length < fuel →
    ∃ t, takeItems (E := E) d.beside vecNext fuel items replaced (st, l) = some t ∧
      t.items.reverse ++ t.st.2 = items.reverse ++ l ∧ (t.stop = .done ∧ t.st.2 = [] ∨ t.stop = .panicked)
  | _, 0, _, _, _, h => absurd h (Nat.not_lt_zero _)
  | [], fuel + 1, items, replaced, st, _ => ⟨_, rfl, rfl, .inl ⟨rfl, rfl⟩⟩
  | p :: l, fuel + 1, items, replaced, st, h => by
    have hl : l.length < fuel := Nat.lt_of_succ_lt_succ h
    simp only [takeItems, vecNext]
    cases hg : FinMap.get items p.1 with
    | none =>
      obtain ⟨t, h1, h2, h3⟩ := takeItems_vec l fuel (p :: items) replaced st hl
      exact ⟨t, h1, by simpa using h2, h3⟩
    | some old =>
      cases hd : (d st old).2 with
      | true => exact ⟨_, if_pos hd, by simp [Dtor.beside], .inr rfl⟩
      | false =>
        obtain ⟨t, h1, h2, h3⟩ := takeItems_vec l fuel (p :: items) (replaced ++ [old]) (d st old).1 hl
        refine ⟨t, ?_, by simpa using h2, h3⟩
        simp only [Dtor.beside, hd]
        exact h1

theorem accounted_each {τ : Type} (d : Dtor τ V) : ∀ (l : List V) (x : Drops τ V), Accounted true x (dropEach d l x) l
  | [], x => .nil _ x
  | v :: l, x => (accounted_value true x v).append (accounted_each d l (x.value d v))

/-- C72: collecting a vector. Every value of the vector ends in the map, or is dropped, or is leaked, or is lost in an abort; no
value twice. -/
theorem C72_conserved (l : List (κ.Key × V)) (fuel : Nat) (hf : l.length < fuel) (st : σ) :
    let M := mapStorage H.api V κ
    ∃ out x, Map.collectFrom H.api d.beside κ vecNext (vecDrop d) fuel (st, l) = some (out, x) ∧
      match out with
      | .ok m => x.fate = .normal ∧ x.leaked = [] ∧ (∀ k, Map.get M m k = FinMap.get l.reverse k) ∧
          ∃ vs, (Map.values M).runsTo m vs ∧ (vs ++ x.dropped).Perm (l.map Prod.snd)
      | .fail _ => False
      | .panicked => x.fate ≠ .normal ∧ ∃ lost, (x.dropped ++ x.leaked ++ lost).Perm (l.map Prod.snd) ∧
          (x.fate ≠ .aborted → lost = []) := by
  intro M
  have h := collect_law H κ d.beside (E := Empty) vecNext fuel [] [] (Map.new M) (st, l) (.start H κ)
  obtain ⟨t, h1, h2, h3⟩ := takeItems_vec κ d (E := Empty) l fuel [] [] st hf
  rw [h1] at h
  obtain ⟨m, hm, hc⟩ := h
  have e : Map.collectFrom H.api d.beside κ vecNext (vecDrop d) fuel (st, l) = some (if (vecDrop d t.drops).fate = .normal then
      (.ok m, vecDrop d t.drops) else (.panicked, κ.dropD H.api d.beside m (vecDrop d t.drops))) := congrArg (Option.map _) hc
  have h2 : t.items.reverse ++ t.st.2 = l := h2
  have hy : Accounted true { t.drops with st := (t.st.1, []) } (vecDrop d t.drops) (t.st.2.map Prod.snd) :=
    accounted_each (τ := σ × List (κ.Key × V)) d.beside (t.st.2.map Prod.snd) { t.drops with st := (t.st.1, []) }
  by_cases hn : (vecDrop d t.drops).fate = .normal
  · refine ⟨_, _, e.trans (congrArg some (if_pos hn)), ?_⟩
    obtain ⟨dr, lk, lost, hy⟩ := hy
    have ht : t.stop.fate = .normal := Fate.rank_inj (Nat.le_antisymm (hn ▸ hy.le) (Nat.zero_le _))
    rcases h3 with ⟨_, h3⟩ | h3
    · rw [h3] at h2 hy
      have e2 : t.items.reverse = l := by simpa using h2
      have hd : (vecDrop d t.drops).dropped = t.replaced := by
        rw [hy.dropped]
        have := hy.exact rfl
        simp at this
        simp [this.2.1, Taken.drops]
      refine ⟨hn, ?_, fun k => ?_, _, Yields.runsTo ((mapIters H V κ).values m), ?_⟩
      · rw [hy.leaked, (hy.exact rfl).1]; rfl
      · rw [← e2, List.reverse_reverse]; exact hm.get k
      · rw [hd, ← e2, List.map_reverse]
        exact hm.vals.trans (List.reverse_perm _).symm
    · rw [h3] at ht; cases ht
  · refine ⟨_, _, e.trans (congrArg some (if_neg hn)), ?_⟩
    have hdr := (drop_accounted H d.beside κ m (vecDrop d t.drops)).weaken (hf' := false) (fun e => nomatch e)
    obtain ⟨dr, lk, lost, ha⟩ := hy.append hdr
    refine ⟨fun hx => hn ?_, lost, ?_, ha.lost_nil⟩
    · obtain ⟨_, _, _, g⟩ := hdr
      exact Fate.rank_inj (Nat.le_antisymm (by rw [← hx]; exact g.le) (Nat.zero_le _))
    · rw [ha.dropped, ha.leaked, ← h2, List.map_append, List.map_reverse]
      have p1 := ha.perm
      have p2 := hm.vals
      have p3 := (List.reverse_perm (t.items.map Prod.snd))
      classical
      rw [List.perm_iff_count] at p1 p2 p3 ⊢
      intro a
      have p1 := p1 a
      have p2 := p2 a
      have p3 := p3 a
      simp only [List.count_append, Taken.drops, List.count_nil] at p1 p2 p3 ⊢
      omega

/-- A destructor that does nothing. -/
def Dtor.none {σ V : Type} : Dtor σ V := fun st _ => (st, false)

theorem collectD_list : ∀ (calls : List (Except E (κ.Key × V))) fuel m dr, calls.length < fuel →
    ∃ stop m' x, collectD H.api .none κ listNext fuel m ⟨calls, .normal, dr, []⟩ = some (stop, m', x) ∧ x.fate = .normal ∧
      match Map.visitMap.go (mapStorage H.api V κ) m dr calls with
      | .ok r => stop = .done ∧ m' = r.1 ∧ x.dropped = r.2 ∧ x.leaked = []
      | .error err => stop = .fail err
  | _, 0, _, _, h => absurd h (Nat.not_lt_zero _)
  | [], fuel + 1, m, dr, _ => ⟨_, _, _, rfl, rfl, rfl, rfl, rfl, rfl⟩
  | .error err :: l, fuel + 1, m, dr, _ => ⟨_, _, _, rfl, rfl, rfl⟩
  | .ok p :: l, fuel + 1, m, dr, h => by
    have ih := collectD_list l fuel (Map.insert (mapStorage H.api V κ) m p.1 p.2).2
      (dr ++ (Map.insert (mapStorage H.api V κ) m p.1 p.2).1.toList) (Nat.lt_of_succ_lt_succ h)
    have e : Drops.slot (Dtor.none (σ := List (Except E (κ.Key × V)))) (Map.insert (mapStorage H.api V κ) m p.1 p.2).1 ⟨l, .normal, dr, []⟩ =
        ⟨l, .normal, dr ++ (Map.insert (mapStorage H.api V κ) m p.1 p.2).1.toList, []⟩ := by
      cases (Map.insert (mapStorage H.api V κ) m p.1 p.2).1 <;> simp [Drops.slot, Drops.value, Dtor.none]
    simp only [collectD, listNext, e, Map.visitMap.go, if_true]
    exact ih

theorem runDtors_none : ∀ (l : List V) (st : σ), runDtors .none l st = (st, 0)
  | [], _ => rfl
  | v :: l, st => by simp only [runDtors, Dtor.none]; rw [runDtors_none l st]; rfl

theorem drop_none (m : (mapStorage H.api V κ).S) (x : Drops σ V) (h : x.fate = .normal) : (κ.dropD H.api .none m x).fate = .normal := by
  have := drop_honest (np := 0) H .none x.st κ m x ⟨by rw [runDtors_none], by rw [runDtors_none, h]; rfl, by rw [runDtors_none]; exact Nat.zero_le _⟩
  rw [this.fate_eq, runDtors_none]; rfl

/-- C72: with destructors that do nothing, deserializing from a list of answers is the `visit_map` of C29, which drops the values
replaced. -/
theorem C72_visit_list (calls : List (Except E (κ.Key × V))) (fuel : Nat) (hf : calls.length < fuel) :
    let M := mapStorage H.api V κ
    ∃ out x, Map.visitFrom H.api .none κ listNext fuel calls = some (out, x) ∧ x.fate = .normal ∧
      match Map.visitMap M calls with
      | .ok r => out = .ok r.1 ∧ x.dropped = r.2 ∧ x.leaked = []
      | .error err => out = .fail err := by
  intro M
  obtain ⟨stop, m', x, h1, h2, h3⟩ := collectD_list H κ calls fuel (Map.new M) [] hf
  have e : Map.visitFrom H.api .none κ listNext fuel calls = _ := congrArg (Option.map _) h1
  cases hv : Map.visitMap M calls with
  | ok r =>
    rw [show Map.visitMap.go (mapStorage H.api V κ) (Map.new M) [] calls = .ok r from hv] at h3
    obtain ⟨g1, g2, g3, g4⟩ := h3
    subst g1
    exact ⟨_, _, e, h2, by rw [g2], g3, g4⟩
  | error err =>
    rw [show Map.visitMap.go (mapStorage H.api V κ) (Map.new M) [] calls = .error err from hv] at h3
    subst h3
    have hd := drop_none H κ m' x h2
    exact ⟨_, _, e, hd, if_pos hd⟩
end

section
variable {σ E : Type} (H : Hashbrown) (κ : KeyTy)

/-- C72, sets: the set returned has exactly the elements taken; an error or a panic of the source is passed on. -/
theorem C72_set_visit (next : σ → σ × Pull κ.Key E) (fuel : Nat) (st : σ) :
    let M := setStorage H.api κ
    match takeElems next fuel [] st with
    | none => FSet.visitFrom M next fuel st = none
    | some (xs, st', .done) => ∃ s, FSet.visitFrom M next fuel st = some (.ok s, st') ∧ Reachable M s ∧
        ∀ x, FSet.contains M s x = true ↔ x ∈ xs
    | some (_, st', .fail err) => FSet.visitFrom M next fuel st = some (.fail err, st')
    | some (_, st', .panicked) => FSet.visitFrom M next fuel st = some (.panicked, st') := by
  intro M
  have h : FSet.visitFrom M next fuel st = _ := takeElems_set M next fuel [] st
  rcases ht : takeElems next fuel [] st with _ | ⟨xs, st', _ | err | _⟩
  · rw [ht] at h; exact h
  · rw [ht] at h
    obtain ⟨h1, h2, _⟩ := C47_collect H κ xs
    exact ⟨_, h, h1, h2⟩
  · rw [ht] at h; exact h
  · rw [ht] at h; exact h

/-- C72, sets: `from_iter` likewise; the iterator is dropped before the set is returned. -/
theorem C72_set_from_iter (next : σ → σ × Pull κ.Key Empty) (drop : σ → σ × Bool) (fuel : Nat) (st : σ) :
    let M := setStorage H.api κ
    match takeElems next fuel [] st with
    | none => FSet.collectFrom M next drop fuel st = none
    | some (xs, st', stop) =>
      if stop = .done ∧ (drop st').2 = false then
        ∃ s, FSet.collectFrom M next drop fuel st = some (.ok s, (drop st').1) ∧ Reachable M s ∧
          ∀ x, FSet.contains M s x = true ↔ x ∈ xs
      else FSet.collectFrom M next drop fuel st = some (.panicked, (drop st').1) := by
  intro M
  have h : FSet.collectFrom M next drop fuel st = _ := congrArg (Option.map _) (takeElems_set M next fuel [] st)
  rcases ht : takeElems next fuel [] st with _ | ⟨xs, st', _ | err | _⟩
  · rw [ht] at h; exact h
  · rw [ht] at h
    obtain ⟨h1, h2, _⟩ := C47_collect H κ xs
    cases hd : (drop st').2 with
    | false =>
      refine (if_pos (And.intro rfl hd)).mpr ?_
      exact ⟨_, h.trans (by simp [hd]; rfl), h1, h2⟩
    | true => simp [hd] at h ⊢; exact h
  · exact nomatch err
  · rw [ht] at h
    simp at h ⊢; exact h
end

/-- A vector with three items, the third replacing the first value. The destructors of 1 and of 3 panic: 1 is dropped while collecting,
then the rest of the vector, then the map, where 3 panics again. -/
example :
    let l := [(Ex.simple, 1), (Ex.byte 7, 2), (Ex.simple, 3), (Ex.byte 9, 4)]
    let r := fun ps => (Map.collectFrom Ex.H.api (Dtor.beside (Ex.dtor ps)) Ex.key vecNext (vecDrop (Ex.dtor ps)) 9 (0, l)).map
      fun r => ((match r.1 with | .ok m => some (Map.len Ex.M m) | _ => none), r.2.fate, r.2.dropped)
    r [] = some (some 3, .normal, [1]) ∧ r [1] = some (none, .unwinding, [1, 4, 3, 2]) ∧
    r [1, 4] = some (none, .aborted, [1, 4]) := ⟨rfl, rfl, rfl⟩

/-- A deserializer that fails after two entries for one key: the replaced value is dropped, then the map. If the destructor of the
value in the map panics there is a panic instead of the error. -/
example :
    let calls : List (Except String (Ex.key.Key × Nat)) := [.ok (Ex.simple, 1), .ok (Ex.simple, 3), .error "eof", .ok (Ex.byte 9, 4)]
    let r := fun ps => (Map.visitFrom Ex.H.api (Dtor.beside (Ex.dtor ps)) Ex.key (fun st => ((st.1, (listNext st.2).1), (listNext st.2).2)) 9
      (0, calls)).map fun r => ((match r.1 with | .ok _ => none | .fail e => some e | .panicked => some "!"), r.2.fate, r.2.dropped)
    r [] = some (some "eof", .normal, [1, 3]) ∧ r [3] = some (some "!", .unwinding, [1, 3]) := ⟨rfl, rfl⟩

/-- A set from an iterator that panics at the third call, and from one that ends there. -/
example :
    let next := fun b (n : Nat) => (n + 1, if n < 2 then Pull.item (E := Empty) Ex.pa else if b then .panic else .done)
    let r := fun b => (FSet.collectFrom Ex.P (next b) (fun n => (n + 10, false)) 9 0).map
      fun r => ((match r.1 with | .ok s => some (FSet.len Ex.P s) | _ => none), r.2)
    r true = some (none, 13) ∧ r false = some (some 1, 13) := ⟨rfl, rfl⟩

end FixedMap
