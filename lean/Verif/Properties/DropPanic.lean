import Verif.Proofs.DropPanic
import Verif.Properties.MapOrd
import Verif.Spec.Example

/-! # C67: destructors that panic -/

set_option autoImplicit false
set_option linter.unusedSimpArgs false

namespace FixedMap

/-- A destructor that counts, and panics on the given values. -/
def Ex.dtor (bad : List Nat) : Dtor Nat Nat := fun n v => (n + 1, bad.contains v)

variable (H : Hashbrown) {σ V : Type} (κ : KeyTy) (d : Dtor σ V)

/-- C67, `retain`: whatever the closure and the destructors do, the map ends up with the entries of the reference `retainRefD`,
which runs along the entries in `iter()` order. -/
theorem C67_retain (f : σ → κ.Key → V → σ × V × Option Bool) (m : (mapStorage H.api V κ).S) (st : σ) :
    let M := mapStorage H.api V κ
    let r := Map.retainD H.api κ d f m st
    ∃ l l', (Map.iter M).runsTo m l ∧ (Map.iter M).runsTo r.s l' ∧ l'.Perm (retainRefD d f l st).s ∧
      r.st = (retainRefD d f l st).st ∧ r.panicked = (retainRefD d f l st).panicked ∧
      r.dropped = (retainRefD d f l st).dropped ∧ ∀ k v, Map.get M r.s k = some v ↔ (k, v) ∈ (retainRefD d f l st).s := by
  have h := retainD_law H d κ f m st
  refine ⟨_, _, Yields.runsTo ((mapIters H V κ).iter m), Yields.runsTo ((mapIters H V κ).iter _), h.entries, h.st, h.panicked,
    h.dropped, fun k v => ?_⟩
  rw [← h.entries.mem_iff]
  exact ((mapCore H V κ).mem_entries _ k v).symm

/-- The values of `Ex.map` in `iter()` order are 6, 1, 3, 2, 4, 5. The closure adds ten and rejects 1, 3, 2; the destructor of 12
panics: 13 and 12 are gone, the values after are not touched. -/
example : let r := Map.retainD Ex.H.api Ex.key (Ex.dtor [12]) (fun n _ v => (n, v + 10, some (decide (v > 3)))) Ex.map 0
    (r.panicked, r.st, r.dropped) = (true, 3, [11, 13, 12]) ∧
    ([Ex.simple, Ex.flag false, Ex.byte 7, Ex.byte 200, Ex.opt (some 1), Ex.opt none].map (Map.get Ex.M r.s)) =
      [some 16, none, none, none, some 4, some 5] := ⟨rfl, rfl⟩

/-- With destructors that neither panic nor touch the world, the reference is that of C13. -/
theorem retainRefD_quiet {K : Type} (hd : ∀ st v, d st v = (st, false)) (f : σ → K → V → σ × V × Option Bool) (l : List (K × V))
    (st : σ) : retainRefD d f l st = retainRef f l st := by
  induction l generalizing st with
  | nil => rfl
  | cons p l ih =>
    obtain ⟨k, v⟩ := p
    rcases hf : f st k v with ⟨st', v', _ | _ | _⟩ <;> simp [retainRefD, retainRef, hf, hd, ih]

/-- C67: with such destructors `retain` is the `retain` of C13. -/
theorem C67_retain_quiet (hd : ∀ st v, d st v = (st, false)) (f : σ → κ.Key → V → σ × V × Option Bool)
    (m : (mapStorage H.api V κ).S) (st : σ) :
    let M := mapStorage H.api V κ
    let r := Map.retainD H.api κ d f m st
    let q := Map.retain M f m st
    (∀ k, Map.get M r.s k = Map.get M q.s k) ∧ r.st = q.st ∧ r.panicked = q.panicked ∧ r.dropped = q.dropped := by
  intro M r q
  have h := retainD_law H d κ f m st
  let L := mapCore H V κ
  refine ⟨fun k => ?_, ?_, ?_, ?_⟩
  · apply Option.ext
    intro v
    have e1 := h.entries.mem_iff (a := (k, v))
    have e2 := (L.retain_entries f m st).mem_iff (a := (k, v))
    rw [retainRefD_quiet d hd, ← e2] at e1
    exact (L.mem_entries _ k v).symm.trans (e1.trans (L.mem_entries _ k v))
  · exact (h.st.trans (by rw [retainRefD_quiet d hd])).trans (L.retain_st f m st).symm
  · exact (h.panicked.trans (by rw [retainRefD_quiet d hd])).trans (L.retain_panicked f m st).symm
  · exact (h.dropped.trans (by rw [retainRefD_quiet d hd])).trans (L.retain_dropped f m st).symm

/-- List lemma: where `retainRefD` panics. -/
theorem retainRefD_panic {K : Type} (f : σ → K → V → σ × V × Option Bool) (l : List (K × V)) (st : σ)
    (h : (retainRefD d f l st).panicked = true) :
    ∃ pre k v post st' v' b, l = pre ++ (k, v) :: post ∧ (retainRefD d f pre st).panicked = false ∧
      f (retainRefD d f pre st).st k v = (st', v', b) ∧
      ((b = none ∧ (retainRefD d f l st).st = st' ∧ (retainRefD d f l st).s = (retainRefD d f pre st).s ++ (k, v') :: post ∧
          (retainRefD d f l st).dropped = (retainRefD d f pre st).dropped) ∨
        (b = some false ∧ d st' v' = ((retainRefD d f l st).st, true) ∧
          (retainRefD d f l st).s = (retainRefD d f pre st).s ++ post ∧
          (retainRefD d f l st).dropped = (retainRefD d f pre st).dropped ++ [v'])) := by
  induction l generalizing st with
  | nil => simp [retainRefD] at h
  | cons p l ih =>
    obtain ⟨k, v⟩ := p
    rcases hf : f st k v with ⟨st', v', _ | _ | _⟩
    · refine ⟨[], k, v, l, st', v', none, rfl, rfl, hf, .inl ⟨rfl, ?_, ?_, ?_⟩⟩ <;> simp [retainRefD, hf]
    · by_cases hd : (d st' v').2 = true
      · refine ⟨[], k, v, l, st', v', some false, rfl, rfl, hf, .inr ⟨rfl, Prod.ext ?_ hd, ?_, ?_⟩⟩ <;> simp [retainRefD, hf, hd]
      · simp only [retainRefD, hf, if_neg hd] at h
        obtain ⟨pre, k1, v1, post, st1, v2, b, rfl, h1, h2, h3⟩ := ih _ h
        refine ⟨(k, v) :: pre, k1, v1, post, st1, v2, b, rfl, ?_, ?_, ?_⟩
        · simp [retainRefD, hf, hd, h1]
        · simp [retainRefD, hf, hd, h2]
        · simpa [retainRefD, hf, hd] using h3
    · simp only [retainRefD, hf] at h
      obtain ⟨pre, k1, v1, post, st1, v2, b, rfl, h1, h2, h3⟩ := ih _ h
      refine ⟨(k, v) :: pre, k1, v1, post, st1, v2, b, rfl, ?_, ?_, ?_⟩
      · simp [retainRefD, hf, h1]
      · simp [retainRefD, hf, h2]
      · simpa [retainRefD, hf] using h3

theorem retainRefD_keys {K : Type} (f : σ → K → V → σ × V × Option Bool) (l : List (K × V)) (st : σ) :
    ((retainRefD d f l st).s.map Prod.fst).Sublist (l.map Prod.fst) := by
  induction l generalizing st with
  | nil => exact .slnil
  | cons p l ih =>
    obtain ⟨k, v⟩ := p
    rcases hf : f st k v with ⟨st', v', _ | _ | _⟩
    · simp [retainRefD, hf]
    · by_cases hd : (d st' v').2 = true
      · simp [retainRefD, hf, hd]
      · simp only [retainRefD, hf, if_neg hd]
        exact (ih _).cons _
    · simp only [retainRefD, hf, List.map_cons]
      exact (ih _).cons_cons _

/-- C67, a panic in `retain`: it happened at one entry `(k, v)`. Either the closure panicked, and the entry stays with the value
the closure left; or the closure rejected it and its destructor panicked, and the entry is gone, so that it cannot be dropped
again. The entries before are processed, the later ones stay. -/
theorem C67_retain_panic (f : σ → κ.Key → V → σ × V × Option Bool) (m : (mapStorage H.api V κ).S) (st : σ) :
    let M := mapStorage H.api V κ
    let r := Map.retainD H.api κ d f m st
    r.panicked = true →
    ∃ pre k v post st' v' b, (Map.iter M).runsTo m (pre ++ (k, v) :: post) ∧ (retainRefD d f pre st).panicked = false ∧
      f (retainRefD d f pre st).st k v = (st', v', b) ∧
      ((b = none ∧ r.st = st' ∧ r.dropped = (retainRefD d f pre st).dropped ∧
          ∀ k' w, Map.get M r.s k' = some w ↔ (k', w) ∈ (retainRefD d f pre st).s ++ (k, v') :: post) ∨
        (b = some false ∧ d st' v' = (r.st, true) ∧ r.dropped = (retainRefD d f pre st).dropped ++ [v'] ∧
          (∀ k' w, Map.get M r.s k' = some w ↔ (k', w) ∈ (retainRefD d f pre st).s ++ post) ∧ Map.get M r.s k = none)) := by
  intro M r hp
  obtain ⟨l, _, hl, _, _, h1, h2, h3, h4⟩ := C67_retain H κ d f m st
  have hn : (l.map Prod.fst).Nodup := by
    rw [runsTo_unique hl (Yields.runsTo ((mapIters H V κ).iter m))]
    exact (mapCore H V κ).nodup_keys m
  rw [show r.panicked = _ from h2] at hp
  obtain ⟨pre, k, v, post, st', v', b, rfl, g1, g2, g3⟩ := retainRefD_panic d f l st hp
  refine ⟨pre, k, v, post, st', v', b, hl, g1, g2, ?_⟩
  rcases g3 with ⟨rfl, a1, a2, a3⟩ | ⟨rfl, a1, a2, a3⟩
  · refine .inl ⟨rfl, h1.trans a1, h3.trans a3, fun k' w => ?_⟩
    rw [← a2]
    exact h4 k' w
  · refine .inr ⟨rfl, ?_, h3.trans a3, fun k' w => ?_, ?_⟩
    · rw [a1]
      exact congrArg (fun x => (x, true)) h1.symm
    · rw [← a2]
      exact h4 k' w
    · rw [Option.eq_none_iff_forall_ne_some]
      intro w hw
      have hm := (h4 k w).mp hw
      rw [a2, List.mem_append] at hm
      rw [List.map_append, List.nodup_append] at hn
      obtain ⟨_, n2, n3⟩ := hn
      rw [List.map_cons, List.nodup_cons] at n2
      rcases hm with hm | hm
      · have := retainRefD_keys d f pre st
        exact n3 k (this.subset (List.mem_map_of_mem hm)) k (by simp) rfl
      · exact n2.1 (List.mem_map.mpr ⟨_, hm, rfl⟩)

/-- C67, `clear`: it works through the entries in `iter()` order. Of the entries `pre` it got to, every value was dropped, or
leaked by a hash table, or lost when the process aborted, and no value twice; the entries `post` are still in the map. If
no destructor panicked the map is empty. Without hash tables nothing is leaked, and the values are dropped in order. -/
theorem C67_clear (m : (mapStorage H.api V κ).S) (st : σ) :
    let M := mapStorage H.api V κ
    let r := Map.clearD H.api κ d m st
    ∃ pre post lost, (Map.iter M).runsTo m (pre ++ post) ∧ (Map.iter M).runsTo r.1 post ∧
      (r.2.dropped ++ r.2.leaked ++ lost).Perm (pre.map Prod.snd) ∧ (r.2.fate ≠ .aborted → lost = []) ∧
      (r.2.fate = .normal → post = [] ∧ r.2.leaked = []) ∧
      (κ.hashFree = true → r.2.leaked = [] ∧ r.2.dropped ++ lost = pre.map Prod.snd) ∧ r.2.Honest d st := by
  intro M r
  obtain ⟨pre, post, h1, h2, ⟨dr, lk, lost, h⟩, h4⟩ := clear_law H d κ m (.start st) rfl
  have e1 : r.2.dropped = dr := h.dropped
  have e2 : r.2.leaked = lk := h.leaked
  refine ⟨pre, post, lost, ?_, ?_, ?_, h.lost_nil, fun e => ⟨h4 e, e2.trans (h.lk_nil e)⟩, ?_, ?_⟩
  · rw [← h1]; exact Yields.runsTo ((mapIters H V κ).iter m)
  · rw [← h2]; exact Yields.runsTo ((mapIters H V κ).iter _)
  · rw [e1, e2]; exact h.perm
  · rw [e1, e2]; exact h.exact
  · exact clear_honest H d st κ m _ (honest_start d st)

/-- `clear` on `Ex.map`: the destructor of 3 panics in the hash table. The table leaks 2 and is empty; the fields after it
are untouched. -/
example : let r := Map.clearD Ex.H.api Ex.key (Ex.dtor [3]) Ex.map 0
    (r.2.fate, r.2.st, r.2.dropped, r.2.leaked) = (.unwinding, 3, [6, 1, 3], [2]) ∧
    ([Ex.simple, Ex.flag false, Ex.byte 7, Ex.byte 200, Ex.opt (some 1), Ex.opt none].map (Map.get Ex.M r.1)) =
      [none, none, none, none, some 4, some 5] := ⟨rfl, rfl⟩
/-- No destructor panics: everything dropped once, and the map is empty. -/
example : let r := Map.clearD Ex.H.api Ex.key (Ex.dtor []) Ex.map 0
    (r.2.fate, r.2.st, r.2.dropped, r.2.leaked) = (.normal, 6, [6, 1, 3, 2, 4, 5], []) := rfl

/-- C67, a panic in `clear` does not break the map: clearing it again, with destructors that do not panic, drops exactly
the values still in it and empties it. -/
theorem C67_clear_again (d' : Dtor σ V) (hd : ∀ st v, (d' st v).2 = false) (m : (mapStorage H.api V κ).S) (st st' : σ) :
    let M := mapStorage H.api V κ
    let r := Map.clearD H.api κ d m st
    let q := Map.clearD H.api κ d' r.1 st'
    q.2.fate = .normal ∧ q.2.leaked = [] ∧ (∀ k, Map.get M q.1 k = none) ∧
      ∃ pre post lost, (Map.iter M).runsTo m (pre ++ post) ∧ (r.2.dropped ++ r.2.leaked ++ lost).Perm (pre.map Prod.snd) ∧
        (r.2.fate ≠ .aborted → lost = []) ∧ q.2.dropped.Perm (post.map Prod.snd) := by
  intro M r q
  obtain ⟨pre, post, lost, h1, h2, h3, h4, _⟩ := C67_clear H κ d m st
  obtain ⟨pre', post', lost', g1, g2, g3, g4, g5, _, g7⟩ := C67_clear H κ d' r.1 st'
  have none : ∀ (l : List V) st, (runDtors d' l st).2 = 0 := by
    intro l
    induction l with
    | nil => intro _; rfl
    | cons v l ih => intro st; simp [runDtors, ih, hd]
  have hf : q.2.fate = .normal := by
    rw [show q.2.fate = _ from g7.fate_eq, none]
    rfl
  obtain ⟨e1, e2⟩ := g5 hf
  subst e1
  have e3 := g4 (by rw [show (Map.clearD H.api κ d' r.1 st').2.fate = _ from hf]; decide)
  subst e3
  have e4 : pre' ++ [] = post := runsTo_unique g1 h2
  rw [List.append_nil] at e4
  subst e4
  refine ⟨hf, e2, fun k => ?_, pre, pre', lost, h1, h3, h4, ?_⟩
  · rw [Option.eq_none_iff_forall_ne_some]
    intro v hv
    have := ((mapCore H V κ).mem_entries q.1 k v).mpr hv
    rw [runsTo_unique (Yields.runsTo ((mapIters H V κ).iter q.1)) g2] at this
    cases this
  · rw [e2] at g3
    simpa using g3

/-- The second `clear` drops the two values that the first left. -/
example : let r := Map.clearD Ex.H.api Ex.key (Ex.dtor [3]) Ex.map 0
    (Map.clearD Ex.H.api Ex.key (Ex.dtor []) r.1 7).2.dropped = [4, 5] := rfl

/-- C67, dropping a map: every value is dropped or, only after a panic, leaked by a hash table or lost in an abort; none
twice. Without hash tables every value is dropped even if one destructor panics, in `iter()` order. -/
theorem C67_drop (m : (mapStorage H.api V κ).S) (st : σ) :
    let M := mapStorage H.api V κ
    let x := Map.dropD H.api κ d m st
    ∃ l lost, (Map.iter M).runsTo m l ∧ (x.dropped ++ x.leaked ++ lost).Perm (l.map Prod.snd) ∧
      (x.fate ≠ .aborted → lost = []) ∧ (x.fate = .normal → x.leaked = []) ∧
      (κ.hashFree = true → x.leaked = [] ∧ x.dropped ++ lost = l.map Prod.snd) ∧ x.Honest d st := by
  intro M x
  obtain ⟨dr, lk, lost, h⟩ := drop_accounted H d κ m (.start st)
  have e1 : x.dropped = dr := h.dropped
  have e2 : x.leaked = lk := h.leaked
  refine ⟨_, lost, Yields.runsTo ((mapIters H V κ).iter m), ?_, h.lost_nil, fun e => e2.trans (h.lk_nil e), ?_, ?_⟩
  · rw [e1, e2]; exact h.perm
  · rw [e1, e2]; exact h.exact
  · exact drop_honest H d st κ m _ (honest_start d st)

/-- One panic while dropping `Ex.map`: unlike `clear`, the later fields are still dropped. A second panic aborts. -/
example :
    let x := Map.dropD Ex.H.api Ex.key (Ex.dtor [3]) Ex.map 0
    let y := Map.dropD Ex.H.api Ex.key (Ex.dtor [1, 4]) Ex.map 0
    (x.fate, x.st, x.dropped, x.leaked) = (.unwinding, 5, [6, 1, 3, 4, 5], [2]) ∧
    (y.fate, y.st, y.dropped, y.leaked) = (.aborted, 5, [6, 1, 3, 2, 4], []) := ⟨rfl, rfl⟩

theorem insert_vals (m : (mapStorage H.api V κ).S) (k : κ.Key) (v : V) :
    let M := mapStorage H.api V κ
    ((Map.insert M m k v).1.toList ++ ((mapCore H V κ).entries (Map.insert M m k v).2).map Prod.snd).Perm
      (((mapCore H V κ).entries m).map Prod.snd ++ [v]) := by
  intro M
  let L := mapCore H V κ
  have hp := (L.perm_put (L.get_insert_self m k v) (L.get_insert_ne m k v)).map Prod.snd
  have he := erase_perm (L.nodup_keys m) k
  have hr : (Map.insert M m k v).1 = _ := (L.insert_ret m k v).trans (L.finGet m k).symm
  rw [hr]
  classical
  rw [List.perm_iff_count] at hp he ⊢
  intro a
  have hp := hp a
  have he := he a
  simp only [List.count_append, List.map_cons, List.count_cons, List.count_nil, FinMap.put, vals] at hp he ⊢
  rw [show (List.map Prod.snd ((mapCore H V κ).entries (Map.insert M m k v).2)).count a = _ from hp]
  rw [he]
  omega

theorem fromIterD_honest (st : σ) : (l : List (κ.Key × V)) → (m : (mapStorage H.api V κ).S) → (x : Drops σ V) →
    x.Honest d st → (fromIterD H.api d κ l m x).2.2.Honest d st
  | [], _, _, h => h
  | p :: l, m, x, h => by
    simp only [fromIterD]
    have hy := h.slot (Map.insert (mapStorage H.api V κ) m p.1 p.2).1
    split
    · exact fromIterD_honest st l _ _ hy
    · exact drop_honest H d st κ _ _ hy

theorem slot_normal {x : Drops σ V} {o : Option V} (h : (x.slot d o).fate = .normal) :
    (x.slot d o).dropped = x.dropped ++ o.toList ∧ (x.slot d o).leaked = x.leaked := by
  cases o with
  | none => simp [Drops.slot]
  | some v =>
    simp only [Drops.slot, Drops.value] at h ⊢
    split at h
    · rename_i e; rw [h] at e; cases e
    · rename_i e; simp [e]

theorem fromIterD_law : (l : List (κ.Key × V)) → (m : (mapStorage H.api V κ).S) → (x : Drops σ V) → x.fate = .normal →
    let M := mapStorage H.api V κ
    let r := fromIterD H.api d κ l m x
    let q := l.foldl (fun acc p => ((Map.insert M acc.1 p.1 p.2).2, acc.2 ++ (Map.insert M acc.1 p.1 p.2).1.toList)) (m, x.dropped)
    r.2.1 ≤ l.length ∧
      (r.2.2.fate = .normal → r.1 = some q.1 ∧ r.2.2.dropped = q.2 ∧ r.2.2.leaked = x.leaked ∧ r.2.1 = l.length) ∧
      (r.2.2.fate ≠ .normal → r.1 = none ∧
        Accounted false x r.2.2 (((mapCore H V κ).entries m).map Prod.snd ++ (l.take r.2.1).map Prod.snd))
  | [], m, x, h => ⟨Nat.le_refl _, fun _ => ⟨rfl, rfl, rfl, rfl⟩, fun h' => absurd h h'⟩
  | p :: l, m, x, h => by
    intro M r q
    let i := Map.insert M m p.1 p.2
    have hv : (i.1.toList ++ ((mapCore H V κ).entries i.2).map Prod.snd).Perm (((mapCore H V κ).entries m).map Prod.snd ++ [p.2]) :=
      insert_vals H κ m p.1 p.2
    have hx : Accounted false x (x.slot d i.1) i.1.toList := accounted_slot false x i.1
    by_cases hy : (x.slot d i.1).fate = .normal
    · have er : r = ((fromIterD H.api d κ l i.2 (x.slot d i.1)).1, (fromIterD H.api d κ l i.2 (x.slot d i.1)).2.1 + 1,
          (fromIterD H.api d κ l i.2 (x.slot d i.1)).2.2) := if_pos hy
      obtain ⟨h1, h2, h3⟩ := fromIterD_law l i.2 (x.slot d i.1) hy
      obtain ⟨s1, s2⟩ := slot_normal d hy
      rw [er]
      refine ⟨Nat.succ_le_succ h1, fun e => ?_, fun e => ?_⟩
      · obtain ⟨a, b, c, e'⟩ := h2 e
        rw [s1] at a b
        exact ⟨a, b, c.trans s2, congrArg (· + 1) e'⟩
      · obtain ⟨a, b⟩ := h3 e
        refine ⟨a, (hx.append b).perm ?_⟩
        rw [← List.append_assoc]
        refine (hv.append_right _).trans ?_
        simp
    · have er : r = (none, 1, κ.dropD H.api d i.2 (x.slot d i.1)) := if_neg hy
      have hd := (drop_accounted H d κ i.2 (x.slot d i.1)).weaken (hf' := false) (fun e => nomatch e)
      have ha := (hx.append hd).perm hv
      rw [er]
      refine ⟨Nat.succ_le_succ (Nat.zero_le _), fun e => ?_, fun _ => ⟨rfl, by simpa using ha⟩⟩
      obtain ⟨_, _, _, h⟩ := hd
      exact absurd (Fate.rank_inj (Nat.le_antisymm (by rw [← e]; exact h.le) (Nat.zero_le _))) hy

/-- C67, `FromIterator`: if no destructor of a replaced value panics, the map is that of C22. Otherwise the values
of the `n` items taken are dropped with the unfinished map (or leaked, or lost in an abort), none twice. -/
theorem C67_fromIter (l : List (κ.Key × V)) (st : σ) :
    let M := mapStorage H.api V κ
    let r := Map.fromIterD H.api κ d l st
    r.2.2.Honest d st ∧ r.2.1 ≤ l.length ∧
      (r.2.2.fate = .normal → r.1 = some (Map.fromIter M l).1 ∧ r.2.2.dropped = (Map.fromIter M l).2 ∧ r.2.2.leaked = [] ∧
        r.2.1 = l.length) ∧
      (r.2.2.fate ≠ .normal → r.1 = none ∧ ∃ lost, (r.2.2.dropped ++ r.2.2.leaked ++ lost).Perm ((l.take r.2.1).map Prod.snd) ∧
        (r.2.2.fate ≠ .aborted → lost = [])) := by
  intro M r
  have hs := fromIterD_law H κ d l (Map.new M) (.start st) rfl
  have he : (mapCore H V κ).entries (Map.new M) = [] := (mapCore H V κ).entries_empty
  refine ⟨fromIterD_honest H κ d st l _ _ (honest_start d st), hs.1, fun h => ?_, fun h => ?_⟩
  · obtain ⟨h1, h2, h3, h4⟩ := hs.2.1 h
    exact ⟨h1, h2, h3, h4⟩
  · obtain ⟨h1, dr, lk, lost, h2⟩ := hs.2.2 h
    rw [he, List.map_nil, List.nil_append] at h2
    refine ⟨h1, lost, ?_, h2.lost_nil⟩
    have e1 : r.2.2.dropped = dr := h2.dropped
    have e2 : r.2.2.leaked = lk := h2.leaked
    rw [e1, e2]
    exact h2.perm

/-- The third item replaces the value 1, whose destructor panics: the unfinished map is dropped, the fourth item is not taken. -/
example : let r := Map.fromIterD Ex.H.api Ex.key (Ex.dtor [1]) [(Ex.simple, 1), (Ex.byte 7, 2), (Ex.simple, 3), (Ex.byte 9, 4)] 0
    (r.1.isSome, r.2.1, r.2.2.fate, r.2.2.dropped) = (false, 3, .unwinding, [1, 3, 2]) := rfl
example : let r := Map.fromIterD Ex.H.api Ex.key (Ex.dtor []) [(Ex.simple, 1), (Ex.byte 7, 2), (Ex.simple, 3), (Ex.byte 9, 4)] 0
    (r.1.map (Map.len Ex.M), r.2.1, r.2.2.fate, r.2.2.dropped) = (some 3, 4, .normal, [1]) := rfl

end FixedMap
