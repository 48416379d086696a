import Verif.Proofs.Unwind
import Verif.Properties.DropPanic

/-! # C70: cloning a map with a `V::clone` that has effects or panics -/

set_option autoImplicit false
set_option linter.unusedSimpArgs false

namespace FixedMap

variable (H : Hashbrown) {σ V : Type} (κ : KeyTy) (c : Cloner σ V) (d : Dtor σ V) {hc : TableCloneApi H.api V}

/-- C70, no panic: if `clone` returns, it called `V::clone` once for every value in `iter()` order and no call panicked; the clone has
the same keys, each with the clone of its value, and lists them in the same order if there is no hash table. -/
theorem C70_ok (h : TableCloneLaw H V hc) (m : (mapStorage H.api V κ).S) (st st' : σ) (m' : (mapStorage H.api V κ).S)
    (e : Map.cloneD H.api hc κ c d m st = .ok st' m') :
    let M := mapStorage H.api V κ
    ∃ l l', (Map.iter M).runsTo m l ∧ (Map.iter M).runsTo m' l' ∧ (cloneRef c l st).panicked = false ∧
      st' = (cloneRef c l st).st ∧ l'.Perm (cloneRef c l st).made ∧ (κ.hashFree = true → l' = (cloneRef c l st).made) ∧
      ∀ k w, Map.get M m' k = some w ↔ (k, w) ∈ (cloneRef c l st).made := by
  have hl := clone_law c d H h κ m st
  rw [show κ.cloneD H.api hc c d m st = _ from e] at hl
  obtain ⟨h1, h2, h3, h4⟩ := hl
  refine ⟨_, _, Yields.runsTo ((mapIters H V κ).iter m), Yields.runsTo ((mapIters H V κ).iter m'), h1, h2, h3, h4, fun k w => ?_⟩
  rw [← h3.mem_iff]
  exact ((mapCore H V κ).mem_entries _ k w).symm

/-- List lemma: where the first panic is. -/
theorem cloneRef_panic {K : Type} (l : List (K × V)) (st : σ) (hp : (cloneRef c l st).panicked = true) :
    ∃ pre k v post, l = pre ++ (k, v) :: post ∧ (cloneRef c pre st).panicked = false ∧
      c (cloneRef c pre st).st v = ((cloneRef c l st).st, none) ∧ (cloneRef c l st).made = (cloneRef c pre st).made := by
  induction l generalizing st with
  | nil => exact nomatch hp
  | cons p l ih =>
    obtain ⟨k, v⟩ := p
    obtain ⟨⟨st', _ | w⟩, hr⟩ : ∃ r, c st v = r := ⟨_, rfl⟩
    · exact ⟨[], k, v, l, rfl, rfl, by simp [cloneRef, hr], by simp [cloneRef, hr]⟩
    · simp only [cloneRef, hr] at hp
      obtain ⟨pre, k', v', post, rfl, g1, g2, g3⟩ := ih st' hp
      refine ⟨(k, v) :: pre, k', v', post, rfl, ?_, ?_, ?_⟩
      · simp [cloneRef, hr, g1]
      · simp [cloneRef, hr, g2]
      · simp [cloneRef, hr, g3]

/-- C70, a panic: it happened in the call for one value, the values before had been cloned, and the later ones are not looked at.
Exactly the clones made so far are dropped, each once; only if one of their destructors panics as well, which aborts, the
remaining ones are not. -/
theorem C70_panic (h : TableCloneLaw H V hc) (m : (mapStorage H.api V κ).S) (st : σ) (x : Drops σ V)
    (e : Map.cloneD H.api hc κ c d m st = .panicked x) :
    let M := mapStorage H.api V κ
    ∃ pre k v post st' lost, (Map.iter M).runsTo m (pre ++ (k, v) :: post) ∧ (cloneRef c pre st).panicked = false ∧
      c (cloneRef c pre st).st v = (st', none) ∧
      (x.dropped ++ x.leaked ++ lost).Perm ((cloneRef c pre st).made.map Prod.snd) ∧ x.fate ≠ .normal ∧
      (x.fate ≠ .aborted → x.leaked = [] ∧ lost = []) ∧ x.HonestFrom 1 d st' := by
  have hl := clone_law c d H h κ m st
  rw [show κ.cloneD H.api hc c d m st = _ from e] at hl
  obtain ⟨h1, h2, dr, lk, lost, h3⟩ := hl
  obtain ⟨pre, k, v, post, g1, g2, g3, g4⟩ := cloneRef_panic c _ st h1
  rw [g4] at h3
  have e1 : x.dropped = dr := h3.dropped
  have e2 : x.leaked = lk := h3.leaked
  have hle := h3.le
  refine ⟨pre, k, v, post, _, lost, ?_, g2, g3, ?_, ?_, ?_, h2⟩
  · rw [← g1]
    exact Yields.runsTo ((mapIters H V κ).iter m)
  · rw [e1, e2]; exact h3.perm
  · intro hf
    rw [hf] at hle
    exact absurd hle (by show ¬(1 ≤ 0); omega)
  · intro ha
    refine ⟨e2.trans (h3.lk_nil ?_), h3.lost_nil ha⟩
    revert hle ha
    cases x.fate with
    | normal => exact fun hle => absurd (show 1 ≤ 0 from hle) (by omega)
    | unwinding => exact fun _ _ => rfl
    | aborted => exact fun _ ha => absurd rfl ha

/-- The order lists exactly the keys before the given one. -/
theorem C70_unwind_keys (hf : κ.hashFree = true) (k : κ.Key) :
    ∃ pre post, κ.allKeys = pre ++ k :: post ∧ (κ.unwindKeys k).Perm pre := unwindKeys_before κ hf k

/-- C70, the order: without hashed keys the clones made are dropped in the order `unwindKeys` of the key whose value panicked. If one
of their destructors panics as well, the drops end there. -/
theorem C70_order (hf : κ.hashFree = true) (m : (mapStorage H.api V κ).S) (st : σ) (x : Drops σ V)
    (e : Map.cloneD H.api hc κ c d m st = .panicked x) :
    let M := mapStorage H.api V κ
    ∃ pre k v post st' lost, (Map.iter M).runsTo m (pre ++ (k, v) :: post) ∧ (cloneRef c pre st).panicked = false ∧
      c (cloneRef c pre st).st v = (st', none) ∧
      x.dropped ++ lost = (κ.unwindKeys k).filterMap (FinMap.get (cloneRef c pre st).made) ∧ x.leaked = [] ∧
      (x.fate ≠ .aborted → lost = []) ∧ x.HonestFrom 1 d st' := by
  have hl := clone_run c d H (hc := hc) κ hf m st
  rw [show κ.cloneD H.api hc c d m st = _ from e] at hl
  obtain ⟨pre, k, v, post, st', h1, h2, h3, h4, dr, lk, lost, h5⟩ := hl
  obtain ⟨h6, h7⟩ := h5.exact rfl
  have e1 : x.dropped = dr := h5.dropped
  have e2 : x.leaked = lk := h5.leaked
  refine ⟨pre, k, v, post, st', lost, ?_, h2, h3, by rw [e1]; exact h7, e2.trans h6, h5.lost_nil, h4⟩
  rw [← h1]
  exact Yields.runsTo ((mapIters H V κ).iter m)

/-- C70: which of the two happens is decided by the calls for the values in `iter()` order. -/
theorem C70_panics_iff (h : TableCloneLaw H V hc) (m : (mapStorage H.api V κ).S) (st : σ) :
    ∃ l, (Map.iter (mapStorage H.api V κ)).runsTo m l ∧
      ((∃ x, Map.cloneD H.api hc κ c d m st = .panicked x) ↔ (cloneRef c l st).panicked = true) := by
  refine ⟨_, Yields.runsTo ((mapIters H V κ).iter m), ?_⟩
  have hl := clone_law c d H h κ m st
  show (∃ x, κ.cloneD H.api hc c d m st = .panicked x) ↔ _
  cases hr : κ.cloneD H.api hc c d m st with
  | ok st' m' =>
    rw [hr] at hl
    refine ⟨fun ⟨_, e⟩ => (nomatch e), fun e => ?_⟩
    rw [hl.1] at e
    exact nomatch e
  | panicked x =>
    rw [hr] at hl
    exact ⟨fun _ => hl.1, fun _ => ⟨x, rfl⟩⟩

theorem cloneRef_pure {K : Type} (f : V → V) (hcf : ∀ st v, c st v = (st, some (f v))) (l : List (K × V)) (st : σ) :
    cloneRef c l st = ⟨st, l.map fun p => (p.1, f p.2), false⟩ := by
  induction l generalizing st with
  | nil => rfl
  | cons p l ih => simp [cloneRef, hcf, ih]

/-- C70: with a `V::clone` without effects, `clone` does not panic and is the `clone` of C28. -/
theorem C70_pure (h : TableCloneLaw H V hc) (f : V → V) (hcf : ∀ st v, c st v = (st, some (f v))) (m : (mapStorage H.api V κ).S)
    (st : σ) :
    ∃ m', Map.cloneD H.api hc κ c d m st = .ok st m' ∧
      ∀ k, Map.get (mapStorage H.api V κ) m' k = Map.get (mapStorage H.api V κ) (Map.clone (mapStorage H.api V κ) f m) k := by
  have hl := clone_law c d H h κ m st
  show ∃ m', κ.cloneD H.api hc c d m st = .ok st m' ∧ _
  cases hr : κ.cloneD H.api hc c d m st with
  | panicked x =>
    rw [hr] at hl
    have := hl.1
    rw [cloneRef_pure c f hcf] at this
    exact nomatch this
  | ok st' m' =>
    rw [hr] at hl
    obtain ⟨-, h2, h3, -⟩ := hl
    rw [cloneRef_pure c f hcf] at h2 h3
    refine ⟨m', by rw [h2], fun k => ?_⟩
    apply Option.ext
    intro w
    let L := mapCore H V κ
    have e1 := (L.mem_entries m' k w).symm.trans h3.mem_iff
    refine e1.trans ?_
    rw [show Map.get (mapStorage H.api V κ) (Map.clone (mapStorage H.api V κ) f m) k = _ from L.get_clone f m k, List.mem_map]
    constructor
    · rintro ⟨⟨k', v⟩, hm, e⟩
      cases e
      rw [(L.mem_entries m k' v).mp hm]
      rfl
    · intro e
      obtain ⟨v, e1, e2⟩ := Option.map_eq_some_iff.mp e
      exact ⟨(k, v), (L.mem_entries m k v).mpr e1, by rw [e2]⟩

/-- C70, `clone_from`: if a clone panics, the target is as before and none of its values is dropped; otherwise it holds the
clone, and its old values have been dropped (or, after a panic of a destructor, leaked by a hash table or lost in an abort). -/
theorem C70_clone_from (self source : (mapStorage H.api V κ).S) (st : σ) :
    let M := mapStorage H.api V κ
    let r := Map.cloneFromD H.api hc κ c d self source st
    (∀ x, Map.cloneD H.api hc κ c d source st = .panicked x → r = (self, x)) ∧
    (∀ st' m', Map.cloneD H.api hc κ c d source st = .ok st' m' → r.1 = m' ∧
      ∃ l lost, (Map.iter M).runsTo self l ∧ (r.2.dropped ++ r.2.leaked ++ lost).Perm (l.map Prod.snd) ∧
        (r.2.fate ≠ .aborted → lost = []) ∧ (r.2.fate = .normal → r.2.leaked = []) ∧ r.2.Honest d st') := by
  refine ⟨fun x e => ?_, fun st' m' e => ?_⟩
  · simp only [Map.cloneFromD, e]
  · simp only [Map.cloneFromD, e]
    refine ⟨trivial, ?_⟩
    obtain ⟨l, lost, h1, h2, h3, h4, -, h6⟩ := C67_drop H κ d self st'
    exact ⟨l, lost, h1, h2, h3, h4, h6⟩

/-- hashbrown's `clone` for the example table. -/
def Ex.cloneHash : TableCloneApi Ex.H.api Nat := fun K _ _ c t st =>
  let r := cloneRef c t.1 st
  (r.st, r.made.map Prod.snd,
    if h : r.panicked = false then
      some ⟨r.made, by
        have hk : ∀ (l : List (K × Nat)) st, (cloneRef c l st).panicked = false →
            (cloneRef c l st).made.map Prod.fst = l.map Prod.fst := by
          intro l
          induction l with
          | nil => exact fun _ _ => rfl
          | cons p l ih =>
            intro st hp
            obtain ⟨k, v⟩ := p
            obtain ⟨⟨st', _ | w⟩, hr⟩ : ∃ r, c st v = r := ⟨_, rfl⟩
            · simp [cloneRef, hr] at hp
            · simp only [cloneRef, hr] at hp
              simp [cloneRef, hr, ih st' hp]
        rw [hk t.1 st h]
        exact t.2⟩
    else none)

theorem C70_satisfiable : TableCloneLaw Ex.H Nat Ex.cloneHash := by
  intro K _ σ c t st
  refine ⟨rfl, rfl, ?_, ?_⟩
  · show (if h : (cloneRef c t.1 st).panicked = false then _ else none) = none ↔ (cloneRef c t.1 st).panicked = true
    split
    · rename_i h
      rw [h]
      exact ⟨fun e => (nomatch e), fun e => (nomatch e)⟩
    · rename_i h
      exact ⟨fun _ => by simpa using h, fun _ => rfl⟩
  · intro t' e
    have e : (if h : (cloneRef c t.1 st).panicked = false then _ else none) = some t' := e
    split at e
    · injection e with e
      subst e
      exact .refl _
    · exact nomatch e

/-- A `clone` that counts its calls, adds 100, and panics on the given values. -/
def Ex.cloner (bad : List Nat) : Cloner Nat Nat := fun n v => (n + 1, if bad.contains v then none else some (v + 100))

/-- What happened: the clone's values under six keys, or the fate and the drops. -/
def Ex.cloneResult (r : Cloned Nat Nat Ex.M.S) : Nat × List (Option Nat) ⊕ Fate × Nat × List Nat :=
  match r with
  | .ok st m => .inl (st, [Ex.simple, Ex.flag false, Ex.byte 7, Ex.byte 200, Ex.opt (some 1), Ex.opt none].map (Map.get Ex.M m))
  | .panicked x => .inr (x.fate, x.st, x.dropped)

/-- `Ex.map` holds 6, 1, 3, 2, 4, 5: six calls, a clone of every value. -/
example : Ex.cloneResult (Map.cloneD Ex.H.api Ex.cloneHash Ex.key (Ex.cloner []) (Ex.dtor []) Ex.map 0) =
    .inl (6, [some 106, some 101, some 102, some 103, some 104, some 105]) := rfl
/-- The clone of 4 panics: the clones of 6, 1, 3, 2 are dropped, in reverse order of the fields. -/
example : Ex.cloneResult (Map.cloneD Ex.H.api Ex.cloneHash Ex.key (Ex.cloner [4]) (Ex.dtor []) Ex.map 0) =
    .inr (.unwinding, 9, [103, 102, 101, 106]) := rfl
/-- It panics inside the hash table, and then a destructor panics as well: abort. -/
example : Ex.cloneResult (Map.cloneD Ex.H.api Ex.cloneHash Ex.key (Ex.cloner [2]) (Ex.dtor [101]) Ex.map 0) =
    .inr (.aborted, 6, [103, 101]) := rfl
/-- `clone_from` onto `Ex.map`: the old values are dropped, or the target is unchanged. -/
example : (Map.cloneFromD Ex.H.api Ex.cloneHash Ex.key (Ex.cloner []) (Ex.dtor []) Ex.map (Map.new Ex.M) 0).2.dropped = [6, 1, 3, 2, 4, 5] ∧
    (Map.cloneFromD Ex.H.api Ex.cloneHash Ex.key (Ex.cloner [6]) (Ex.dtor []) Ex.map Ex.map 0).2.dropped = [] := ⟨rfl, rfl⟩
/-- Three unit variants: the third clone panics, the first two are dropped in order. -/
example : (match Map.cloneD Ex.H.api Ex.cloneHash (.units 3) (Ex.cloner [9]) (Ex.dtor []) (#v[some 7, some 8, some 9] : UnitsSt 3 Nat) 0 with
    | .ok _ _ => none
    | .panicked x => some (x.fate, x.dropped)) = some (.unwinding, [107, 108]) := rfl

/-- The order for `enum { A, B(bool), C(Option<bool>) }`: a panic at `C(Some(false))` drops `C(Some(true))`, then `B`, then `A`. -/
example : KeyTy.unwindKeys (.enum (.simple (.complex .bool (.complex (.opt .bool) .nil)))) (.inr (.inr (.inl (some false)))) =
    [.inr (.inr (.inl (some true))), .inr (.inl true), .inr (.inl false), .inl ()] := rfl
/-- And the run: the clones of 1, 2, 3 are made, 5 panics. -/
example : (match Map.cloneD Ex.H.api Ex.cloneHash (.enum (.simple (.complex .bool (.complex (.opt .bool) .nil)))) (Ex.cloner [5]) (Ex.dtor [])
      (some 1, (⟨some 2, some 3⟩, (⟨⟨none, some 5⟩, some 6⟩, ()))) 0 with
    | .ok _ _ => none
    | .panicked x => some (x.fate, x.dropped)) = some (.unwinding, [102, 103, 101]) := rfl

end FixedMap
