import Verif.Proofs.IterDrop
import Verif.Properties.DropPanic

/-! # C69: an owning iterator drops what it has not handed out -/

set_option autoImplicit false
set_option linter.unusedSimpArgs false

namespace FixedMap

variable (H : Hashbrown) {σ V : Type} (κ : KeyTy) (d : Dtor σ V) {held : HeldApi H.api V}

/-- The values handed out by a run. -/
def handedOut {K : Type} (outs : List (Option (K × V))) : List V := outs.filterMap (Option.map Prod.snd)

/-- C69: `map.into_iter()` is used from both ends in any order and then dropped. The values dropped, leaked (only by a hash table,
only after a panic) or lost (only in an abort) are those that were not handed out. Without hash tables nothing is leaked
and the order is that of the iterator. -/
theorem C69_drop (hh : HeldLaw H V held) (m : (mapStorage H.api V κ).S) (ds : List Dir) outs it
    (hr : (Map.intoIter (mapStorage H.api V κ)).I.run ds ((Map.intoIter (mapStorage H.api V κ)).init m) = some (outs, it))
    (st : σ) :
    let x := Map.dropIntoIter H.api held κ d it st
    ∃ l lost, (Map.iter (mapStorage H.api V κ)).runsTo m l ∧ outs = (dequeRun ds l).1 ∧
      (x.dropped ++ x.leaked ++ lost).Perm ((dequeRun ds l).2.map Prod.snd) ∧
      (x.fate ≠ .aborted → lost = []) ∧ (x.fate = .normal → x.leaked = []) ∧
      (κ.hashFree = true → x.leaked = [] ∧ x.dropped ++ lost = (dequeRun ds l).2.map Prod.snd) ∧ x.Honest d st := by
  intro x
  obtain ⟨dr, lk, lost, h⟩ := (intoIter_dropsAs H hh d κ).run m hr (.start st)
  have e1 : x.dropped = dr := h.dropped
  have e2 : x.leaked = lk := h.leaked
  refine ⟨_, lost, Yields.runsTo ((mapIters H V κ).iter m), Yields.actsAs ((mapIters H V κ).intoIter m) ds outs it hr, ?_,
    h.lost_nil, fun e => e2.trans (h.lk_nil e), ?_, ?_⟩
  · rw [e1, e2]; exact h.perm
  · rw [e1, e2]; exact h.exact
  · exact dropIntoIter_honest H.api held d st κ it _ (honest_start d st)

theorem dequeRun_perm {K : Type} (ds : List Dir) (l : List (K × V)) :
    (handedOut (dequeRun ds l).1 ++ (dequeRun ds l).2.map Prod.snd).Perm (l.map Prod.snd) := by
  induction ds generalizing l with
  | nil => exact .refl _
  | cons d ds ih =>
    cases d with
    | front =>
      cases l with
      | nil => exact ih []
      | cons p l => exact (ih l).cons p.2
    | back =>
      rcases List.eq_nil_or_concat l with rfl | ⟨l, p, rfl⟩
      · exact ih []
      · have e1 : dequeStep .back (l ++ [p]) = (some p, l) := by
          simp [dequeStep, List.dropLast_concat]
        simp only [dequeRun, List.concat_eq_append, e1]
        show (p.2 :: (handedOut (dequeRun ds l).1 ++ (dequeRun ds l).2.map Prod.snd)).Perm _
        rw [List.map_append]
        exact ((ih l).cons p.2).trans (by simpa using (List.perm_append_singleton p.2 (l.map Prod.snd)).symm)

/-- C69: if no destructor panics, every value of the map is handed out or dropped, exactly once. -/
theorem C69_once (hh : HeldLaw H V held) (hd : ∀ st v, (d st v).2 = false) (m : (mapStorage H.api V κ).S) (ds : List Dir) outs it
    (hr : (Map.intoIter (mapStorage H.api V κ)).I.run ds ((Map.intoIter (mapStorage H.api V κ)).init m) = some (outs, it))
    (st : σ) : ∃ l, (Map.iter (mapStorage H.api V κ)).runsTo m l ∧
      (handedOut outs ++ (Map.dropIntoIter H.api held κ d it st).dropped).Perm (l.map Prod.snd) := by
  obtain ⟨l, lost, h1, h2, h3, h4, h5, h6, h7⟩ := C69_drop H κ d hh m ds outs it hr st
  have hp : ∀ vs st, (runDtors d vs st).2 = 0 := by
    intro vs
    induction vs with
    | nil => exact fun _ => rfl
    | cons v vs ih => intro st; simp [runDtors, ih, hd]
  have hn : (Map.dropIntoIter H.api held κ d it st).fate = .normal := by rw [h7.fate_eq, hp]; rfl
  rw [h5 hn, h4 (by rw [hn]; exact fun e => nomatch e), List.append_nil, List.append_nil] at h3
  refine ⟨l, h1, ?_⟩
  rw [h2]
  exact (h3.append_left _).trans (dequeRun_perm ds l)

/-- C69: an iterator that has returned `None` holds nothing. -/
theorem C69_exhausted (hh : HeldLaw H V held) (m : (mapStorage H.api V κ).S) (ds : List Dir) outs it
    (hr : (Map.intoIter (mapStorage H.api V κ)).I.run ds ((Map.intoIter (mapStorage H.api V κ)).init m) = some (outs, it))
    (hn : none ∈ outs) (st : σ) :
    let x := Map.dropIntoIter H.api held κ d it st
    x.st = st ∧ x.fate = .normal ∧ x.dropped = [] ∧ x.leaked = [] := by
  intro x
  obtain ⟨l, lost, h1, h2, h3, h4, h5, h6, h7⟩ := C69_drop H κ d hh m ds outs it hr st
  have he : ∀ (ds : List Dir) (l : List (κ.Key × V)), none ∈ (dequeRun ds l).1 → (dequeRun ds l).2 = [] := by
    have h0 : ∀ ds : List Dir, (dequeRun ds ([] : List (κ.Key × V))).2 = [] := by
      intro ds
      induction ds with
      | nil => rfl
      | cons d ds ih => cases d <;> exact ih
    intro ds
    induction ds with
    | nil => intro l h; nomatch h
    | cons d ds ih =>
      intro l h
      rcases List.mem_cons.mp h with h | h
      · have : l = [] := by
          cases d with
          | front => exact head?_none_iff.mp h.symm
          | back => exact List.getLast?_eq_none_iff.mp h.symm
        subst this
        cases d <;> exact h0 ds
      · exact ih _ h
  rw [he ds l (h2 ▸ hn), List.map_nil] at h3
  have h8 := List.append_eq_nil_iff.mp h3.eq_nil
  have h9 := List.append_eq_nil_iff.mp h8.1
  refine ⟨?_, ?_, h9.1, h9.2⟩
  · rw [h7.st_eq, h9.1]; rfl
  · rw [h7.fate_eq, h9.1]; rfl

/-- The example table: the remaining items. -/
def Ex.heldHash : HeldApi Ex.H.api Nat := fun K _ st => (show List (K × Nat) from st).map Prod.snd

theorem listIter_rest {α : Type} (ds : List Dir) (l : List α) outs st (hr : (Assoc.listIter α).run ds l = some (outs, st)) :
    st = (dequeRun ds l).2 := by
  induction ds generalizing l outs with
  | nil => cases hr; rfl
  | cons d ds ih =>
    cases d with
    | front =>
      obtain ⟨⟨o, s⟩, e1, e2⟩ := Option.map_eq_some_iff.mp (show ((Assoc.listIter α).run ds l.tail).map _ = some (outs, st) from hr)
      cases e2
      exact ih _ _ e1
    | back => exact nomatch (show (none : Option (List (Option α) × List α)) = some (outs, st) from hr)

theorem C69_satisfiable : HeldLaw Ex.H Nat Ex.heldHash := fun K _ t ds outs st hr => by
  have := listIter_rest (α := K × Nat) ds _ outs st hr
  subst this
  exact .refl _

/-- `Ex.map` holds 6, 1, 3, 2, 4, 5: after two calls of `next` the rest is dropped; if the destructor of 3 panics, the hash table
leaks 2 and the later fields are still dropped. -/
example :
    let r := (Map.intoIter Ex.M).I.run [.front, .front] ((Map.intoIter Ex.M).init Ex.map)
    r.map (fun r => (handedOut r.1, (Map.dropIntoIter Ex.H.api Ex.heldHash Ex.key (Ex.dtor []) r.2 0).dropped)) =
      some ([6, 1], [3, 2, 4, 5]) ∧
    r.map (fun r => let x := Map.dropIntoIter Ex.H.api Ex.heldHash Ex.key (Ex.dtor [3]) r.2 0
      (x.fate, x.dropped, x.leaked)) = some (.unwinding, [3, 4, 5], [2]) := ⟨rfl, rfl⟩

/-- A derived enum `{ A, B(Units) }` with two units, all entries present, used from both ends: 2 is still held. -/
example :
    let κ : KeyTy := .enum (.simple (.complex (.units 2) .nil))
    let M := mapStorage Ex.H.api Nat κ
    let m := (Map.fromIter M [(.inl (), 1), (.inr (.inl (0 : Fin 2)), 2), (.inr (.inl (1 : Fin 2)), 3)]).1
    κ.hashFree = true ∧
    ((Map.intoIter M).I.run [.back, .front] ((Map.intoIter M).init m)).map
      (fun r => (handedOut r.1, (Map.dropIntoIter Ex.H.api Ex.heldHash κ (Ex.dtor [2]) r.2 0).dropped)) =
      some ([3, 1], [2]) := ⟨rfl, rfl⟩

/-- After `None` from both ends nothing is left. -/
example :
    let M := mapStorage Ex.H.api Nat (.opt .bool)
    let m := (Map.fromIter M [(none, 2), (some true, 3)]).1
    ((Map.intoIter M).I.run [.back, .front, .back] ((Map.intoIter M).init m)).map
      (fun r => (r.1, (Map.dropIntoIter Ex.H.api Ex.heldHash (.opt .bool) (Ex.dtor []) r.2 0).dropped)) =
      some ([some (none, 2), some (some true, 3), none], []) := rfl

end FixedMap
