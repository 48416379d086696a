import Verif.Proofs.IterBatches
import Verif.Properties.IterDrop

/-! # C67 and C69, exactly: which values are dropped, leaked and kept when destructors panic -/

set_option autoImplicit false
set_option linter.unusedSimpArgs false

namespace FixedMap

variable (H : Hashbrown) {σ V : Type} (κ : KeyTy) (d : Dtor σ V)

/-- C67, `clear` exactly: it drops batch after batch and stops at the first panic; the later batches stay in the map. -/
theorem C67_clear_exact (m : (mapStorage H.api V κ).S) (st : σ) :
    let M := mapStorage H.api V κ
    let r := Map.clearD H.api κ d m st
    ∃ l bs, (Map.iter M).runsTo m l ∧ IsBatches κ.together κ.inTable bs l ∧ r.2 = (clearBatches d bs (.start st)).2 ∧
      (Map.iter M).runsTo r.1 ((clearBatches d bs (.start st)).1.flatMap (·.entries)) := by
  intro M r
  obtain ⟨bs, h⟩ := batch_law H d κ m
  obtain ⟨h1, h2⟩ := h.clear (.start st) rfl
  refine ⟨_, bs, Yields.runsTo ((mapIters H V κ).iter m), h.is, h1, ?_⟩
  rw [← h2]
  exact Yields.runsTo ((mapIters H V κ).iter _)

/-- C67, dropping a map exactly: it drops batch after batch, whether or not a destructor panics. -/
theorem C67_drop_exact (m : (mapStorage H.api V κ).S) (st : σ) :
    let M := mapStorage H.api V κ
    ∃ l bs, (Map.iter M).runsTo m l ∧ IsBatches κ.together κ.inTable bs l ∧
      Map.dropD H.api κ d m st = dropBatches d bs (.start st) := by
  intro M
  obtain ⟨bs, h⟩ := batch_law H d κ m
  exact ⟨_, bs, Yields.runsTo ((mapIters H V κ).iter m), h.is, h.drop _⟩

/-- C69 exactly: dropping an owning iterator drops what it has not handed out, batch after batch. -/
theorem C69_drop_exact {held : HeldApi H.api V} (hh : HeldLaw H V held) (m : (mapStorage H.api V κ).S) (ds : List Dir) outs it
    (hr : (Map.intoIter (mapStorage H.api V κ)).I.run ds ((Map.intoIter (mapStorage H.api V κ)).init m) = some (outs, it))
    (st : σ) :
    ∃ l bs, (Map.iter (mapStorage H.api V κ)).runsTo m l ∧ outs = (dequeRun ds l).1 ∧
      IsBatches κ.together κ.inTable bs (dequeRun ds l).2 ∧
      Map.dropIntoIter H.api held κ d it st = dropBatches d bs (.start st) := by
  obtain ⟨-, bs, h1, h2⟩ := (intoIter_dropsBy H hh d κ).run m hr
  exact ⟨_, bs, Yields.runsTo ((mapIters H V κ).iter m), Yields.actsAs ((mapIters H V κ).intoIter m) ds outs it hr, h1, h2 _⟩

/-- Without hash tables the batches are determined by the entries: the whole outcome of `clear` is a function of the list of entries
in `iter()` order. -/
theorem C67_clear_plain (hf : κ.hashFree = true) (m : (mapStorage H.api V κ).S) (st : σ) :
    let M := mapStorage H.api V κ
    let r := Map.clearD H.api κ d m st
    ∃ l, (Map.iter M).runsTo m l ∧ r.2 = (clearBatches d (plainBatches κ l) (.start st)).2 ∧
      (Map.iter M).runsTo r.1 ((clearBatches d (plainBatches κ l) (.start st)).1.flatMap (·.entries)) := by
  intro M r
  obtain ⟨l, bs, h1, h2, h3, h4⟩ := C67_clear_exact H κ d m st
  obtain ⟨g1, g2⟩ := (batches_plain (d := d) (hashFree_inTable κ hf) bs l h2).2 (.start st)
  refine ⟨l, h1, h3.trans g1, ?_⟩
  rw [g2] at h4
  exact h4

/-- The same for dropping a map. -/
theorem C67_drop_plain (hf : κ.hashFree = true) (m : (mapStorage H.api V κ).S) (st : σ) :
    ∃ l, (Map.iter (mapStorage H.api V κ)).runsTo m l ∧ Map.dropD H.api κ d m st = dropBatches d (plainBatches κ l) (.start st) := by
  obtain ⟨l, bs, h1, h2, h3⟩ := C67_drop_exact H κ d m st
  exact ⟨l, h1, h3.trans ((batches_plain (hashFree_inTable κ hf) bs l h2).1 _)⟩

/-- A map over `Option<bool>` with 1, 2, 3 for `Some(true)`, `Some(false)`, `None`: three batches, `clear` stops after the second. A
map over a unit enum is one batch: `clear` drops all of it. -/
example :
    let κ : KeyTy := .opt .bool
    let M := mapStorage Ex.H.api Nat κ
    let m := (Map.fromIter M [(none, 3), (some true, 1), (some false, 2)]).1
    let u : KeyTy := .units 3
    let U := mapStorage Ex.H.api Nat u
    let n := (Map.fromIter U [((0 : Fin 3), 1), ((1 : Fin 3), 2), ((2 : Fin 3), 3)]).1
    (plainBatches κ [(some true, 1), (some false, 2), (none, 3)]).map (·.order) = [[1], [2], [3]] ∧
    (Map.clearD Ex.H.api κ (Ex.dtor [2]) m 0).2 = ⟨2, .unwinding, [1, 2], []⟩ ∧
    (plainBatches u [((0 : Fin 3), 1), ((1 : Fin 3), 2), ((2 : Fin 3), 3)]).map (·.order) = [[1, 2, 3]] ∧
    (Map.clearD Ex.H.api u (Ex.dtor [2]) n 0).2 = ⟨3, .unwinding, [1, 2, 3], []⟩ := ⟨rfl, rfl, rfl, rfl⟩

/-- The batches of `Ex.map`: the simple variant, the flag, the hash table with two values, then `Some(_)` and `None` of the optional
payload. `clear` stops at the batch in which 3 panics and leaves the last two. -/
example :
    let bs : List (Batch Ex.key.Key Nat) := [⟨false, [(Ex.simple, 6)], [6]⟩, ⟨false, [(Ex.flag false, 1)], [1]⟩,
      ⟨true, [(Ex.byte 200, 3), (Ex.byte 7, 2)], [3, 2]⟩, ⟨false, [(Ex.opt (some 1), 4)], [4]⟩, ⟨false, [(Ex.opt none, 5)], [5]⟩]
    (clearBatches (Ex.dtor [3]) bs (.start 0)).2 = ⟨3, .unwinding, [6, 1, 3], [2]⟩ ∧
    ((clearBatches (Ex.dtor [3]) bs (.start 0)).1.flatMap (·.order)) = [4, 5] ∧
    dropBatches (Ex.dtor [3]) bs (.start 0) = ⟨5, .unwinding, [6, 1, 3, 4, 5], [2]⟩ ∧
    (Map.clearD Ex.H.api Ex.key (Ex.dtor [3]) Ex.map 0).2 = ⟨3, .unwinding, [6, 1, 3], [2]⟩ ∧
    Map.dropD Ex.H.api Ex.key (Ex.dtor [3]) Ex.map 0 = ⟨5, .unwinding, [6, 1, 3, 4, 5], [2]⟩ := ⟨rfl, rfl, rfl, rfl, rfl⟩

theorem fromIterD_stop (st : σ) : (l : List (κ.Key × V)) → (m : (mapStorage H.api V κ).S) → (x : Drops σ V) → x.fate = .normal →
    x.Honest d st →
    let M := mapStorage H.api V κ
    let r := fromIterD H.api d κ l m x
    let q := fun l : List (κ.Key × V) =>
      l.foldl (fun acc p => ((Map.insert M acc.1 p.1 p.2).2, acc.2 ++ (Map.insert M acc.1 p.1 p.2).1.toList)) (m, x.dropped)
    r.2.2.fate ≠ .normal → ∃ pre p post old, ∃ y : Drops σ V, l = pre ++ p :: post ∧ r.2.1 = pre.length + 1 ∧
      y.fate = .normal ∧ y.dropped = (q pre).2 ∧ y.leaked = x.leaked ∧ y.Honest d st ∧
      (Map.insert M (q pre).1 p.1 p.2).1 = some old ∧ (d y.st old).2 = true ∧
      r.2.2 = κ.dropD H.api d (Map.insert M (q pre).1 p.1 p.2).2 (y.value d old)
  | [], m, x, h, _ => fun e => absurd h e
  | p :: l, m, x, h, hh => by
    intro M r q e
    let i := Map.insert M m p.1 p.2
    by_cases hy : (x.slot d i.1).fate = .normal
    · have er : r = ((fromIterD H.api d κ l i.2 (x.slot d i.1)).1, (fromIterD H.api d κ l i.2 (x.slot d i.1)).2.1 + 1,
          (fromIterD H.api d κ l i.2 (x.slot d i.1)).2.2) := if_pos hy
      obtain ⟨s1, s2⟩ := slot_normal d hy
      rw [er] at e ⊢
      obtain ⟨pre, p', post, old, y, h1, h2, h3, h4, h5, h6, h7, h8, h9⟩ := fromIterD_stop st l i.2 (x.slot d i.1) hy (hh.slot _) e
      rw [s1] at h4 h7 h9
      exact ⟨p :: pre, p', post, old, y, by rw [h1]; rfl, by rw [h2]; rfl, h3, h4, h5.trans s2, h6, h7, h8, h9⟩
    · have er : r = (none, 1, κ.dropD H.api d i.2 (x.slot d i.1)) := if_neg hy
      rw [er]
      cases ho : i.1 with
      | none => rw [ho] at hy; exact absurd h hy
      | some old =>
        refine ⟨[], p, l, old, x, rfl, rfl, h, rfl, rfl, hh, ho, ?_, rfl⟩
        rw [ho] at hy
        cases hd : (d x.st old).2 with
        | true => rfl
        | false => exact absurd (by simp [Drops.slot, Drops.value, h, hd]) hy

/-- C67, a panic in `FromIterator`, exactly: the items `pre` were inserted and no destructor panicked; inserting the next item returned
a value whose destructor panics. No further item is taken, and the map built so far is dropped while unwinding. -/
theorem C67_fromIter_panic (l : List (κ.Key × V)) (st : σ) :
    let M := mapStorage H.api V κ
    let r := Map.fromIterD H.api κ d l st
    r.2.2.fate ≠ .normal → ∃ pre p post old m' l' bs, l = pre ++ p :: post ∧ r.2.1 = pre.length + 1 ∧
      (runDtors d (Map.fromIter M pre).2 st).2 = 0 ∧ Map.insert M (Map.fromIter M pre).1 p.1 p.2 = (some old, m') ∧
      (d (runDtors d (Map.fromIter M pre).2 st).1 old).2 = true ∧ (Map.iter M).runsTo m' l' ∧
      IsBatches κ.together κ.inTable bs l' ∧
      r.2.2 = dropBatches d bs ⟨(d (runDtors d (Map.fromIter M pre).2 st).1 old).1, .unwinding, (Map.fromIter M pre).2 ++ [old], []⟩ := by
  intro M r e
  obtain ⟨pre, p, post, old, y, h1, h2, h3, h4, h5, h6, h7, h8, h9⟩ :=
    fromIterD_stop H κ d st l (Map.new M) (.start st) rfl (honest_start d st) e
  obtain ⟨bs, hb⟩ := batch_law H d κ (Map.insert M (Map.fromIter M pre).1 p.1 p.2).2
  have e4 : y.dropped = (Map.fromIter M pre).2 := h4
  have es : y.st = (runDtors d (Map.fromIter M pre).2 st).1 := e4 ▸ h6.st_eq
  have ef : (runDtors d (Map.fromIter M pre).2 st).2 = 0 := by
    have := h6.fate_eq
    rw [h3, e4] at this
    revert this
    rcases (runDtors d (Map.fromIter M pre).2 st).2 with _ | _ | n
    · exact fun _ => rfl
    · exact fun h => nomatch h
    · exact fun h => nomatch h
  refine ⟨pre, p, post, old, _, _, bs, h1, h2, ef, Prod.ext h7 rfl, es ▸ h8, Yields.runsTo ((mapIters H V κ).iter _), hb.is, ?_⟩
  refine (h9.trans (hb.drop _)).trans (congrArg (dropBatches d bs) ?_)
  rw [← es, ← e4]
  have e5 : y.leaked = [] := h5
  simp [Drops.value, h3, h8, e5, Fate.panic]

/-- The third item replaces 1, which panics; the map holding 3 and 2 is dropped while unwinding, and 2 panics again: abort. -/
example :
    let l := [(Ex.simple, 1), (Ex.byte 7, 2), (Ex.simple, 3), (Ex.byte 9, 4)]
    let r := Map.fromIterD Ex.H.api Ex.key (Ex.dtor [1, 2]) l 0
    (r.2.1, r.2.2.fate, r.2.2.dropped) = (3, .aborted, [1, 3, 2]) ∧
    (Map.fromIter Ex.M (l.take 2)).2 = [] ∧ (Map.insert Ex.M (Map.fromIter Ex.M (l.take 2)).1 Ex.simple 3).1 = some 1 := ⟨rfl, rfl, rfl⟩

end FixedMap
