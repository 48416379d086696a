import Verif.Properties.MapIter
import Verif.Properties.SetIter
import Verif.Proofs.LoopWord

/-! # C58: the loops of the generated iterators on machine words -/

set_option autoImplicit false
set_option linter.unusedSimpArgs false

namespace FixedMap

theorem mapFields_count (H : HashbrownApi) (V : Type) (fs : Fields) :
    let F := mapFields H V fs
    F.iter.count = fs.count ∧ F.keys.count = fs.count ∧ F.values.count = fs.count ∧ F.iterMut.count = fs.count ∧
      F.valuesMut.count = fs.count ∧ F.intoIter.count = fs.count := by
  match fs with
  | .nil => exact ⟨rfl, rfl, rfl, rfl, rfl, rfl⟩
  | .simple fs =>
    obtain ⟨h1, h2, h3, h4, h5, h6⟩ := mapFields_count H V fs
    exact ⟨congrArg (· + 1) h1, congrArg (· + 1) h2, congrArg (· + 1) h3, congrArg (· + 1) h4, congrArg (· + 1) h5,
      congrArg (· + 1) h6⟩
  | .complex κ fs =>
    obtain ⟨h1, h2, h3, h4, h5, h6⟩ := mapFields_count H V fs
    exact ⟨congrArg (· + 1) h1, congrArg (· + 1) h2, congrArg (· + 1) h3, congrArg (· + 1) h4, congrArg (· + 1) h5,
      congrArg (· + 1) h6⟩

theorem setFields_count (H : HashbrownApi) (fs : Fields) :
    (setFields H fs).iter.count = fs.count ∧ (setFields H fs).intoIter.count = fs.count := by
  match fs with
  | .nil => exact ⟨rfl, rfl⟩
  | .simple fs =>
    obtain ⟨h1, h2⟩ := setFields_count H fs
    exact ⟨congrArg (· + 1) h1, congrArg (· + 1) h2⟩
  | .complex κ fs =>
    obtain ⟨h1, h2⟩ := setFields_count H fs
    exact ⟨congrArg (· + 1) h1, congrArg (· + 1) h2⟩

/-- C58: with fewer than `2^w` variants, the six generated map iterators on `w`-bit words end every call of every
schedule, and return what a deque over the items of their `for` loop returns. -/
theorem C58_map (H : Hashbrown) (V : Type) (fs : Fields) (w : Nat) (hw : fs.count < 2 ^ w)
    (m : (mapStorage H.api V (.enum fs)).S) :
    let M := mapStorage H.api V (.enum fs)
    let F := mapFields H.api V fs
    ∃ l keys refs, (Map.iter M).runsTo m l ∧ (Map.keys M).runsTo m keys ∧ (Map.iterMut M).runsTo m refs ∧
      F.iter.wordsOk w m l ∧ F.intoIter.wordsOk w m l ∧ F.keys.wordsOk w m keys ∧ F.values.wordsOk w m (l.map Prod.snd) ∧
      F.iterMut.wordsOk w m refs ∧ F.valuesMut.wordsOk w m (refs.map Prod.snd) := by
  obtain ⟨h1, h2, h3, h4, h5, h6⟩ := mapFields_count H.api V fs
  have I := mapIters H V (.enum fs)
  exact ⟨_, _, _, Yields.runsTo (I.iter m), Yields.runsTo (I.keys m), Yields.runsTo (I.iterMut m),
    wordsOk_of w _ m _ (h1 ▸ hw) (I.iter m), wordsOk_of w _ m _ (h6 ▸ hw) (I.intoIter m),
    wordsOk_of w _ m _ (h2 ▸ hw) (I.keys m), wordsOk_of w _ m _ (h3 ▸ hw) (I.values m),
    wordsOk_of w _ m _ (h4 ▸ hw) (I.iterMut m), wordsOk_of w _ m _ (h5 ▸ hw) (I.valuesMut m)⟩

/-- C58: the same for the two set iterators. -/
theorem C58_set (H : Hashbrown) (fs : Fields) (w : Nat) (hw : fs.count < 2 ^ w) (s : (setStorage H.api (.enum fs)).S)
    (hs : Reachable (setStorage H.api (.enum fs)) s) :
    let N := setStorage H.api (.enum fs)
    let F := setFields H.api fs
    ∃ l, (FSet.iter N).runsTo s l ∧ (FSet.intoIter N).runsTo s l ∧ F.iter.wordsOk w s l ∧ F.intoIter.wordsOk w s l := by
  obtain ⟨h1, h2⟩ := setFields_count H.api fs
  have hv := hs.valid (setLaws H (.enum fs))
  have I := setIters H (.enum fs)
  exact ⟨_, Yields.runsTo (I.iter s hv), Yields.runsTo (I.intoIter s hv), wordsOk_of w _ s _ (h1 ▸ hw) (I.iter s hv),
    wordsOk_of w _ s _ (h2 ▸ hw) (I.intoIter s hv)⟩

/-- Case: seven calls on the iterator of `Ex.map`, with three-bit words (`ExKey` has four variants). -/
example : Ex.key = .enum (.simple (.complex .bool (.complex (.prim .u8) (.complex (.opt (.units 2)) .nil)))) ∧
    Fields.count (.simple (.complex .bool (.complex (.prim .u8) (.complex (.opt (.units 2)) .nil)))) < 2 ^ 3 ∧
    let F := (mapFields Ex.H.api Nat (.simple (.complex .bool (.complex (.prim .u8) (.complex (.opt (.units 2)) .nil))))).iter
    F.wordRun 3 5 (List.replicate 7 .front) (F.wordInit 3 Ex.map) =
      some [some (Ex.simple, 6), some (Ex.flag false, 1), some (Ex.byte 200, 3), some (Ex.byte 7, 2),
        some (Ex.opt (some 1), 4), some (Ex.opt none, 5), none] := ⟨rfl, by decide, rfl⟩

/-- Case: from both ends, in an enum `{ A, B(bool), C }` with two-bit words; `next_back` runs `end` down to `start`. -/
example :
    let fs : Fields := .simple (.complex .bool (.simple .nil))
    let m := (Map.fromIter (mapStorage Ex.H.api Nat (.enum fs)) [(Sum.inr (Sum.inl true), 1), (Sum.inr (Sum.inl false), 2)]).1
    let F := (mapFields Ex.H.api Nat fs).values
    fs.count < 2 ^ 2 ∧ F.wordRun 2 4 [.back, .back, .back, .front, .back] (F.wordInit 2 m) =
      some [some 2, some 1, none, none, none] := ⟨by decide, rfl⟩

/-- C58: the bound is needed: with `2^w` variants the literal `#end` would be `0` and the loop would end at once. (rustc
rejects such a literal.) -/
theorem C58_bound_needed : ∃ (fs : Fields) (m : (mapStorage Ex.H.api Nat (.enum fs)).S), fs.count = 2 ^ 1 ∧
    (Map.values (mapStorage Ex.H.api Nat (.enum fs))).runsTo m [7] ∧
    ¬ (mapFields Ex.H.api Nat fs).values.wordsOk 1 m [7] := by
  refine ⟨.simple (.simple .nil), (some 7, (none, ())), rfl, ?_, ?_⟩
  · exact Yields.runsTo ((mapIters Ex.H Nat (.enum (.simple (.simple .nil)))).values (some 7, (none, ())))
  · intro h
    obtain ⟨n, hn⟩ := h [.front] (by simp)
    have := hn (n + 1) (by omega)
    revert this
    show ¬ (some [none] = some [some 7])
    simp

end FixedMap
