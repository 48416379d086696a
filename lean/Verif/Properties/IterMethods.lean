import Verif.Proofs.IterMethods
import Verif.Properties.Fold

/-!
# C90: every method of an iterator agrees with `next`

`nth`, `advance_by`, `find`, `any`, `position`, `try_fold`, `rfind` and the like do not call `next` in the adapters of core, and leave a state behind.
-/

set_option autoImplicit false
set_option linter.unusedSimpArgs false

namespace FixedMap

/-- C90, maps: any sequence of calls of `next`, `next_back`, `advance_by`, `advance_back_by`, `nth`, `nth_back`, `try_fold`, `try_rfold`, `find` and
`rfind` returns what it returns on the list which a `for` loop goes through, and afterwards `size_hint`, `count`, `last`, `fold` and `rfold` fit the items
that are left. -/
theorem C90_map (H : Hashbrown) (V : Type) (κ : KeyTy) (m : (mapStorage H.api V κ).S) :
    let M := mapStorage H.api V κ
    let F := mapFolds H.api V κ
    let X := mapMethods H.api V κ
    (∃ l, M.iter.runsTo m l ∧ M.intoIter.runsTo m l ∧ M.values.runsTo m (l.map Prod.snd) ∧ M.iter.answersAs F.iter X.iter m l ∧
        M.intoIter.answersAs F.intoIter X.intoIter m l ∧ M.values.answersAs F.values X.values m (l.map Prod.snd)) ∧
      (∃ l, M.keys.runsTo m l ∧ M.keys.answersAs F.keys X.keys m l) ∧
      ∃ l, M.iterMut.runsTo m l ∧ M.valuesMut.runsTo m (l.map Prod.snd) ∧ M.iterMut.answersAs F.iterMut X.iterMut m l ∧
        M.valuesMut.answersAs F.valuesMut X.valuesMut m (l.map Prod.snd) :=
  have h := mapMethods_answer H V κ
  have hF := mapFolds_agree H.api V κ
  have y := mapIters H V κ
  ⟨⟨_, Yields.runsTo (y.iter m), Yields.runsTo (y.intoIter m), Yields.runsTo (y.values m), h.iter.answersAs hF.iter trivial (y.iter m),
      h.intoIter.answersAs hF.intoIter trivial (y.intoIter m), h.values.answersAs hF.values trivial (y.values m)⟩,
    ⟨_, Yields.runsTo (y.keys m), h.keys.answersAs hF.keys trivial (y.keys m)⟩,
    ⟨_, Yields.runsTo (y.iterMut m), Yields.runsTo (y.valuesMut m), h.iterMut.answersAs hF.iterMut trivial (y.iterMut m),
      h.valuesMut.answersAs hF.valuesMut trivial (y.valuesMut m)⟩⟩

/-- C90, sets. -/
theorem C90_set (H : Hashbrown) (κ : KeyTy) (s : (setStorage H.api κ).S) (hs : Reachable (setStorage H.api κ) s) :
    let M := setStorage H.api κ
    let F := setFolds H.api κ
    let X := setMethods H.api κ
    ∃ l, M.iter.runsTo s l ∧ M.intoIter.runsTo s l ∧ M.iter.answersAs F.iter X.iter s l ∧ M.intoIter.answersAs F.intoIter X.intoIter s l :=
  have hv := hs.valid (setLaws H κ)
  have h := setMethods_answer H κ
  have hF := setFolds_agree H.api κ
  have y := setIters H κ
  ⟨_, Yields.runsTo (y.iter s hv), Yields.runsTo (y.intoIter s hv), h.1.answersAs hF.1 hv (y.iter s hv), h.2.answersAs hF.2 hv (y.intoIter s hv)⟩

/-- C90, methods built on `try_fold`: `any`, `all` and `position`. -/
theorem C90_map_queries (H : Hashbrown) (V : Type) (κ : KeyTy) (m : (mapStorage H.api V κ).S) :
    let M := mapStorage H.api V κ
    let X := mapMethods H.api V κ
    ∃ l, M.iter.runsTo m l ∧ M.iter.queriesAs X.iter m l ∧ M.values.queriesAs X.values m (l.map Prod.snd) ∧
      ∃ ks, M.keys.runsTo m ks ∧ M.keys.queriesAs X.keys m ks :=
  have h := mapMethods_answer H V κ
  have y := mapIters H V κ
  ⟨_, Yields.runsTo (y.iter m), h.iter.queriesAs trivial (y.iter m), h.values.queriesAs trivial (y.values m), _, Yields.runsTo (y.keys m),
    h.keys.queriesAs trivial (y.keys m)⟩

theorem C90_set_queries (H : Hashbrown) (κ : KeyTy) (s : (setStorage H.api κ).S) (hs : Reachable (setStorage H.api κ) s) :
    ∃ l, (setStorage H.api κ).iter.runsTo s l ∧ (setStorage H.api κ).iter.queriesAs (setMethods H.api κ).iter s l :=
  have hv := hs.valid (setLaws H κ)
  ⟨_, Yields.runsTo ((setIters H κ).iter s hv), (setMethods_answer H κ).1.queriesAs hv ((setIters H κ).iter s hv)⟩

/-! ## Concrete cases -/

/-- A map whose keys are `Option`s of an enum (a chain of a flattened array and an option) with one empty slot: `nth` into the array, `nth_back` over the
end of the option, `advance_by` over the empty slot, and what is left. -/
example :
    let κ : KeyTy := .opt (.units 4)
    let M := mapStorage Ex.H.api Nat κ
    let X := mapMethods Ex.H.api Nat κ
    let m : M.S := (Map.fromIter M
      ([(none, 1), (some (0 : Fin 4), 2), (some (2 : Fin 4), 3), (some (3 : Fin 4), 4)] : List (Option (Fin 4) × Nat))).1
    (X.values.calls (σ := Nat) 9 [.nthBack 1, .nth 0, .advanceBy 5, .next] (M.values.init m)).map (fun r => r.1) =
      some [.item (some 4), .item (some 2), .missing 4, .item none] := rfl

/-- `try_fold` stops in the middle of the array, `rfind` starts behind it, and both leave the rest alone. -/
example :
    let κ : KeyTy := .opt (.units 4)
    let M := mapStorage Ex.H.api Nat κ
    let X := mapMethods Ex.H.api Nat κ
    let F := mapFolds Ex.H.api Nat κ
    let m : M.S := (Map.fromIter M
      ([(none, 1), (some (0 : Fin 4), 2), (some (2 : Fin 4), 3), (some (3 : Fin 4), 4)] : List (Option (Fin 4) × Nat))).1
    (X.values.calls (σ := Nat) 9 [.tryFold (fun a x => if x = 2 then .error (a + x) else .ok (a + x)) 10, .rfind (fun s x => (s + 1, x == 4)) 0]
        (M.values.init m)).map (fun r => (r.1, X.values.count 9 r.2, X.values.last 9 r.2,
          F.values.fold (List Nat) Nat 9 (fun l x => .ok (l ++ [x])) [] r.2)) =
      some ([.folded (.error 12), .found (some 4) 2], some 1, some (some 3), some (.ok [3])) := rfl

/-- On the list. -/
example : dequeCalls (σ := Nat) [.nthBack 1, .nth 0, .advanceBy 5, .next] [2, 3, 4, 1] =
    ([.item (some 4), .item (some 2), .missing 4, .item none], []) := rfl

/-- `any`, `all` and `position` on a map whose keys are `Option`s of an enum. -/
example :
    let κ : KeyTy := .opt (.units 4)
    let M := mapStorage Ex.H.api Nat κ
    let T := (mapMethods Ex.H.api Nat κ).values.tryFold
    let m : M.S := (Map.fromIter M
      ([(none, 1), (some (0 : Fin 4), 2), (some (2 : Fin 4), 3), (some (3 : Fin 4), 4)] : List (Option (Fin 4) × Nat))).1
    ((anyVia T 9 (· == 1) (M.values.init m)).map Prod.fst, (allVia T 9 (· > 1) (M.values.init m)).map Prod.fst,
      (positionVia T 9 (· == 4) (M.values.init m)).map Prod.fst) = (some true, some false, some (some 2)) := rfl

end FixedMap
