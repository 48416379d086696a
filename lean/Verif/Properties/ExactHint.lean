import Verif.Proofs.ExactHint
import Verif.Properties.MapIter
import Verif.Properties.SetIter
import Verif.Spec.Example

/-! # C68: what the size hints are, exactly -/

set_option autoImplicit false
set_option linter.unusedSimpArgs false

namespace FixedMap

variable (H : Hashbrown) (V : Type) (κ : KeyTy)

/-- C68: `bool`, `()`, primitives and `Option`s of these: all six map iterators know how many items are left, after any schedule. -/
theorem C68_map_exact (hH : H.exactHints) (hκ : κ.counted = true) (m : (mapStorage H.api V κ).S) :
    let M := mapStorage H.api V κ
    ∃ l keys refs, (Map.iter M).runsTo m l ∧ (Map.keys M).runsTo m keys ∧ (Map.iterMut M).runsTo m refs ∧
      (Map.iter M).hintsExactly m l ∧ (Map.intoIter M).hintsExactly m l ∧ (Map.keys M).hintsExactly m keys ∧
      (Map.values M).hintsExactly m (l.map Prod.snd) ∧ (Map.iterMut M).hintsExactly m refs ∧
      (Map.valuesMut M).hintsExactly m (refs.map Prod.snd) := by
  intro M
  let L := mapIters H V κ
  have c := mapCounted H hH V κ hκ
  exact ⟨_, _, _, Yields.runsTo (L.iter m), Yields.runsTo (L.keys m), Yields.runsTo (L.iterMut m),
    c.iter.exact trivial (Yields.runsTo (L.iter m)) (Yields.actsAs (L.iter m)),
    c.intoIter.exact trivial (Yields.runsTo (L.intoIter m)) (Yields.actsAs (L.intoIter m)),
    c.keys.exact trivial (Yields.runsTo (L.keys m)) (Yields.actsAs (L.keys m)),
    c.values.exact trivial (Yields.runsTo (L.values m)) (Yields.actsAs (L.values m)),
    c.iterMut.exact trivial (Yields.runsTo (L.iterMut m)) (Yields.actsAs (L.iterMut m)),
    c.valuesMut.exact trivial (Yields.runsTo (L.valuesMut m)) (Yields.actsAs (L.valuesMut m))⟩

/-- C68, the same for sets. -/
theorem C68_set_exact (hH : H.exactHints) (hκ : κ.counted = true) (s : (setStorage H.api κ).S)
    (hs : Reachable (setStorage H.api κ) s) :
    let M := setStorage H.api κ
    ∃ l, (FSet.iter M).runsTo s l ∧ (FSet.iter M).hintsExactly s l ∧ (FSet.intoIter M).hintsExactly s l := by
  intro M
  have hv := hs.valid (setLaws H κ)
  let L := setIters H κ
  have c := setCounted H hH κ hκ
  exact ⟨_, Yields.runsTo (L.iter s hv), c.iter.exact hv (Yields.runsTo (L.iter s hv)) (Yields.actsAs (L.iter s hv)),
    c.intoIter.exact hv (Yields.runsTo (L.intoIter s hv)) (Yields.actsAs (L.intoIter s hv))⟩

/-- C68: for an enum of unit variants the hint never counts: it is `(0, None)`, and `(0, Some(0))` at the latest once the
iterator has answered `None`. -/
theorem C68_units (n : Nat) (m : (mapStorage H.api V (.units n)).S) :
    let M := mapStorage H.api V (.units n)
    (Map.iter M).hintsVaguely m ∧ (Map.intoIter M).hintsVaguely m ∧ (Map.keys M).hintsVaguely m ∧
      (Map.values M).hintsVaguely m ∧ (Map.iterMut M).hintsVaguely m ∧ (Map.valuesMut M).hintsVaguely m :=
  ⟨flat_hints _ _ m, flat_hints _ _ m, flat_hints _ _ m, flat_hints _ _ m, flat_hints _ _ m, flat_hints _ _ m⟩

theorem C68_units_set (n : Nat) (s : (setStorage H.api (.units n)).S) :
    let M := setStorage H.api (.units n)
    (FSet.iter M).hintsVaguely s ∧ (FSet.intoIter M).hintsVaguely s := ⟨flat_hints _ _ s, flat_hints _ _ s⟩

/-- C68, with `#[key(bitset)]`. -/
theorem C68_bitset (n w : Nat) (h : determineBits n = some w) (m : (mapStorage H.api V (.bitset n w h)).S)
    (s : (setStorage H.api (.bitset n w h)).S) :
    let M := mapStorage H.api V (.bitset n w h)
    let N := setStorage H.api (.bitset n w h)
    (Map.iter M).hintsVaguely m ∧ (Map.intoIter M).hintsVaguely m ∧ (Map.keys M).hintsVaguely m ∧
      (Map.values M).hintsVaguely m ∧ (Map.iterMut M).hintsVaguely m ∧ (Map.valuesMut M).hintsVaguely m ∧
      (FSet.iter N).hintsVaguely s ∧ (FSet.intoIter N).hintsVaguely s :=
  ⟨flat_hints _ _ m, flat_hints _ _ m, flat_hints _ _ m, flat_hints _ _ m, flat_hints _ _ m, flat_hints _ _ m, flat_hints _ _ s,
    flat_hints _ _ s⟩

/-- C68: for an enum with payloads the hint is the trivial one in every state of every iterator. -/
theorem C68_enum (fs : Fields) :
    let M := mapStorage H.api V (.enum fs)
    let N := setStorage H.api (.enum fs)
    (∀ st, (Map.iter M).I.sizeHint st = (0, none)) ∧ (∀ st, (Map.intoIter M).I.sizeHint st = (0, none)) ∧
      (∀ st, (Map.keys M).I.sizeHint st = (0, none)) ∧ (∀ st, (Map.values M).I.sizeHint st = (0, none)) ∧
      (∀ st, (Map.iterMut M).I.sizeHint st = (0, none)) ∧ (∀ st, (Map.valuesMut M).I.sizeHint st = (0, none)) ∧
      (∀ st, (FSet.iter N).I.sizeHint st = (0, none)) ∧ (∀ st, (FSet.intoIter N).I.sizeHint st = (0, none)) :=
  ⟨fun _ => rfl, fun _ => rfl, fun _ => rfl, fun _ => rfl, fun _ => rfl, fun _ => rfl, fun _ => rfl, fun _ => rfl⟩

/-- The assumption on hashbrown can be met. -/
theorem listIter_exact {S α : Type} (p : S → List α) (s : S) :
    IterOf.hintsExactly (⟨Assoc.listIter α, p⟩ : IterOf S α) s (p s) := by
  intro ds outs st hr
  have : ∀ (ds : List Dir) (l : List α) outs st, (Assoc.listIter α).run ds l = some (outs, st) → st = (dequeRun ds l).2 := by
    intro ds
    induction ds with
    | nil => intro l outs st h; cases h; rfl
    | cons d ds ih =>
      intro l outs st h
      cases d with
      | back => cases h
      | front =>
        obtain ⟨⟨o, st'⟩, e1, e2⟩ := Option.map_eq_some_iff.mp (show Option.map _ ((Assoc.listIter α).run ds l.tail) = _ from h)
        cases e2
        exact ih l.tail _ _ e1
  cases this ds (p s) outs st hr
  rfl

theorem C68_satisfiable : Ex.H.exactHints := fun K V _ t => by
  refine ⟨listIter_exact _ _, listIter_exact _ _, listIter_exact _ _, listIter_exact _ _, ?_, listIter_exact _ _⟩
  have := listIter_exact (fun t : Assoc.Table K V => t.1.map Prod.fst) t
  rw [show t.1.map Prod.fst = (t.1.map fun p => (p.1, p.1)).map Prod.snd by simp [Function.comp_def]] at this
  exact this

/-- `Map<Option<bool>, u32>` with three entries: two calls from both ends, then one item is left. -/
example :
    let M := mapStorage Ex.H.api Nat (.opt .bool)
    let m := (Map.fromIter M [(none, 1), (some false, 2), (some true, 3)]).1
    (KeyTy.opt .bool).counted = true ∧
    ((Map.iter M).I.run [.back, .front] ((Map.iter M).init m)).map (fun r => (r.1, (Map.iter M).I.sizeHint r.2)) =
      some ([some (none, 1), some (some true, 3)], (1, some 1)) := ⟨rfl, rfl⟩

/-- Three unit variants, the last one present: the hint is `(0, None)` and then `(0, Some(0))`. With the first one present it is
`(0, None)` although no item is left. -/
example :
    let M := mapStorage Ex.H.api Nat (.units 3)
    let m := (Map.fromIter M [((2 : Fin 3), 1)]).1
    let m' := (Map.fromIter M [((0 : Fin 3), 1)]).1
    (Map.values M).I.sizeHint ((Map.values M).init m) = (0, none) ∧
    ((Map.values M).I.run [.front] ((Map.values M).init m)).map (fun r => (r.1, (Map.values M).I.sizeHint r.2)) =
      some ([some 1], (0, some 0)) ∧
    ((Map.values M).I.run [.front] ((Map.values M).init m')).map (fun r => (r.1, (Map.values M).I.sizeHint r.2)) =
      some ([some 1], (0, none)) := ⟨rfl, rfl, rfl⟩

end FixedMap
