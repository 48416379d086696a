import Verif.Proofs.RustCmp

/-!
# C95: the text of src/macro_support.rs compares as the model says
-/

set_option autoImplicit false

namespace FixedMap.Rust

/-- **C95** The functions for maps: which values are compared, in which order, with which result, also when a comparison of the values has effects or panics. -/
theorem C95_slots :
    ∃ P, parseFile Text.macroSupport = some P ∧
      ∀ {V σ : Type} (n : Nat) (p : CmpFn σ V (Option Ordering)) (c : CmpFn σ V Ordering),
        CmpText P (n + 40) "__storage_iterator_partial_cmp" "partial_cmp" some (· == some .eq) p ∧
        CmpText P (n + 40) "__storage_iterator_cmp" "cmp" id (· == .eq) c :=
  ⟨_, Progs.macroSupport_parsed, fun n p c => ⟨text_partial_cmp some (· == some .eq) p n, text_cmp id (· == .eq) c n⟩⟩

/-- **C95** The functions for sets. -/
theorem C95_bools :
    ∃ P, parseFile Text.macroSupport = some P ∧
      ∀ {V σ : Type} (n : Nat) (p : CmpFn σ V (Option Ordering)) (c : CmpFn σ V Ordering),
        CmpBoolText P (n + 40) "__storage_iterator_partial_cmp_bool" "partial_cmp" some (· == some .eq) p storageIteratorPartialCmpBool ∧
        CmpBoolText P (n + 40) "__storage_iterator_cmp_bool" "cmp" id (· == .eq) c storageIteratorCmpBool := by
  refine ⟨_, Progs.macroSupport_parsed, fun n p c => ⟨fun u a b => ?_, fun u a b => ?_⟩⟩
  · rw [text_partial_cmp_bool some (· == some .eq) p n, iterCmpD_partial fun x y => some (boolCmp x y)]
    rfl
  · rw [text_cmp_bool id (· == .eq) c n]
    have := iterCmpD_total boolCmp u ((enumerate a).filter filterBool) ((enumerate b).filter filterBool)
    rw [show (fun (u : _) x y => (u, some (id (boolCmp x y)))) = fun u x y => (u, some (boolCmp x y)) from rfl, this]
    rfl

/-- **C95** So comparing two maps over a unit enum is running this text on their slots; C71 says which calls that makes. -/
theorem C95_maps :
    ∃ P, parseFile Text.macroSupport = some P ∧
      ∀ {V σ : Type} (n k : Nat) (p : CmpFn σ V (Option Ordering)) (c : CmpFn σ V Ordering) (u : σ) (a b : UnitsSt k V),
        obs (run (cmpForeign "partial_cmp" some (· == some .eq) p) P (n + 40) "" "" "__storage_iterator_partial_cmp" [.ext (.slots a.toList), .ext (.slots b.toList)] ⟨[.unit], u, []⟩) =
          cmpObs (some .unit) (MapOrd.partialCmpD p a b u) ∧
        obs (run (cmpForeign "cmp" id (· == .eq) c) P (n + 40) "" "" "__storage_iterator_cmp" [.ext (.slots a.toList), .ext (.slots b.toList)] ⟨[.unit], u, []⟩) =
          cmpObs (some .unit) (MapOrd.cmpD c a b u) :=
  ⟨_, Progs.macroSupport_parsed, fun n _ p c u _ _ => ⟨text_partial_cmp some (· == some .eq) p n u _ _, text_cmp id (· == .eq) c n u _ _⟩⟩

/-! ## Examples -/

/-- The comparison of numbers, which writes down what it compares and panics at 0. -/
abbrev Ex.cmpLog : CmpFn (List (Nat × Nat)) Nat Ordering := fun u a b => (u ++ [(a, b)], if a = 0 then none else some (compare a b))

/-- `[None, Some(1), Some(2)]` and `[None, Some(1), None]`: one call, and the longer one is greater. -/
example : obs (run (cmpForeign "cmp" id (· == .eq) Ex.cmpLog) Progs.macroSupport 40 "" "" "__storage_iterator_cmp"
    [.ext (.slots [none, some 1, some 2]), .ext (.slots [none, some 1, none])] ⟨[.unit], [], []⟩) = .ok (.ext (.res .gt)) (some .unit) [(1, 1)] [] := by kernel_rfl

/-- A panic. -/
example : obs (run (cmpForeign "cmp" id (· == .eq) Ex.cmpLog) Progs.macroSupport 40 "" "" "__storage_iterator_cmp"
    [.ext (.slots [none, some 1, some 0]), .ext (.slots [none, some 1, some 2])] ⟨[.unit], [], []⟩) = .panic (some .unit) [(1, 1), (0, 2)] [] := by kernel_rfl

/-- The text with `b.cmp(a)` for `a.cmp(b)`. -/
def Ex.swapCmp : Toks → Toks
  | "a" :: "." :: "cmp" :: "(" :: "b" :: l => "b" :: "." :: "cmp" :: "(" :: "a" :: Ex.swapCmp l
  | t :: l => t :: Ex.swapCmp l
  | [] => []

def Ex.wrongCmp : Prog := (parseFile (Ex.swapCmp Text.macroSupport)).getD ⟨[], [], []⟩

example : (parseFile (Ex.swapCmp Text.macroSupport)).isSome = true := by decide +kernel

example : ¬CmpBoolText (V := Nat) (σ := Unit) Ex.wrongCmp 40 "__storage_iterator_cmp_bool" "cmp" id (· == .eq) (fun u _ _ => (u, none)) storageIteratorCmpBool := by
  intro h
  have h1 := h () [true] [false]
  have h2 : obs (run (cmpForeign (V := Nat) (σ := Unit) "cmp" id (· == .eq) (fun u _ _ => (u, none))) Ex.wrongCmp 40 "" "" "__storage_iterator_cmp_bool"
      [.ext (.bools [true]), .ext (.bools [false])] ⟨[.unit], (), []⟩) = .ok (.ext (.res .lt)) (some .unit) () [] := by kernel_rfl
  rw [h1] at h2
  injection h2 with h2
  injection h2 with h2
  injection h2 with h2
  exact absurd h2 (by decide)

end FixedMap.Rust
