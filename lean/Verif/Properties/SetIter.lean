import Verif.Properties.SetBasic

/-! # C36: iterators of sets -/

set_option autoImplicit false
set_option linter.unusedSimpArgs false

namespace FixedMap

variable (H : Hashbrown) (κ : KeyTy)

/-- C36: `iter()`, `into_iter()` and `for _ in &set` yield the same list: exactly the elements, each once, in an order
compatible with the declaration order; without hash-backed keys, all keys in declaration order filtered to the elements.
Under every schedule of `next` and `next_back` they behave like a deque over that list. All schedules are supported
if no hash-backed key is involved, and `next`-only schedules always are. -/
theorem C36_iter (s : (setStorage H.api κ).S) (hs : Reachable (setStorage H.api κ) s) :
    let M := setStorage H.api κ
    (∃ l, (FSet.iter M).runsTo s l ∧ (FSet.intoIter M).runsTo s l ∧ (FSet.refIntoIter M).runsTo s l ∧
      (∀ x, x ∈ l ↔ FSet.contains M s x = true) ∧ l.Nodup ∧ l.Pairwise κ.mayPrecede ∧
      (κ.hashFree = true → l = κ.allKeys.filter (FSet.contains M s)) ∧
      (FSet.iter M).actsAs s l ∧ (FSet.intoIter M).actsAs s l) ∧
    (κ.hashFree = true → (FSet.iter M).doubleEnded ∧ (FSet.intoIter M).doubleEnded) ∧
    (FSet.iter M).forward ∧ (FSet.intoIter M).forward := by
  have hv := hs.valid (setLaws H κ)
  have i1 := (setIters H κ).iter s hv
  have i2 := (setIters H κ).intoIter s hv
  refine ⟨⟨(setLaws H κ).elems s, Yields.runsTo i1, Yields.runsTo i2, Yields.runsTo i1, (setLaws H κ).mem_elems s,
    (setLaws H κ).nodup s, elems_sorted H κ s, fun h => elems_allKeys H κ h s, Yields.actsAs i1, Yields.actsAs i2⟩, ?_, ?_⟩
  · intro h
    have b := setAllBack H.api κ h
    exact ⟨IterImpl.run_isSome b.1, IterImpl.run_isSome b.2⟩
  · exact ⟨fun n st => IterImpl.run_front_isSome n st, fun n st => IterImpl.run_front_isSome n st⟩

/-- Case: insertion order was `Flag(false), Byte(7), Opt(Some(Right)), Opt(None), Simple`. -/
example : (FSet.iter Ex.N).I.drain 6 ((FSet.iter Ex.N).init Ex.set) =
    some [Ex.simple, Ex.flag false, Ex.byte 7, Ex.opt (some 1), Ex.opt none] := rfl

/-- `enum { A, B(bool), C(Option<Unit2>) }`, without hash tables. -/
private abbrev exKey3 : KeyTy := .enum (.simple (.complex .bool (.complex (.opt (.units 2)) .nil)))

/-- Case: both ends meet inside `B(_)`. -/
example :
    let M := setStorage Ex.H.api exKey3
    let s := FSet.fromIter M [Sum.inr (Sum.inl true), Sum.inl (), Sum.inr (Sum.inl false),
      Sum.inr (Sum.inr (Sum.inl none)), Sum.inr (Sum.inr (Sum.inl (some (1 : Fin 2))))]
    exKey3.hashFree = true ∧
    ((FSet.iter M).I.run [.back, .front, .back, .front, .back, .front, .back] ((FSet.iter M).init s)).map Prod.fst =
      some [some (Sum.inr (Sum.inr (Sum.inl none))), some (Sum.inl ()), some (Sum.inr (Sum.inr (Sum.inl (some (1 : Fin 2))))),
        some (Sum.inr (Sum.inl true)), some (Sum.inr (Sum.inl false)), none, none] := ⟨rfl, rfl⟩

/-- C12 for sets: `size_hint` bounds the remaining items after every schedule. -/
theorem C12_set_sizeHint (s : (setStorage H.api κ).S) (hs : Reachable (setStorage H.api κ) s) :
    let M := setStorage H.api κ
    ∃ l, (FSet.iter M).runsTo s l ∧ (FSet.intoIter M).runsTo s l ∧ (FSet.iter M).hintsAs s l ∧
      (FSet.intoIter M).hintsAs s l :=
  have hv := hs.valid (setLaws H κ)
  ⟨_, Yields.runsTo ((setIters H κ).iter s hv), Yields.runsTo ((setIters H κ).intoIter s hv),
    Yields.hintsAs ((setIters H κ).iter s hv), Yields.hintsAs ((setIters H κ).intoIter s hv)⟩

/-- C12 for `Set<bool>`: `size_hint` and `ExactSizeIterator::len` are exact after every schedule. -/
theorem C12_set_bool_exact (s : (setStorage H.api .bool).S) (hs : Reachable (setStorage H.api .bool) s) :
    let M := setStorage H.api .bool
    ∃ l, (FSet.iter M).runsTo s l ∧ ∀ ds outs st, (FSet.iter M).I.run ds ((FSet.iter M).init s) = some (outs, st) →
      (FSet.iter M).I.sizeHint st = ((dequeRun ds l).2.length, some (dequeRun ds l).2.length) ∧
      boolBitsLen st = (dequeRun ds l).2.length :=
  have hv := hs.valid (setLaws H .bool)
  ⟨boolBitsList s, Yields.runsTo ((setIters H .bool).iter s hv), fun ds outs st hr =>
    ⟨boolBits_exact s hv ds outs st hr, congrArg Prod.fst (boolBits_exact s hv ds outs st hr)⟩⟩

end FixedMap
