import Verif.Proofs.Compare
import Verif.Properties.MapOrd
import Verif.Spec.Example

/-! # C71: which calls of `V::eq`, `V::partial_cmp` and `V::cmp` comparing two maps makes -/

set_option autoImplicit false
set_option linter.unusedSimpArgs false

namespace FixedMap

section
variable {σ V : Type} (H : Hashbrown) (κ : KeyTy) (e : EqFn σ V)

/-- C71: `a == b` looks at the keys one by one. `V::eq` is called only on the two values of a key present in both, at most once per
key; the first difference or panic ends it. -/
theorem C71_eq (a b : (mapStorage H.api V κ).S) :
    let M := mapStorage H.api V κ
    ∃ la lb ks last, (Map.iter M).runsTo a la ∧ (Map.iter M).runsTo b lb ∧
      Course κ.together κ.inTable κ.comparedBefore la lb ks last ∧
      ∀ st, Map.eqD H.api κ e a b st = compareKeys e (Map.get M a) (Map.get M b) last ks st := by
  intro M
  obtain ⟨ks, last, h⟩ := eq_law e H κ a b
  exact ⟨_, _, ks, last, Yields.runsTo ((mapIters H V κ).iter a), Yields.runsTo ((mapIters H V κ).iter b), h.course, h.run⟩

/-- C71: without hash tables the keys and their order are known. -/
theorem C71_eq_plain (hf : κ.hashFree = true) (a b : (mapStorage H.api V κ).S) (st : σ) :
    let M := mapStorage H.api V κ
    Map.eqD H.api κ e a b st = compareKeys e (Map.get M a) (Map.get M b) true κ.comparedKeys st :=
  eq_plain e H κ hf a b st

/-- C71: with a `V::eq` without effects, this is the `==` of C23. -/
theorem C71_eq_pure (veq : V → V → Bool) (he : ∀ st v w, e st v w = (st, some (veq v w))) (a b : (mapStorage H.api V κ).S) (st : σ) :
    Map.eqD H.api κ e a b st = (st, some (Map.eq (mapStorage H.api V κ) veq a b)) := eq_pure e H veq he κ a b st
end

section
variable {σ V : Type} {n : Nat}

/-- C71: `a.partial_cmp(&b)` compares the values of common keys in declaration order, up to the first answer that is not `Equal`. -/
theorem C71_partial_cmp (H : Hashbrown) (c : CmpFn σ V (Option Ordering)) (a b : UnitsSt n V) (st : σ) :
    let M := mapStorage H.api V (.units n)
    MapOrd.partialCmpD c a b st =
      orderKeys some (· == some .eq) c (Map.get M a) (Map.get M b) (KeyTy.allKeys (.units n)) st := by
  intro M
  show iterCmpD _ _ _ _ _ _ = _
  rw [indexed_eq, indexed_eq]
  exact cmp_course rfl rfl rfl (Map.get M a) (Map.get M b) (List.finRange n) (List.pairwise_lt_finRange n) st

/-- C71: `a.cmp(&b)` likewise. -/
theorem C71_cmp (H : Hashbrown) (c : CmpFn σ V Ordering) (a b : UnitsSt n V) (st : σ) :
    let M := mapStorage H.api V (.units n)
    MapOrd.cmpD c a b st = orderKeys id (· == .eq) c (Map.get M a) (Map.get M b) (KeyTy.allKeys (.units n)) st := by
  intro M
  show iterCmpD _ _ _ _ _ _ = _
  rw [indexed_eq, indexed_eq]
  exact cmp_course rfl rfl rfl (Map.get M a) (Map.get M b) (List.finRange n) (List.pairwise_lt_finRange n) st

theorem iterCmpD_pure {R : Type} (of : Ordering → R) (isEq : R → Bool) (c : CmpFn σ V R) (p : V → V → R)
    (hc : ∀ st v w, c st v w = (st, some (p v w))) (f : List (Nat × V) → List (Nat × V) → R)
    (f0 : f [] [] = of .eq) (f1 : ∀ b bs, f [] (b :: bs) = of .lt) (f2 : ∀ a as, f (a :: as) [] = of .gt)
    (f3 : ∀ a as b bs, f (a :: as) (b :: bs) =
      if isEq (of (compare a.1 b.1)) then (if isEq (p a.2 b.2) then f as bs else p a.2 b.2) else of (compare a.1 b.1)) :
    ∀ la lb st, iterCmpD of isEq c la lb st = (st, some (f la lb))
  | [], [], st => by rw [f0]; rfl
  | [], b :: bs, st => by rw [f1]; rfl
  | a :: as, [], st => by rw [f2]; rfl
  | a :: as, b :: bs, st => by
    simp only [iterCmpD, pairCmpD, f3]
    by_cases h : isEq (of (compare a.1 b.1)) = true
    · simp only [if_pos h, hc]
      split
      · exact iterCmpD_pure of isEq c p hc f f0 f1 f2 f3 as bs st
      · rfl
    · simp only [if_neg h]

/-- C71: with a `V::partial_cmp` without effects, this is the `partial_cmp` of C26. -/
theorem C71_partial_cmp_pure (c : CmpFn σ V (Option Ordering)) (p : V → V → Option Ordering)
    (hc : ∀ st v w, c st v w = (st, some (p v w))) (a b : UnitsSt n V) (st : σ) :
    MapOrd.partialCmpD c a b st = (st, some (MapOrd.partialCmp p a b)) := by
  refine iterCmpD_pure some (· == some .eq) c p hc (iterPartialCmp (pairPartialCmp p)) rfl (fun _ _ => rfl) (fun _ _ => rfl) ?_ _ _ st
  intro a as b bs
  simp only [iterPartialCmp, pairPartialCmp]
  cases compare a.1 b.1 <;> simp
  rcases p a.2 b.2 with _ | _ | _ | _ <;> rfl

/-- C71: with a `V::cmp` without effects, this is the `cmp` of C26. -/
theorem C71_cmp_pure (c : CmpFn σ V Ordering) (p : V → V → Ordering) (hc : ∀ st v w, c st v w = (st, some (p v w)))
    (a b : UnitsSt n V) (st : σ) : MapOrd.cmpD c a b st = (st, some (MapOrd.cmp p a b)) := by
  refine iterCmpD_pure id (· == .eq) c p hc (iterCmp (pairCmp p)) rfl (fun _ _ => rfl) (fun _ _ => rfl) ?_ _ _ st
  intro a as b bs
  simp only [iterCmp, pairCmp, id]
  cases compare a.1 b.1 <;> simp
  cases p a.2 b.2 <;> rfl
end

/-- A `V::eq` that writes down its arguments and panics on 13. -/
def Ex.noisyEq : EqFn (List (Nat × Nat)) Nat := fun l v w => (l ++ [(v, w)], if v == 13 then none else some (v == w))

/-- Comparing `Ex.map` with itself: `None` before `Some(1)` in the last variant. With another value for one byte: the comparison stops there.
With one byte missing: the tables are not looked into. -/
example :
    Map.eqD Ex.H.api Ex.key Ex.noisyEq Ex.map Ex.map [] = ([(6, 6), (1, 1), (3, 3), (2, 2), (5, 5), (4, 4)], some true) ∧
    Map.eqD Ex.H.api Ex.key Ex.noisyEq Ex.map (Map.insert Ex.M Ex.map (Ex.byte 200) 9).2 [] = ([(6, 6), (1, 1), (3, 9)], some false) ∧
    Map.eqD Ex.H.api Ex.key Ex.noisyEq Ex.map (Map.remove Ex.M Ex.map (Ex.byte 200)).2 [] = ([(6, 6), (1, 1)], some false) ∧
    (let m := (Map.insert Ex.M Ex.map (Ex.flag false) 13).2
     Map.eqD Ex.H.api Ex.key Ex.noisyEq m m [] = ([(6, 6), (13, 13)], none)) := ⟨rfl, rfl, rfl, rfl⟩

/-- `Option<bool>`: the keys in the order of comparison. -/
example : KeyTy.comparedKeys (.opt .bool) = [none, some true, some false] ∧ KeyTy.hashFree (.opt .bool) = true := ⟨rfl, rfl⟩

/-- Maps over three variants: `{0: 1, 2: 5}` against `{0: 1, 1: 7}`. The values under 0 are compared, then the keys decide. -/
example : let a : UnitsSt 3 Nat := #v[some 1, none, some 5]
    let b : UnitsSt 3 Nat := #v[some 1, some 7, none]
    let c : CmpFn (List (Nat × Nat)) Nat Ordering := fun l v w => (l ++ [(v, w)], some (compare v w))
    MapOrd.cmpD c a b [] = ([(1, 1)], some .gt) ∧ MapOrd.cmpD c b a [] = ([(1, 1)], some .lt) ∧
    MapOrd.cmpD c a #v[some 2, none, some 5] [] = ([(1, 2)], some .lt) := ⟨rfl, rfl, rfl⟩

end FixedMap
