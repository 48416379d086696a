import Verif.Properties.SetIter
import Verif.Proofs.Intersection

/-! # C40, C41: `Set::intersection` -/

set_option autoImplicit false
set_option linter.unusedSimpArgs false

namespace FixedMap

variable (H : Hashbrown) (κ : KeyTy)

/-- The inner iterator of a new intersection and the set it is filtered by. -/
theorem intersection_new (a b : (setStorage H.api κ).S) (ha : Reachable (setStorage H.api κ) a)
    (hb : Reachable (setStorage H.api κ) b) :
    let M := setStorage H.api κ
    ∃ inner, Yields M.iter.I (Intersection.new M a b).iter inner ∧
      (∀ x, x ∈ inner.filter (FSet.contains M (Intersection.new M a b).other) ↔
        FSet.contains M a x = true ∧ FSet.contains M b x = true) ∧
      inner.Nodup ∧ inner.Pairwise κ.mayPrecede ∧
      (κ.hashFree = true → inner.filter (FSet.contains M (Intersection.new M a b).other) =
        κ.allKeys.filter fun x => FSet.contains M a x && FSet.contains M b x) := by
  intro M
  have main : ∀ a b : M.S, Reachable M a → ∃ inner, Yields M.iter.I (M.iter.init a) inner ∧
      (∀ x, x ∈ inner.filter (FSet.contains M b) ↔ FSet.contains M a x = true ∧ FSet.contains M b x = true) ∧
      inner.Nodup ∧ inner.Pairwise κ.mayPrecede ∧
      (κ.hashFree = true → inner.filter (FSet.contains M b) =
        κ.allKeys.filter fun x => FSet.contains M a x && FSet.contains M b x) := by
    intro a b ha
    refine ⟨(setLaws H κ).elems a, (setIters H κ).iter a (ha.valid _), ?_, (setLaws H κ).nodup a, elems_sorted H κ a, ?_⟩
    · intro x
      rw [List.mem_filter]
      exact and_congr ((setLaws H κ).mem_elems a x) Iff.rfl
    · intro hh
      rw [elems_allKeys H κ hh a, List.filter_filter]
      congr 1
      funext x
      exact Bool.and_comm _ _
  unfold Intersection.new
  split
  · exact main a b ha
  · obtain ⟨inner, h1, h2, h3, h4, h5⟩ := main b a hb
    refine ⟨inner, h1, fun x => (h2 x).trans And.comm, h3, h4, fun hh => (h5 hh).trans ?_⟩
    congr 1
    funext x
    exact Bool.and_comm _ _

/-- C40: a loop over `a.intersection(&b)` ends; its items are exactly the common elements, each once, in an order compatible
with the declaration order; without hash-backed keys, all keys in declaration order filtered to the common elements. -/
theorem C40_intersection (a b : (setStorage H.api κ).S) (ha : Reachable (setStorage H.api κ) a)
    (hb : Reachable (setStorage H.api κ) b) :
    let M := setStorage H.api κ
    ∃ l N, (∀ fuel, N ≤ fuel → Intersection.toList M fuel fuel (Intersection.new M a b) = some l) ∧
      (∀ x, x ∈ l ↔ FSet.contains M a x = true ∧ FSet.contains M b x = true) ∧ l.Nodup ∧ l.Pairwise κ.mayPrecede ∧
      (κ.hashFree = true → l = κ.allKeys.filter fun x => FSet.contains M a x && FSet.contains M b x) := by
  intro M
  obtain ⟨inner, h1, h2, h3, h4, h5⟩ := intersection_new H κ a b ha hb
  refine ⟨_, inner.length + 1, fun fuel hf => (Intersection.methods h1 (by omega)).1 fuel (by omega), h2,
    h3.filter _, h4.filter _, h5⟩

/-- C40, which operand is iterated: the smaller one, the receiver if both have the same size; the items are its items, in the order of
its iterator, that the other set contains. -/
theorem C40_operand (a b : (setStorage H.api κ).S) (ha : Reachable (setStorage H.api κ) a)
    (hb : Reachable (setStorage H.api κ) b) :
    let M := setStorage H.api κ
    ∃ la lb l N, (FSet.iter M).runsTo a la ∧ (FSet.iter M).runsTo b lb ∧
      (∀ fuel, N ≤ fuel → Intersection.toList M fuel fuel (Intersection.new M a b) = some l) ∧
      (la.length ≤ lb.length → l = la.filter (FSet.contains M b)) ∧
      (lb.length < la.length → l = lb.filter (FSet.contains M a)) := by
  intro M
  have va := ha.valid (setLaws H κ)
  have vb := hb.valid (setLaws H κ)
  have ya : Yields M.iter.I (M.iter.init a) ((setLaws H κ).elems a) := (setIters H κ).iter a va
  have yb : Yields M.iter.I (M.iter.init b) ((setLaws H κ).elems b) := (setIters H κ).iter b vb
  have na : FSet.len M a = ((setLaws H κ).elems a).length := (setLaws H κ).len_eq a va
  have nb : FSet.len M b = ((setLaws H κ).elems b).length := (setLaws H κ).len_eq b vb
  refine ⟨(setLaws H κ).elems a, (setLaws H κ).elems b, ?_⟩
  by_cases h : FSet.len M a ≤ FSet.len M b
  · have e : Intersection.new M a b = ⟨(FSet.iter M).init a, b⟩ := if_pos h
    rw [e]
    refine ⟨_, _, Yields.runsTo ya, Yields.runsTo yb,
      fun fuel (hf : ((setLaws H κ).elems a).length + 1 ≤ fuel) =>
        (Intersection.methods (st := ⟨(FSet.iter M).init a, b⟩) ya (by omega)).1 fuel (by omega), fun _ => rfl, fun h' => ?_⟩
    omega
  · have e : Intersection.new M a b = ⟨(FSet.iter M).init b, a⟩ := if_neg h
    rw [e]
    refine ⟨_, _, Yields.runsTo ya, Yields.runsTo yb,
      fun fuel (hf : ((setLaws H κ).elems b).length + 1 ≤ fuel) =>
        (Intersection.methods (st := ⟨(FSet.iter M).init b, a⟩) yb (by omega)).1 fuel (by omega), fun h' => ?_, fun _ => rfl⟩
    omega

/-- `Set<u8>`, with two hash-backed sets of the same size: the receiver decides the order. -/
example :
    let N := setStorage Ex.H.api (.prim .u8)
    let a := FSet.fromIter N ([1, 2, 3] : List (BitVec 8))
    let b := FSet.fromIter N ([3, 2, 4] : List (BitVec 8))
    Intersection.toList N 9 9 (Intersection.new N a b) = some ([3, 2] : List (BitVec 8)) ∧
    Intersection.toList N 9 9 (Intersection.new N b a) = some ([2, 3] : List (BitVec 8)) := ⟨rfl, rfl⟩

/-- C40, symmetry: with `a` and `b` exchanged the items are the same; without hash-backed keys in the same order. -/
theorem C40_symmetric (a b : (setStorage H.api κ).S) (ha : Reachable (setStorage H.api κ) a)
    (hb : Reachable (setStorage H.api κ) b) :
    let M := setStorage H.api κ
    ∃ l l' N, (∀ fuel, N ≤ fuel → Intersection.toList M fuel fuel (Intersection.new M a b) = some l) ∧
      (∀ fuel, N ≤ fuel → Intersection.toList M fuel fuel (Intersection.new M b a) = some l') ∧
      l.Perm l' ∧ (κ.hashFree = true → l = l') := by
  intro M
  obtain ⟨l, N, h1, h2, h3, _, h5⟩ := C40_intersection H κ a b ha hb
  obtain ⟨l', N', h1', h2', h3', _, h5'⟩ := C40_intersection H κ b a hb ha
  refine ⟨l, l', max N N', fun f hf => h1 f (by omega), fun f hf => h1' f (by omega), ?_, fun hh => ?_⟩
  · rw [List.perm_ext_iff_of_nodup h3 h3']
    exact fun x => (h2 x).trans (And.comm.trans (h2' x).symm)
  · rw [h5 hh, h5' hh]
    congr 1
    funext x
    exact Bool.and_comm _ _

/-- Collecting an intersection into a set gives the set of the common elements. -/
theorem C40_collect (a b : (setStorage H.api κ).S) (ha : Reachable (setStorage H.api κ) a)
    (hb : Reachable (setStorage H.api κ) b) :
    let M := setStorage H.api κ
    ∃ l N, (∀ fuel, N ≤ fuel → Intersection.toList M fuel fuel (Intersection.new M a b) = some l) ∧
      ∀ x, FSet.contains M (FSet.fromIter M l) x = (FSet.contains M a x && FSet.contains M b x) := by
  intro M
  obtain ⟨l, N, h1, h2, _⟩ := C40_intersection H κ a b ha hb
  refine ⟨l, N, h1, fun x => ?_⟩
  have key : ∀ (l : List κ.Key) (s : M.S), FSet.contains M (l.foldl (fun s v => (FSet.insert M s v).2) s) x = true ↔
        x ∈ l ∨ FSet.contains M s x = true := by
    intro l
    induction l with
    | nil => intro s; exact ⟨.inr, fun h => h.elim (fun h => by cases h) id⟩
    | cons v l ih =>
      intro s
      have hi : FSet.contains M (FSet.insert M s v).2 x = true ↔ x = v ∨ FSet.contains M s x = true :=
        (setLaws H κ).contains_insert s v x
      refine (ih _).trans ?_
      rw [hi, List.mem_cons, or_left_comm, or_assoc]
  have he : FSet.contains M (FSet.new M) x = false := (setLaws H κ).contains_empty x
  rw [Bool.eq_iff_iff, Bool.and_eq_true, ← h2]
  refine (key l (FSet.new M)).trans ?_
  simp [he]

/-- C41: with `l` the items of the intersection: any number `n` of `next` calls return the first `n` items (then `None`), and in the
state reached by them a loop yields the remaining items `l.drop n`, `fold` is the left fold over the same items in
the same order, and `size_hint` bounds their number. -/
theorem C41_fold_hint (a b : (setStorage H.api κ).S) (ha : Reachable (setStorage H.api κ) a)
    (hb : Reachable (setStorage H.api κ) b) :
    let M := setStorage H.api κ
    ∃ l, ∀ n, ∃ N, ∀ fuel, N ≤ fuel →
      Intersection.toList M fuel fuel (Intersection.new M a b) = some l ∧
      ∃ st, Intersection.calls M fuel n (Intersection.new M a b) = some ((List.range n).map fun i => l[i]?, st) ∧
        Intersection.toList M fuel fuel st = some (l.drop n) ∧
        (∀ (β : Type) (init : β) (f : β → κ.Key → β),
          Intersection.fold M fuel st init f = some ((l.drop n).foldl f init)) ∧
        HintOk (Intersection.sizeHint M st) (l.drop n).length := by
  intro M
  obtain ⟨inner, h1, -⟩ := intersection_new H κ a b ha hb
  refine ⟨_, fun n => ⟨inner.length + 1, fun fuel hf => ⟨(Intersection.methods h1 (by omega)).1 fuel (by omega), ?_⟩⟩⟩
  obtain ⟨st, inner', c1, c2, c3, c4, c5⟩ := Intersection.calls_eq n h1 (fuel := fuel) (by omega)
  have m := Intersection.methods c3 (fuel := fuel) (by omega)
  rw [c2, c5] at m
  exact ⟨st, c1, m.1 fuel (by omega), m.2.1, by rw [m.2.2.1]; exact Nat.zero_le _, m.2.2.2⟩

/-- Cases: the sets of `ExKey`; the smaller one is the argument. -/
example :
    let t := FSet.fromIter Ex.N [Ex.opt none, Ex.byte 8, Ex.flag false]
    Intersection.toList Ex.N 9 9 (Intersection.new Ex.N Ex.set t) = some [Ex.flag false, Ex.opt none] ∧
    Intersection.toList Ex.N 9 9 (Intersection.new Ex.N t Ex.set) = some [Ex.flag false, Ex.opt none] ∧
    ((Intersection.calls Ex.N 9 1 (Intersection.new Ex.N t Ex.set)).bind fun p =>
      Intersection.fold Ex.N 9 p.2 [] (fun l x => l ++ [x])) = some [Ex.opt none] := ⟨rfl, rfl, rfl⟩

end FixedMap
