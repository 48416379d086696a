import Verif.Properties.Contents
import Verif.Properties.MapRetain
import Verif.Properties.MapOrd
import Verif.Properties.SetRetain

/-! # C55-C57: laws between operations, and collecting what an iterator yields -/

set_option autoImplicit false
set_option linter.unusedSimpArgs false

namespace FixedMap

/-! ## C55 -/

section
variable (H : Hashbrown) (V : Type) (κ : KeyTy)

/-- The two maps have the same contents, and are the same value unless hashbrown is involved. -/
def SameMap (a b : (mapStorage H.api V κ).S) : Prop :=
  (∀ k, Map.get (mapStorage H.api V κ) a k = Map.get (mapStorage H.api V κ) b k) ∧ (κ.hashFree = true → a = b)

theorem SameMap.of_get {a b : (mapStorage H.api V κ).S}
    (h : ∀ k, Map.get (mapStorage H.api V κ) a k = Map.get (mapStorage H.api V κ) b k) : SameMap H V κ a b :=
  ⟨h, fun hf => C51_canonical H V κ hf a b h⟩

open Classical in
theorem get_insert_if (m : (mapStorage H.api V κ).S) (k : κ.Key) (v : V) (j : κ.Key) :
    Map.get (mapStorage H.api V κ) (Map.insert (mapStorage H.api V κ) m k v).2 j =
      if j = k then some v else Map.get (mapStorage H.api V κ) m j := by
  split
  · next h => subst h; exact (C02_insert H V κ m j v).2.1
  · next h => exact (C02_insert H V κ m k v).2.2 j h

open Classical in
theorem get_remove_if (m : (mapStorage H.api V κ).S) (k : κ.Key) (j : κ.Key) :
    Map.get (mapStorage H.api V κ) (Map.remove (mapStorage H.api V κ) m k).2 j =
      if j = k then none else Map.get (mapStorage H.api V κ) m j := by
  split
  · next h => subst h; exact (C03_remove H V κ m j).2.1
  · next h => exact (C03_remove H V κ m k).2.2.1 j h

/-- C55: operations at different keys commute. -/
theorem C55_comm (m : (mapStorage H.api V κ).S) (k k' : κ.Key) (v w : V) (hk : k ≠ k') :
    let M := mapStorage H.api V κ
    SameMap H V κ (Map.insert M (Map.insert M m k v).2 k' w).2 (Map.insert M (Map.insert M m k' w).2 k v).2 ∧
    SameMap H V κ (Map.remove M (Map.insert M m k v).2 k').2 (Map.insert M (Map.remove M m k').2 k v).2 ∧
    SameMap H V κ (Map.remove M (Map.remove M m k).2 k').2 (Map.remove M (Map.remove M m k').2 k).2 := by
  intro M
  refine ⟨.of_get H V κ fun j => ?_, .of_get H V κ fun j => ?_, .of_get H V κ fun j => ?_⟩
  all_goals
    simp only [M, get_insert_if, get_remove_if]
    by_cases h1 : j = k
    · have h2 : ¬j = k' := fun h2 => hk (h1.symm.trans h2)
      simp only [if_pos h1, if_neg h2]
    · simp only [if_neg h1]

/-- C55: at the same key, the last operation wins. -/
theorem C55_last_wins (m : (mapStorage H.api V κ).S) (k : κ.Key) (v w : V) :
    let M := mapStorage H.api V κ
    SameMap H V κ (Map.insert M (Map.insert M m k v).2 k w).2 (Map.insert M m k w).2 ∧
    SameMap H V κ (Map.remove M (Map.insert M m k v).2 k).2 (Map.remove M m k).2 ∧
    SameMap H V κ (Map.insert M (Map.remove M m k).2 k v).2 (Map.insert M m k v).2 ∧
    SameMap H V κ (Map.remove M (Map.remove M m k).2 k).2 (Map.remove M m k).2 := by
  intro M
  refine ⟨.of_get H V κ fun j => ?_, .of_get H V κ fun j => ?_, .of_get H V κ fun j => ?_, .of_get H V κ fun j => ?_⟩
  all_goals
    simp only [M, get_insert_if, get_remove_if]
    by_cases h1 : j = k <;> simp [h1]

/-- C55: undoing. Removing a key that was just inserted, putting back a value that was just removed or replaced, restores the map. -/
theorem C55_undo (m : (mapStorage H.api V κ).S) (k : κ.Key) :
    let M := mapStorage H.api V κ
    (∀ v, Map.get M m k = none → SameMap H V κ (Map.remove M (Map.insert M m k v).2 k).2 m) ∧
    (∀ v, (Map.remove M m k).1 = some v → SameMap H V κ (Map.insert M (Map.remove M m k).2 k v).2 m) ∧
    (∀ v w, (Map.insert M m k w).1 = some v → SameMap H V κ (Map.insert M (Map.insert M m k w).2 k v).2 m) := by
  intro M
  refine ⟨fun v h => .of_get H V κ fun j => ?_, fun v h => .of_get H V κ fun j => ?_, fun v w h => .of_get H V κ fun j => ?_⟩
  · simp only [M, get_insert_if, get_remove_if]
    by_cases h1 : j = k
    · subst h1; simpa using h.symm
    · simp [h1]
  · have h' := (C03_remove H V κ m k).1.symm.trans h
    simp only [M, get_insert_if, get_remove_if]
    by_cases h1 : j = k
    · subst h1; simpa using h'.symm
    · simp [h1]
  · have h' := (C02_insert H V κ m k w).1.symm.trans h
    simp only [M, get_insert_if, get_remove_if]
    by_cases h1 : j = k
    · subst h1; simpa using h'.symm
    · simp [h1]

/-- C55: two passes of `retain` are one pass; a pass that accepts everything unchanged does nothing; one that rejects everything is
`clear`. -/
theorem C55_retain (m : (mapStorage H.api V κ).S) (p p' : κ.Key → V → Bool) (u u' : κ.Key → V → V) :
    let M := mapStorage H.api V κ
    let go := fun (p : κ.Key → V → Bool) (u : κ.Key → V → V) (m : M.S) =>
      (Map.retain M (fun (st : Unit) k v => (st, u k v, some (p k v))) m ()).s
    SameMap H V κ (go p' u' (go p u m)) (go (fun k v => p k v && p' k (u k v)) (fun k v => u' k (u k v)) m) ∧
    SameMap H V κ (go (fun _ _ => true) (fun _ v => v) m) m ∧
    SameMap H V κ (go (fun _ _ => false) u m) (Map.clear M m).1 := by
  intro M go
  have g : ∀ p u m k, Map.get M (go p u m) k = (Map.get M m k).bind fun v => if p k v then some (u k v) else none :=
    fun p u m k => C13_stateless H V κ p u m k
  refine ⟨.of_get H V κ fun k => ?_, .of_get H V κ fun k => ?_, .of_get H V κ fun k => ?_⟩
  · refine (g p' u' _ k).trans ?_
    refine .trans ?_ (g _ _ m k).symm
    rw [g p u m k]
    cases Map.get M m k with
    | none => rfl
    | some v => cases h : p k v <;> simp [h]
  · refine (g _ _ m k).trans ?_
    show (Map.get M m k).bind _ = Map.get M m k
    cases Map.get M m k <;> rfl
  · refine (g _ _ m k).trans (.trans ?_ ((C15_clear H V κ m).1 k).symm)
    cases Map.get M m k <;> rfl

/-- Case: a map with six entries, a hash-backed payload. -/
example :
    Map.get Ex.M Ex.map (Ex.byte 1) = none ∧ (Map.remove Ex.M Ex.map (Ex.byte 7)).1.isSome = true ∧
    Map.len Ex.M (Map.remove Ex.M (Map.insert Ex.M Ex.map (Ex.byte 1) 5).2 (Ex.byte 1)).2 = 6 ∧
    Map.len Ex.M (Map.insert Ex.M (Map.remove Ex.M Ex.map (Ex.byte 7)).2 (Ex.byte 7) 5).2 = 6 := by decide

/-! ## C56 -/

/-- C56: collecting what `iter()` or `into_iter()` yields gives a map with the same contents; nothing is overwritten. The order of the
pairs does not matter. -/
theorem C56_collect (m : (mapStorage H.api V κ).S) (l l' : List (κ.Key × V)) :
    let M := mapStorage H.api V κ
    (Map.iter M).runsTo m l ∨ (Map.intoIter M).runsTo m l → l.Perm l' →
      SameMap H V κ (Map.fromIter M l').1 m ∧ (Map.fromIter M l').2 = [] := by
  intro M hl hp
  have e : l = (mapCore H V κ).entries m := by
    rcases hl with h | h
    · exact runsTo_unique h (Yields.runsTo ((mapIters H V κ).iter m))
    · exact runsTo_unique h (Yields.runsTo ((mapIters H V κ).intoIter m))
  have hn : (l'.reverse.map Prod.fst).Nodup := by
    have := (mapCore H V κ).nodup_keys m
    rw [← e] at this
    exact (((l'.reverse_perm.trans hp.symm).map Prod.fst).nodup_iff).mpr this
  obtain ⟨g, vs, hv, hc⟩ := C22_fromIter H V κ l'
  have get : ∀ k, Map.get M (Map.fromIter M l').1 k = Map.get M m k := by
    intro k
    refine (g k).trans ?_
    rw [FinMap.get_perm (l'.reverse_perm.trans hp.symm) hn, e]
    exact (mapCore H V κ).finGet m k
  refine ⟨.of_get H V κ get, ?_⟩
  obtain rfl := runsTo_unique hv (Yields.runsTo ((mapIters H V κ).values _))
  have len : ((mapCore H V κ).entries (Map.fromIter M l').1).length = l'.length := by
    refine ((mapCore H V κ).perm_of_get get).length_eq.trans ?_
    rw [← e, hp.length_eq]
  have c := hc.length_eq
  rw [List.length_append, List.length_map, List.length_map, len] at c
  exact List.length_eq_zero_iff.mp (Nat.left_eq_add.mp c)

/-- C56: a list of pairs with different keys can be collected in any order. -/
theorem C56_order (l l' : List (κ.Key × V)) (hn : (l.map Prod.fst).Nodup) (hp : l.Perm l') :
    let M := mapStorage H.api V κ
    SameMap H V κ (Map.fromIter M l).1 (Map.fromIter M l').1 := by
  intro M
  refine .of_get H V κ fun k => ?_
  refine ((C22_fromIter H V κ l).1 k).trans (.trans ?_ ((C22_fromIter H V κ l').1 k).symm)
  refine FinMap.get_perm ?_ (((l.reverse_perm).map Prod.fst).nodup_iff.mpr hn) k
  exact l.reverse_perm.trans (hp.trans l'.reverse_perm.symm)

/-- Case: six entries, collected backwards. -/
example :
    let l := [(Ex.simple, 1), (Ex.byte 7, 2), (Ex.byte 9, 3), (Ex.opt none, 4)]
    (l.map Prod.fst).Nodup ∧ Map.len Ex.M (Map.fromIter Ex.M l.reverse).1 = 4 ∧
      Map.get Ex.M (Map.fromIter Ex.M l.reverse).1 (Ex.byte 9) = some 3 := by decide

end

/-! ## Sets -/

section
variable (H : Hashbrown) (κ : KeyTy)

/-- The two sets have the same elements, and are the same value unless hashbrown is involved. -/
def SameSet (s t : (setStorage H.api κ).S) : Prop :=
  (∀ x, FSet.contains (setStorage H.api κ) s x = FSet.contains (setStorage H.api κ) t x) ∧ (κ.hashFree = true → s = t)

theorem SameSet.of_contains {s t : (setStorage H.api κ).S} (hs : Reachable (setStorage H.api κ) s) (ht : Reachable (setStorage H.api κ) t)
    (h : ∀ x, FSet.contains (setStorage H.api κ) s x = FSet.contains (setStorage H.api κ) t x) : SameSet H κ s t :=
  ⟨h, fun hf => C52_canonical H κ hf s t hs ht h⟩

open Classical in
theorem contains_insert_if (s : (setStorage H.api κ).S) (x y : κ.Key) :
    FSet.contains (setStorage H.api κ) (FSet.insert (setStorage H.api κ) s x).2 y =
      (decide (y = x) || FSet.contains (setStorage H.api κ) s y) := by
  rw [Bool.eq_iff_iff, Bool.or_eq_true, decide_eq_true_iff]
  exact (setLaws H κ).contains_insert s x y

open Classical in
theorem contains_remove_if (s : (setStorage H.api κ).S) (x y : κ.Key) :
    FSet.contains (setStorage H.api κ) (FSet.remove (setStorage H.api κ) s x).2 y =
      (!decide (y = x) && FSet.contains (setStorage H.api κ) s y) := by
  rw [Bool.eq_iff_iff, Bool.and_eq_true, Bool.not_eq_true', decide_eq_false_iff_not]
  exact (setLaws H κ).contains_remove s x y

/-- C57: insertions commute and are idempotent, so are removals; operations with different elements commute; on the same element
the last one wins; undoing restores the set. -/
theorem C57_set (s : (setStorage H.api κ).S) (hs : Reachable (setStorage H.api κ) s) (x y : κ.Key) :
    let N := setStorage H.api κ
    let ins := fun (s : N.S) x => (FSet.insert N s x).2
    let rem := fun (s : N.S) x => (FSet.remove N s x).2
    SameSet H κ (ins (ins s x) y) (ins (ins s y) x) ∧ SameSet H κ (ins (ins s x) x) (ins s x) ∧
    SameSet H κ (rem (rem s x) y) (rem (rem s y) x) ∧ SameSet H κ (rem (rem s x) x) (rem s x) ∧
    (x ≠ y → SameSet H κ (rem (ins s x) y) (ins (rem s y) x)) ∧
    SameSet H κ (rem (ins s x) x) (rem s x) ∧ SameSet H κ (ins (rem s x) x) (ins s x) ∧
    (FSet.contains N s x = true → SameSet H κ (ins s x) s ∧ SameSet H κ (ins (rem s x) x) s) ∧
    (FSet.contains N s x = false → SameSet H κ (rem s x) s ∧ SameSet H κ (rem (ins s x) x) s) := by
  intro N ins rem
  have ri : ∀ {s : N.S} (x : κ.Key), Reachable N s → Reachable N (ins s x) := fun x h => .insert x h
  have rr : ∀ {s : N.S} (x : κ.Key), Reachable N s → Reachable N (rem s x) := fun x h => .remove x h
  refine ⟨.of_contains H κ (ri _ (ri _ hs)) (ri _ (ri _ hs)) fun z => ?_, .of_contains H κ (ri _ (ri _ hs)) (ri _ hs) fun z => ?_,
    .of_contains H κ (rr _ (rr _ hs)) (rr _ (rr _ hs)) fun z => ?_, .of_contains H κ (rr _ (rr _ hs)) (rr _ hs) fun z => ?_,
    fun h => .of_contains H κ (rr _ (ri _ hs)) (ri _ (rr _ hs)) fun z => ?_,
    .of_contains H κ (rr _ (ri _ hs)) (rr _ hs) fun z => ?_, .of_contains H κ (ri _ (rr _ hs)) (ri _ hs) fun z => ?_,
    fun h => ⟨.of_contains H κ (ri _ hs) hs fun z => ?_, .of_contains H κ (ri _ (rr _ hs)) hs fun z => ?_⟩,
    fun h => ⟨.of_contains H κ (rr _ hs) hs fun z => ?_, .of_contains H κ (rr _ (ri _ hs)) hs fun z => ?_⟩⟩
  all_goals
    simp only [N, ins, rem, contains_insert_if, contains_remove_if]
    by_cases h1 : z = x
    · subst h1
      by_cases h2 : z = y
      · subst h2; simp_all <;> assumption
      · simp_all <;> assumption
    · by_cases h2 : z = y
      · simp only [decide_eq_false h1, decide_eq_true h2, Bool.not_true, Bool.not_false, Bool.true_and, Bool.false_and, Bool.true_or,
          Bool.false_or]
      · simp only [decide_eq_false h1, decide_eq_false h2, Bool.not_false, Bool.true_and, Bool.false_or]

/-- C57, `retain`, for key types without `()`: two passes are one pass; accepting everything does nothing; rejecting everything is
`clear`. Full statement: for all key types; `C37_false_for_unit` refutes its second part for `()`. -/
theorem C57_set_retain_partial (hu : κ.noUnit = true) (s : (setStorage H.api κ).S) (hs : Reachable (setStorage H.api κ) s)
    (p q : κ.Key → Bool) :
    let N := setStorage H.api κ
    let go := fun (p : κ.Key → Bool) (s : N.S) => (FSet.retain N (fun (st : Unit) x => (st, some (p x))) s ()).s
    SameSet H κ (go q (go p s)) (go (fun x => p x && q x) s) ∧ SameSet H κ (go (fun _ => true) s) s ∧
      SameSet H κ (go (fun _ => false) s) (FSet.clear N s) := by
  intro N go
  have g : ∀ p s x, FSet.contains N (go p s) x = (FSet.contains N s x && p x) := fun p s x => C37_stateless_partial H κ hu p s x
  have rg : ∀ p {s : N.S}, Reachable N s → Reachable N (go p s) := fun p s h => .retain _ () h
  refine ⟨.of_contains H κ (rg _ (rg _ hs)) (rg _ hs) fun z => ?_, .of_contains H κ (rg _ hs) hs fun z => ?_,
    .of_contains H κ (rg _ hs) (.clear hs) fun z => ?_⟩
  · refine (g q _ z).trans (.trans ?_ (g _ s z).symm)
    rw [g p s z, Bool.and_assoc]
  · exact (g _ s z).trans (Bool.and_true _)
  · refine (g _ s z).trans ((Bool.and_false _).trans ?_)
    exact ((setLaws H κ).contains_clear s z).symm

/-- C56 for sets: collecting what the iterators yield, in any order. -/
theorem C56_set_collect (s : (setStorage H.api κ).S) (hs : Reachable (setStorage H.api κ) s) (l l' : List κ.Key) :
    let N := setStorage H.api κ
    (FSet.iter N).runsTo s l ∨ (FSet.intoIter N).runsTo s l → (∀ x, x ∈ l ↔ x ∈ l') → SameSet H κ (FSet.fromIter N l') s := by
  intro N hl hp
  have e : l = (setLaws H κ).elems s := by
    rcases hl with h | h
    · exact runsTo_unique h (Yields.runsTo ((setIters H κ).iter s (hs.valid _)))
    · exact runsTo_unique h (Yields.runsTo ((setIters H κ).intoIter s (hs.valid _)))
  have c := C47_collect H κ l'
  refine .of_contains H κ c.1 hs fun x => ?_
  rw [Bool.eq_iff_iff]
  refine (c.2.1 x).trans ((hp x).symm.trans ?_)
  rw [e]
  exact (setLaws H κ).mem_elems s x

/-- Case: the five elements of the example set; a repetition does not matter. -/
example :
    let l := [Ex.simple, Ex.flag false, Ex.byte 7, Ex.opt (some 1), Ex.opt none]
    (∀ x ∈ l, FSet.contains Ex.N Ex.set x = true) ∧ FSet.len Ex.N Ex.set = 5 ∧
      FSet.len Ex.N (FSet.fromIter Ex.N (l.reverse ++ [Ex.byte 7])) = 5 := by decide

end

end FixedMap
