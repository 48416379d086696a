import Verif.Proofs.SetQuirks
import Verif.Properties.MapIter

/-! # C32-C35, C39, C42: lookup, insertion, removal, length, emptiness and equality of sets -/

set_option autoImplicit false
set_option linter.unusedSimpArgs false

namespace FixedMap

variable (H : Hashbrown) (κ : KeyTy)

/-! ## insert -/

/-- C31/C32, contents: after `insert(x)` the set contains `x` and what it contained before. -/
theorem C32_insert_contents (s : (setStorage H.api κ).S) (x y : κ.Key) :
    let M := setStorage H.api κ
    FSet.contains M (FSet.insert M s x).2 y = true ↔ y = x ∨ FSet.contains M s y = true :=
  (setLaws H κ).contains_insert s x y

/-- C32, what holds: `insert(x)` returns `true` exactly when `x` was not in the set, unless `x` is (or ends in) a `bool` or
`None`. Full statement: the same without the hypothesis; it is false, see `C32_false_for_bool` and
`C32_false_for_none`. -/
theorem C32_insert_partial (s : (setStorage H.api κ).S) (x : κ.Key) (h : κ.insertInverted x = false) :
    let M := setStorage H.api κ
    (FSet.insert M s x).1 = true ↔ FSet.contains M s x = false := by
  intro M
  have e : (FSet.insert M s x).1 = _ := set_insert_ret H κ s x
  rw [e, h]
  exact beq_iff_eq

/-- The hypothesis of `C32_insert_partial` holds for all elements of key types without `bool` and `Option`. -/
theorem C32_insert_partial_scope (hb : κ.noBool = true) (ho : κ.noOpt = true) (x : κ.Key) : κ.insertInverted x = false :=
  insertInverted_false κ hb ho x

/-- C32, the exception: for `bool` values and `None`, at any depth, `insert` returns `true` exactly when the element was
already there. -/
theorem C32_insert_inverted (s : (setStorage H.api κ).S) (x : κ.Key) (h : κ.insertInverted x = true) :
    let M := setStorage H.api κ
    (FSet.insert M s x).1 = FSet.contains M s x := by
  intro M
  have e : (FSet.insert M s x).1 = _ := set_insert_ret H κ s x
  rw [e, h]
  cases h' : FSet.contains M s x <;> exact congrArg (· == true) h'

/-- C32 is false for `Set<bool>`: inserting `true` twice returns first `false`, then `true`. -/
theorem C32_false_for_bool :
    let M := setStorage H.api .bool
    (FSet.insert M (FSet.new M) true).1 = false ∧ FSet.contains M (FSet.new M) true = false ∧
      (FSet.insert M (FSet.insert M (FSet.new M) true).2 true).1 = true :=
  (by decide : (boolSet.insert boolSet.empty true).1 = false ∧ boolSet.contains boolSet.empty true = false ∧
    (boolSet.insert (boolSet.insert boolSet.empty true).2 true).1 = true)

/-- C32 is false for `Set<Option<K>>`, for every `K`: inserting `None` twice returns first `false`, then `true`. -/
theorem C32_false_for_none :
    let M := setStorage H.api (.opt κ)
    (FSet.insert M (FSet.new M) none).1 = false ∧ FSet.contains M (FSet.new M) none = false ∧
      (FSet.insert M (FSet.insert M (FSet.new M) none).2 none).1 = true := ⟨rfl, rfl, rfl⟩

/-- Case: elements of `ExKey` inside and outside the hypothesis, and a key type entirely inside. -/
example : Ex.key.insertInverted (Ex.byte 7) = false ∧ Ex.key.insertInverted (Ex.opt (some 1)) = false ∧
    Ex.key.insertInverted (Ex.flag true) = true ∧ Ex.key.insertInverted (Ex.opt none) = true ∧
    Ex.plain.noBool = true ∧ Ex.plain.noOpt = true ∧
    (FSet.insert Ex.P Ex.pset (Ex.ppart 1)).1 = true ∧ (FSet.insert Ex.P Ex.pset (Ex.ppart 2)).1 = false :=
  ⟨rfl, rfl, rfl, rfl, rfl, rfl, rfl, rfl⟩

/-! ## remove -/

/-- C31/C33, contents: after `remove(x)` the set contains what it contained before, except `x`. -/
theorem C33_remove_contents (s : (setStorage H.api κ).S) (x y : κ.Key) :
    let M := setStorage H.api κ
    FSet.contains M (FSet.remove M s x).2 y = true ↔ y ≠ x ∧ FSet.contains M s y = true :=
  (setLaws H κ).contains_remove s x y

/-- C33, exactly what `remove(x)` returns: whether `x` or (for `bool`) its negation was in the set. -/
theorem C33_remove_exact (s : (setStorage H.api κ).S) (hs : Reachable (setStorage H.api κ) s) (x : κ.Key) :
    let M := setStorage H.api κ
    (FSet.remove M s x).1 = (κ.siblings x).any (FSet.contains M s) :=
  set_remove_ret H κ s (hs.valid (setLaws H κ)) x

/-- C33, what holds: `remove(x)` returns `true` exactly when `x` was in the set, for elements that are not (or do not end
in) a `bool`. Full statement: the same without the hypothesis; it is false, see `C33_false_for_bool`. -/
theorem C33_remove_partial (s : (setStorage H.api κ).S) (hs : Reachable (setStorage H.api κ) s) (x : κ.Key)
    (h : κ.siblings x = [x]) :
    let M := setStorage H.api κ
    (FSet.remove M s x).1 = FSet.contains M s x := by
  intro M
  have e : (FSet.remove M s x).1 = _ := C33_remove_exact H κ s hs x
  rw [e, h]
  exact (any_self (FSet.contains M s) x).symm

/-- The hypothesis of `C33_remove_partial` holds for all elements of key types without `bool`. -/
theorem C33_remove_partial_scope (h : κ.noBool = true) (x : κ.Key) : κ.siblings x = [x] := siblings_self κ h x

/-- C33 is false for `Set<bool>`: removing `false` from `{true}` returns `true` and removes nothing. -/
theorem C33_false_for_bool :
    let M := setStorage H.api .bool
    let s := (FSet.insert M (FSet.new M) true).2
    Reachable M s ∧ FSet.contains M s false = false ∧ (FSet.remove M s false).1 = true ∧
      (FSet.remove M s false).2 = s :=
  ⟨.insert _ .new, (by decide : boolSet.contains (boolSet.insert boolSet.empty true).2 false = false ∧
    (boolSet.remove (boolSet.insert boolSet.empty true).2 false).1 = true ∧
    (boolSet.remove (boolSet.insert boolSet.empty true).2 false).2 = (boolSet.insert boolSet.empty true).2)⟩

/-- Case: `Option` elements are fine, `bool` payloads are not. -/
example : Ex.key.siblings (Ex.opt none) = [Ex.opt none] ∧ (FSet.remove Ex.N Ex.set (Ex.opt none)).1 = true ∧
    (FSet.remove Ex.N Ex.set (Ex.byte 8)).1 = false ∧
    Ex.key.siblings (Ex.flag true) = [Ex.flag true, Ex.flag false] ∧ (FSet.remove Ex.N Ex.set (Ex.flag true)).1 = true ∧
    FSet.contains Ex.N Ex.set (Ex.flag true) = false := ⟨rfl, rfl, rfl, rfl, rfl, rfl⟩

/-! ## len -/

/-- C35: `len()` is the number of elements `iter()` yields, which are those with `contains(x)`, each once. -/
theorem C35_len (s : (setStorage H.api κ).S) (hs : Reachable (setStorage H.api κ) s) :
    let M := setStorage H.api κ
    ∃ l, (FSet.iter M).runsTo s l ∧ l.Nodup ∧ (∀ x, x ∈ l ↔ FSet.contains M s x = true) ∧ FSet.len M s = l.length :=
  ⟨(setLaws H κ).elems s, Yields.runsTo ((setIters H κ).iter s (hs.valid _)), (setLaws H κ).nodup s,
    (setLaws H κ).mem_elems s, (setLaws H κ).len_eq s (hs.valid _)⟩

/-- C35: how `len()` changes with `insert` and `remove`. -/
theorem C35_len_changes (s : (setStorage H.api κ).S) (hs : Reachable (setStorage H.api κ) s) (x : κ.Key) :
    let M := setStorage H.api κ
    FSet.len M (FSet.insert M s x).2 = FSet.len M s + (if FSet.contains M s x then 0 else 1) ∧
      FSet.len M (FSet.remove M s x).2 + (if FSet.contains M s x then 1 else 0) = FSet.len M s := by
  intro M
  let L := setLaws H κ
  have len1 : ∀ t, L.valid t → FSet.len M t = (L.elems t).length := L.len_eq
  have same : ∀ l l' : List κ.Key, l.Nodup → l'.Nodup → (∀ y, y ∈ l ↔ y ∈ l') → l.length = l'.length := by
    intro l l' h1 h2 h
    have a := length_le_of_nodup_subset h1 (fun y hy => (h y).mp hy)
    have b := length_le_of_nodup_subset h2 (fun y hy => (h y).mpr hy)
    omega
  have hv := hs.valid L
  rw [len1 s hv, len1 (FSet.insert M s x).2 (L.valid_insert s x hv), len1 (FSet.remove M s x).2 (L.valid_remove s x hv)]
  have hmem : ∀ y, y ∈ L.elems s ↔ FSet.contains M s y = true := L.mem_elems s
  have hi : ∀ y, y ∈ L.elems (FSet.insert M s x).2 ↔ y = x ∨ y ∈ L.elems s := fun y =>
    (L.mem_elems _ y).trans ((L.contains_insert s x y).trans (or_congr Iff.rfl (L.mem_elems s y).symm))
  have hr : ∀ y, y ∈ L.elems (FSet.remove M s x).2 ↔ y ≠ x ∧ y ∈ L.elems s := fun y =>
    (L.mem_elems _ y).trans ((L.contains_remove s x y).trans (and_congr Iff.rfl (L.mem_elems s y).symm))
  cases hc : FSet.contains M s x with
  | true =>
    have hx : x ∈ L.elems s := (hmem x).mpr hc
    constructor
    · refine same _ _ (L.nodup _) (L.nodup _) fun y => (hi y).trans ?_
      exact ⟨fun h => h.elim (fun e => e ▸ hx) id, .inr⟩
    · have : (x :: L.elems (FSet.remove M s x).2).Nodup :=
        List.nodup_cons.mpr ⟨fun h => ((hr x).mp h).1 rfl, L.nodup _⟩
      refine same _ _ this (L.nodup _) fun y => ?_
      rw [List.mem_cons, hr]
      by_cases e : y = x
      · subst e; simp [hx]
      · simp [e]
  | false =>
    have hx : x ∉ L.elems s := fun h => by rw [hmem, hc] at h; cases h
    constructor
    · have : (x :: L.elems s).Nodup := List.nodup_cons.mpr ⟨hx, L.nodup _⟩
      refine same _ _ (L.nodup _) this fun y => (hi y).trans ?_
      rw [List.mem_cons]
    · refine same _ _ (L.nodup _) (L.nodup _) fun y => (hr y).trans ?_
      exact ⟨fun h => h.2, fun h => ⟨fun e => hx (e ▸ h), h⟩⟩

/-- Case: five elements. -/
example : FSet.len Ex.N Ex.set = 5 ∧ FSet.len Ex.P Ex.pset = 4 ∧ FSet.len Ex.P (FSet.insert Ex.P Ex.pset (Ex.ppart 1)).2 = 5 :=
  ⟨rfl, rfl, rfl⟩

/-! ## is_empty -/

/-- C34, the part that holds for all key types: `len() = 0` exactly when nothing is contained. -/
theorem C34_len_zero (s : (setStorage H.api κ).S) (hs : Reachable (setStorage H.api κ) s) :
    let M := setStorage H.api κ
    FSet.len M s = 0 ↔ ∀ x, FSet.contains M s x = false := by
  intro M
  have e : FSet.len M s = _ := (setLaws H κ).len_eq s (hs.valid _)
  rw [e, List.length_eq_zero_iff]
  constructor
  · intro h x
    cases hc : FSet.contains M s x with
    | false => rfl
    | true =>
      have := ((setLaws H κ).mem_elems s x).mpr hc
      rw [h] at this
      cases this
  · intro h
    cases e : (setLaws H κ).elems s with
    | nil => rfl
    | cons x l =>
      have hx := ((setLaws H κ).mem_elems s x).mp (by rw [e]; exact .head _)
      have : (setStorage H.api κ).contains s x = false := h x
      rw [hx] at this
      cases this

/-- C34, exactly what `is_empty()` returns. -/
theorem C34_isEmpty_exact (s : (setStorage H.api κ).S) (hs : Reachable (setStorage H.api κ) s) :
    let M := setStorage H.api κ
    FSet.isEmpty M s = true ↔ κ.saysEmpty fun x => FSet.contains M s x = true :=
  set_isEmpty_iff H κ s (hs.valid _)

/-- C34, what holds: `is_empty()` exactly when nothing is contained, exactly when `len() = 0`, for key types without
`Option`. Full statement: the same without the hypothesis; it is false, see `C34_false_for_option`. -/
theorem C34_isEmpty_partial (h : κ.noOpt = true) (s : (setStorage H.api κ).S) (hs : Reachable (setStorage H.api κ) s) :
    let M := setStorage H.api κ
    (FSet.isEmpty M s = true ↔ ∀ x, FSet.contains M s x = false) ∧ (FSet.isEmpty M s = true ↔ FSet.len M s = 0) := by
  intro M
  have h1 : FSet.isEmpty M s = true ↔ ∀ x, FSet.contains M s x = false := by
    refine (C34_isEmpty_exact H κ s hs).trans ((saysEmpty_iff κ h _).trans ?_)
    simp only [Bool.not_eq_true]
    exact Iff.rfl
  exact ⟨h1, h1.trans (C34_len_zero H κ s hs).symm⟩

/-- C34 is false for `Set<Option<K>>`, for every `K` (here: without `Option` inside): a new set is not empty according to
`is_empty`, and the set `{None}` is. -/
theorem C34_false_for_option (h : κ.noOpt = true) :
    let M := setStorage H.api (.opt κ)
    let s := (FSet.insert M (FSet.new M) none).2
    FSet.len M (FSet.new M) = 0 ∧ FSet.isEmpty M (FSet.new M) = false ∧
      FSet.len M s = 1 ∧ FSet.contains M s none = true ∧ FSet.isEmpty M s = true := by
  have hl : (setStorage H.api κ).len (setStorage H.api κ).empty = 0 :=
    (C34_len_zero H κ _ .new).mpr ((setLaws H κ).contains_empty)
  have he : (setStorage H.api κ).isEmpty (setStorage H.api κ).empty = true :=
    (C34_isEmpty_partial H κ h _ .new).2.mpr hl
  refine ⟨congrArg (· + 0) hl, ?_, congrArg (· + 1) hl, rfl, ?_⟩
  · exact Bool.and_false _
  · exact (Bool.and_true _).trans he

/-- Case: `PlainKey` meets the hypothesis, `ExKey` does not. -/
example : Ex.plain.noOpt = true ∧ FSet.isEmpty Ex.P Ex.pset = false ∧ FSet.isEmpty Ex.P (FSet.new Ex.P) = true ∧
    Ex.key.noOpt = false ∧ FSet.isEmpty Ex.N (FSet.new Ex.N) = false := ⟨rfl, rfl, rfl, rfl, rfl⟩

/-! ## clear, new -/

/-- C39: `clear()`, `new()` and `default()` give sets without elements, of length 0. -/
theorem C39_clear_new (s : (setStorage H.api κ).S) :
    let M := setStorage H.api κ
    (∀ x, FSet.contains M (FSet.clear M s) x = false) ∧ FSet.len M (FSet.clear M s) = 0 ∧
      (∀ x, FSet.contains M (FSet.new M) x = false) ∧ FSet.len M (FSet.new M) = 0 ∧
      (∀ x, FSet.contains M (FSet.default M) x = false) ∧ FSet.len M (FSet.default M) = 0 := by
  intro M
  have z : ∀ t, (setLaws H κ).valid t → (∀ x, FSet.contains M t x = false) → FSet.len M t = 0 := by
    intro t ht h
    have e : FSet.len M t = _ := (setLaws H κ).len_eq t ht
    rw [e, List.length_eq_zero_iff]
    cases e : (setLaws H κ).elems t with
    | nil => rfl
    | cons x l =>
      have hx := ((setLaws H κ).mem_elems t x).mp (by rw [e]; exact .head _)
      have : (setStorage H.api κ).contains t x = false := h x
      rw [hx] at this
      cases this
  have h1 : ∀ x, FSet.contains M (FSet.clear M s) x = false := (setLaws H κ).contains_clear s
  have h2 : ∀ x, FSet.contains M (FSet.new M) x = false := (setLaws H κ).contains_empty
  exact ⟨h1, z _ ((setLaws H κ).valid_clear s) h1, h2, z _ (setLaws H κ).valid_empty h2, h2,
    z _ (setLaws H κ).valid_empty h2⟩

/-- Case: a set with elements in every field, cleared. -/
example : FSet.len Ex.N Ex.set = 5 ∧ FSet.len Ex.N (FSet.clear Ex.N Ex.set) = 0 ∧
    FSet.contains Ex.N (FSet.clear Ex.N Ex.set) (Ex.opt none) = false := ⟨rfl, rfl, rfl⟩

/-! ## equality, clone -/

/-- C42: `a == b` exactly when they contain the same elements. -/
theorem C42_eq (a b : (setStorage H.api κ).S) (ha : Reachable (setStorage H.api κ) a)
    (hb : Reachable (setStorage H.api κ) b) :
    let M := setStorage H.api κ
    FSet.eq M a b = true ↔ ∀ x, FSet.contains M a x = FSet.contains M b x :=
  (setLaws H κ).eq_iff a b (ha.valid _) (hb.valid _)

/-- C42: it is an equivalence relation. -/
theorem C42_equivalence (a b c : (setStorage H.api κ).S) (ha : Reachable (setStorage H.api κ) a)
    (hb : Reachable (setStorage H.api κ) b) (hc : Reachable (setStorage H.api κ) c) :
    let M := setStorage H.api κ
    FSet.eq M a a = true ∧ (FSet.eq M a b = true → FSet.eq M b a = true) ∧
      (FSet.eq M a b = true → FSet.eq M b c = true → FSet.eq M a c = true) := by
  intro M
  refine ⟨(C42_eq H κ a a ha ha).mpr fun _ => rfl, fun h => ?_, fun h h' => ?_⟩
  · exact (C42_eq H κ b a hb ha).mpr fun x => ((C42_eq H κ a b ha hb).mp h x).symm
  · exact (C42_eq H κ a c ha hc).mpr fun x => ((C42_eq H κ a b ha hb).mp h x).trans ((C42_eq H κ b c hb hc).mp h' x)

/-- C28 for sets: a clone has the same elements and equals the original. -/
theorem C28_set_clone (s : (setStorage H.api κ).S) (hs : Reachable (setStorage H.api κ) s) :
    let M := setStorage H.api κ
    (∀ x, FSet.contains M (FSet.clone M s) x = FSet.contains M s x) ∧ FSet.eq M (FSet.clone M s) s = true := by
  intro M
  have h : ∀ x, FSet.contains M (FSet.clone M s) x = FSet.contains M s x := (setLaws H κ).contains_clone s
  exact ⟨h, (C42_eq H κ _ _ (.clone hs) hs).mpr h⟩

/-- Case: same elements inserted in another order; one element less. -/
example : FSet.eq Ex.P Ex.pset (FSet.fromIter Ex.P [Ex.ppart 0, Ex.pa, Ex.ppart 2, Ex.pbyte 9]) = true ∧
    FSet.eq Ex.P Ex.pset (FSet.remove Ex.P Ex.pset (Ex.ppart 0)).2 = false := by decide +kernel

end FixedMap
