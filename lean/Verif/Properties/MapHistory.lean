import Verif.Proofs.Order
import Verif.Proofs.History
import Verif.Spec.Exhaust
import Verif.Spec.Refers
import Verif.Spec.Example
import Verif.Properties.MapIter

/-! # C01, C20-C23, C28: histories, conservation, collecting, equality, cloning -/

set_option autoImplicit false
set_option linter.unusedSimpArgs false

namespace FixedMap

section
variable (H : Hashbrown) (V : Type) (κ : KeyTy)

/-- C01: every history of calls on a new map returns (never panics by itself, never reaches UB), every answer of every step is
the one of an ordinary finite map enumerated in declaration order, and the final content is that of the finite map. -/
theorem C01_history {σ : Type} (ops : List (Op σ κ.Key V)) :
    let M := mapStorage H.api V κ
    ∃ rs m' l', apiRun M ops (Map.new M) = .ok (rs, m') ∧ RefRun κ.mayPrecede ops [] rs l' ∧
      (∀ k, Map.get M m' k = FinMap.get l' k) ∧ Map.len M m' = l'.length ∧ (Map.iter M).runsTo m' l' := by
  intro M
  obtain ⟨rs, m', h1, h2⟩ := run_sim (mapIters H V κ) (entries_sorted H V κ) ops (Map.new M) []
    (by rw [show (mapCore H V κ).entries (Map.new M) = [] from (mapCore H V κ).entries_empty])
  exact ⟨rs, m', _, h1, h2, fun k => ((mapCore H V κ).finGet m' k).symm, (mapCore H V κ).len_eq m',
    Yields.runsTo ((mapIters H V κ).iter m')⟩

/-- C01 from an arbitrary map instead of a new one. -/
theorem C01_history_from {σ : Type} (ops : List (Op σ κ.Key V)) (m : (mapStorage H.api V κ).S) :
    let M := mapStorage H.api V κ
    ∃ l rs m' l', (Map.iter M).runsTo m l ∧ apiRun M ops m = .ok (rs, m') ∧ RefRun κ.mayPrecede ops l rs l' ∧
      (∀ k, Map.get M m' k = FinMap.get l' k) ∧ Map.len M m' = l'.length ∧ (Map.iter M).runsTo m' l' := by
  intro M
  obtain ⟨rs, m', h1, h2⟩ := run_sim (mapIters H V κ) (entries_sorted H V κ) ops m _ (.refl _)
  exact ⟨_, rs, m', _, Yields.runsTo ((mapIters H V κ).iter m), h1, h2,
    fun k => ((mapCore H V κ).finGet m' k).symm, (mapCore H V κ).len_eq m', Yields.runsTo ((mapIters H V κ).iter m')⟩

/-- A history with eleven calls, used in the cases below. -/
def exOps : List (Op Nat Ex.key.Key Nat) :=
  [.insert (Ex.byte 3) 1, .insert Ex.simple 2, .insert (Ex.byte 3) 4, .orInsert (Ex.opt (some 0)) 5,
    .entryInsert (Ex.flag true) 6, .modifyOrInsert Ex.simple 7 8, .updateAll (fun st _ v => (st + v, v + 10)) 0,
    .retain (fun st _ v => (st + 1, v, some (v != 14))) 0, .len, .iter, .remove (Ex.flag true)]

/-- The results of that history. -/
def exRun : List (StepOut Nat Ex.key.Key Nat Unit) :=
  match apiRun Ex.M exOps (Map.new Ex.M) with
  | .ok (rs, _) => rs
  | _ => []

/-- Case for C01: the answers. -/
example : exRun.map StepOut.out =
    [.val none, .val none, .val (some 1), .val (some 5), .val none, .val (some 7), .closure 22 none, .retained 4 false,
      .nat 3, .list [(Ex.simple, 17), (Ex.flag true, 16), (Ex.opt (some 0), 15)], .val (some 16)] := rfl

/-- C21: over any history, the values that went in are the values that are in the map at the end, that were moved out to
the caller, and that were dropped by the map: as multisets. -/
theorem C21_conservation {σ : Type} (ops : List (Op σ κ.Key V)) :
    let M := mapStorage H.api V κ
    ∃ rs m' vs, apiRun M ops (Map.new M) = .ok (rs, m') ∧ (Map.values M).runsTo m' vs ∧
      (rs.map StepOut.puts).flatten.Perm
        (vs ++ (rs.map StepOut.moved).flatten ++ (rs.map StepOut.dropped).flatten) := by
  intro M
  obtain ⟨rs, m', h1, h2⟩ := run_sim (mapIters H V κ) (entries_sorted H V κ) ops (Map.new M) []
    (by rw [show (mapCore H V κ).entries (Map.new M) = [] from (mapCore H V κ).entries_empty])
  exact ⟨rs, m', _, h1, Yields.runsTo ((mapIters H V κ).values m'), by simpa using refRun_vals h2 (by simp)⟩

/-- Case for C21: 1 and 16 were returned, 14 and 8 dropped (14 by `retain`, 8 unused in `or_insert`), 17 and 15 remain; the
rest moved through `&mut` references. -/
example :
    (exRun.map StepOut.puts) = [[1], [2], [4], [5], [6], [7, 8], [17, 16, 14, 15], [17, 16, 14, 15], [], [], []] ∧
    (exRun.map StepOut.moved) = [[], [], [1], [], [], [2], [7, 6, 4, 5], [17, 16, 14, 15], [], [], [16]] ∧
    (exRun.map StepOut.dropped) = [[], [], [], [], [], [8], [], [14], [], [], []] := ⟨rfl, rfl, rfl⟩

/-- C22: collecting pairs; the last pair with a key wins, and every value is in the map or was dropped. -/
theorem C22_fromIter (l : List (κ.Key × V)) :
    let M := mapStorage H.api V κ
    (∀ k, Map.get M (Map.fromIter M l).1 k = FinMap.get l.reverse k) ∧
    ∃ vs, (Map.values M).runsTo (Map.fromIter M l).1 vs ∧ (l.map Prod.snd).Perm (vs ++ (Map.fromIter M l).2) := by
  intro M
  let L := mapCore H V κ
  have key : ∀ (l : List (κ.Key × V)) (acc : M.S × List V),
      (∀ k, Map.get M (l.foldl (fun acc p => ((Map.insert M acc.1 p.1 p.2).2, acc.2 ++ (Map.insert M acc.1 p.1 p.2).1.toList)) acc).1 k =
        (FinMap.get l.reverse k).or (Map.get M acc.1 k)) ∧
      (vals (L.entries acc.1) ++ acc.2 ++ l.map Prod.snd).Perm
        (vals (L.entries (l.foldl (fun acc p => ((Map.insert M acc.1 p.1 p.2).2, acc.2 ++ (Map.insert M acc.1 p.1 p.2).1.toList)) acc).1) ++
          (l.foldl (fun acc p => ((Map.insert M acc.1 p.1 p.2).2, acc.2 ++ (Map.insert M acc.1 p.1 p.2).1.toList)) acc).2) := by
    intro l
    induction l with
    | nil => intro acc; exact ⟨fun k => rfl, by simp⟩
    | cons p l ih =>
      intro acc
      obtain ⟨k0, v0⟩ := p
      obtain ⟨ih1, ih2⟩ := ih ((Map.insert M acc.1 k0 v0).2, acc.2 ++ (Map.insert M acc.1 k0 v0).1.toList)
      refine ⟨fun k => ?_, ?_⟩
      · rw [List.foldl_cons, ih1]
        have happ : ∀ (a b : List (κ.Key × V)), FinMap.get (a ++ b) k = (FinMap.get a k).or (FinMap.get b k) := by
          intro a b
          induction a with
          | nil => rfl
          | cons q a ih => simp only [List.cons_append, FinMap.get]; split <;> simp [ih]
        rw [List.reverse_cons, happ]
        cases FinMap.get l.reverse k with
        | some w => rfl
        | none =>
          simp only [Option.none_or, FinMap.get]
          by_cases hk : k0 = k
          · subst hk
            simp only [if_true, Option.some_or]
            exact L.get_insert_self acc.1 k0 v0
          · simp only [hk, if_false, Option.none_or]
            exact L.get_insert_ne acc.1 k0 v0 k (fun e => hk e.symm)
      · rw [List.foldl_cons]
        refine .trans ?_ ih2
        have hp := (L.perm_put (L.get_insert_self acc.1 k0 v0) (L.get_insert_ne acc.1 k0 v0)).map Prod.snd
        have he := erase_perm (L.nodup_keys acc.1) k0
        have hr : (Map.insert M acc.1 k0 v0).1 = _ := (L.insert_ret acc.1 k0 v0).trans (L.finGet acc.1 k0).symm
        rw [hr]
        classical
        rw [List.perm_iff_count] at hp he ⊢
        intro a
        have hp := hp a
        have he := he a
        simp only [List.count_append, List.map_cons, List.count_cons, FinMap.put, vals] at hp he ⊢
        rw [show (List.map Prod.snd (L.entries (Map.insert M acc.1 k0 v0).2)).count a = _ from hp]
        omega
  obtain ⟨h1, h2⟩ := key l (Map.new M, [])
  refine ⟨fun k => ?_, vals (L.entries (Map.fromIter M l).1), Yields.runsTo ((mapIters H V κ).values _), ?_⟩
  · refine (h1 k).trans ?_
    have hn : Map.get M (Map.new M) k = none := by
      rw [← show _ = Map.get M (Map.new M) k from L.finGet (Map.new M) k,
        show L.entries (Map.new M) = [] from L.entries_empty]
      rfl
    show Option.or _ (Map.get M (Map.new M) k) = _
    rw [hn, Option.or_none]
  · have e : L.entries (Map.new M) = [] := L.entries_empty
    simp only [e, vals, List.map_nil, List.nil_append, List.append_nil] at h2
    exact h2

/-- Case: seven pairs, one key twice. -/
example : let r := Map.fromIter Ex.M [(Ex.simple, 1), (Ex.byte 1, 2), (Ex.simple, 3), (Ex.opt none, 4)]
    Map.get Ex.M r.1 Ex.simple = some 3 ∧ r.2 = [1] ∧ Map.len Ex.M r.1 = 3 := by decide

/-- C23: `==` is equality of contents. -/
theorem C23_eq (veq : V → V → Bool) (a b : (mapStorage H.api V κ).S) :
    let M := mapStorage H.api V κ
    Map.eq M veq a b = true ↔
      ∀ k, (Map.get M a k = none ∧ Map.get M b k = none) ∨
        ∃ v w, Map.get M a k = some v ∧ Map.get M b k = some w ∧ veq v w = true := by
  intro M
  refine ((mapCore H V κ).eq_iff veq a b).trans ?_
  refine forall_congr' fun k => ?_
  show optBeq veq (Map.get M a k) (Map.get M b k) = true ↔ _
  cases Map.get M a k <;> cases Map.get M b k <;> simp [optBeq]

/-- C23: the result depends only on the contents. -/
theorem C23_eq_congr (veq : V → V → Bool) (a a' b b' : (mapStorage H.api V κ).S) :
    let M := mapStorage H.api V κ
    (∀ k, Map.get M a k = Map.get M a' k) → (∀ k, Map.get M b k = Map.get M b' k) →
      Map.eq M veq a b = Map.eq M veq a' b' := by
  intro M ha hb
  rw [Bool.eq_iff_iff]
  refine (C23_eq H V κ veq a b).trans (.trans ?_ (C23_eq H V κ veq a' b').symm)
  simp only [M] at ha hb
  simp only [ha, hb]

/-- C23: reflexive, symmetric, transitive when `V`'s equality is. -/
theorem C23_equivalence (veq : V → V → Bool) :
    let M := mapStorage H.api V κ
    ((∀ v, veq v v = true) → ∀ a : M.S, Map.eq M veq a a = true) ∧
    ((∀ v w, veq v w = true → veq w v = true) → ∀ a b : M.S, Map.eq M veq a b = true → Map.eq M veq b a = true) ∧
    ((∀ u v w, veq u v = true → veq v w = true → veq u w = true) →
      ∀ a b c : M.S, Map.eq M veq a b = true → Map.eq M veq b c = true → Map.eq M veq a c = true) := by
  intro M
  refine ⟨fun h a => ?_, fun h a b hab => ?_, fun h a b c hab hbc => ?_⟩
  · refine (C23_eq H V κ veq a a).mpr fun k => ?_
    cases e : Map.get (mapStorage H.api V κ) a k with
    | none => exact .inl ⟨rfl, rfl⟩
    | some v => exact .inr ⟨v, v, rfl, rfl, h v⟩
  · refine (C23_eq H V κ veq b a).mpr fun k => ?_
    rcases (C23_eq H V κ veq a b).mp hab k with ⟨h1, h2⟩ | ⟨v, w, h1, h2, h3⟩
    · exact .inl ⟨h2, h1⟩
    · exact .inr ⟨w, v, h2, h1, h _ _ h3⟩
  · refine (C23_eq H V κ veq a c).mpr fun k => ?_
    rcases (C23_eq H V κ veq a b).mp hab k with ⟨h1, h2⟩ | ⟨v, w, h1, h2, h3⟩ <;>
      rcases (C23_eq H V κ veq b c).mp hbc k with ⟨h1', h2'⟩ | ⟨v', w', h1', h2', h3'⟩
    · exact .inl ⟨h1, h2'⟩
    · exact absurd (h2.symm.trans h1') (by simp)
    · exact absurd (h2.symm.trans h1') (by simp)
    · obtain rfl := Option.some.inj (h2.symm.trans h1')
      exact .inr ⟨v, w', h1, h2', h _ _ _ h3 h3'⟩

/-- Case: the same content built in another order, and a map that differs in one value. -/
example :
    let m' := (Map.fromIter Ex.M [(Ex.simple, 0), (Ex.opt none, 5), (Ex.byte 200, 3), (Ex.byte 7, 2), (Ex.simple, 6),
      (Ex.opt (some 1), 4), (Ex.flag false, 1)]).1
    Map.eq Ex.M (· == ·) Ex.map m' = true ∧
      Map.eq Ex.M (· == ·) Ex.map (Map.insert Ex.M m' (Ex.byte 7) 3).2 = false := by decide

/-- C28: a clone has the cloned values under the same keys, is equal to the original when cloning values preserves
equality, and any history on the clone behaves as on a fresh finite map with the cloned values. (The model's maps are values:
that mutating the clone does not change the original holds by construction, see DESIGN.md.) -/
theorem C28_clone (c : V → V) (m : (mapStorage H.api V κ).S) :
    let M := mapStorage H.api V κ
    (∀ k, Map.get M (Map.clone M c m) k = (Map.get M m k).map c) ∧
    (∀ veq : V → V → Bool, (∀ v, veq v (c v) = true) → Map.eq M veq m (Map.clone M c m) = true) ∧
    Map.len M (Map.clone M c m) = Map.len M m ∧
    ∀ {σ : Type} (ops : List (Op σ κ.Key V)) (l : List (κ.Key × V)), (Map.iter M).runsTo m l →
      ∃ rs m' l', apiRun M ops (Map.clone M c m) = .ok (rs, m') ∧
        RefRun κ.mayPrecede ops (l.map fun p => (p.1, c p.2)) rs l' ∧ (Map.iter M).runsTo m' l' := by
  intro M
  let L := mapCore H V κ
  have hp : ((L.entries m).map fun p => (p.1, c p.2)).Perm (L.entries (Map.clone M c m)) := by
    refine (L.perm_of_finGet ?_ fun k => ?_).symm
    · simpa [Function.comp_def] using L.nodup_keys m
    · rw [Assoc.lookup_map, L.finGet]
      exact (L.get_clone c m k).symm
  refine ⟨L.get_clone c m, fun veq h => ?_, ?_, ?_⟩
  · refine (C23_eq H V κ veq _ _).mpr fun k => ?_
    have e : Map.get M (Map.clone M c m) k = (Map.get M m k).map c := L.get_clone c m k
    simp only [M] at e
    rw [e]
    cases e : Map.get (mapStorage H.api V κ) m k with
    | none => exact .inl ⟨rfl, rfl⟩
    | some v => exact .inr ⟨v, c v, rfl, rfl, h v⟩
  · have := hp.length_eq
    rw [List.length_map] at this
    exact (L.len_eq _).trans (this.symm.trans (L.len_eq m).symm)
  · intro σ ops l hl
    have hl' : (Map.iter M).runsTo m (L.entries m) := Yields.runsTo ((mapIters H V κ).iter m)
    obtain ⟨n, hn⟩ := hl
    obtain ⟨n', hn'⟩ := hl'
    obtain rfl : l = L.entries m :=
      Option.some.inj ((hn (max n n') (Nat.le_max_left _ _)).symm.trans (hn' (max n n') (Nat.le_max_right _ _)))
    obtain ⟨rs, m', h1, h2⟩ := run_sim (mapIters H V κ) (entries_sorted H V κ) ops (Map.clone M c m) _ hp
    exact ⟨rs, m', _, h1, h2, Yields.runsTo ((mapIters H V κ).iter m')⟩

/-- Case: clone with a value-changing `Clone`. -/
example : Map.get Ex.M (Map.clone Ex.M (· + 1) Ex.map) (Ex.byte 200) = some 4 ∧
    Map.eq Ex.M (fun a b => b == a + 1) Ex.map (Map.clone Ex.M (· + 1) Ex.map) = true := by decide +kernel

/-- C20 for maps: no history, from any map, ends in undefined behaviour or a panic of the library. -/
theorem C20_no_ub {σ : Type} (ops : List (Op σ κ.Key V)) (m : (mapStorage H.api V κ).S) :
    let M := mapStorage H.api V κ
    apiRun M ops m ≠ .ub ∧ apiRun M ops m ≠ .panic := by
  intro M
  obtain ⟨_, rs, m', _, _, h, _⟩ := C01_history_from H V κ ops m
  rw [show apiRun M ops m = _ from h]
  exact ⟨by simp, by simp⟩

end

section
variable {V : Type}

theorem bucketCalls_some (v : V) (cs : List (BucketCall V)) :
    bucketCalls (some v) cs = .ok ((bucketRef v cs).1, some (bucketRef v cs).2) := by
  induction cs generalizing v with
  | nil => rfl
  | cons c cs ih =>
    cases c <;>
      simp only [bucketCalls, bucketCall, SomeBucket.asRef, SomeBucket.asMut, SomeBucket.replace, Res.bind, Res.map, ih,
        bucketRef]

/-- C20 for the buckets. `OptionBucket::new`, `SomeBucket::new` and `NoneBucket::new` never violate the contract of the
unchecked constructors and pick the right kind. On a bucket so obtained, every sequence of calls of a `SomeBucket` and the insertion of a
`NoneBucket` are free of UB and act on the slot like on an `Option`. -/
theorem C20_buckets (slot : Option V) :
    OptionBucket.new slot = .ok (if slot.isSome then .some else .none) ∧
    SomeBucket.new slot = .ok (if slot.isSome then some () else none) ∧
    NoneBucket.new slot = .ok (if slot.isNone then some () else none) ∧
    (OptionBucket.new slot = .ok .some ∨ SomeBucket.new slot = .ok (some ()) →
      ∃ v, slot = some v ∧ ∀ cs last,
        bucketCalls slot cs = .ok ((bucketRef v cs).1, some (bucketRef v cs).2) ∧
        bucketEnd (some (bucketRef v cs).2) last = .ok (bucketEndRef (bucketRef v cs).2 last)) ∧
    (OptionBucket.new slot = .ok .none ∨ NoneBucket.new slot = .ok (some ()) →
      ∀ v, NoneBucket.insert slot v = .ok (some v)) := by
  cases slot with
  | none =>
    refine ⟨rfl, rfl, rfl, fun h => ?_, fun _ v => rfl⟩
    rcases h with h | h <;> cases h
  | some v =>
    refine ⟨rfl, rfl, rfl, fun _ => ⟨v, rfl, fun cs last => ⟨bucketCalls_some v cs, ?_⟩⟩, fun h => ?_⟩
    · cases last <;> rfl
    · rcases h with h | h <;> cases h

/-- Case: `replace`, `as_mut`, `as_ref`, then `take`. -/
example : bucketCalls (some 1) [.replace 2, .asMut 3, .asRef] = .ok ([1, 2, 3], some 3) ∧
    bucketEnd (some 3) .take = .ok (some 3, none) := ⟨rfl, rfl⟩

end

end FixedMap
