import Verif.Proofs.Order
import Verif.Proofs.History
import Verif.Spec.Exhaust
import Verif.Spec.Example

/-!
# C02-C07, C15: single operations on maps

Every theorem is about every key type `κ`, every value type `V`, every hashbrown satisfying its contract and every
map `m`.
-/

set_option autoImplicit false

namespace FixedMap

variable (H : Hashbrown) (V : Type) (κ : KeyTy)

/-- C02 -/
theorem C02_insert (m : (mapStorage H.api V κ).S) (k : κ.Key) (v : V) :
    let M := mapStorage H.api V κ
    (Map.insert M m k v).1 = Map.get M m k ∧
    Map.get M (Map.insert M m k v).2 k = some v ∧
    ∀ k', k' ≠ k → Map.get M (Map.insert M m k v).2 k' = Map.get M m k' :=
  have L := mapCore H V κ
  ⟨L.insert_ret m k v, L.get_insert_self m k v, L.get_insert_ne m k v⟩

/-- Case: overwriting `Byte(7)` in a map with six entries. -/
example : (Map.insert Ex.M Ex.map (Ex.byte 7) 9).1 = some 2 ∧
    Map.get Ex.M (Map.insert Ex.M Ex.map (Ex.byte 7) 9).2 (Ex.byte 200) = some 3 := by decide

/-- C03 -/
theorem C03_remove (m : (mapStorage H.api V κ).S) (k : κ.Key) :
    let M := mapStorage H.api V κ
    (Map.remove M m k).1 = Map.get M m k ∧
    Map.get M (Map.remove M m k).2 k = none ∧
    (∀ k', k' ≠ k → Map.get M (Map.remove M m k).2 k' = Map.get M m k') ∧
    (Map.remove M (Map.remove M m k).2 k).1 = none :=
  have L := mapCore H V κ
  ⟨L.remove_ret m k, L.get_remove_self m k, L.get_remove_ne m k,
    (L.remove_ret _ k).trans (L.get_remove_self m k)⟩

/-- Case: removing `Opt(None)`. -/
example : (Map.remove Ex.M Ex.map (Ex.opt none)).1 = some 5 ∧
    Map.get Ex.M (Map.remove Ex.M Ex.map (Ex.opt none)).2 (Ex.opt (some 1)) = some 4 := by decide

/-- C04: `get_mut` returns a reference exactly when `get` returns a value; reading the reference gives that value; assigning
through it changes exactly that key. -/
theorem C04_getMut (m : (mapStorage H.api V κ).S) (k : κ.Key) :
    let M := mapStorage H.api V κ
    (∀ v, Map.get M m k = some v → ∃ a, Map.getMut M m k = some a ∧ M.read m a = some v ∧
      ∀ w, Map.get M (M.write m a w) k = some w ∧
        ∀ k', k' ≠ k → Map.get M (M.write m a w) k' = Map.get M m k') ∧
    (Map.get M m k = none → Map.getMut M m k = none) := by
  have L := mapCore H V κ
  refine ⟨?_, L.getMut_none m k⟩
  intro v h
  obtain ⟨a, ha, hk⟩ := L.getMut_some m k v h
  exact ⟨a, ha, (L.read_eq m a k hk).trans h,
    fun w => ⟨L.get_write_self m a k w hk, fun k' => L.get_write_ne m a k w k' hk⟩⟩

/-- Case: a reference to `Opt(Some(Right))`. -/
example : ∃ a, Map.getMut Ex.M Ex.map (Ex.opt (some 1)) = some a ∧ Ex.M.read Ex.map a = some 4 ∧
    Map.get Ex.M (Ex.M.write Ex.map a 8) (Ex.opt (some 1)) = some 8 ∧
    Map.get Ex.M (Ex.M.write Ex.map a 8) (Ex.opt none) = some 5 := ⟨_, rfl, rfl, rfl, rfl⟩

/-- C05 -/
theorem C05_agree (m : (mapStorage H.api V κ).S) (k : κ.Key) :
    let M := mapStorage H.api V κ
    Map.containsKey M m k = (Map.get M m k).isSome ∧
    (Map.getMut M m k).isSome = (Map.get M m k).isSome ∧
    ∃ e s, Map.entry M m k = .ok (e, s) ∧ e.isLeft = (Map.get M m k).isSome := by
  have L := mapCore H V κ
  refine ⟨L.containsKey_eq m k, ?_, ?_⟩
  · cases h : (mapStorage H.api V κ).get m k with
    | none => simp only [Map.getMut, Map.get, L.getMut_none m k h, h]; rfl
    | some v =>
      obtain ⟨a, ha, _⟩ := L.getMut_some m k v h
      simp only [Map.getMut, Map.get, ha, h, Option.isSome_some]
  · cases h : (mapStorage H.api V κ).get m k with
    | none =>
      obtain ⟨e, s, he, _⟩ := L.entry_none m k h
      exact ⟨_, s, he, by simp only [Map.get, h]; rfl⟩
    | some v =>
      obtain ⟨e, s, he, _⟩ := L.entry_some m k v h
      exact ⟨_, s, he, by simp only [Map.get, h]; rfl⟩

/-- Case: one present and one absent key. -/
example : Map.containsKey Ex.M Ex.map (Ex.byte 200) = true ∧ (Map.getMut Ex.M Ex.map (Ex.byte 200)).isSome = true ∧
    Map.containsKey Ex.M Ex.map (Ex.byte 201) = false ∧ (Map.getMut Ex.M Ex.map (Ex.byte 201)).isSome = false := by
  decide

/-- C06, the count: `len()` is the number of items of `iter()`, whose keys are exactly the present ones, each once. -/
theorem C06_len (m : (mapStorage H.api V κ).S) :
    let M := mapStorage H.api V κ
    ∃ l : List (κ.Key × V), (Map.iter M).runsTo m l ∧ Map.len M m = l.length ∧
      (l.map Prod.fst).Nodup ∧ ∀ k, k ∈ l.map Prod.fst ↔ (Map.get M m k).isSome := by
  have L := mapCore H V κ
  refine ⟨(mapCore H V κ).entries m, ⟨(mapCore H V κ).entries m |>.length.succ, ?_⟩, (mapCore H V κ).len_eq m,
    (mapCore H V κ).nodup_keys m, fun k => ((mapCore H V κ).get_iff m k).symm⟩
  intro fuel hf
  exact ((mapIters H V κ).iter m).drain hf

/-- C06, the changes. -/
theorem C06_len_changes (m : (mapStorage H.api V κ).S) (k : κ.Key) (v : V) :
    let M := mapStorage H.api V κ
    (Map.get M m k = none → Map.len M (Map.insert M m k v).2 = Map.len M m + 1) ∧
    ((Map.get M m k).isSome → Map.len M (Map.insert M m k v).2 = Map.len M m) ∧
    ((Map.get M m k).isSome → Map.len M (Map.remove M m k).2 + 1 = Map.len M m) ∧
    (Map.get M m k = none → Map.len M (Map.remove M m k).2 = Map.len M m) := by
  have L := mapCore H V κ
  simp only [Map.len, Map.get, L.len_eq]
  have hput := (L.perm_put (L.get_insert_self m k v) (L.get_insert_ne m k v)).length_eq
  have hera := (L.perm_erase (L.get_remove_self m k) (L.get_remove_ne m k)).length_eq
  have hcons := (erase_perm (L.nodup_keys m) k).length_eq
  simp only [FinMap.put, List.length_cons, List.length_map, List.length_append, L.finGet] at hput hera hcons
  simp only [Map.insert, Map.remove]
  refine ⟨fun h => ?_, fun h => ?_, fun h => ?_, fun h => ?_⟩
  · simp only [h, Option.toList, List.length_nil] at hcons; omega
  · obtain ⟨w, hw⟩ := Option.isSome_iff_exists.mp h
    simp only [hw, Option.toList, List.length_cons, List.length_nil] at hcons; omega
  · obtain ⟨w, hw⟩ := Option.isSome_iff_exists.mp h
    simp only [hw, Option.toList, List.length_cons, List.length_nil] at hcons; omega
  · simp only [h, Option.toList, List.length_nil] at hcons; omega

/-- Case: six entries; a seventh; one removed. -/
example : Map.len Ex.M Ex.map = 6 ∧ Map.len Ex.M (Map.insert Ex.M Ex.map (Ex.flag true) 0).2 = 7 ∧
    Map.len Ex.M (Map.insert Ex.M Ex.map (Ex.byte 7) 0).2 = 6 ∧
    Map.len Ex.M (Map.remove Ex.M Ex.map (Ex.byte 7)).2 = 5 := by decide

/-- C07 -/
theorem C07_isEmpty (m : (mapStorage H.api V κ).S) :
    let M := mapStorage H.api V κ
    (Map.isEmpty M m = true ↔ Map.len M m = 0) ∧
    (Map.isEmpty M m = true ↔ ∀ k, Map.get M m k = none) := by
  have L := mapCore H V κ
  simp only [Map.isEmpty, Map.len, Map.get, L.isEmpty_eq, L.len_eq, List.isEmpty_iff, List.length_eq_zero_iff, true_and]
  constructor
  · intro h k
    cases hg : (mapStorage H.api V κ).get m k with
    | none => rfl
    | some v =>
      have := (L.mem_entries m k v).mpr hg
      rw [h] at this
      exact absurd this List.not_mem_nil
  · intro h
    rw [List.eq_nil_iff_forall_not_mem]
    rintro ⟨k, v⟩ hm
    rw [L.mem_entries, h k] at hm
    cases hm

/-- Case: an empty and a non-empty map. -/
example : Map.isEmpty Ex.M (Map.new Ex.M) = true ∧ Map.isEmpty Ex.M Ex.map = false := by decide

/-- A new map (also `Map::default()`) has no entries. -/
theorem C07_new (k : κ.Key) :
    let M := mapStorage H.api V κ
    Map.get M (Map.new M) k = none ∧ Map.get M (Map.default M) k = none :=
  ⟨(mapCore H V κ).get_empty k, (mapCore H V κ).get_empty k⟩

/-- C15: `clear` leaves nothing, and drops exactly the values that were there (those yielded by `values()`). -/
theorem C15_clear (m : (mapStorage H.api V κ).S) :
    let M := mapStorage H.api V κ
    (∀ k, Map.get M (Map.clear M m).1 k = none) ∧ Map.len M (Map.clear M m).1 = 0 ∧
    ∃ l, (Map.values M).runsTo m l ∧ (Map.clear M m).2.Perm l := by
  have L := mapCore H V κ
  refine ⟨L.get_clear m, ?_, ?_⟩
  · show (mapStorage H.api V κ).len _ = 0
    rw [L.len_eq]
    exact congrArg List.length (L.clear_entries m)
  · refine ⟨((mapCore H V κ).entries m).map Prod.snd, ⟨_, fun fuel hf => ((mapIters H V κ).values m).drain hf⟩,
      (mapCore H V κ).clear_dropped m⟩

/-- Case: six values are dropped. -/
example : (Map.clear Ex.M Ex.map).2 = [6, 1, 3, 2, 4, 5] ∧ Map.len Ex.M (Map.clear Ex.M Ex.map).1 = 0 := by decide

end FixedMap
