import Verif.Spec.Uses
import Verif.Properties.MapHistory
import Verif.Properties.SetExact
import Verif.Spec.Example

/-! # C73: maps and sets without hashed keys do not use hashbrown -/

set_option autoImplicit false
set_option linter.unusedSimpArgs false

namespace FixedMap

mutual
theorem mapStorage_hashFree (A B : HashbrownApi) (V : Type) : (κ : KeyTy) → κ.hashFree = true → mapStorage A V κ = mapStorage B V κ
  | .bool, _ | .unit, _ | .units _, _ | .bitset _ _ _, _ => rfl
  | .opt κ, h => by rw [mapStorage, mapStorage, mapStorage_hashFree A B V κ h]
  | .enum fs, h => by rw [mapStorage, mapStorage, mapFields_hashFree A B V fs h]
theorem mapFields_hashFree (A B : HashbrownApi) (V : Type) : (fs : Fields) → fs.hashFree = true → mapFields A V fs = mapFields B V fs
  | .nil, _ => rfl
  | .simple fs, h => by rw [mapFields, mapFields, mapFields_hashFree A B V fs h]
  | .complex κ fs, h => by
    have h := Bool.and_eq_true_iff.mp h
    rw [mapFields, mapFields, mapStorage_hashFree A B V κ h.1, mapFields_hashFree A B V fs h.2]
end

mutual
theorem setStorage_hashFree (A B : HashbrownApi) : (κ : KeyTy) → κ.hashFree = true → setStorage A κ = setStorage B κ
  | .bool, _ | .unit, _ | .units _, _ | .bitset _ _ _, _ => rfl
  | .opt κ, h => by rw [setStorage, setStorage, setStorage_hashFree A B κ h]
  | .enum fs, h => by rw [setStorage, setStorage, setFields_hashFree A B fs h]
theorem setFields_hashFree (A B : HashbrownApi) : (fs : Fields) → fs.hashFree = true → setFields A fs = setFields B fs
  | .nil, _ => rfl
  | .simple fs, h => by rw [setFields, setFields, setFields_hashFree A B fs h]
  | .complex κ fs, h => by
    have h := Bool.and_eq_true_iff.mp h
    rw [setFields, setFields, setStorage_hashFree A B κ h.1, setFields_hashFree A B fs h.2]
end

variable (κ : KeyTy) (V : Type)

/-- C73: without hashed keys a map is the same program whatever the hash table does: all its operations, entries and iterators. -/
theorem C73_map (h : κ.hashFree = true) (A B : HashbrownApi) : mapStorage A V κ = mapStorage B V κ :=
  mapStorage_hashFree A B V κ h

/-- C73 for sets. -/
theorem C73_set (h : κ.hashFree = true) (A B : HashbrownApi) : setStorage A κ = setStorage B κ := setStorage_hashFree A B κ h

/-- C73: so a history of calls on a new map is answered as by a finite map, also if the hash tables obey no law. -/
theorem C73_history (h : κ.hashFree = true) (A : HashbrownApi) {σ : Type} (ops : List (Op σ κ.Key V)) :
    let M := mapStorage A V κ
    ∃ rs m' l', apiRun M ops (Map.new M) = .ok (rs, m') ∧ RefRun κ.mayPrecede ops [] rs l' ∧
      (∀ k, Map.get M m' k = FinMap.get l' k) ∧ Map.len M m' = l'.length ∧ (Map.iter M).runsTo m' l' := by
  rw [C73_map κ V h A Ex.H.api]
  exact C01_history Ex.H V κ ops

/-- C73: likewise for sets. -/
theorem C73_set_calls (h : κ.hashFree = true) (A : HashbrownApi) (l : List (Sigma fun c : SetCall κ.Key => c.Out))
    (s' : (setStorage A κ).S) (hd : FSet.DoesAll (setStorage A κ) l (FSet.new _) s') :
    SetCall.RefRun κ l (fun _ => False) (fun x => FSet.contains (setStorage A κ) s' x = true) := by
  revert s'
  rw [C73_set κ h A Ex.H.api]
  exact C65_calls_new Ex.H κ l

theorem foldl_replicate {α : Type} (f : Nat → α → Nat) (a : α) (h : ∀ n, f n a = n) : ∀ n acc, (List.replicate n a).foldl f acc = acc
  | 0, _ => rfl
  | n + 1, acc => by rw [List.replicate_succ, List.foldl_cons, h]; exact foldl_replicate f a h n acc

mutual
theorem tables_zero : (κ : KeyTy) → (κ.tables = 0 ↔ κ.hashFree = true)
  | .bool | .unit | .units _ | .bitset _ _ _ => by simp [KeyTy.tables, KeyTy.hashFree]
  | .prim _ => by simp [KeyTy.tables, KeyTy.hashFree]
  | .opt κ => tables_zero κ
  | .enum fs => fieldsTables_zero fs
theorem fieldsTables_zero : (fs : Fields) → (fs.tables = 0 ↔ fs.hashFree = true)
  | .nil => by simp [Fields.tables, Fields.hashFree]
  | .simple fs => fieldsTables_zero fs
  | .complex κ fs => by simp [Fields.tables, Fields.hashFree, tables_zero κ, fieldsTables_zero fs]
end

mutual
theorem len_lying (A : HashbrownApi) (c : Nat) : (κ : KeyTy) →
    (mapStorage (A.lying c) V κ).len (mapStorage (A.lying c) V κ).empty = c * κ.tables
  | .bool => rfl
  | .unit => rfl
  | .units n => by
    show (Vector.replicate n none).toList.foldl _ _ = _
    rw [Vector.toList_replicate]
    exact foldl_replicate _ none (fun _ => rfl) n 0
  | .bitset n _ _ => by
    show (Vector.replicate n none).toList.foldl _ _ = _
    rw [Vector.toList_replicate]
    exact foldl_replicate _ none (fun _ => rfl) n 0
  | .prim p => (Nat.mul_one c).symm
  | .opt κ => len_lying A c κ
  | .enum fs => fieldsLen_lying A c fs
theorem fieldsLen_lying (A : HashbrownApi) (c : Nat) : (fs : Fields) →
    (mapFields (A.lying c) V fs).len (mapFields (A.lying c) V fs).empty = c * fs.tables
  | .nil => rfl
  | .simple fs => (Nat.zero_add _).trans (fieldsLen_lying A c fs)
  | .complex κ fs => (congr (congrArg _ (len_lying A c κ)) (fieldsLen_lying A c fs)).trans (Nat.mul_add ..).symm
end

mutual
theorem setLen_lying (A : HashbrownApi) (c : Nat) : (κ : KeyTy) →
    (setStorage (A.lying c) κ).len (setStorage (A.lying c) κ).empty = c * κ.tables
  | .bool => (by decide : boolSet.len boolSet.empty = 0)
  | .unit => rfl
  | .units n => by
    show (Vector.replicate n false).toList.foldl _ _ = _
    rw [Vector.toList_replicate]
    exact foldl_replicate _ false (fun _ => rfl) n 0
  | .bitset n w h => (C34_len_zero Ex.H (.bitset n w h) _ .new).2 fun x =>
      (setLaws Ex.H (.bitset n w h)).contains_empty x
  | .prim p => (Nat.mul_one c).symm
  | .opt κ => setLen_lying A c κ
  | .enum fs => setFieldsLen_lying A c fs
theorem setFieldsLen_lying (A : HashbrownApi) (c : Nat) : (fs : Fields) →
    (setFields (A.lying c) fs).len (setFields (A.lying c) fs).empty = c * fs.tables
  | .nil => rfl
  | .simple fs => (Nat.zero_add _).trans (setFieldsLen_lying A c fs)
  | .complex κ fs => (congr (congrArg _ (setLen_lying A c κ)) (setFieldsLen_lying A c fs)).trans (Nat.mul_add ..).symm
end

/-- C73, the other direction: every hash table is asked. If the tables answer `len` with `c`, so does the map, once per table. -/
theorem C73_asks (A : HashbrownApi) (c : Nat) :
    Map.len (mapStorage (A.lying c) V κ) (Map.new _) = c * κ.tables ∧ FSet.len (setStorage (A.lying c) κ) (FSet.new _) = c * κ.tables :=
  ⟨len_lying V A c κ, setLen_lying A c κ⟩

/-- C73: exactly the key types without a hashed part are independent of hashbrown. -/
theorem C73_iff : (κ.hashFree = true ↔ ∀ A B : HashbrownApi, mapStorage A V κ = mapStorage B V κ) ∧
    (κ.hashFree = true ↔ ∀ A B : HashbrownApi, setStorage A κ = setStorage B κ) := by
  refine ⟨⟨C73_map κ V, fun h => ?_⟩, ⟨C73_set κ, fun h => ?_⟩⟩
  · have e := congrArg (fun M : MapStorage κ.Key V => M.len M.empty) (h (Ex.H.api.lying 0) (Ex.H.api.lying 1))
    have e := (C73_asks κ V Ex.H.api 0).1.symm.trans (e.trans (C73_asks κ V Ex.H.api 1).1)
    rw [← tables_zero]
    omega
  · have e := congrArg (fun M : SetStorage κ.Key => M.len M.empty) (h (Ex.H.api.lying 0) (Ex.H.api.lying 1))
    have e := (C73_asks κ V Ex.H.api 0).2.symm.trans (e.trans (C73_asks κ V Ex.H.api 1).2)
    rw [← tables_zero]
    omega

/-- `Option<bool>` and an enum with a `bool`: no table. `Ex.key` (with a `u8`): one. -/
example : KeyTy.hashFree (.opt .bool) = true ∧ KeyTy.hashFree (.enum (.simple (.complex .bool .nil))) = true ∧
    KeyTy.hashFree Ex.key = false ∧ KeyTy.tables Ex.key = 1 := ⟨rfl, rfl, rfl, rfl⟩
/-- A `bool` map on lying tables: `insert`, `len`. -/
example : Map.len (mapStorage (Ex.H.api.lying 7) Nat .bool) (Map.insert (mapStorage (Ex.H.api.lying 7) Nat .bool) (Map.new _) true 5).2 = 1 ∧
    Map.len (mapStorage (Ex.H.api.lying 7) Nat Ex.key) (Map.new _) = 7 := ⟨rfl, rfl⟩

end FixedMap
