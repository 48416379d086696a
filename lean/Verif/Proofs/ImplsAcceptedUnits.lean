import Verif.Proofs.ImplsCheck

/-! # The impls for unit enums are accepted -/

set_option autoImplicit false
set_option linter.unusedSimpArgs false
set_option linter.unusedVariables false
set_option linter.unusedSectionVars false
set_option maxRecDepth 100000

namespace FixedMap.Impls

open FixedMap.Emit (Toks)

namespace Units

variable {E n ty : String} (hE : E ∉ special) (hn : n ∉ special) (hty : ty ∉ special)
include hE hn hty

theorem target_vacantEntry_VacantEntry : (vacantEntry_VacantEntry [E]).target = some (⟨["fixed_map", "map", "VacantEntry"], [["'a"], [E], ["V"]]⟩, ["VacantEntry", "<", "'a", ",", "V", ">"]) := by
  simp [vacantEntry_VacantEntry, Impl.target, args, angles, path, traitRef, breakAt, facts hE, facts hn, facts hty]

theorem assoc_vacantEntry_VacantEntry : (vacantEntry_VacantEntry [E]).assoc = [] := by
  simp [vacantEntry_VacantEntry, Impl.assoc, tyOf, nameOf, args, angles, path, traitRef, breakAt, facts hE, facts hn, facts hty]

theorem target_occupiedEntry_OccupiedEntry : (occupiedEntry_OccupiedEntry [E]).target = some (⟨["fixed_map", "map", "OccupiedEntry"], [["'a"], [E], ["V"]]⟩, ["OccupiedEntry", "<", "'a", ",", "V", ">"]) := by
  simp [occupiedEntry_OccupiedEntry, Impl.target, args, angles, path, traitRef, breakAt, facts hE, facts hn, facts hty]

theorem assoc_occupiedEntry_OccupiedEntry : (occupiedEntry_OccupiedEntry [E]).assoc = [] := by
  simp [occupiedEntry_OccupiedEntry, Impl.assoc, tyOf, nameOf, args, angles, path, traitRef, breakAt, facts hE, facts hn, facts hty]

theorem target_clone_MapStorage : (clone_MapStorage).target = some (⟨["core", "clone", "Clone"], []⟩, ["__MapStorage", "<", "V", ">"]) := by
  simp [clone_MapStorage, Impl.target, args, angles, path, traitRef, breakAt, facts hE, facts hn, facts hty]

theorem assoc_clone_MapStorage : (clone_MapStorage).assoc = [] := by
  simp [clone_MapStorage, Impl.assoc, tyOf, nameOf, args, angles, path, traitRef, breakAt, facts hE, facts hn, facts hty]

theorem target_copy_MapStorage : (copy_MapStorage).target = some (⟨["core", "marker", "Copy"], []⟩, ["__MapStorage", "<", "V", ">"]) := by
  simp [copy_MapStorage, Impl.target, args, angles, path, traitRef, breakAt, facts hE, facts hn, facts hty]

theorem assoc_copy_MapStorage : (copy_MapStorage).assoc = [] := by
  simp [copy_MapStorage, Impl.assoc, tyOf, nameOf, args, angles, path, traitRef, breakAt, facts hE, facts hn, facts hty]

theorem target_partialEq_MapStorage : (partialEq_MapStorage).target = some (⟨["core", "cmp", "PartialEq"], []⟩, ["__MapStorage", "<", "V", ">"]) := by
  simp [partialEq_MapStorage, Impl.target, args, angles, path, traitRef, breakAt, facts hE, facts hn, facts hty]

theorem assoc_partialEq_MapStorage : (partialEq_MapStorage).assoc = [] := by
  simp [partialEq_MapStorage, Impl.assoc, tyOf, nameOf, args, angles, path, traitRef, breakAt, facts hE, facts hn, facts hty]

theorem target_eq_MapStorage : (eq_MapStorage).target = some (⟨["core", "cmp", "Eq"], []⟩, ["__MapStorage", "<", "V", ">"]) := by
  simp [eq_MapStorage, Impl.target, args, angles, path, traitRef, breakAt, facts hE, facts hn, facts hty]

theorem assoc_eq_MapStorage : (eq_MapStorage).assoc = [] := by
  simp [eq_MapStorage, Impl.assoc, tyOf, nameOf, args, angles, path, traitRef, breakAt, facts hE, facts hn, facts hty]

theorem target_hash_MapStorage : (hash_MapStorage).target = some (⟨["core", "hash", "Hash"], []⟩, ["__MapStorage", "<", "V", ">"]) := by
  simp [hash_MapStorage, Impl.target, args, angles, path, traitRef, breakAt, facts hE, facts hn, facts hty]

theorem assoc_hash_MapStorage : (hash_MapStorage).assoc = [] := by
  simp [hash_MapStorage, Impl.assoc, tyOf, nameOf, args, angles, path, traitRef, breakAt, facts hE, facts hn, facts hty]

theorem target_partialOrd_MapStorage : (partialOrd_MapStorage).target = some (⟨["core", "cmp", "PartialOrd"], []⟩, ["__MapStorage", "<", "V", ">"]) := by
  simp [partialOrd_MapStorage, Impl.target, args, angles, path, traitRef, breakAt, facts hE, facts hn, facts hty]

theorem assoc_partialOrd_MapStorage : (partialOrd_MapStorage).assoc = [] := by
  simp [partialOrd_MapStorage, Impl.assoc, tyOf, nameOf, args, angles, path, traitRef, breakAt, facts hE, facts hn, facts hty]

theorem target_ord_MapStorage : (ord_MapStorage).target = some (⟨["core", "cmp", "Ord"], []⟩, ["__MapStorage", "<", "V", ">"]) := by
  simp [ord_MapStorage, Impl.target, args, angles, path, traitRef, breakAt, facts hE, facts hn, facts hty]

theorem assoc_ord_MapStorage : (ord_MapStorage).assoc = [] := by
  simp [ord_MapStorage, Impl.assoc, tyOf, nameOf, args, angles, path, traitRef, breakAt, facts hE, facts hn, facts hty]

theorem target_mapStorage_MapStorage : (mapStorage_MapStorage [E] [n]).target = some (⟨["fixed_map", "map", "MapStorage"], [[E], ["V"]]⟩, ["__MapStorage", "<", "V", ">"]) := by
  simp [mapStorage_MapStorage, Impl.target, args, angles, path, traitRef, breakAt, facts hE, facts hn, facts hty]

theorem assoc_mapStorage_MapStorage : (mapStorage_MapStorage [E] [n]).assoc = [("IntoIter", ["::", "core", "::", "iter", "::", "FlatMap", "<", "::", "core", "::", "array", "::", "IntoIter", "<", "(", E, ",", "::", "core", "::", "option", "::", "Option", "<", "V", ">", ")", ",", n, ">", ",", "::", "core", "::", "option", "::", "Option", "<", "(", E, ",", "V", ")", ">", ",", "fn", "(", "(", E, ",", "::", "core", "::", "option", "::", "Option", "<", "V", ">", ")", ")", "->", "::", "core", "::", "option", "::", "Option", "<", "(", E, ",", "V", ")", ">", ">"])] := by
  simp [mapStorage_MapStorage, Impl.assoc, tyOf, nameOf, args, angles, path, traitRef, breakAt, facts hE, facts hn, facts hty]

theorem target_partialOrd_SetStorage : (partialOrd_SetStorage).target = some (⟨["core", "cmp", "PartialOrd"], []⟩, ["__SetStorage"]) := by
  simp [partialOrd_SetStorage, Impl.target, args, angles, path, traitRef, breakAt, facts hE, facts hn, facts hty]

theorem assoc_partialOrd_SetStorage : (partialOrd_SetStorage).assoc = [] := by
  simp [partialOrd_SetStorage, Impl.assoc, tyOf, nameOf, args, angles, path, traitRef, breakAt, facts hE, facts hn, facts hty]

theorem target_ord_SetStorage : (ord_SetStorage).target = some (⟨["core", "cmp", "Ord"], []⟩, ["__SetStorage"]) := by
  simp [ord_SetStorage, Impl.target, args, angles, path, traitRef, breakAt, facts hE, facts hn, facts hty]

theorem assoc_ord_SetStorage : (ord_SetStorage).assoc = [] := by
  simp [ord_SetStorage, Impl.assoc, tyOf, nameOf, args, angles, path, traitRef, breakAt, facts hE, facts hn, facts hty]

theorem target_setStorage_SetStorage : (setStorage_SetStorage [E] [n]).target = some (⟨["fixed_map", "set", "SetStorage"], [[E]]⟩, ["__SetStorage"]) := by
  simp [setStorage_SetStorage, Impl.target, args, angles, path, traitRef, breakAt, facts hE, facts hn, facts hty]

theorem assoc_setStorage_SetStorage : (setStorage_SetStorage [E] [n]).assoc = [("IntoIter", ["::", "core", "::", "iter", "::", "Flatten", "<", "::", "core", "::", "array", "::", "IntoIter", "<", "::", "core", "::", "option", "::", "Option", "<", E, ">", ",", n, ">", ">"])] := by
  simp [setStorage_SetStorage, Impl.assoc, tyOf, nameOf, args, angles, path, traitRef, breakAt, facts hE, facts hn, facts hty]

theorem target_rawStorage_SetStorage : (rawStorage_SetStorage [ty]).target = some (⟨["fixed_map", "raw", "RawStorage"], []⟩, ["__SetStorage"]) := by
  simp [rawStorage_SetStorage, Impl.target, args, angles, path, traitRef, breakAt, facts hE, facts hn, facts hty]

theorem assoc_rawStorage_SetStorage : (rawStorage_SetStorage [ty]).assoc = [("Value", [ty])] := by
  simp [rawStorage_SetStorage, Impl.assoc, tyOf, nameOf, args, angles, path, traitRef, breakAt, facts hE, facts hn, facts hty]

theorem target_key_Enum : (key_Enum [E]).target = some (⟨["fixed_map", "Key"], []⟩, [E]) := by
  simp [key_Enum, Impl.target, args, angles, path, traitRef, breakAt, facts hE, facts hn, facts hty]

theorem assoc_key_Enum : (key_Enum [E]).assoc = [("SetStorage", ["__SetStorage"])] := by
  simp [key_Enum, Impl.assoc, tyOf, nameOf, args, angles, path, traitRef, breakAt, facts hE, facts hn, facts hty]

set_option hygiene false in
/-- Evaluate what is said of one item. -/
macro "items_Units" : tactic => `(tactic| (first
  | (refine item_fn rfl rfl rfl ?_
     simp [sigOk, assoc_vacantEntry_VacantEntry hE hn hty, assoc_occupiedEntry_OccupiedEntry hE hn hty, assoc_clone_MapStorage hE hn hty, assoc_copy_MapStorage hE hn hty, assoc_partialEq_MapStorage hE hn hty, assoc_eq_MapStorage hE hn hty, assoc_hash_MapStorage hE hn hty, assoc_partialOrd_MapStorage hE hn hty, assoc_ord_MapStorage hE hn hty, assoc_mapStorage_MapStorage hE hn hty, assoc_partialOrd_SetStorage hE hn hty, assoc_ord_SetStorage hE hn hty, assoc_setStorage_SetStorage hE hn hty, assoc_rawStorage_SetStorage hE hn hty, assoc_key_Enum hE hn hty, paramsOf, traits, prelude, option, absolute, types, subst, unself, trim, List.lookup, List.zipIdx, facts hE, facts hn, facts hty,
       trKey, trMapStorage, trOccupiedEntry, trVacantEntry, trSetStorage, trRawStorage, trClone, trCopy, trPartialEq, trEq, trPartialOrd, trOrd, trHash, trIterator, trDoubleEndedIterator]; done)
  | (refine item_ty rfl rfl rfl ?_
     simp [tyOk, condOk, provides, coreProvides, coreItem, baseItem, optionItem, tyOf, bounds, bounds.go, conditions, args, angles, path, traitRef, breakAt, impls, bitsetImpls,
       target_vacantEntry_VacantEntry hE hn hty, target_occupiedEntry_OccupiedEntry hE hn hty, target_clone_MapStorage hE hn hty, target_copy_MapStorage hE hn hty, target_partialEq_MapStorage hE hn hty, target_eq_MapStorage hE hn hty, target_hash_MapStorage hE hn hty, target_partialOrd_MapStorage hE hn hty, target_ord_MapStorage hE hn hty, target_mapStorage_MapStorage hE hn hty, target_partialOrd_SetStorage hE hn hty, target_ord_SetStorage hE hn hty, target_setStorage_SetStorage hE hn hty, target_rawStorage_SetStorage hE hn hty, target_key_Enum hE hn hty,
       assoc_vacantEntry_VacantEntry hE hn hty, assoc_occupiedEntry_OccupiedEntry hE hn hty, assoc_clone_MapStorage hE hn hty, assoc_copy_MapStorage hE hn hty, assoc_partialEq_MapStorage hE hn hty, assoc_eq_MapStorage hE hn hty, assoc_hash_MapStorage hE hn hty, assoc_partialOrd_MapStorage hE hn hty, assoc_ord_MapStorage hE hn hty, assoc_mapStorage_MapStorage hE hn hty, assoc_partialOrd_SetStorage hE hn hty, assoc_ord_SetStorage hE hn hty, assoc_setStorage_SetStorage hE hn hty, assoc_rawStorage_SetStorage hE hn hty, assoc_key_Enum hE hn hty,
       paramsOf, traits, prelude, option, absolute, subst, unself, List.lookup, List.zipIdx, facts hE, facts hn, facts hty,
       trKey, trMapStorage, trOccupiedEntry, trVacantEntry, trSetStorage, trRawStorage, trClone, trCopy, trPartialEq, trEq, trPartialOrd, trOrd, trHash, trIterator, trDoubleEndedIterator]; done)))

theorem ok_vacantEntry_VacantEntry : implOk (impls [E] [n]) (vacantEntry_VacantEntry [E]) = true := by
  refine implOk_intro (tr := trVacantEntry) (target_vacantEntry_VacantEntry hE hn hty) rfl (Nat.le_of_ble_eq_true rfl) rfl ?_ (by decide) ?_
  · simp only [vacantEntry_VacantEntry, List.map_cons, List.map_nil, List.cons_append, List.nil_append, nameOf, List.getElem?_cons_succ, List.getElem?_cons_zero]; decide +kernel
  intro item hi
  simp only [vacantEntry_VacantEntry, List.mem_cons, List.not_mem_nil, or_false, List.cons_append, List.nil_append, List.append_nil] at hi
  rcases hi with rfl | rfl <;> items_Units

theorem ok_occupiedEntry_OccupiedEntry : implOk (impls [E] [n]) (occupiedEntry_OccupiedEntry [E]) = true := by
  refine implOk_intro (tr := trOccupiedEntry) (target_occupiedEntry_OccupiedEntry hE hn hty) rfl (Nat.le_of_ble_eq_true rfl) rfl ?_ (by decide) ?_
  · simp only [occupiedEntry_OccupiedEntry, List.map_cons, List.map_nil, List.cons_append, List.nil_append, nameOf, List.getElem?_cons_succ, List.getElem?_cons_zero]; decide +kernel
  intro item hi
  simp only [occupiedEntry_OccupiedEntry, List.mem_cons, List.not_mem_nil, or_false, List.cons_append, List.nil_append, List.append_nil] at hi
  rcases hi with rfl | rfl | rfl | rfl | rfl | rfl <;> items_Units

theorem ok_clone_MapStorage : implOk (impls [E] [n]) (clone_MapStorage) = true := by
  refine implOk_intro (tr := trClone) (target_clone_MapStorage hE hn hty) rfl (Nat.le_of_ble_eq_true rfl) rfl ?_ (by decide) ?_
  · simp only [clone_MapStorage, List.map_cons, List.map_nil, List.cons_append, List.nil_append, nameOf, List.getElem?_cons_succ, List.getElem?_cons_zero]; decide +kernel
  intro item hi
  simp only [clone_MapStorage, List.mem_cons, List.not_mem_nil, or_false, List.cons_append, List.nil_append, List.append_nil] at hi
  rcases hi with rfl <;> items_Units

theorem ok_copy_MapStorage : implOk (impls [E] [n]) (copy_MapStorage) = true := by
  refine implOk_intro (tr := trCopy) (target_copy_MapStorage hE hn hty) rfl (Nat.le_of_ble_eq_true rfl) rfl ?_ (by decide) ?_
  · simp only [copy_MapStorage, List.map_cons, List.map_nil, List.cons_append, List.nil_append, nameOf, List.getElem?_cons_succ, List.getElem?_cons_zero]; decide +kernel
  intro item hi
  cases hi

theorem ok_partialEq_MapStorage : implOk (impls [E] [n]) (partialEq_MapStorage) = true := by
  refine implOk_intro (tr := trPartialEq) (target_partialEq_MapStorage hE hn hty) rfl (Nat.le_of_ble_eq_true rfl) rfl ?_ (by decide) ?_
  · simp only [partialEq_MapStorage, List.map_cons, List.map_nil, List.cons_append, List.nil_append, nameOf, List.getElem?_cons_succ, List.getElem?_cons_zero]; decide +kernel
  intro item hi
  simp only [partialEq_MapStorage, List.mem_cons, List.not_mem_nil, or_false, List.cons_append, List.nil_append, List.append_nil] at hi
  rcases hi with rfl <;> items_Units

theorem ok_eq_MapStorage : implOk (impls [E] [n]) (eq_MapStorage) = true := by
  refine implOk_intro (tr := trEq) (target_eq_MapStorage hE hn hty) rfl (Nat.le_of_ble_eq_true rfl) rfl ?_ (by decide) ?_
  · simp only [eq_MapStorage, List.map_cons, List.map_nil, List.cons_append, List.nil_append, nameOf, List.getElem?_cons_succ, List.getElem?_cons_zero]; decide +kernel
  intro item hi
  cases hi

theorem ok_hash_MapStorage : implOk (impls [E] [n]) (hash_MapStorage) = true := by
  refine implOk_intro (tr := trHash) (target_hash_MapStorage hE hn hty) rfl (Nat.le_of_ble_eq_true rfl) rfl ?_ (by decide) ?_
  · simp only [hash_MapStorage, List.map_cons, List.map_nil, List.cons_append, List.nil_append, nameOf, List.getElem?_cons_succ, List.getElem?_cons_zero]; decide +kernel
  intro item hi
  simp only [hash_MapStorage, List.mem_cons, List.not_mem_nil, or_false, List.cons_append, List.nil_append, List.append_nil] at hi
  rcases hi with rfl <;> items_Units

theorem ok_partialOrd_MapStorage : implOk (impls [E] [n]) (partialOrd_MapStorage) = true := by
  refine implOk_intro (tr := trPartialOrd) (target_partialOrd_MapStorage hE hn hty) rfl (Nat.le_of_ble_eq_true rfl) rfl ?_ (by decide) ?_
  · simp only [partialOrd_MapStorage, List.map_cons, List.map_nil, List.cons_append, List.nil_append, nameOf, List.getElem?_cons_succ, List.getElem?_cons_zero]; decide +kernel
  intro item hi
  simp only [partialOrd_MapStorage, List.mem_cons, List.not_mem_nil, or_false, List.cons_append, List.nil_append, List.append_nil] at hi
  rcases hi with rfl <;> items_Units

theorem ok_ord_MapStorage : implOk (impls [E] [n]) (ord_MapStorage) = true := by
  refine implOk_intro (tr := trOrd) (target_ord_MapStorage hE hn hty) rfl (Nat.le_of_ble_eq_true rfl) rfl ?_ (by decide) ?_
  · simp only [ord_MapStorage, List.map_cons, List.map_nil, List.cons_append, List.nil_append, nameOf, List.getElem?_cons_succ, List.getElem?_cons_zero]; decide +kernel
  intro item hi
  simp only [ord_MapStorage, List.mem_cons, List.not_mem_nil, or_false, List.cons_append, List.nil_append, List.append_nil] at hi
  rcases hi with rfl <;> items_Units

set_option maxHeartbeats 1000000 in
theorem ok_mapStorage_MapStorage : implOk (impls [E] [n]) (mapStorage_MapStorage [E] [n]) = true := by
  refine implOk_intro (tr := trMapStorage) (target_mapStorage_MapStorage hE hn hty) rfl (Nat.le_of_ble_eq_true rfl) rfl ?_ (by decide) ?_
  · simp only [mapStorage_MapStorage, List.map_cons, List.map_nil, List.cons_append, List.nil_append, nameOf, List.getElem?_cons_succ, List.getElem?_cons_zero]; decide +kernel
  intro item hi
  simp only [mapStorage_MapStorage, List.mem_cons, List.not_mem_nil, or_false, List.cons_append, List.nil_append, List.append_nil] at hi
  rcases hi with rfl | rfl | rfl | rfl | rfl | rfl | rfl | rfl | rfl | rfl | rfl | rfl | rfl | rfl | rfl | rfl | rfl | rfl | rfl | rfl | rfl | rfl | rfl | rfl | rfl <;> items_Units

theorem ok_partialOrd_SetStorage : implOk (impls [E] [n]) (partialOrd_SetStorage) = true := by
  refine implOk_intro (tr := trPartialOrd) (target_partialOrd_SetStorage hE hn hty) rfl (Nat.le_of_ble_eq_true rfl) rfl ?_ (by decide) ?_
  · simp only [partialOrd_SetStorage, List.map_cons, List.map_nil, List.cons_append, List.nil_append, nameOf, List.getElem?_cons_succ, List.getElem?_cons_zero]; decide +kernel
  intro item hi
  simp only [partialOrd_SetStorage, List.mem_cons, List.not_mem_nil, or_false, List.cons_append, List.nil_append, List.append_nil] at hi
  rcases hi with rfl <;> items_Units

theorem ok_ord_SetStorage : implOk (impls [E] [n]) (ord_SetStorage) = true := by
  refine implOk_intro (tr := trOrd) (target_ord_SetStorage hE hn hty) rfl (Nat.le_of_ble_eq_true rfl) rfl ?_ (by decide) ?_
  · simp only [ord_SetStorage, List.map_cons, List.map_nil, List.cons_append, List.nil_append, nameOf, List.getElem?_cons_succ, List.getElem?_cons_zero]; decide +kernel
  intro item hi
  simp only [ord_SetStorage, List.mem_cons, List.not_mem_nil, or_false, List.cons_append, List.nil_append, List.append_nil] at hi
  rcases hi with rfl <;> items_Units

theorem ok_setStorage_SetStorage : implOk (impls [E] [n]) (setStorage_SetStorage [E] [n]) = true := by
  refine implOk_intro (tr := trSetStorage) (target_setStorage_SetStorage hE hn hty) rfl (Nat.le_of_ble_eq_true rfl) rfl ?_ (by decide) ?_
  · simp only [setStorage_SetStorage, List.map_cons, List.map_nil, List.cons_append, List.nil_append, nameOf, List.getElem?_cons_succ, List.getElem?_cons_zero]; decide +kernel
  intro item hi
  simp only [setStorage_SetStorage, List.mem_cons, List.not_mem_nil, or_false, List.cons_append, List.nil_append, List.append_nil] at hi
  rcases hi with rfl | rfl | rfl | rfl | rfl | rfl | rfl | rfl | rfl | rfl | rfl | rfl <;> items_Units

theorem ok_key_Enum : implOk (impls [E] [n]) (key_Enum [E]) = true := by
  refine implOk_intro (tr := trKey) (target_key_Enum hE hn hty) rfl (Nat.le_of_ble_eq_true rfl) rfl ?_ (by decide) ?_
  · simp only [key_Enum, List.map_cons, List.map_nil, List.cons_append, List.nil_append, nameOf, List.getElem?_cons_succ, List.getElem?_cons_zero]; decide +kernel
  intro item hi
  simp only [key_Enum, List.mem_cons, List.not_mem_nil, or_false, List.cons_append, List.nil_append, List.append_nil] at hi
  rcases hi with rfl | rfl <;> items_Units

theorem ok_bitset_rawStorage_SetStorage : implOk (bitsetImpls [E] [n] [ty]) (rawStorage_SetStorage [ty]) = true := by
  refine implOk_intro (tr := trRawStorage) (target_rawStorage_SetStorage hE hn hty) rfl (Nat.le_of_ble_eq_true rfl) rfl ?_ (by decide) ?_
  · simp only [rawStorage_SetStorage, List.map_cons, List.map_nil, List.cons_append, List.nil_append, nameOf, List.getElem?_cons_succ, List.getElem?_cons_zero]; decide +kernel
  intro item hi
  simp only [rawStorage_SetStorage, List.mem_cons, List.not_mem_nil, or_false, List.cons_append, List.nil_append, List.append_nil] at hi
  rcases hi with rfl | rfl | rfl <;> items_Units

theorem bitset_more : ∀ i ∈ impls [E] [n], i ∈ bitsetImpls [E] [n] [ty] := by
  intro i hi
  simp only [impls, bitsetImpls, List.mem_cons, List.not_mem_nil, or_false] at hi ⊢
  rcases hi with h | h | h | h | h | h | h | h | h | h | h | h | h | h <;> simp [h]

theorem accepted : Accepted (impls [E] [n]) := by
  refine accepted_of ?_ ?_
  · intro i hi
    simp only [impls, List.mem_cons, List.not_mem_nil, or_false] at hi
    rcases hi with rfl | rfl | rfl | rfl | rfl | rfl | rfl | rfl | rfl | rfl | rfl | rfl | rfl | rfl
    · exact implOk_of (ok_vacantEntry_VacantEntry hE hn hty)
    · exact implOk_of (ok_occupiedEntry_OccupiedEntry hE hn hty)
    · exact implOk_of (ok_clone_MapStorage hE hn hty)
    · exact implOk_of (ok_copy_MapStorage hE hn hty)
    · exact implOk_of (ok_partialEq_MapStorage hE hn hty)
    · exact implOk_of (ok_eq_MapStorage hE hn hty)
    · exact implOk_of (ok_hash_MapStorage hE hn hty)
    · exact implOk_of (ok_partialOrd_MapStorage hE hn hty)
    · exact implOk_of (ok_ord_MapStorage hE hn hty)
    · exact implOk_of (ok_mapStorage_MapStorage hE hn hty)
    · exact implOk_of (ok_partialOrd_SetStorage hE hn hty)
    · exact implOk_of (ok_ord_SetStorage hE hn hty)
    · exact implOk_of (ok_setStorage_SetStorage hE hn hty)
    · exact implOk_of (ok_key_Enum hE hn hty)
  · simp [impls, key, target_vacantEntry_VacantEntry hE hn hty, target_occupiedEntry_OccupiedEntry hE hn hty, target_clone_MapStorage hE hn hty, target_copy_MapStorage hE hn hty, target_partialEq_MapStorage hE hn hty, target_eq_MapStorage hE hn hty, target_hash_MapStorage hE hn hty, target_partialOrd_MapStorage hE hn hty, target_ord_MapStorage hE hn hty, target_mapStorage_MapStorage hE hn hty, target_partialOrd_SetStorage hE hn hty, target_ord_SetStorage hE hn hty, target_setStorage_SetStorage hE hn hty, target_key_Enum hE hn hty]

theorem accepted_bitset : Accepted (bitsetImpls [E] [n] [ty]) := by
  refine accepted_of ?_ ?_
  · intro i hi
    simp only [bitsetImpls, List.mem_cons, List.not_mem_nil, or_false] at hi
    rcases hi with rfl | rfl | rfl | rfl | rfl | rfl | rfl | rfl | rfl | rfl | rfl | rfl | rfl | rfl | rfl
    · exact (implOk_of (ok_vacantEntry_VacantEntry hE hn hty)).mono (bitset_more hE hn hty)
    · exact (implOk_of (ok_occupiedEntry_OccupiedEntry hE hn hty)).mono (bitset_more hE hn hty)
    · exact (implOk_of (ok_clone_MapStorage hE hn hty)).mono (bitset_more hE hn hty)
    · exact (implOk_of (ok_copy_MapStorage hE hn hty)).mono (bitset_more hE hn hty)
    · exact (implOk_of (ok_partialEq_MapStorage hE hn hty)).mono (bitset_more hE hn hty)
    · exact (implOk_of (ok_eq_MapStorage hE hn hty)).mono (bitset_more hE hn hty)
    · exact (implOk_of (ok_hash_MapStorage hE hn hty)).mono (bitset_more hE hn hty)
    · exact (implOk_of (ok_partialOrd_MapStorage hE hn hty)).mono (bitset_more hE hn hty)
    · exact (implOk_of (ok_ord_MapStorage hE hn hty)).mono (bitset_more hE hn hty)
    · exact (implOk_of (ok_mapStorage_MapStorage hE hn hty)).mono (bitset_more hE hn hty)
    · exact (implOk_of (ok_partialOrd_SetStorage hE hn hty)).mono (bitset_more hE hn hty)
    · exact (implOk_of (ok_ord_SetStorage hE hn hty)).mono (bitset_more hE hn hty)
    · exact (implOk_of (ok_setStorage_SetStorage hE hn hty)).mono (bitset_more hE hn hty)
    · exact implOk_of (ok_bitset_rawStorage_SetStorage hE hn hty)
    · exact (implOk_of (ok_key_Enum hE hn hty)).mono (bitset_more hE hn hty)
  · simp [bitsetImpls, key, target_vacantEntry_VacantEntry hE hn hty, target_occupiedEntry_OccupiedEntry hE hn hty, target_clone_MapStorage hE hn hty, target_copy_MapStorage hE hn hty, target_partialEq_MapStorage hE hn hty, target_eq_MapStorage hE hn hty, target_hash_MapStorage hE hn hty, target_partialOrd_MapStorage hE hn hty, target_ord_MapStorage hE hn hty, target_mapStorage_MapStorage hE hn hty, target_partialOrd_SetStorage hE hn hty, target_ord_SetStorage hE hn hty, target_setStorage_SetStorage hE hn hty, target_rawStorage_SetStorage hE hn hty, target_key_Enum hE hn hty]

end Units

end FixedMap.Impls
