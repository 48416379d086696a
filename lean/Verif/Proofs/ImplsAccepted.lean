import Verif.Proofs.ImplsCheck

/-! # The impls are accepted -/

set_option autoImplicit false
set_option linter.unusedSimpArgs false
set_option linter.unusedVariables false
set_option linter.unusedSectionVars false
set_option maxRecDepth 100000

namespace FixedMap.Impls

open FixedMap.Emit (Toks)

namespace Any

variable {E : String} (hE : E ∉ special)
include hE

theorem target_mapStorage_MapStorage : (mapStorage_MapStorage [E]).target = some (⟨["fixed_map", "map", "MapStorage"], [[E], ["V"]]⟩, ["__MapStorage", "<", "V", ">"]) := by
  simp [mapStorage_MapStorage, Impl.target, args, angles, path, traitRef, breakAt, facts hE]

theorem assoc_mapStorage_MapStorage : (mapStorage_MapStorage [E]).assoc = [("IntoIter", ["__MapStorageIntoIter", "<", "V", ">"])] := by
  simp [mapStorage_MapStorage, Impl.assoc, tyOf, nameOf, args, angles, path, traitRef, breakAt, facts hE]

theorem target_clone_MapStorageIter : (clone_MapStorageIter).target = some (⟨["core", "clone", "Clone"], []⟩, ["__MapStorageIter", "<", "'a", ",", "V", ">"]) := by
  simp [clone_MapStorageIter, Impl.target, args, angles, path, traitRef, breakAt, facts hE]

theorem assoc_clone_MapStorageIter : (clone_MapStorageIter).assoc = [] := by
  simp [clone_MapStorageIter, Impl.assoc, tyOf, nameOf, args, angles, path, traitRef, breakAt, facts hE]

theorem target_iterator_MapStorageIter : (iterator_MapStorageIter [E]).target = some (⟨["core", "iter", "Iterator"], []⟩, ["__MapStorageIter", "<", "'a", ",", "V", ">"]) := by
  simp [iterator_MapStorageIter, Impl.target, args, angles, path, traitRef, breakAt, facts hE]

theorem assoc_iterator_MapStorageIter : (iterator_MapStorageIter [E]).assoc = [("Item", ["(", E, ",", "&", "'a", "V", ")"])] := by
  simp [iterator_MapStorageIter, Impl.assoc, tyOf, nameOf, args, angles, path, traitRef, breakAt, facts hE]

theorem target_doubleEndedIterator_MapStorageIter : (doubleEndedIterator_MapStorageIter).target = some (⟨["core", "iter", "DoubleEndedIterator"], []⟩, ["__MapStorageIter", "<", "'a", ",", "V", ">"]) := by
  simp [doubleEndedIterator_MapStorageIter, Impl.target, args, angles, path, traitRef, breakAt, facts hE]

theorem assoc_doubleEndedIterator_MapStorageIter : (doubleEndedIterator_MapStorageIter).assoc = [] := by
  simp [doubleEndedIterator_MapStorageIter, Impl.assoc, tyOf, nameOf, args, angles, path, traitRef, breakAt, facts hE]

theorem target_clone_MapStorageKeys : (clone_MapStorageKeys).target = some (⟨["core", "clone", "Clone"], []⟩, ["__MapStorageKeys", "<", "'a", ",", "V", ">"]) := by
  simp [clone_MapStorageKeys, Impl.target, args, angles, path, traitRef, breakAt, facts hE]

theorem assoc_clone_MapStorageKeys : (clone_MapStorageKeys).assoc = [] := by
  simp [clone_MapStorageKeys, Impl.assoc, tyOf, nameOf, args, angles, path, traitRef, breakAt, facts hE]

theorem target_iterator_MapStorageKeys : (iterator_MapStorageKeys [E]).target = some (⟨["core", "iter", "Iterator"], []⟩, ["__MapStorageKeys", "<", "'a", ",", "V", ">"]) := by
  simp [iterator_MapStorageKeys, Impl.target, args, angles, path, traitRef, breakAt, facts hE]

theorem assoc_iterator_MapStorageKeys : (iterator_MapStorageKeys [E]).assoc = [("Item", [E])] := by
  simp [iterator_MapStorageKeys, Impl.assoc, tyOf, nameOf, args, angles, path, traitRef, breakAt, facts hE]

theorem target_doubleEndedIterator_MapStorageKeys : (doubleEndedIterator_MapStorageKeys).target = some (⟨["core", "iter", "DoubleEndedIterator"], []⟩, ["__MapStorageKeys", "<", "'a", ",", "V", ">"]) := by
  simp [doubleEndedIterator_MapStorageKeys, Impl.target, args, angles, path, traitRef, breakAt, facts hE]

theorem assoc_doubleEndedIterator_MapStorageKeys : (doubleEndedIterator_MapStorageKeys).assoc = [] := by
  simp [doubleEndedIterator_MapStorageKeys, Impl.assoc, tyOf, nameOf, args, angles, path, traitRef, breakAt, facts hE]

theorem target_clone_MapStorageValues : (clone_MapStorageValues).target = some (⟨["core", "clone", "Clone"], []⟩, ["__MapStorageValues", "<", "'a", ",", "V", ">"]) := by
  simp [clone_MapStorageValues, Impl.target, args, angles, path, traitRef, breakAt, facts hE]

theorem assoc_clone_MapStorageValues : (clone_MapStorageValues).assoc = [] := by
  simp [clone_MapStorageValues, Impl.assoc, tyOf, nameOf, args, angles, path, traitRef, breakAt, facts hE]

theorem target_iterator_MapStorageValues : (iterator_MapStorageValues).target = some (⟨["core", "iter", "Iterator"], []⟩, ["__MapStorageValues", "<", "'a", ",", "V", ">"]) := by
  simp [iterator_MapStorageValues, Impl.target, args, angles, path, traitRef, breakAt, facts hE]

theorem assoc_iterator_MapStorageValues : (iterator_MapStorageValues).assoc = [("Item", ["&", "'a", "V"])] := by
  simp [iterator_MapStorageValues, Impl.assoc, tyOf, nameOf, args, angles, path, traitRef, breakAt, facts hE]

theorem target_doubleEndedIterator_MapStorageValues : (doubleEndedIterator_MapStorageValues).target = some (⟨["core", "iter", "DoubleEndedIterator"], []⟩, ["__MapStorageValues", "<", "'a", ",", "V", ">"]) := by
  simp [doubleEndedIterator_MapStorageValues, Impl.target, args, angles, path, traitRef, breakAt, facts hE]

theorem assoc_doubleEndedIterator_MapStorageValues : (doubleEndedIterator_MapStorageValues).assoc = [] := by
  simp [doubleEndedIterator_MapStorageValues, Impl.assoc, tyOf, nameOf, args, angles, path, traitRef, breakAt, facts hE]

theorem target_iterator_MapStorageIterMut : (iterator_MapStorageIterMut [E]).target = some (⟨["core", "iter", "Iterator"], []⟩, ["__MapStorageIterMut", "<", "'a", ",", "V", ">"]) := by
  simp [iterator_MapStorageIterMut, Impl.target, args, angles, path, traitRef, breakAt, facts hE]

theorem assoc_iterator_MapStorageIterMut : (iterator_MapStorageIterMut [E]).assoc = [("Item", ["(", E, ",", "&", "'a", "mut", "V", ")"])] := by
  simp [iterator_MapStorageIterMut, Impl.assoc, tyOf, nameOf, args, angles, path, traitRef, breakAt, facts hE]

theorem target_doubleEndedIterator_MapStorageIterMut : (doubleEndedIterator_MapStorageIterMut).target = some (⟨["core", "iter", "DoubleEndedIterator"], []⟩, ["__MapStorageIterMut", "<", "'a", ",", "V", ">"]) := by
  simp [doubleEndedIterator_MapStorageIterMut, Impl.target, args, angles, path, traitRef, breakAt, facts hE]

theorem assoc_doubleEndedIterator_MapStorageIterMut : (doubleEndedIterator_MapStorageIterMut).assoc = [] := by
  simp [doubleEndedIterator_MapStorageIterMut, Impl.assoc, tyOf, nameOf, args, angles, path, traitRef, breakAt, facts hE]

theorem target_iterator_MapStorageValuesMut : (iterator_MapStorageValuesMut).target = some (⟨["core", "iter", "Iterator"], []⟩, ["__MapStorageValuesMut", "<", "'a", ",", "V", ">"]) := by
  simp [iterator_MapStorageValuesMut, Impl.target, args, angles, path, traitRef, breakAt, facts hE]

theorem assoc_iterator_MapStorageValuesMut : (iterator_MapStorageValuesMut).assoc = [("Item", ["&", "'a", "mut", "V"])] := by
  simp [iterator_MapStorageValuesMut, Impl.assoc, tyOf, nameOf, args, angles, path, traitRef, breakAt, facts hE]

theorem target_doubleEndedIterator_MapStorageValuesMut : (doubleEndedIterator_MapStorageValuesMut).target = some (⟨["core", "iter", "DoubleEndedIterator"], []⟩, ["__MapStorageValuesMut", "<", "'a", ",", "V", ">"]) := by
  simp [doubleEndedIterator_MapStorageValuesMut, Impl.target, args, angles, path, traitRef, breakAt, facts hE]

theorem assoc_doubleEndedIterator_MapStorageValuesMut : (doubleEndedIterator_MapStorageValuesMut).assoc = [] := by
  simp [doubleEndedIterator_MapStorageValuesMut, Impl.assoc, tyOf, nameOf, args, angles, path, traitRef, breakAt, facts hE]

theorem target_clone_MapStorageIntoIter : (clone_MapStorageIntoIter).target = some (⟨["core", "clone", "Clone"], []⟩, ["__MapStorageIntoIter", "<", "V", ">"]) := by
  simp [clone_MapStorageIntoIter, Impl.target, args, angles, path, traitRef, breakAt, facts hE]

theorem assoc_clone_MapStorageIntoIter : (clone_MapStorageIntoIter).assoc = [] := by
  simp [clone_MapStorageIntoIter, Impl.assoc, tyOf, nameOf, args, angles, path, traitRef, breakAt, facts hE]

theorem target_iterator_MapStorageIntoIter : (iterator_MapStorageIntoIter [E]).target = some (⟨["core", "iter", "Iterator"], []⟩, ["__MapStorageIntoIter", "<", "V", ">"]) := by
  simp [iterator_MapStorageIntoIter, Impl.target, args, angles, path, traitRef, breakAt, facts hE]

theorem assoc_iterator_MapStorageIntoIter : (iterator_MapStorageIntoIter [E]).assoc = [("Item", ["(", E, ",", "V", ")"])] := by
  simp [iterator_MapStorageIntoIter, Impl.assoc, tyOf, nameOf, args, angles, path, traitRef, breakAt, facts hE]

theorem target_doubleEndedIterator_MapStorageIntoIter : (doubleEndedIterator_MapStorageIntoIter).target = some (⟨["core", "iter", "DoubleEndedIterator"], []⟩, ["__MapStorageIntoIter", "<", "V", ">"]) := by
  simp [doubleEndedIterator_MapStorageIntoIter, Impl.target, args, angles, path, traitRef, breakAt, facts hE]

theorem assoc_doubleEndedIterator_MapStorageIntoIter : (doubleEndedIterator_MapStorageIntoIter).assoc = [] := by
  simp [doubleEndedIterator_MapStorageIntoIter, Impl.assoc, tyOf, nameOf, args, angles, path, traitRef, breakAt, facts hE]

theorem target_simpleVacantEntry : (simpleVacantEntry).target = none := by
  simp [simpleVacantEntry, Impl.target, args, angles, path, traitRef, breakAt, facts hE]

theorem target_simpleOccupiedEntry : (simpleOccupiedEntry).target = none := by
  simp [simpleOccupiedEntry, Impl.target, args, angles, path, traitRef, breakAt, facts hE]

theorem target_vacantEntry_VacantEntry : (vacantEntry_VacantEntry [E]).target = some (⟨["fixed_map", "map", "VacantEntry"], [["'a"], [E], ["V"]]⟩, ["VacantEntry", "<", "'a", ",", "V", ">"]) := by
  simp [vacantEntry_VacantEntry, Impl.target, args, angles, path, traitRef, breakAt, facts hE]

theorem assoc_vacantEntry_VacantEntry : (vacantEntry_VacantEntry [E]).assoc = [] := by
  simp [vacantEntry_VacantEntry, Impl.assoc, tyOf, nameOf, args, angles, path, traitRef, breakAt, facts hE]

theorem target_occupiedEntry_OccupiedEntry : (occupiedEntry_OccupiedEntry [E]).target = some (⟨["fixed_map", "map", "OccupiedEntry"], [["'a"], [E], ["V"]]⟩, ["OccupiedEntry", "<", "'a", ",", "V", ">"]) := by
  simp [occupiedEntry_OccupiedEntry, Impl.target, args, angles, path, traitRef, breakAt, facts hE]

theorem assoc_occupiedEntry_OccupiedEntry : (occupiedEntry_OccupiedEntry [E]).assoc = [] := by
  simp [occupiedEntry_OccupiedEntry, Impl.assoc, tyOf, nameOf, args, angles, path, traitRef, breakAt, facts hE]

theorem target_partialEq_MapStorage : (partialEq_MapStorage).target = some (⟨["core", "cmp", "PartialEq"], []⟩, ["__MapStorage", "<", "V", ">"]) := by
  simp [partialEq_MapStorage, Impl.target, args, angles, path, traitRef, breakAt, facts hE]

theorem assoc_partialEq_MapStorage : (partialEq_MapStorage).assoc = [] := by
  simp [partialEq_MapStorage, Impl.assoc, tyOf, nameOf, args, angles, path, traitRef, breakAt, facts hE]

theorem target_eq_MapStorage : (eq_MapStorage).target = some (⟨["core", "cmp", "Eq"], []⟩, ["__MapStorage", "<", "V", ">"]) := by
  simp [eq_MapStorage, Impl.target, args, angles, path, traitRef, breakAt, facts hE]

theorem assoc_eq_MapStorage : (eq_MapStorage).assoc = [] := by
  simp [eq_MapStorage, Impl.assoc, tyOf, nameOf, args, angles, path, traitRef, breakAt, facts hE]

theorem target_clone_MapStorage : (clone_MapStorage).target = some (⟨["core", "clone", "Clone"], []⟩, ["__MapStorage", "<", "V", ">"]) := by
  simp [clone_MapStorage, Impl.target, args, angles, path, traitRef, breakAt, facts hE]

theorem assoc_clone_MapStorage : (clone_MapStorage).assoc = [] := by
  simp [clone_MapStorage, Impl.assoc, tyOf, nameOf, args, angles, path, traitRef, breakAt, facts hE]

theorem target_copy_MapStorage : (copy_MapStorage).target = some (⟨["core", "marker", "Copy"], []⟩, ["__MapStorage", "<", "V", ">"]) := by
  simp [copy_MapStorage, Impl.target, args, angles, path, traitRef, breakAt, facts hE]

theorem assoc_copy_MapStorage : (copy_MapStorage).assoc = [] := by
  simp [copy_MapStorage, Impl.assoc, tyOf, nameOf, args, angles, path, traitRef, breakAt, facts hE]

theorem target_setStorage_SetStorage : (setStorage_SetStorage [E]).target = some (⟨["fixed_map", "set", "SetStorage"], [[E]]⟩, ["__SetStorage"]) := by
  simp [setStorage_SetStorage, Impl.target, args, angles, path, traitRef, breakAt, facts hE]

theorem assoc_setStorage_SetStorage : (setStorage_SetStorage [E]).assoc = [("IntoIter", ["__SetStorageIntoIter"])] := by
  simp [setStorage_SetStorage, Impl.assoc, tyOf, nameOf, args, angles, path, traitRef, breakAt, facts hE]

theorem target_clone_SetStorageIter : (clone_SetStorageIter).target = some (⟨["core", "clone", "Clone"], []⟩, ["__SetStorageIter", "<", "'a", ">"]) := by
  simp [clone_SetStorageIter, Impl.target, args, angles, path, traitRef, breakAt, facts hE]

theorem assoc_clone_SetStorageIter : (clone_SetStorageIter).assoc = [] := by
  simp [clone_SetStorageIter, Impl.assoc, tyOf, nameOf, args, angles, path, traitRef, breakAt, facts hE]

theorem target_iterator_SetStorageIter : (iterator_SetStorageIter [E]).target = some (⟨["core", "iter", "Iterator"], []⟩, ["__SetStorageIter", "<", "'a", ">"]) := by
  simp [iterator_SetStorageIter, Impl.target, args, angles, path, traitRef, breakAt, facts hE]

theorem assoc_iterator_SetStorageIter : (iterator_SetStorageIter [E]).assoc = [("Item", [E])] := by
  simp [iterator_SetStorageIter, Impl.assoc, tyOf, nameOf, args, angles, path, traitRef, breakAt, facts hE]

theorem target_doubleEndedIterator_SetStorageIter : (doubleEndedIterator_SetStorageIter).target = some (⟨["core", "iter", "DoubleEndedIterator"], []⟩, ["__SetStorageIter", "<", "'a", ">"]) := by
  simp [doubleEndedIterator_SetStorageIter, Impl.target, args, angles, path, traitRef, breakAt, facts hE]

theorem assoc_doubleEndedIterator_SetStorageIter : (doubleEndedIterator_SetStorageIter).assoc = [] := by
  simp [doubleEndedIterator_SetStorageIter, Impl.assoc, tyOf, nameOf, args, angles, path, traitRef, breakAt, facts hE]

theorem target_clone_SetStorageIntoIter : (clone_SetStorageIntoIter).target = some (⟨["core", "clone", "Clone"], []⟩, ["__SetStorageIntoIter"]) := by
  simp [clone_SetStorageIntoIter, Impl.target, args, angles, path, traitRef, breakAt, facts hE]

theorem assoc_clone_SetStorageIntoIter : (clone_SetStorageIntoIter).assoc = [] := by
  simp [clone_SetStorageIntoIter, Impl.assoc, tyOf, nameOf, args, angles, path, traitRef, breakAt, facts hE]

theorem target_iterator_SetStorageIntoIter : (iterator_SetStorageIntoIter [E]).target = some (⟨["core", "iter", "Iterator"], []⟩, ["__SetStorageIntoIter"]) := by
  simp [iterator_SetStorageIntoIter, Impl.target, args, angles, path, traitRef, breakAt, facts hE]

theorem assoc_iterator_SetStorageIntoIter : (iterator_SetStorageIntoIter [E]).assoc = [("Item", [E])] := by
  simp [iterator_SetStorageIntoIter, Impl.assoc, tyOf, nameOf, args, angles, path, traitRef, breakAt, facts hE]

theorem target_doubleEndedIterator_SetStorageIntoIter : (doubleEndedIterator_SetStorageIntoIter).target = some (⟨["core", "iter", "DoubleEndedIterator"], []⟩, ["__SetStorageIntoIter"]) := by
  simp [doubleEndedIterator_SetStorageIntoIter, Impl.target, args, angles, path, traitRef, breakAt, facts hE]

theorem assoc_doubleEndedIterator_SetStorageIntoIter : (doubleEndedIterator_SetStorageIntoIter).assoc = [] := by
  simp [doubleEndedIterator_SetStorageIntoIter, Impl.assoc, tyOf, nameOf, args, angles, path, traitRef, breakAt, facts hE]

theorem target_partialEq_SetStorage : (partialEq_SetStorage).target = some (⟨["core", "cmp", "PartialEq"], []⟩, ["__SetStorage"]) := by
  simp [partialEq_SetStorage, Impl.target, args, angles, path, traitRef, breakAt, facts hE]

theorem assoc_partialEq_SetStorage : (partialEq_SetStorage).assoc = [] := by
  simp [partialEq_SetStorage, Impl.assoc, tyOf, nameOf, args, angles, path, traitRef, breakAt, facts hE]

theorem target_eq_SetStorage : (eq_SetStorage).target = some (⟨["core", "cmp", "Eq"], []⟩, ["__SetStorage"]) := by
  simp [eq_SetStorage, Impl.target, args, angles, path, traitRef, breakAt, facts hE]

theorem assoc_eq_SetStorage : (eq_SetStorage).assoc = [] := by
  simp [eq_SetStorage, Impl.assoc, tyOf, nameOf, args, angles, path, traitRef, breakAt, facts hE]

theorem target_clone_SetStorage : (clone_SetStorage).target = some (⟨["core", "clone", "Clone"], []⟩, ["__SetStorage"]) := by
  simp [clone_SetStorage, Impl.target, args, angles, path, traitRef, breakAt, facts hE]

theorem assoc_clone_SetStorage : (clone_SetStorage).assoc = [] := by
  simp [clone_SetStorage, Impl.assoc, tyOf, nameOf, args, angles, path, traitRef, breakAt, facts hE]

theorem target_copy_SetStorage : (copy_SetStorage).target = some (⟨["core", "marker", "Copy"], []⟩, ["__SetStorage"]) := by
  simp [copy_SetStorage, Impl.target, args, angles, path, traitRef, breakAt, facts hE]

theorem assoc_copy_SetStorage : (copy_SetStorage).assoc = [] := by
  simp [copy_SetStorage, Impl.assoc, tyOf, nameOf, args, angles, path, traitRef, breakAt, facts hE]

theorem target_key_Enum : (key_Enum [E]).target = some (⟨["fixed_map", "Key"], []⟩, [E]) := by
  simp [key_Enum, Impl.target, args, angles, path, traitRef, breakAt, facts hE]

theorem assoc_key_Enum : (key_Enum [E]).assoc = [("SetStorage", ["__SetStorage"])] := by
  simp [key_Enum, Impl.assoc, tyOf, nameOf, args, angles, path, traitRef, breakAt, facts hE]

set_option hygiene false in
/-- Evaluate what is said of one item. -/
macro "items_Any" : tactic => `(tactic| (first
  | (refine item_fn rfl rfl rfl ?_
     simp [sigOk, assoc_mapStorage_MapStorage hE, assoc_clone_MapStorageIter hE, assoc_iterator_MapStorageIter hE, assoc_doubleEndedIterator_MapStorageIter hE, assoc_clone_MapStorageKeys hE, assoc_iterator_MapStorageKeys hE, assoc_doubleEndedIterator_MapStorageKeys hE, assoc_clone_MapStorageValues hE, assoc_iterator_MapStorageValues hE, assoc_doubleEndedIterator_MapStorageValues hE, assoc_iterator_MapStorageIterMut hE, assoc_doubleEndedIterator_MapStorageIterMut hE, assoc_iterator_MapStorageValuesMut hE, assoc_doubleEndedIterator_MapStorageValuesMut hE, assoc_clone_MapStorageIntoIter hE, assoc_iterator_MapStorageIntoIter hE, assoc_doubleEndedIterator_MapStorageIntoIter hE, assoc_vacantEntry_VacantEntry hE, assoc_occupiedEntry_OccupiedEntry hE, assoc_partialEq_MapStorage hE, assoc_eq_MapStorage hE, assoc_clone_MapStorage hE, assoc_copy_MapStorage hE, assoc_setStorage_SetStorage hE, assoc_clone_SetStorageIter hE, assoc_iterator_SetStorageIter hE, assoc_doubleEndedIterator_SetStorageIter hE, assoc_clone_SetStorageIntoIter hE, assoc_iterator_SetStorageIntoIter hE, assoc_doubleEndedIterator_SetStorageIntoIter hE, assoc_partialEq_SetStorage hE, assoc_eq_SetStorage hE, assoc_clone_SetStorage hE, assoc_copy_SetStorage hE, assoc_key_Enum hE, paramsOf, traits, prelude, option, absolute, types, subst, unself, trim, List.lookup, List.zipIdx, facts hE,
       trKey, trMapStorage, trOccupiedEntry, trVacantEntry, trSetStorage, trRawStorage, trClone, trCopy, trPartialEq, trEq, trPartialOrd, trOrd, trHash, trIterator, trDoubleEndedIterator]; done)
  | (refine item_ty rfl rfl rfl ?_
     simp [tyOk, condOk, provides, coreProvides, coreItem, baseItem, optionItem, tyOf, bounds, bounds.go, conditions, args, angles, path, traitRef, breakAt, impls, 
       target_mapStorage_MapStorage hE, target_clone_MapStorageIter hE, target_iterator_MapStorageIter hE, target_doubleEndedIterator_MapStorageIter hE, target_clone_MapStorageKeys hE, target_iterator_MapStorageKeys hE, target_doubleEndedIterator_MapStorageKeys hE, target_clone_MapStorageValues hE, target_iterator_MapStorageValues hE, target_doubleEndedIterator_MapStorageValues hE, target_iterator_MapStorageIterMut hE, target_doubleEndedIterator_MapStorageIterMut hE, target_iterator_MapStorageValuesMut hE, target_doubleEndedIterator_MapStorageValuesMut hE, target_clone_MapStorageIntoIter hE, target_iterator_MapStorageIntoIter hE, target_doubleEndedIterator_MapStorageIntoIter hE, target_simpleVacantEntry hE, target_simpleOccupiedEntry hE, target_vacantEntry_VacantEntry hE, target_occupiedEntry_OccupiedEntry hE, target_partialEq_MapStorage hE, target_eq_MapStorage hE, target_clone_MapStorage hE, target_copy_MapStorage hE, target_setStorage_SetStorage hE, target_clone_SetStorageIter hE, target_iterator_SetStorageIter hE, target_doubleEndedIterator_SetStorageIter hE, target_clone_SetStorageIntoIter hE, target_iterator_SetStorageIntoIter hE, target_doubleEndedIterator_SetStorageIntoIter hE, target_partialEq_SetStorage hE, target_eq_SetStorage hE, target_clone_SetStorage hE, target_copy_SetStorage hE, target_key_Enum hE,
       assoc_mapStorage_MapStorage hE, assoc_clone_MapStorageIter hE, assoc_iterator_MapStorageIter hE, assoc_doubleEndedIterator_MapStorageIter hE, assoc_clone_MapStorageKeys hE, assoc_iterator_MapStorageKeys hE, assoc_doubleEndedIterator_MapStorageKeys hE, assoc_clone_MapStorageValues hE, assoc_iterator_MapStorageValues hE, assoc_doubleEndedIterator_MapStorageValues hE, assoc_iterator_MapStorageIterMut hE, assoc_doubleEndedIterator_MapStorageIterMut hE, assoc_iterator_MapStorageValuesMut hE, assoc_doubleEndedIterator_MapStorageValuesMut hE, assoc_clone_MapStorageIntoIter hE, assoc_iterator_MapStorageIntoIter hE, assoc_doubleEndedIterator_MapStorageIntoIter hE, assoc_vacantEntry_VacantEntry hE, assoc_occupiedEntry_OccupiedEntry hE, assoc_partialEq_MapStorage hE, assoc_eq_MapStorage hE, assoc_clone_MapStorage hE, assoc_copy_MapStorage hE, assoc_setStorage_SetStorage hE, assoc_clone_SetStorageIter hE, assoc_iterator_SetStorageIter hE, assoc_doubleEndedIterator_SetStorageIter hE, assoc_clone_SetStorageIntoIter hE, assoc_iterator_SetStorageIntoIter hE, assoc_doubleEndedIterator_SetStorageIntoIter hE, assoc_partialEq_SetStorage hE, assoc_eq_SetStorage hE, assoc_clone_SetStorage hE, assoc_copy_SetStorage hE, assoc_key_Enum hE,
       paramsOf, traits, prelude, option, absolute, subst, unself, List.lookup, List.zipIdx, facts hE,
       trKey, trMapStorage, trOccupiedEntry, trVacantEntry, trSetStorage, trRawStorage, trClone, trCopy, trPartialEq, trEq, trPartialOrd, trOrd, trHash, trIterator, trDoubleEndedIterator]; done)))

set_option maxHeartbeats 1000000 in
theorem ok_mapStorage_MapStorage : implOk (impls [E]) (mapStorage_MapStorage [E]) = true := by
  refine implOk_intro (tr := trMapStorage) (target_mapStorage_MapStorage hE) rfl (Nat.le_of_ble_eq_true rfl) rfl ?_ (by decide) ?_
  · simp only [mapStorage_MapStorage, List.map_cons, List.map_nil, List.cons_append, List.nil_append, nameOf, List.getElem?_cons_succ, List.getElem?_cons_zero]; decide +kernel
  intro item hi
  simp only [mapStorage_MapStorage, List.mem_cons, List.not_mem_nil, or_false, List.cons_append, List.nil_append, List.append_nil] at hi
  rcases hi with rfl | rfl | rfl | rfl | rfl | rfl | rfl | rfl | rfl | rfl | rfl | rfl | rfl | rfl | rfl | rfl | rfl | rfl | rfl | rfl | rfl | rfl | rfl | rfl | rfl <;> items_Any

theorem ok_clone_MapStorageIter : implOk (impls [E]) (clone_MapStorageIter) = true := by
  refine implOk_intro (tr := trClone) (target_clone_MapStorageIter hE) rfl (Nat.le_of_ble_eq_true rfl) rfl ?_ (by decide) ?_
  · simp only [clone_MapStorageIter, List.map_cons, List.map_nil, List.cons_append, List.nil_append, nameOf, List.getElem?_cons_succ, List.getElem?_cons_zero]; decide +kernel
  intro item hi
  simp only [clone_MapStorageIter, List.mem_cons, List.not_mem_nil, or_false, List.cons_append, List.nil_append, List.append_nil] at hi
  rcases hi with rfl <;> items_Any

theorem ok_iterator_MapStorageIter : implOk (impls [E]) (iterator_MapStorageIter [E]) = true := by
  refine implOk_intro (tr := trIterator) (target_iterator_MapStorageIter hE) rfl (Nat.le_of_ble_eq_true rfl) rfl ?_ (by decide) ?_
  · simp only [iterator_MapStorageIter, List.map_cons, List.map_nil, List.cons_append, List.nil_append, nameOf, List.getElem?_cons_succ, List.getElem?_cons_zero]; decide +kernel
  intro item hi
  simp only [iterator_MapStorageIter, List.mem_cons, List.not_mem_nil, or_false, List.cons_append, List.nil_append, List.append_nil] at hi
  rcases hi with rfl | rfl <;> items_Any

theorem ok_doubleEndedIterator_MapStorageIter : implOk (impls [E]) (doubleEndedIterator_MapStorageIter) = true := by
  refine implOk_intro (tr := trDoubleEndedIterator) (target_doubleEndedIterator_MapStorageIter hE) rfl (Nat.le_of_ble_eq_true rfl) rfl ?_ (by decide) ?_
  · simp only [doubleEndedIterator_MapStorageIter, List.map_cons, List.map_nil, List.cons_append, List.nil_append, nameOf, List.getElem?_cons_succ, List.getElem?_cons_zero]; decide +kernel
  intro item hi
  simp only [doubleEndedIterator_MapStorageIter, List.mem_cons, List.not_mem_nil, or_false, List.cons_append, List.nil_append, List.append_nil] at hi
  rcases hi with rfl <;> items_Any

theorem ok_clone_MapStorageKeys : implOk (impls [E]) (clone_MapStorageKeys) = true := by
  refine implOk_intro (tr := trClone) (target_clone_MapStorageKeys hE) rfl (Nat.le_of_ble_eq_true rfl) rfl ?_ (by decide) ?_
  · simp only [clone_MapStorageKeys, List.map_cons, List.map_nil, List.cons_append, List.nil_append, nameOf, List.getElem?_cons_succ, List.getElem?_cons_zero]; decide +kernel
  intro item hi
  simp only [clone_MapStorageKeys, List.mem_cons, List.not_mem_nil, or_false, List.cons_append, List.nil_append, List.append_nil] at hi
  rcases hi with rfl <;> items_Any

theorem ok_iterator_MapStorageKeys : implOk (impls [E]) (iterator_MapStorageKeys [E]) = true := by
  refine implOk_intro (tr := trIterator) (target_iterator_MapStorageKeys hE) rfl (Nat.le_of_ble_eq_true rfl) rfl ?_ (by decide) ?_
  · simp only [iterator_MapStorageKeys, List.map_cons, List.map_nil, List.cons_append, List.nil_append, nameOf, List.getElem?_cons_succ, List.getElem?_cons_zero]; decide +kernel
  intro item hi
  simp only [iterator_MapStorageKeys, List.mem_cons, List.not_mem_nil, or_false, List.cons_append, List.nil_append, List.append_nil] at hi
  rcases hi with rfl | rfl <;> items_Any

theorem ok_doubleEndedIterator_MapStorageKeys : implOk (impls [E]) (doubleEndedIterator_MapStorageKeys) = true := by
  refine implOk_intro (tr := trDoubleEndedIterator) (target_doubleEndedIterator_MapStorageKeys hE) rfl (Nat.le_of_ble_eq_true rfl) rfl ?_ (by decide) ?_
  · simp only [doubleEndedIterator_MapStorageKeys, List.map_cons, List.map_nil, List.cons_append, List.nil_append, nameOf, List.getElem?_cons_succ, List.getElem?_cons_zero]; decide +kernel
  intro item hi
  simp only [doubleEndedIterator_MapStorageKeys, List.mem_cons, List.not_mem_nil, or_false, List.cons_append, List.nil_append, List.append_nil] at hi
  rcases hi with rfl <;> items_Any

theorem ok_clone_MapStorageValues : implOk (impls [E]) (clone_MapStorageValues) = true := by
  refine implOk_intro (tr := trClone) (target_clone_MapStorageValues hE) rfl (Nat.le_of_ble_eq_true rfl) rfl ?_ (by decide) ?_
  · simp only [clone_MapStorageValues, List.map_cons, List.map_nil, List.cons_append, List.nil_append, nameOf, List.getElem?_cons_succ, List.getElem?_cons_zero]; decide +kernel
  intro item hi
  simp only [clone_MapStorageValues, List.mem_cons, List.not_mem_nil, or_false, List.cons_append, List.nil_append, List.append_nil] at hi
  rcases hi with rfl <;> items_Any

theorem ok_iterator_MapStorageValues : implOk (impls [E]) (iterator_MapStorageValues) = true := by
  refine implOk_intro (tr := trIterator) (target_iterator_MapStorageValues hE) rfl (Nat.le_of_ble_eq_true rfl) rfl ?_ (by decide) ?_
  · simp only [iterator_MapStorageValues, List.map_cons, List.map_nil, List.cons_append, List.nil_append, nameOf, List.getElem?_cons_succ, List.getElem?_cons_zero]; decide +kernel
  intro item hi
  simp only [iterator_MapStorageValues, List.mem_cons, List.not_mem_nil, or_false, List.cons_append, List.nil_append, List.append_nil] at hi
  rcases hi with rfl | rfl <;> items_Any

theorem ok_doubleEndedIterator_MapStorageValues : implOk (impls [E]) (doubleEndedIterator_MapStorageValues) = true := by
  refine implOk_intro (tr := trDoubleEndedIterator) (target_doubleEndedIterator_MapStorageValues hE) rfl (Nat.le_of_ble_eq_true rfl) rfl ?_ (by decide) ?_
  · simp only [doubleEndedIterator_MapStorageValues, List.map_cons, List.map_nil, List.cons_append, List.nil_append, nameOf, List.getElem?_cons_succ, List.getElem?_cons_zero]; decide +kernel
  intro item hi
  simp only [doubleEndedIterator_MapStorageValues, List.mem_cons, List.not_mem_nil, or_false, List.cons_append, List.nil_append, List.append_nil] at hi
  rcases hi with rfl <;> items_Any

theorem ok_iterator_MapStorageIterMut : implOk (impls [E]) (iterator_MapStorageIterMut [E]) = true := by
  refine implOk_intro (tr := trIterator) (target_iterator_MapStorageIterMut hE) rfl (Nat.le_of_ble_eq_true rfl) rfl ?_ (by decide) ?_
  · simp only [iterator_MapStorageIterMut, List.map_cons, List.map_nil, List.cons_append, List.nil_append, nameOf, List.getElem?_cons_succ, List.getElem?_cons_zero]; decide +kernel
  intro item hi
  simp only [iterator_MapStorageIterMut, List.mem_cons, List.not_mem_nil, or_false, List.cons_append, List.nil_append, List.append_nil] at hi
  rcases hi with rfl | rfl <;> items_Any

theorem ok_doubleEndedIterator_MapStorageIterMut : implOk (impls [E]) (doubleEndedIterator_MapStorageIterMut) = true := by
  refine implOk_intro (tr := trDoubleEndedIterator) (target_doubleEndedIterator_MapStorageIterMut hE) rfl (Nat.le_of_ble_eq_true rfl) rfl ?_ (by decide) ?_
  · simp only [doubleEndedIterator_MapStorageIterMut, List.map_cons, List.map_nil, List.cons_append, List.nil_append, nameOf, List.getElem?_cons_succ, List.getElem?_cons_zero]; decide +kernel
  intro item hi
  simp only [doubleEndedIterator_MapStorageIterMut, List.mem_cons, List.not_mem_nil, or_false, List.cons_append, List.nil_append, List.append_nil] at hi
  rcases hi with rfl <;> items_Any

theorem ok_iterator_MapStorageValuesMut : implOk (impls [E]) (iterator_MapStorageValuesMut) = true := by
  refine implOk_intro (tr := trIterator) (target_iterator_MapStorageValuesMut hE) rfl (Nat.le_of_ble_eq_true rfl) rfl ?_ (by decide) ?_
  · simp only [iterator_MapStorageValuesMut, List.map_cons, List.map_nil, List.cons_append, List.nil_append, nameOf, List.getElem?_cons_succ, List.getElem?_cons_zero]; decide +kernel
  intro item hi
  simp only [iterator_MapStorageValuesMut, List.mem_cons, List.not_mem_nil, or_false, List.cons_append, List.nil_append, List.append_nil] at hi
  rcases hi with rfl | rfl <;> items_Any

theorem ok_doubleEndedIterator_MapStorageValuesMut : implOk (impls [E]) (doubleEndedIterator_MapStorageValuesMut) = true := by
  refine implOk_intro (tr := trDoubleEndedIterator) (target_doubleEndedIterator_MapStorageValuesMut hE) rfl (Nat.le_of_ble_eq_true rfl) rfl ?_ (by decide) ?_
  · simp only [doubleEndedIterator_MapStorageValuesMut, List.map_cons, List.map_nil, List.cons_append, List.nil_append, nameOf, List.getElem?_cons_succ, List.getElem?_cons_zero]; decide +kernel
  intro item hi
  simp only [doubleEndedIterator_MapStorageValuesMut, List.mem_cons, List.not_mem_nil, or_false, List.cons_append, List.nil_append, List.append_nil] at hi
  rcases hi with rfl <;> items_Any

theorem ok_clone_MapStorageIntoIter : implOk (impls [E]) (clone_MapStorageIntoIter) = true := by
  refine implOk_intro (tr := trClone) (target_clone_MapStorageIntoIter hE) rfl (Nat.le_of_ble_eq_true rfl) rfl ?_ (by decide) ?_
  · simp only [clone_MapStorageIntoIter, List.map_cons, List.map_nil, List.cons_append, List.nil_append, nameOf, List.getElem?_cons_succ, List.getElem?_cons_zero]; decide +kernel
  intro item hi
  simp only [clone_MapStorageIntoIter, List.mem_cons, List.not_mem_nil, or_false, List.cons_append, List.nil_append, List.append_nil] at hi
  rcases hi with rfl <;> items_Any

theorem ok_iterator_MapStorageIntoIter : implOk (impls [E]) (iterator_MapStorageIntoIter [E]) = true := by
  refine implOk_intro (tr := trIterator) (target_iterator_MapStorageIntoIter hE) rfl (Nat.le_of_ble_eq_true rfl) rfl ?_ (by decide) ?_
  · simp only [iterator_MapStorageIntoIter, List.map_cons, List.map_nil, List.cons_append, List.nil_append, nameOf, List.getElem?_cons_succ, List.getElem?_cons_zero]; decide +kernel
  intro item hi
  simp only [iterator_MapStorageIntoIter, List.mem_cons, List.not_mem_nil, or_false, List.cons_append, List.nil_append, List.append_nil] at hi
  rcases hi with rfl | rfl <;> items_Any

theorem ok_doubleEndedIterator_MapStorageIntoIter : implOk (impls [E]) (doubleEndedIterator_MapStorageIntoIter) = true := by
  refine implOk_intro (tr := trDoubleEndedIterator) (target_doubleEndedIterator_MapStorageIntoIter hE) rfl (Nat.le_of_ble_eq_true rfl) rfl ?_ (by decide) ?_
  · simp only [doubleEndedIterator_MapStorageIntoIter, List.map_cons, List.map_nil, List.cons_append, List.nil_append, nameOf, List.getElem?_cons_succ, List.getElem?_cons_zero]; decide +kernel
  intro item hi
  simp only [doubleEndedIterator_MapStorageIntoIter, List.mem_cons, List.not_mem_nil, or_false, List.cons_append, List.nil_append, List.append_nil] at hi
  rcases hi with rfl <;> items_Any

theorem ok_simpleVacantEntry : implOk (impls [E]) (simpleVacantEntry) = true := by
  refine implOk_inherent (target_simpleVacantEntry hE) (by decide) (by decide)

theorem ok_simpleOccupiedEntry : implOk (impls [E]) (simpleOccupiedEntry) = true := by
  refine implOk_inherent (target_simpleOccupiedEntry hE) (by decide) (by decide)

theorem ok_vacantEntry_VacantEntry : implOk (impls [E]) (vacantEntry_VacantEntry [E]) = true := by
  refine implOk_intro (tr := trVacantEntry) (target_vacantEntry_VacantEntry hE) rfl (Nat.le_of_ble_eq_true rfl) rfl ?_ (by decide) ?_
  · simp only [vacantEntry_VacantEntry, List.map_cons, List.map_nil, List.cons_append, List.nil_append, nameOf, List.getElem?_cons_succ, List.getElem?_cons_zero]; decide +kernel
  intro item hi
  simp only [vacantEntry_VacantEntry, List.mem_cons, List.not_mem_nil, or_false, List.cons_append, List.nil_append, List.append_nil] at hi
  rcases hi with rfl | rfl <;> items_Any

theorem ok_occupiedEntry_OccupiedEntry : implOk (impls [E]) (occupiedEntry_OccupiedEntry [E]) = true := by
  refine implOk_intro (tr := trOccupiedEntry) (target_occupiedEntry_OccupiedEntry hE) rfl (Nat.le_of_ble_eq_true rfl) rfl ?_ (by decide) ?_
  · simp only [occupiedEntry_OccupiedEntry, List.map_cons, List.map_nil, List.cons_append, List.nil_append, nameOf, List.getElem?_cons_succ, List.getElem?_cons_zero]; decide +kernel
  intro item hi
  simp only [occupiedEntry_OccupiedEntry, List.mem_cons, List.not_mem_nil, or_false, List.cons_append, List.nil_append, List.append_nil] at hi
  rcases hi with rfl | rfl | rfl | rfl | rfl | rfl <;> items_Any

theorem ok_partialEq_MapStorage : implOk (impls [E]) (partialEq_MapStorage) = true := by
  refine implOk_intro (tr := trPartialEq) (target_partialEq_MapStorage hE) rfl (Nat.le_of_ble_eq_true rfl) rfl ?_ (by decide) ?_
  · simp only [partialEq_MapStorage, List.map_cons, List.map_nil, List.cons_append, List.nil_append, nameOf, List.getElem?_cons_succ, List.getElem?_cons_zero]; decide +kernel
  intro item hi
  simp only [partialEq_MapStorage, List.mem_cons, List.not_mem_nil, or_false, List.cons_append, List.nil_append, List.append_nil] at hi
  rcases hi with rfl <;> items_Any

theorem ok_eq_MapStorage : implOk (impls [E]) (eq_MapStorage) = true := by
  refine implOk_intro (tr := trEq) (target_eq_MapStorage hE) rfl (Nat.le_of_ble_eq_true rfl) rfl ?_ (by decide) ?_
  · simp only [eq_MapStorage, List.map_cons, List.map_nil, List.cons_append, List.nil_append, nameOf, List.getElem?_cons_succ, List.getElem?_cons_zero]; decide +kernel
  intro item hi
  cases hi

theorem ok_clone_MapStorage : implOk (impls [E]) (clone_MapStorage) = true := by
  refine implOk_intro (tr := trClone) (target_clone_MapStorage hE) rfl (Nat.le_of_ble_eq_true rfl) rfl ?_ (by decide) ?_
  · simp only [clone_MapStorage, List.map_cons, List.map_nil, List.cons_append, List.nil_append, nameOf, List.getElem?_cons_succ, List.getElem?_cons_zero]; decide +kernel
  intro item hi
  simp only [clone_MapStorage, List.mem_cons, List.not_mem_nil, or_false, List.cons_append, List.nil_append, List.append_nil] at hi
  rcases hi with rfl <;> items_Any

theorem ok_copy_MapStorage : implOk (impls [E]) (copy_MapStorage) = true := by
  refine implOk_intro (tr := trCopy) (target_copy_MapStorage hE) rfl (Nat.le_of_ble_eq_true rfl) rfl ?_ (by decide) ?_
  · simp only [copy_MapStorage, List.map_cons, List.map_nil, List.cons_append, List.nil_append, nameOf, List.getElem?_cons_succ, List.getElem?_cons_zero]; decide +kernel
  intro item hi
  cases hi

theorem ok_setStorage_SetStorage : implOk (impls [E]) (setStorage_SetStorage [E]) = true := by
  refine implOk_intro (tr := trSetStorage) (target_setStorage_SetStorage hE) rfl (Nat.le_of_ble_eq_true rfl) rfl ?_ (by decide) ?_
  · simp only [setStorage_SetStorage, List.map_cons, List.map_nil, List.cons_append, List.nil_append, nameOf, List.getElem?_cons_succ, List.getElem?_cons_zero]; decide +kernel
  intro item hi
  simp only [setStorage_SetStorage, List.mem_cons, List.not_mem_nil, or_false, List.cons_append, List.nil_append, List.append_nil] at hi
  rcases hi with rfl | rfl | rfl | rfl | rfl | rfl | rfl | rfl | rfl | rfl | rfl | rfl <;> items_Any

theorem ok_clone_SetStorageIter : implOk (impls [E]) (clone_SetStorageIter) = true := by
  refine implOk_intro (tr := trClone) (target_clone_SetStorageIter hE) rfl (Nat.le_of_ble_eq_true rfl) rfl ?_ (by decide) ?_
  · simp only [clone_SetStorageIter, List.map_cons, List.map_nil, List.cons_append, List.nil_append, nameOf, List.getElem?_cons_succ, List.getElem?_cons_zero]; decide +kernel
  intro item hi
  simp only [clone_SetStorageIter, List.mem_cons, List.not_mem_nil, or_false, List.cons_append, List.nil_append, List.append_nil] at hi
  rcases hi with rfl <;> items_Any

theorem ok_iterator_SetStorageIter : implOk (impls [E]) (iterator_SetStorageIter [E]) = true := by
  refine implOk_intro (tr := trIterator) (target_iterator_SetStorageIter hE) rfl (Nat.le_of_ble_eq_true rfl) rfl ?_ (by decide) ?_
  · simp only [iterator_SetStorageIter, List.map_cons, List.map_nil, List.cons_append, List.nil_append, nameOf, List.getElem?_cons_succ, List.getElem?_cons_zero]; decide +kernel
  intro item hi
  simp only [iterator_SetStorageIter, List.mem_cons, List.not_mem_nil, or_false, List.cons_append, List.nil_append, List.append_nil] at hi
  rcases hi with rfl | rfl <;> items_Any

theorem ok_doubleEndedIterator_SetStorageIter : implOk (impls [E]) (doubleEndedIterator_SetStorageIter) = true := by
  refine implOk_intro (tr := trDoubleEndedIterator) (target_doubleEndedIterator_SetStorageIter hE) rfl (Nat.le_of_ble_eq_true rfl) rfl ?_ (by decide) ?_
  · simp only [doubleEndedIterator_SetStorageIter, List.map_cons, List.map_nil, List.cons_append, List.nil_append, nameOf, List.getElem?_cons_succ, List.getElem?_cons_zero]; decide +kernel
  intro item hi
  simp only [doubleEndedIterator_SetStorageIter, List.mem_cons, List.not_mem_nil, or_false, List.cons_append, List.nil_append, List.append_nil] at hi
  rcases hi with rfl <;> items_Any

theorem ok_clone_SetStorageIntoIter : implOk (impls [E]) (clone_SetStorageIntoIter) = true := by
  refine implOk_intro (tr := trClone) (target_clone_SetStorageIntoIter hE) rfl (Nat.le_of_ble_eq_true rfl) rfl ?_ (by decide) ?_
  · simp only [clone_SetStorageIntoIter, List.map_cons, List.map_nil, List.cons_append, List.nil_append, nameOf, List.getElem?_cons_succ, List.getElem?_cons_zero]; decide +kernel
  intro item hi
  simp only [clone_SetStorageIntoIter, List.mem_cons, List.not_mem_nil, or_false, List.cons_append, List.nil_append, List.append_nil] at hi
  rcases hi with rfl <;> items_Any

theorem ok_iterator_SetStorageIntoIter : implOk (impls [E]) (iterator_SetStorageIntoIter [E]) = true := by
  refine implOk_intro (tr := trIterator) (target_iterator_SetStorageIntoIter hE) rfl (Nat.le_of_ble_eq_true rfl) rfl ?_ (by decide) ?_
  · simp only [iterator_SetStorageIntoIter, List.map_cons, List.map_nil, List.cons_append, List.nil_append, nameOf, List.getElem?_cons_succ, List.getElem?_cons_zero]; decide +kernel
  intro item hi
  simp only [iterator_SetStorageIntoIter, List.mem_cons, List.not_mem_nil, or_false, List.cons_append, List.nil_append, List.append_nil] at hi
  rcases hi with rfl | rfl <;> items_Any

theorem ok_doubleEndedIterator_SetStorageIntoIter : implOk (impls [E]) (doubleEndedIterator_SetStorageIntoIter) = true := by
  refine implOk_intro (tr := trDoubleEndedIterator) (target_doubleEndedIterator_SetStorageIntoIter hE) rfl (Nat.le_of_ble_eq_true rfl) rfl ?_ (by decide) ?_
  · simp only [doubleEndedIterator_SetStorageIntoIter, List.map_cons, List.map_nil, List.cons_append, List.nil_append, nameOf, List.getElem?_cons_succ, List.getElem?_cons_zero]; decide +kernel
  intro item hi
  simp only [doubleEndedIterator_SetStorageIntoIter, List.mem_cons, List.not_mem_nil, or_false, List.cons_append, List.nil_append, List.append_nil] at hi
  rcases hi with rfl <;> items_Any

theorem ok_partialEq_SetStorage : implOk (impls [E]) (partialEq_SetStorage) = true := by
  refine implOk_intro (tr := trPartialEq) (target_partialEq_SetStorage hE) rfl (Nat.le_of_ble_eq_true rfl) rfl ?_ (by decide) ?_
  · simp only [partialEq_SetStorage, List.map_cons, List.map_nil, List.cons_append, List.nil_append, nameOf, List.getElem?_cons_succ, List.getElem?_cons_zero]; decide +kernel
  intro item hi
  simp only [partialEq_SetStorage, List.mem_cons, List.not_mem_nil, or_false, List.cons_append, List.nil_append, List.append_nil] at hi
  rcases hi with rfl <;> items_Any

theorem ok_eq_SetStorage : implOk (impls [E]) (eq_SetStorage) = true := by
  refine implOk_intro (tr := trEq) (target_eq_SetStorage hE) rfl (Nat.le_of_ble_eq_true rfl) rfl ?_ (by decide) ?_
  · simp only [eq_SetStorage, List.map_cons, List.map_nil, List.cons_append, List.nil_append, nameOf, List.getElem?_cons_succ, List.getElem?_cons_zero]; decide +kernel
  intro item hi
  cases hi

theorem ok_clone_SetStorage : implOk (impls [E]) (clone_SetStorage) = true := by
  refine implOk_intro (tr := trClone) (target_clone_SetStorage hE) rfl (Nat.le_of_ble_eq_true rfl) rfl ?_ (by decide) ?_
  · simp only [clone_SetStorage, List.map_cons, List.map_nil, List.cons_append, List.nil_append, nameOf, List.getElem?_cons_succ, List.getElem?_cons_zero]; decide +kernel
  intro item hi
  simp only [clone_SetStorage, List.mem_cons, List.not_mem_nil, or_false, List.cons_append, List.nil_append, List.append_nil] at hi
  rcases hi with rfl <;> items_Any

theorem ok_copy_SetStorage : implOk (impls [E]) (copy_SetStorage) = true := by
  refine implOk_intro (tr := trCopy) (target_copy_SetStorage hE) rfl (Nat.le_of_ble_eq_true rfl) rfl ?_ (by decide) ?_
  · simp only [copy_SetStorage, List.map_cons, List.map_nil, List.cons_append, List.nil_append, nameOf, List.getElem?_cons_succ, List.getElem?_cons_zero]; decide +kernel
  intro item hi
  cases hi

theorem ok_key_Enum : implOk (impls [E]) (key_Enum [E]) = true := by
  refine implOk_intro (tr := trKey) (target_key_Enum hE) rfl (Nat.le_of_ble_eq_true rfl) rfl ?_ (by decide) ?_
  · simp only [key_Enum, List.map_cons, List.map_nil, List.cons_append, List.nil_append, nameOf, List.getElem?_cons_succ, List.getElem?_cons_zero]; decide +kernel
  intro item hi
  simp only [key_Enum, List.mem_cons, List.not_mem_nil, or_false, List.cons_append, List.nil_append, List.append_nil] at hi
  rcases hi with rfl | rfl <;> items_Any

theorem accepted : Accepted (impls [E]) := by
  refine accepted_of ?_ ?_
  · intro i hi
    simp only [impls, List.mem_cons, List.not_mem_nil, or_false] at hi
    rcases hi with rfl | rfl | rfl | rfl | rfl | rfl | rfl | rfl | rfl | rfl | rfl | rfl | rfl | rfl | rfl | rfl | rfl | rfl | rfl | rfl | rfl | rfl | rfl | rfl | rfl | rfl | rfl | rfl | rfl | rfl | rfl | rfl | rfl | rfl | rfl | rfl | rfl
    · exact implOk_of (ok_mapStorage_MapStorage hE)
    · exact implOk_of (ok_clone_MapStorageIter hE)
    · exact implOk_of (ok_iterator_MapStorageIter hE)
    · exact implOk_of (ok_doubleEndedIterator_MapStorageIter hE)
    · exact implOk_of (ok_clone_MapStorageKeys hE)
    · exact implOk_of (ok_iterator_MapStorageKeys hE)
    · exact implOk_of (ok_doubleEndedIterator_MapStorageKeys hE)
    · exact implOk_of (ok_clone_MapStorageValues hE)
    · exact implOk_of (ok_iterator_MapStorageValues hE)
    · exact implOk_of (ok_doubleEndedIterator_MapStorageValues hE)
    · exact implOk_of (ok_iterator_MapStorageIterMut hE)
    · exact implOk_of (ok_doubleEndedIterator_MapStorageIterMut hE)
    · exact implOk_of (ok_iterator_MapStorageValuesMut hE)
    · exact implOk_of (ok_doubleEndedIterator_MapStorageValuesMut hE)
    · exact implOk_of (ok_clone_MapStorageIntoIter hE)
    · exact implOk_of (ok_iterator_MapStorageIntoIter hE)
    · exact implOk_of (ok_doubleEndedIterator_MapStorageIntoIter hE)
    · exact implOk_of (ok_simpleVacantEntry hE)
    · exact implOk_of (ok_simpleOccupiedEntry hE)
    · exact implOk_of (ok_vacantEntry_VacantEntry hE)
    · exact implOk_of (ok_occupiedEntry_OccupiedEntry hE)
    · exact implOk_of (ok_partialEq_MapStorage hE)
    · exact implOk_of (ok_eq_MapStorage hE)
    · exact implOk_of (ok_clone_MapStorage hE)
    · exact implOk_of (ok_copy_MapStorage hE)
    · exact implOk_of (ok_setStorage_SetStorage hE)
    · exact implOk_of (ok_clone_SetStorageIter hE)
    · exact implOk_of (ok_iterator_SetStorageIter hE)
    · exact implOk_of (ok_doubleEndedIterator_SetStorageIter hE)
    · exact implOk_of (ok_clone_SetStorageIntoIter hE)
    · exact implOk_of (ok_iterator_SetStorageIntoIter hE)
    · exact implOk_of (ok_doubleEndedIterator_SetStorageIntoIter hE)
    · exact implOk_of (ok_partialEq_SetStorage hE)
    · exact implOk_of (ok_eq_SetStorage hE)
    · exact implOk_of (ok_clone_SetStorage hE)
    · exact implOk_of (ok_copy_SetStorage hE)
    · exact implOk_of (ok_key_Enum hE)
  · simp [impls, key, target_mapStorage_MapStorage hE, target_clone_MapStorageIter hE, target_iterator_MapStorageIter hE, target_doubleEndedIterator_MapStorageIter hE, target_clone_MapStorageKeys hE, target_iterator_MapStorageKeys hE, target_doubleEndedIterator_MapStorageKeys hE, target_clone_MapStorageValues hE, target_iterator_MapStorageValues hE, target_doubleEndedIterator_MapStorageValues hE, target_iterator_MapStorageIterMut hE, target_doubleEndedIterator_MapStorageIterMut hE, target_iterator_MapStorageValuesMut hE, target_doubleEndedIterator_MapStorageValuesMut hE, target_clone_MapStorageIntoIter hE, target_iterator_MapStorageIntoIter hE, target_doubleEndedIterator_MapStorageIntoIter hE, target_simpleVacantEntry hE, target_simpleOccupiedEntry hE, target_vacantEntry_VacantEntry hE, target_occupiedEntry_OccupiedEntry hE, target_partialEq_MapStorage hE, target_eq_MapStorage hE, target_clone_MapStorage hE, target_copy_MapStorage hE, target_setStorage_SetStorage hE, target_clone_SetStorageIter hE, target_iterator_SetStorageIter hE, target_doubleEndedIterator_SetStorageIter hE, target_clone_SetStorageIntoIter hE, target_iterator_SetStorageIntoIter hE, target_doubleEndedIterator_SetStorageIntoIter hE, target_partialEq_SetStorage hE, target_eq_SetStorage hE, target_clone_SetStorage hE, target_copy_SetStorage hE, target_key_Enum hE]

end Any

end FixedMap.Impls
