import Verif.Model.RustIterTraits
import Verif.Properties.RustTraits
import Verif.Properties.Traits

/-!
# C102: the iterators that are `Clone` (C59) and double-ended (C60) are those of the text of the files
-/

set_option autoImplicit false

namespace FixedMap.Rust

/-- The iterators of a map storage and of a set storage. -/
def mapIterNames : List String := ["Iter", "Keys", "Values", "IterMut", "ValuesMut", "IntoIter"]
def setIterNames : List String := ["Iter", "IntoIter"]

/-- `Clone` of the iterators: those that borrow mutably never are. -/
def mapIterIsClone (v : Tr → Bool) (κ : KeyTy) (it : String) : Bool :=
  if it == "IterMut" || it == "ValuesMut" then false else if it == "IntoIter" then κ.mapIntoIterClone v else κ.mapIterClone

def setIterIsClone (κ : KeyTy) (it : String) : Bool := if it == "IntoIter" then κ.setIntoIterClone else κ.setIterClone

/-- What is assumed of the payload of `Option<K>`, and `false` for other key types. -/
def ofPayload (p : KeyTy → String → Bool) : KeyTy → String → Bool
  | .opt κ => p κ
  | _ => fun _ => false

theorem mem_mapIterNames {P : String → Prop} (h1 : P "Iter") (h2 : P "Keys") (h3 : P "Values") (h4 : P "IterMut") (h5 : P "ValuesMut") (h6 : P "IntoIter") :
    ∀ it ∈ mapIterNames, P it := by
  intro it h
  simp only [mapIterNames, List.mem_cons, List.not_mem_nil, or_false] at h
  rcases h with rfl | rfl | rfl | rfl | rfl | rfl <;> assumption

theorem mem_setIterNames {P : String → Prop} (h1 : P "Iter") (h2 : P "IntoIter") : ∀ it ∈ setIterNames, P it := by
  intro it h
  simp only [setIterNames, List.mem_cons, List.not_mem_nil, or_false] at h
  rcases h with rfl | rfl <;> assumption

/-- **C102** For every key type of the library and every value type, the iterator types that the text of the storage's file gives are `Clone` exactly as the model of C59 says, and
double-ended exactly if no hash table is involved, which is what C60 proves of the model's iterators. -/
theorem C102_iterators (user : KeyTy → Toks) (κ : KeyTy) (h : ofLibrary κ) :
    ∃ table, readKeys Text.key = some table ∧
      ∃ m margs s sargs mf sf, storagesOf table (rustTy user κ) = some (m :: margs, s :: sargs) ∧ fileOf m = some mf ∧ fileOf s = some sf ∧
        (∀ (v : Tr → Bool), ∀ it ∈ mapIterNames, storageIterHas mf "MapStorage" m .clone v (ofPayload (mapIterIsClone v) κ) it = some (mapIterIsClone v κ it)) ∧
        (∀ (v : Tr → Bool), ∀ it ∈ mapIterNames, storageIterHas mf "MapStorage" m .doubleEnded v (ofPayload (fun κ _ => κ.hashFree) κ) it = some κ.hashFree) ∧
        (∀ (v : Tr → Bool), ∀ it ∈ setIterNames, storageIterHas sf "SetStorage" s .clone v (ofPayload setIterIsClone κ) it = some (setIterIsClone κ it)) ∧
        ∀ (v : Tr → Bool), ∀ it ∈ setIterNames, storageIterHas sf "SetStorage" s .doubleEnded v (ofPayload (fun κ _ => κ.hashFree) κ) it = some κ.hashFree := by
  refine ⟨_, keyTable_read, ?_⟩
  cases κ with
  | bool =>
    refine ⟨"BooleanMapStorage", ["<", "V", ">"], "BooleanSetStorage", [], Text.mapBoolean, Text.setBoolean, by kernel_rfl, by kernel_rfl, by kernel_rfl, fun v => ?_, fun v => ?_, fun v => ?_, fun v => ?_⟩
    · refine mem_mapIterNames (by kernel_rfl) (by kernel_rfl) (by kernel_rfl) (by kernel_rfl) (by kernel_rfl) ?_
      exact Eq.trans (b := some (v .clone && v .clone)) (by kernel_rfl) (by rw [Bool.and_self]; kernel_rfl)
    · exact mem_mapIterNames (by kernel_rfl) (by kernel_rfl) (by kernel_rfl) (by kernel_rfl) (by kernel_rfl) (by kernel_rfl)
    · exact mem_setIterNames (by kernel_rfl) (by kernel_rfl)
    · exact mem_setIterNames (by kernel_rfl) (by kernel_rfl)
  | unit =>
    refine ⟨"SingletonMapStorage", ["<", "V", ">"], "SingletonSetStorage", [], Text.mapSingleton, Text.setSingleton, by kernel_rfl, by kernel_rfl, by kernel_rfl, fun v => ?_, fun v => ?_, fun v => ?_, fun v => ?_⟩
    · exact mem_mapIterNames (by kernel_rfl) (by kernel_rfl) (by kernel_rfl) (by kernel_rfl) (by kernel_rfl) (by kernel_rfl)
    · exact mem_mapIterNames (by kernel_rfl) (by kernel_rfl) (by kernel_rfl) (by kernel_rfl) (by kernel_rfl) (by kernel_rfl)
    · exact mem_setIterNames (by kernel_rfl) (by kernel_rfl)
    · exact mem_setIterNames (by kernel_rfl) (by kernel_rfl)
  | opt κ =>
    refine ⟨"OptionMapStorage", _, "OptionSetStorage", _, Text.mapOption, Text.setOption, storagesOf_opt _, by kernel_rfl, by kernel_rfl, fun v => ?_, fun v => ?_, fun v => ?_, fun v => ?_⟩
    · have e : ∀ inner : String → Bool, ∀ it ∈ mapIterNames, storageIterHas Text.mapOption "MapStorage" "OptionMapStorage" .clone v inner it =
          some (inner it && if it == "IterMut" || it == "ValuesMut" then false else if it == "IntoIter" then v .clone else true) := fun inner =>
        mem_mapIterNames (by kernel_rfl) (by kernel_rfl) (by kernel_rfl) (by kernel_rfl) (by kernel_rfl) (by kernel_rfl)
      intro it hi
      rw [e _ it hi]
      simp only [ofPayload, mapIterIsClone]
      split
      · rfl
      · split
        · rw [KeyTy.mapIntoIterClone]
        · rw [Bool.and_true]; rfl
    · have e : ∀ inner : String → Bool, ∀ it ∈ mapIterNames, storageIterHas Text.mapOption "MapStorage" "OptionMapStorage" .doubleEnded v inner it = some (inner it && true) := fun inner =>
        mem_mapIterNames (by kernel_rfl) (by kernel_rfl) (by kernel_rfl) (by kernel_rfl) (by kernel_rfl) (by kernel_rfl)
      intro it hi
      rw [e _ it hi, Bool.and_true]
      rfl
    · have e : ∀ inner : String → Bool, ∀ it ∈ setIterNames, storageIterHas Text.setOption "SetStorage" "OptionSetStorage" .clone v inner it = some (inner it && true) := fun inner =>
        mem_setIterNames (by kernel_rfl) (by kernel_rfl)
      intro it hi
      rw [e _ it hi, Bool.and_true]
      rfl
    · have e : ∀ inner : String → Bool, ∀ it ∈ setIterNames, storageIterHas Text.setOption "SetStorage" "OptionSetStorage" .doubleEnded v inner it = some (inner it && true) := fun inner =>
        mem_setIterNames (by kernel_rfl) (by kernel_rfl)
      intro it hi
      rw [e _ it hi, Bool.and_true]
      rfl
  | prim p =>
    have hs : storagesOf keyTable (primTy p) = some ("HashbrownMapStorage" :: "<" :: (primTy p ++ [",", "V", ">"]), "HashbrownSetStorage" :: "<" :: (primTy p ++ [">"])) := by
      cases p <;> kernel_rfl
    refine ⟨"HashbrownMapStorage", _, "HashbrownSetStorage", _, Text.mapHashbrown, Text.setHashbrown, hs, by kernel_rfl, by kernel_rfl, fun v => ?_, fun v => ?_, fun v => ?_, fun v => ?_⟩
    · exact mem_mapIterNames (by kernel_rfl) (by kernel_rfl) (by kernel_rfl) (by kernel_rfl) (by kernel_rfl) (by kernel_rfl)
    · exact mem_mapIterNames (by kernel_rfl) (by kernel_rfl) (by kernel_rfl) (by kernel_rfl) (by kernel_rfl) (by kernel_rfl)
    · exact mem_setIterNames (by kernel_rfl) (by kernel_rfl)
    · exact mem_setIterNames (by kernel_rfl) (by kernel_rfl)
  | _ => cases h

/-- The consuming iterator of `Map<Option<bool>, V>` is `Clone` if `V` is, by the texts; that of `Map<u8, V>` never. -/
example (v : Tr → Bool) : mapIterIsClone v (.opt .bool) "IntoIter" = v .clone ∧ mapIterIsClone v (.prim .u8) "IntoIter" = false := by
  constructor
  · simp [mapIterIsClone, KeyTy.mapIntoIterClone]
  · rfl

/-- Without its `impl` of `DoubleEndedIterator`, the iterator of the text would not be double-ended. -/
example : storageIterHas (Text.setBoolean.map fun t => if t == "DoubleEndedIterator" then "ExactSizeIterator" else t) "SetStorage" "BooleanSetStorage" .doubleEnded (fun _ => true) (fun _ => true) "Iter" =
    some false := by kernel_rfl

end FixedMap.Rust
