import Verif.Model.RustTraits
import Verif.Properties.RustKey

/-!
# C102: the traits of C59 are those that the text of the files implements
-/

set_option autoImplicit false

namespace FixedMap.Rust

/-- The traits of the storage of `K`, for the key type `Option<K>`. -/
def payloadMapImpl (v : Tr → Bool) (t : Tr) : KeyTy → Bool
  | .opt κ => κ.mapImpl v t
  | _ => false

def payloadSetImpl (t : Tr) : KeyTy → Bool
  | .opt κ => κ.setImpl t
  | _ => false

/-- The keys of hash tables are `Eq` and `Hash`. -/
def hashedKey : KeyTy → Bool
  | .prim _ => true
  | _ => false

theorem mapBoolean_traits (v inner : Tr → Bool) (h : Bool) (t : Tr) :
    textImpl Text.mapBoolean "BooleanMapStorage" v inner h t = some (t.basic && v t) := by
  cases t
  case clone => exact Eq.trans (b := some (v .clone && true)) (by kernel_rfl) (by simp [Tr.basic])
  case copy => exact Eq.trans (b := some (v .copy && true)) (by kernel_rfl) (by simp [Tr.basic])
  case partialEq => exact Eq.trans (b := some (v .partialEq && true)) (by kernel_rfl) (by simp [Tr.basic])
  case eq => exact Eq.trans (b := some (v .eq && true)) (by kernel_rfl) (by simp [Tr.basic])
  all_goals kernel_rfl

theorem mapSingleton_traits (v inner : Tr → Bool) (h : Bool) (t : Tr) :
    textImpl Text.mapSingleton "SingletonMapStorage" v inner h t = some (t.basic && v t) := by
  cases t
  case clone => exact Eq.trans (b := some (v .clone && true)) (by kernel_rfl) (by simp [Tr.basic])
  case copy => exact Eq.trans (b := some (v .copy && true)) (by kernel_rfl) (by simp [Tr.basic])
  case partialEq => exact Eq.trans (b := some (v .partialEq && true)) (by kernel_rfl) (by simp [Tr.basic])
  case eq => exact Eq.trans (b := some (v .eq && true)) (by kernel_rfl) (by simp [Tr.basic])
  all_goals kernel_rfl

theorem mapOption_traits (v inner : Tr → Bool) (h : Bool) (t : Tr) :
    textImpl Text.mapOption "OptionMapStorage" v inner h t = some (t.basic && v t && inner t) := by
  cases t
  case clone => exact Eq.trans (b := some (v .clone && (inner .clone && true))) (by kernel_rfl) (by simp [Tr.basic])
  case copy => exact Eq.trans (b := some (v .copy && (inner .copy && true))) (by kernel_rfl) (by simp [Tr.basic])
  case partialEq => exact Eq.trans (b := some (inner .partialEq && (v .partialEq && true))) (by kernel_rfl) (by simp [Tr.basic, Bool.and_comm])
  case eq => exact Eq.trans (b := some (inner .eq && (v .eq && true))) (by kernel_rfl) (by simp [Tr.basic, Bool.and_comm])
  all_goals kernel_rfl

theorem mapHashbrown_traits (v inner : Tr → Bool) (t : Tr) :
    textImpl Text.mapHashbrown "HashbrownMapStorage" v inner true t = some ((t == .clone || t == .partialEq || t == .eq) && v t) := by
  cases t
  case clone => exact Eq.trans (b := some (v .clone && true)) (by kernel_rfl) (by simp)
  case partialEq => exact Eq.trans (b := some (v .partialEq && true)) (by kernel_rfl) (by simp)
  case eq => exact Eq.trans (b := some (v .eq && true)) (by kernel_rfl) (by simp)
  all_goals kernel_rfl

theorem setOption_traits (v inner : Tr → Bool) (h : Bool) (t : Tr) :
    textImpl Text.setOption "OptionSetStorage" v inner h t = some (t.basic && inner t) := by
  cases t
  case clone => exact Eq.trans (b := some (inner .clone && true)) (by kernel_rfl) (by simp [Tr.basic])
  case copy => exact Eq.trans (b := some (inner .copy && true)) (by kernel_rfl) (by simp [Tr.basic])
  case partialEq => exact Eq.trans (b := some (inner .partialEq && true)) (by kernel_rfl) (by simp [Tr.basic])
  case eq => exact Eq.trans (b := some (inner .eq && true)) (by kernel_rfl) (by simp [Tr.basic])
  all_goals kernel_rfl

/-- **C102** For every key type of the library and every value type, the storage that the text of src/key.rs names implements, by the `derive`s and `impl` headers of its file, exactly the traits
that the model of trait selection (C59) gives it. -/
theorem C102_storages (user : KeyTy → Toks) (κ : KeyTy) (h : ofLibrary κ) :
    ∃ table, readKeys Text.key = some table ∧
      ∃ m margs s sargs mf sf, storagesOf table (rustTy user κ) = some (m :: margs, s :: sargs) ∧ fileOf m = some mf ∧ fileOf s = some sf ∧
        (∀ (v : Tr → Bool) (t : Tr), textImpl mf m v (payloadMapImpl v · κ) (hashedKey κ) t = some (κ.mapImpl v t)) ∧
        ∀ (v : Tr → Bool) (t : Tr), textImpl sf s v (payloadSetImpl · κ) (hashedKey κ) t = some (κ.setImpl t) := by
  refine ⟨_, keyTable_read, ?_⟩
  cases κ with
  | bool =>
    exact ⟨"BooleanMapStorage", ["<", "V", ">"], "BooleanSetStorage", [], Text.mapBoolean, Text.setBoolean, by kernel_rfl, by kernel_rfl, by kernel_rfl,
      fun v t => by rw [mapBoolean_traits, KeyTy.mapImpl], fun v t => by cases t <;> kernel_rfl⟩
  | unit =>
    exact ⟨"SingletonMapStorage", ["<", "V", ">"], "SingletonSetStorage", [], Text.mapSingleton, Text.setSingleton, by kernel_rfl, by kernel_rfl, by kernel_rfl,
      fun v t => by rw [mapSingleton_traits, KeyTy.mapImpl], fun v t => by cases t <;> kernel_rfl⟩
  | opt κ =>
    exact ⟨_, _, _, _, Text.mapOption, Text.setOption, storagesOf_opt _, by kernel_rfl, by kernel_rfl,
      fun v t => by rw [mapOption_traits, KeyTy.mapImpl]; rfl, fun v t => by rw [setOption_traits, KeyTy.setImpl]; rfl⟩
  | prim p =>
    have hs : storagesOf keyTable (primTy p) = some ("HashbrownMapStorage" :: "<" :: (primTy p ++ [",", "V", ">"]), "HashbrownSetStorage" :: "<" :: (primTy p ++ [">"])) := by
      cases p <;> kernel_rfl
    exact ⟨_, _, _, _, Text.mapHashbrown, Text.setHashbrown, hs, by kernel_rfl, by kernel_rfl,
      fun v t => by rw [hashedKey, mapHashbrown_traits, KeyTy.mapImpl], fun v t => by cases t <;> kernel_rfl⟩
  | _ => cases h

/-- **C102** By the text of src/map.rs, `Map<K, V>` implements each of the seven traits exactly if the storage of `K` does, whatever `V` and `K` implement themselves. -/
theorem C102_map (v inner : Tr → Bool) (h : Bool) (t : Tr) : textImpl Text.map "Map" v inner h t = some (inner t) := by
  have e : textImpl Text.map "Map" v inner h t = some (inner t && true) := by cases t <;> kernel_rfl
  rw [e, Bool.and_true]

/-- **C102** And so does `Set<T>` by the text of src/set.rs. -/
theorem C102_set (v inner : Tr → Bool) (h : Bool) (t : Tr) : textImpl Text.set "Set" v inner h t = some (inner t) := by
  have e : textImpl Text.set "Set" v inner h t = some (inner t && true) := by cases t <;> kernel_rfl
  rw [e, Bool.and_true]

/-- A `Map<Option<u8>, V>` is never `Copy`, by the texts alone. -/
example (v : Tr → Bool) : textImpl Text.mapOption "OptionMapStorage" v (fun t => (KeyTy.prim .u8).mapImpl v t) false .copy = some false := by
  rw [mapOption_traits]
  simp [KeyTy.mapImpl]

/-- A storage with its `impl`s left out has none of the traits. -/
example : textImpl (Text.setSingleton.filter (· != "derive")) "SingletonSetStorage" (fun _ => true) (fun _ => true) true .clone = some false := by kernel_rfl

/-- If both a `derive` and an `impl` give the trait, the answer is an error. -/
example : textImpl (Text.setBoolean ++ ["impl", "Clone", "for", "BooleanSetStorage", "{", "}"]) "BooleanSetStorage" (fun _ => true) (fun _ => true) true .clone = none := by kernel_rfl

end FixedMap.Rust
