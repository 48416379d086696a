import Verif.Proofs.RustBucket
import Verif.Proofs.RustMapBool
import Verif.Proofs.RustMapUnit
import Verif.Proofs.RustMapOpt
import Verif.Proofs.RustMapHash
import Verif.Proofs.RustSetBool
import Verif.Proofs.RustSetUnit
import Verif.Proofs.RustSetOpt
import Verif.Proofs.RustSetHash

/-!
# C93: the text of the storages does what the model's storages do

The files in `Text` are those of /repo without comments. They are parsed, and their functions are run by the interpreter of Model/RustSem on storages in any state, with any
arguments. `MapText` and `SetText` (Spec/RustSource) say that each function of the traits gives what the model's function of the same name gives.
-/

set_option autoImplicit false

namespace FixedMap.Rust

/-! ## Buckets -/

/-- **C93** src/option_bucket.rs: every function of the three bucket types does what Model/Bucket says, on full and empty slots, for values that are moved and for such that are
copied. -/
theorem C93_option_bucket :
    ∃ P, parseFile Text.optionBucket = some P ∧
      ∀ {X σ : Type} (F : Foreign X σ) (n : Nat) (o : Bool), BucketText P (n + 40) { F with owned := fun _ => o } :=
  ⟨_, Progs.optionBucket_parsed, fun F n o => bucketText F n o⟩

/-! ## Maps -/

/-- **C93** src/map/storage/boolean.rs. -/
theorem C93_map_boolean :
    ∃ P B, parseFile Text.mapBoolean = some P ∧ parseFile Text.optionBucket = some B ∧
      ∀ {K V σ : Type} (M : MapStorage K V) (n : Nat) (c : V → V) (veq : V → V → Bool) (f : σ → Bool → V → σ × V × Option Bool) (d : Val (MX M)),
        MapText (P.and B) (n + 40) (boolMap V) (boolRep M) (mapForeign M c veq d decBool f) (mapIters M) c veq f ∧
        BitsText (P.and B) (n + 40) (mapForeign M c veq d decBool f) "Keys" :=
  ⟨_, _, Progs.mapBoolean_parsed, Progs.optionBucket_parsed, fun M n c veq f d =>
    ⟨mapBoolText M n c veq f d, ⟨fun _ _ => by kernel_rfl, fun _ _ => by kernel_rfl⟩⟩⟩

/-- **C93** src/map/storage/singleton.rs, for the key type `()`. -/
theorem C93_map_singleton :
    ∃ P B, parseFile Text.mapSingleton = some P ∧ parseFile Text.optionBucket = some B ∧
      ∀ {K V σ : Type} (M : MapStorage K V) (n : Nat) (c : V → V) (veq : V → V → Bool) (f : σ → Unit → V → σ × V × Option Bool),
        MapText (P.and B) (n + 40) (unitMap V) (unitRep M) (mapForeign M c veq .unit decUnit f) (mapIters M) c veq f :=
  ⟨_, _, Progs.mapSingleton_parsed, Progs.optionBucket_parsed, fun M n c veq f => mapUnitText M n c veq f⟩

/-- **C93** src/map/storage/option.rs, over any storage `M` for the key type inside. -/
theorem C93_map_option :
    ∃ P B, parseFile Text.mapOption = some P ∧ parseFile Text.optionBucket = some B ∧
      ∀ {K V σ : Type} (M : MapStorage K V) (n : Nat) (c : V → V) (veq : V → V → Bool) (f : σ → Option K → V → σ × V × Option Bool) (d : Val (MX M)),
        MapText (P.and B) (n + 40) (optMap M) (optRep M) (mapForeign M c veq d (decOpt M) f) (mapIters M) c veq f :=
  ⟨_, _, Progs.mapOption_parsed, Progs.optionBucket_parsed, fun M n c veq f d => mapOptText M n c veq f d⟩

/-- **C93** src/map/storage/hashbrown.rs, over any implementation `A` of hashbrown's interface. -/
theorem C93_map_hashbrown :
    ∃ P, parseFile Text.mapHashbrown = some P ∧
      ∀ {K V σ : Type} (A : HashMapApi K V) (n : Nat) (c : V → V) (veq : V → V → Bool) (f : σ → K → V → σ × V × Option Bool),
        MapText P (n + 40) (hashMap A) (hashRep A) (hashForeign A c veq f) (hashIters A) c veq f :=
  ⟨_, Progs.mapHashbrown_parsed, fun A n c veq f => mapHashText A n c veq f⟩

/-! ## Sets -/

/-- **C93** src/set/storage/boolean.rs. -/
theorem C93_set_boolean :
    ∃ P, parseFile Text.setBoolean = some P ∧
      ∀ {T σ : Type} (M : SetStorage T) (n : Nat) (f : σ → Bool → σ × Option Bool) (d : Val (SX M)),
        SetText P (n + 40) boolSet (boolSetRep M) (setForeign M d decBool f) (setIters M) f ∧ BitsText P (n + 40) (setForeign M d decBool f) "Iter" :=
  ⟨_, Progs.setBoolean_parsed, fun M n f d => ⟨setBoolText M n f d, setIterText _ n⟩⟩

/-- **C93** src/set/storage/singleton.rs, for the element type `()`. -/
theorem C93_set_singleton :
    ∃ P, parseFile Text.setSingleton = some P ∧
      ∀ {T σ : Type} (M : SetStorage T) (n : Nat) (f : σ → Unit → σ × Option Bool),
        SetText P (n + 40) unitSet (unitSetRep M) (setForeign M .unit decUnit f) (setIters M) f :=
  ⟨_, Progs.setSingleton_parsed, fun M n f => setUnitText M n f⟩

/-- **C93** src/set/storage/option.rs, over any storage `M` for the element type inside. -/
theorem C93_set_option :
    ∃ P, parseFile Text.setOption = some P ∧
      ∀ {T σ : Type} (M : SetStorage T) (n : Nat) (f : σ → Option T → σ × Option Bool) (d : Val (SX M)),
        SetText P (n + 40) (optSet M) (optSetRep M) (setForeign M d (decOptSet M) f) (setIters M) f :=
  ⟨_, Progs.setOption_parsed, fun M n f d => setOptText M n f d⟩

/-- **C93** src/set/storage/hashbrown.rs. -/
theorem C93_set_hashbrown :
    ∃ P, parseFile Text.setHashbrown = some P ∧
      ∀ {T σ : Type} (A : HashMapApi T Unit) (n : Nat) (f : σ → T → σ × Option Bool),
        SetText P (n + 40) (hashSet A) (hashSetRep A) (hashSetForeign A f) (hashSetIters A) f :=
  ⟨_, Progs.setHashbrown_parsed, fun A n f => setHashText A n f⟩

/-! ## Examples -/

/-- No storage inside: keys `()`. -/
abbrev Ex.F : Foreign (MX (unitMap Nat)) (List Bool) :=
  mapForeign (unitMap Nat) id (fun a b => a == b) .unit decBool fun u k v => (u ++ [k], v + 1, some (!k))

/-- A storage with the value 7 at `true`. -/
abbrev Ex.seven : Val (MX (unitMap Nat)) := .struct "BooleanMapStorage" [("t", .con "Option" "Some" [.ext (.val 7)]), ("f", .con "Option" "None" [])]

/-- The text of `insert`: the old value is returned and the new one is in the right slot. -/
example : meth Ex.F mapBoolProg 40 "insert" Ex.seven [] [.bool true, .ext (.val 8)] [] =
    .ok (.con "Option" "Some" [.ext (.val 7)]) (some (.struct "BooleanMapStorage" [("t", .con "Option" "Some" [.ext (.val 8)]), ("f", .con "Option" "None" [])])) [] [] := by
  kernel_rfl

/-- The text of `retain`: the closure is called once, with `true`, answers `false`, and the value it wrote is dropped. -/
example : meth Ex.F mapBoolProg 40 "retain" Ex.seven [] [.user] [] =
    .ok .unit (some (.struct "BooleanMapStorage" [("t", .con "Option" "None" []), ("f", .con "Option" "None" [])])) [true] [.val 8] := by
  kernel_rfl

/-- A bucket that says it is full on an empty slot: undefined behaviour, in the text as in the model. -/
example : obs (run Ex.F Progs.optionBucket 40 "SomeBucket" "" "new_unchecked" [.ref ⟨0, []⟩] ⟨[slot none], [], []⟩) = .ub := by kernel_rfl

/-- The same text with `is_none` for `is_some`. -/
def Ex.wrong : Toks := Text.mapBoolean.map fun t => if t == "is_some" then "is_none" else t

def Ex.wrongProg : Prog := ((parseFile Ex.wrong).getD ⟨[], [], []⟩).and Progs.optionBucket

/-- It is a program, but not one that does what the model does. -/
example : (parseFile Ex.wrong).isSome = true := by decide +kernel
example (c : Nat → Nat) (veq : Nat → Nat → Bool) (f : List Bool → Bool → Nat → List Bool × Nat × Option Bool) :
    ¬MapText Ex.wrongProg 40 (boolMap Nat) (boolRep (unitMap Nat)) (mapForeign (unitMap Nat) c veq .unit decBool f) (mapIters _) c veq f := by
  intro h
  have h1 := h.len [] ⟨none, none⟩
  have h2 : meth (mapForeign (unitMap Nat) c veq .unit decBool f) Ex.wrongProg 40 "len" ((boolRep (unitMap Nat)).store ⟨none, none⟩) [] [] [] =
      .ok (.nat 2) (some ((boolRep (unitMap Nat)).store ⟨none, none⟩)) [] [] := by kernel_rfl
  rw [h1] at h2
  injection h2 with h2
  injection h2 with h2
  exact absurd h2 (by decide)

/-- A text with a bracket missing is not a program. -/
example : (parseFile Text.mapBoolean.dropLast).isSome = false := by decide +kernel

/-- The iterator over `true` and `false` of the set's text, from the back. -/
example : obs (iterRun Ex.F Progs.setBoolean 40 [] "Iter" "DoubleEndedIterator" "next_back" (.struct "Iter" [("bits", .u8 3#8)])) =
    .ok (.con "Option" "Some" [.bool false]) (some (.struct "Iter" [("bits", .u8 2#8)])) [] [] := by kernel_rfl

end FixedMap.Rust
