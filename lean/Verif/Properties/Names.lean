import Verif.Proofs.Names

/-!
# C80: names in the emitted code

The emitted code names things without a path: prelude items and primitive types, the items it declares, type parameters and variables. These are resolved where the enum is
declared, so they can mean something of the user's, and what the user wrote can come to mean something emitted. The theorems say exactly when every name has the meaning
intended.
-/

set_option autoImplicit false

namespace FixedMap.Names

/-- C80, enums with payloads. -/
theorem C80_any (env : Env) (E : String) (fs : List (Option (List String))) :
    rightAll env Any.items (Any.code E fs) [] ↔ AnyClear env E fs := ⟨of_any env E fs, any_of env E fs⟩

/-- C80, enums without payloads, with or without `#[key(bitset)]`. -/
theorem C80_units (env : Env) (E : String) (n : Nat) (bits : Bool) :
    rightAll env (Units.items bits) (Units.code E n bits) [] ↔ UnitsClear env E n bits := ⟨of_units env E n bits, units_of env E n bits⟩

/-- No enum called `F` can be a key: in `retain<F>` its name is that of the closure's type. -/
theorem C80_enum_F (env : Env) (fs : List (Option (List String))) (n : Nat) (bits : Bool) :
    ¬ rightAll env Any.items (Any.code "F" fs) [] ∧ ¬ rightAll env (Units.items bits) (Units.code "F" n bits) [] :=
  ⟨fun h => absurd ((C80_any env "F" fs).1 h).enum (by simp [anyTaken]), fun h => absurd ((C80_units env "F" n bits).1 h).enum (by simp)⟩

/-- Nor can a payload of a type called `V` (or with `V` in its arguments). -/
theorem C80_payload_V (env : Env) (E : String) (fs : List (Option (List String))) (hs : List String) (h : some hs ∈ fs) (hV : "V" ∈ hs) :
    ¬ rightAll env Any.items (Any.code E fs) [] :=
  fun h' => absurd (((C80_any env E fs).1 h').payload hs h "V" hV) (by simp [anyTaken])

/-- Nor any enum where the user has a type `Option` of their own in scope, or a constant `value`. -/
theorem C80_own_option (env : Env) (E : String) (fs : List (Option (List String))) (n : Nat) (bits : Bool)
    (h : env.types "Option" = true ∨ env.consts "value" = true) :
    ¬ rightAll env Any.items (Any.code E fs) [] ∧ ¬ rightAll env (Units.items bits) (Units.code E n bits) [] := by
  refine ⟨fun h' => ?_, fun h' => ?_⟩
  · have hc := (C80_any env E fs).1 h'
    rcases h with h | h
    · rw [hc.types "Option" (by simp [anyStd])] at h; cases h
    · rw [hc.vars "value" (by simp [anyVars])] at h; cases h
  · have hc := (C80_units env E n bits).1 h'
    rcases h with h | h
    · rw [hc.types "Option" (by simp)] at h; cases h
    · rw [hc.vars "value" (by simp)] at h; cases h

/-! ## Concrete cases -/

/-- A user with an enum `Part` and a type `Sub` in scope, and a function `main`. -/
def exEnv : Env := ⟨fun n => n == "Part" || n == "Sub", fun n => n == "main", fun _ => false⟩

example : rightAll exEnv Any.items (Any.code "Part" [none, some ["Sub"], some ["Option", "bool"]]) [] :=
  (C80_any _ _ _).2 ⟨by simp [anyTaken], by simp [anyTaken], by simp [anyStd, exEnv], by simp [exEnv], by simp [exEnv], by simp [exEnv], by simp [exEnv]⟩

theorem exUnits : rightAll exEnv (Units.items true) (Units.code "Part" 9 true) [] :=
  (C80_units _ _ _ _).2 ⟨by simp, by simp [exEnv], by intro _; rw [show bitsTy 9 = "u16" from rfl]; simp [exEnv], by simp [exEnv], by simp [exEnv],
    by simp [exEnv], by simp [exEnv], by simp [exEnv]⟩

/-- A user's type `u16` gets in the way of a bitset of nine variants, not of eight. -/
example : ¬ rightAll { exEnv with types := fun n => n == "u16" } (Units.items true) (Units.code "Part" 9 true) [] :=
  fun h => absurd (((C80_units _ _ _ _).1 h).bitsTy rfl) (by rw [show bitsTy 9 = "u16" from rfl]; simp)
example : rightAll { exEnv with types := fun n => n == "u16" } (Units.items true) (Units.code "Part" 8 true) [] :=
  (C80_units _ _ _ _).2 ⟨by simp, by simp, by intro _; rw [show bitsTy 8 = "u8" from rfl]; simp, by simp [exEnv], by simp [exEnv], by simp [exEnv],
    by simp [exEnv], by simp [exEnv]⟩

/-- A constant `_1` matters if there are two variants. -/
example : ¬ rightAll { exEnv with consts := fun n => n == "_1" } (Units.items false) (Units.code "Part" 2 false) [] :=
  fun h => absurd (((C80_units _ _ _ _).1 h).nums 1 (by omega)) (by decide)

/-- A constant `None` of the user's matters if there is a variant without payload, and not otherwise. -/
example : ¬ rightAll { exEnv with consts := fun n => n == "None" } Any.items (Any.code "Part" [some ["Sub"], none]) [] :=
  fun h => absurd (((C80_any _ _ _).1 h).none (by simp)).2 (by decide)
example : rightAll { exEnv with consts := fun n => n == "None" } Any.items (Any.code "Part" [some ["Sub"]]) [] :=
  (C80_any _ _ _).2 ⟨by simp [anyTaken], by simp [anyTaken], by simp [anyStd, exEnv], by simp, by simp [anyVars], by simp, by simp⟩

/-- What goes wrong in `retain` for a payload `V`: it is the type parameter. -/
example : resolve exEnv Any.items [(.value, "func"), (.type, "F"), (.type, "V")] .type "V" = .loc := by decide

end FixedMap.Names
