import Verif.Spec.DeriveText
import Verif.Proofs.DeriveAny
import Verif.Proofs.DeriveUnits
import Verif.Properties.Emit
import Verif.Properties.Impls

/-!
# C97: the text of the derive writes the tokens of the model
-/

set_option autoImplicit false

namespace FixedMap.DeriveText

open Emit (Toks Cx Complex Field Variant)

/-- C97, enums with payloads: running the text of any_variants.rs ends with the tokens of the model, for all accepted variants. -/
theorem C97_any (cx : Cx) (vs : List Variant) (n : Nat) : anyOutcome cx (vs.map shape) (n + 100) = .tokens (Emit.implement cx vs) := by
  unfold anyOutcome outcome
  rw [Progs.anyVariants_parsed, Progs.paths_parsed]
  refine (implement_run cx _ _ Outcome _ _ n _ _ rfl).trans ?_
  have h := loop_accepted cx [] vs []
  rw [show Emit.Macro.loop cx 0 (vs.map shape) ⟨[], []⟩ [] = some (Emit.fieldsOf cx vs, []) from h]
  rfl

/-- C97, enums without payloads: the text of unit_variants.rs ends with the tokens of the model, or refuses the enum where the model has none. -/
theorem C97_units (cx : Cx) (bitset : Bool) (en : List String) (n : Nat) : unitOutcome cx bitset en (n + 100) =
    match Emit.Units.implement cx bitset en with
    | some t => .tokens t
    | none => .refused ["only support up until 128 variants, got " ++ Nat.repr en.length] := by
  unfold unitOutcome outcome
  rw [Progs.unitVariants_parsed, Progs.paths_parsed]
  cases bitset with
  | false => exact units_set_run cx _ en Outcome _ _ n _ _ rfl
  | true =>
    refine (units_bitset_run cx _ en Outcome _ _ n _ _ rfl).trans ?_
    cases Emit.Units.implement cx true en <;> rfl

/-- C97: it refuses exactly the enums with `#[key(bitset)]` and more than 128 variants. -/
theorem C97_refused (cx : Cx) (bitset : Bool) (en : List String) (n : Nat) : (∃ e, unitOutcome cx bitset en (n + 100) = .refused e) ↔ bitset = true ∧ 128 < en.length := by
  rw [C97_units]
  cases bitset with
  | false =>
    have h : Emit.Units.implement cx false en ≠ none := by unfold Emit.Units.implement; simp
    cases e : Emit.Units.implement cx false en with
    | none => exact absurd e h
    | some t => simp
  | true =>
    by_cases h : en.length ≤ 128
    · have ⟨ty, hty⟩ : ∃ ty, Emit.Units.determine_bits en = some ty := by
        unfold Emit.Units.determine_bits
        dsimp only
        split
        · exact ⟨_, rfl⟩
        · split
          · exact ⟨_, rfl⟩
          · split
            · exact ⟨_, rfl⟩
            · split
              · exact ⟨_, rfl⟩
              · exact ⟨_, rfl⟩
      rw [unitsWith_some cx en ty hty h]
      simp [Nat.not_lt.mpr h]
    · have hn : Emit.Units.determine_bits en = none := by
        unfold Emit.Units.determine_bits
        simp [show ¬ en.length ≤ 8 by omega, show ¬ en.length ≤ 16 by omega, show ¬ en.length ≤ 32 by omega, show ¬ en.length ≤ 64 by omega, h]
      have hi : Emit.Units.implement cx true en = none := by rw [unitsWith_eq]; unfold Emit.Units.impl_bitset; rw [hn]; rfl
      rw [hi]
      simp [Nat.not_le.mp h]

/-- An enum with two variants, one of them with a payload: both files read and run, and where the enum ends up in the tokens. -/
example : ∃ t, anyOutcome ⟨["Key"], ["pub"], ["'a"]⟩ [⟨"First", .unit⟩, ⟨"Second", .unnamed [["bool"]]⟩] 100 = .tokens t ∧
    t.take 19 = ["const", "_", ":", "(", ")", "=", "{", "pub", "struct", "__MapStorage", "<", "V", ">", "{", "_0", ":", "::", "core", "::"] ∧
    t.drop (t.length - 17) = ["MapStorage", "<", "V", ">", "=", "__MapStorage", "<", "V", ">", ";", "type", "SetStorage", "=", "__SetStorage", ";", "}", "}", ";"].tail := by
  refine ⟨_, C97_any _ [⟨"First", none⟩, ⟨"Second", some ["bool"]⟩] 0, ?_, ?_⟩ <;> derive_rfl

/-- With 129 variants, only `#[key(bitset)]` is refused. -/
example : unitOutcome ⟨["Key"], ["pub"], ["'a"]⟩ true ((List.range 129).map Nat.repr) 100 = .refused ["only support up until 128 variants, got 129"] ∧
    (¬ ∃ e, unitOutcome ⟨["Key"], ["pub"], ["'a"]⟩ false ((List.range 129).map Nat.repr) 100 = .refused e) ∧
    ¬ ∃ e, unitOutcome ⟨["Key"], ["pub"], ["'a"]⟩ true ((List.range 128).map Nat.repr) 100 = .refused e := by
  refine ⟨?_, fun h => ?_, fun h => ?_⟩
  · rw [C97_units _ _ _ 0]
    have hn : Emit.Units.determine_bits ((List.range 129).map Nat.repr) = none := by unfold Emit.Units.determine_bits; simp
    have hi : Emit.Units.implement ⟨["Key"], ["pub"], ["'a"]⟩ true ((List.range 129).map Nat.repr) = none := by rw [unitsWith_eq]; unfold Emit.Units.impl_bitset; rw [hn]; rfl
    rw [hi, List.length_map, List.length_range]
    rfl
  · exact absurd ((C97_refused _ _ _ 0).mp h).1 (by simp)
  · exact absurd ((C97_refused _ _ _ 0).mp h).2 (by simp)

/-- C97, `Fields::complex`, which the semantics has as a primitive: its text gives the payloads of the fields, in order. -/
theorem C97_complex (fs : Emit.Fields) (n : Nat) (R : Type) (err : Stop → R) (k : Val → Heap → R) (F : Emit.Fields) (errs : List String) (loops : Loops) :
    ∃ f, anyProgram.fn "Fields" "complex" = some f ∧ callFn (eval anyProgram loops (n + 20)) R err f [.fields fs] ⟨[], F, errs⟩ k = k (.complexIter (fs.fields.filterMap (·.kind))) ⟨[], F, errs⟩ := by
  refine ⟨(anyProgram.fn "Fields" "complex").getD default, by derive_rfl, ?_⟩
  have e : (fun f : Emit.Field => match f.kind with | none => none | some c => some c) = fun f => f.kind := by
    funext f
    cases f.kind <;> rfl
  have h : callFn (eval anyProgram loops (n + 20)) R err ((anyProgram.fn "Fields" "complex").getD default) [.fields fs] ⟨[], F, errs⟩ k =
      k (.complexIter (fs.fields.filterMap fun f : Emit.Field => match f.kind with | none => none | some c => some c)) ⟨[], F, errs⟩ := by derive_rfl
  rw [h, e]

/-- C97, `determine_bits`: the smallest word that has a bit for each variant, as its type and as a number; more than 128 variants are refused. -/
theorem C97_bits (cx : Cx) (data : Emit.Macro.Data) (en : List String) (n : Nat) (R : Type) (err : Stop → R) (k : Val → Heap → R) (F : Emit.Fields) (errs : List String) (loops : Loops) :
    let out := runFn unitProgram loops (n + 20) R err "determine_bits" [.cx cx data, .unitEnum en] ⟨[], F, errs⟩ k
    (en.length ≤ 128 → ∃ w ∈ [8, 16, 32, 64, 128], en.length ≤ w ∧ (∀ w' ∈ [8, 16, 32, 64, 128], en.length ≤ w' → w ≤ w') ∧
      out = k (.tuple [.toks ["u" ++ Nat.repr w], .nat w]) ⟨[], F, errs⟩) ∧
    (128 < en.length → out = err (.err (errs ++ ["only support up until 128 variants, got " ++ Nat.repr en.length]))) := by
  intro out
  constructor
  · intro h128
    by_cases h8 : en.length ≤ 8
    · refine ⟨8, by simp, h8, fun w' hw _ => by simp at hw; omega, ?_⟩
      show runFn unitProgram loops (n + 20) R err "determine_bits" [.cx cx data, .unitEnum en] ⟨[], F, errs⟩ k = _
      dexpose
      dbranch (ble_true h8)
      derive_rfl
    by_cases h16 : en.length ≤ 16
    · refine ⟨16, by simp, h16, fun w' hw _ => by simp at hw; omega, ?_⟩
      show runFn unitProgram loops (n + 20) R err "determine_bits" [.cx cx data, .unitEnum en] ⟨[], F, errs⟩ k = _
      dexpose
      dbranch (ble_false (show 8 < en.length by omega))
      dbranch (ble_true (show 9 ≤ en.length by omega))
      dbranch (ble_true h16)
      derive_rfl
    by_cases h32 : en.length ≤ 32
    · refine ⟨32, by simp, h32, fun w' hw _ => by simp at hw; omega, ?_⟩
      show runFn unitProgram loops (n + 20) R err "determine_bits" [.cx cx data, .unitEnum en] ⟨[], F, errs⟩ k = _
      dexpose
      dbranch (ble_false (show 8 < en.length by omega))
      dbranch (ble_true (show 9 ≤ en.length by omega))
      dbranch (ble_false (show 16 < en.length by omega))
      dbranch (ble_true (show 17 ≤ en.length by omega))
      dbranch (ble_true h32)
      derive_rfl
    by_cases h64 : en.length ≤ 64
    · refine ⟨64, by simp, h64, fun w' hw _ => by simp at hw; omega, ?_⟩
      show runFn unitProgram loops (n + 20) R err "determine_bits" [.cx cx data, .unitEnum en] ⟨[], F, errs⟩ k = _
      dexpose
      dbranch (ble_false (show 8 < en.length by omega))
      dbranch (ble_true (show 9 ≤ en.length by omega))
      dbranch (ble_false (show 16 < en.length by omega))
      dbranch (ble_true (show 17 ≤ en.length by omega))
      dbranch (ble_false (show 32 < en.length by omega))
      dbranch (ble_true (show 33 ≤ en.length by omega))
      dbranch (ble_true h64)
      derive_rfl
    · refine ⟨128, by simp, h128, fun w' hw _ => by simp at hw; omega, ?_⟩
      show runFn unitProgram loops (n + 20) R err "determine_bits" [.cx cx data, .unitEnum en] ⟨[], F, errs⟩ k = _
      dexpose
      dbranch (ble_false (show 8 < en.length by omega))
      dbranch (ble_true (show 9 ≤ en.length by omega))
      dbranch (ble_false (show 16 < en.length by omega))
      dbranch (ble_true (show 17 ≤ en.length by omega))
      dbranch (ble_false (show 32 < en.length by omega))
      dbranch (ble_true (show 33 ≤ en.length by omega))
      dbranch (ble_false (show 64 < en.length by omega))
      dbranch (ble_true (show 65 ≤ en.length by omega))
      dbranch (ble_true h128)
      derive_rfl
  · intro h128
    show runFn unitProgram loops (n + 20) R err "determine_bits" [.cx cx data, .unitEnum en] ⟨[], F, errs⟩ k = _
    dexpose
    dbranch (ble_false (show 8 < en.length by omega))
    dbranch (ble_true (show 9 ≤ en.length by omega))
    dbranch (ble_false (show 16 < en.length by omega))
    dbranch (ble_true (show 17 ≤ en.length by omega))
    dbranch (ble_false (show 32 < en.length by omega))
    dbranch (ble_true (show 33 ≤ en.length by omega))
    dbranch (ble_false (show 64 < en.length by omega))
    dbranch (ble_true (show 65 ≤ en.length by omega))
    dbranch (ble_false h128)
    derive_rfl

/-- C97 with C86: the text of any_variants.rs prints the code whose meaning is that of the storages (C61). -/
theorem C97_printed (cx : Cx) (el : KeyTy → Toks) (vs : List Gen.Variant) (n : Nat) :
    anyOutcome cx ((Emit.variantsOf el vs).map shape) (n + 100) = .tokens (Emit.Print.code cx el (Emit.codeOf (Gen.collect vs))) := by
  rw [C97_any, Emit.C86_any]

/-- C97 with C92: what either file writes has the items and signatures that the traits ask for. -/
theorem C97_accepted (cx : Cx) (E : String) (hx : Impls.Written cx E) (ts : Toks) (n : Nat) :
    (∀ vs, Impls.WrittenVs vs → anyOutcome cx (vs.map shape) (n + 100) = .tokens ts → Impls.Good E ts) ∧
    ∀ bitset en, (∀ v ∈ en, Impls.Calm [v]) → unitOutcome cx bitset en (n + 100) = .tokens ts → Impls.Good E ts := by
  constructor
  · intro vs hv h
    rw [C97_any] at h
    cases h
    exact Impls.C92_any cx E vs hx hv
  · intro bitset en hv h
    rw [C97_units] at h
    cases e : Emit.Units.implement cx bitset en with
    | none => rw [e] at h; cases h
    | some t =>
      rw [e] at h
      cases h
      exact Impls.C92_units cx E bitset en ts hx hv e

/-- `determine_bits` for nine variants: `u16` and 16. -/
example : runFn unitProgram ⟨forLoop, forVariants⟩ 20 Bool (fun _ => false) "determine_bits" [.cx ⟨["E"], [], ["'a"]⟩ .struct, .unitEnum ["A", "B", "C", "D", "E", "F", "G", "H", "I"]] ⟨[], ⟨[], []⟩, []⟩
    (fun v _ => match v with | .tuple [.toks t, .nat w] => t == ["u16"] && w == 16 | _ => false) = true := by derive_rfl

end FixedMap.DeriveText
