import Verif.Proofs.DeriveMacro
import Verif.Properties.DeriveText
import Verif.Properties.Macro
import Verif.Properties.Paths

/-!
# C98: the text of the derive on any input
-/

set_option autoImplicit false

namespace FixedMap.DeriveText

open Emit (Toks Cx)
open Emit.Macro (Ast Data)

/-- What the model of the macro comes to. -/
def ofResult : Emit.Macro.Result → Outcome
  | .ok t => .tokens t
  | .err e => .refused e
  | .panic => .panic

/-- C98, any_variants.rs on any variants, also those that it skips or panics at. -/
theorem C98_any (cx : Cx) (vs : List Emit.Macro.Variant) (n : Nat) : anyOutcome cx vs (n + 100) = ofResult (Emit.Macro.any cx ⟨false, []⟩ vs) := by
  unfold anyOutcome outcome
  rw [Progs.anyVariants_parsed, Progs.paths_parsed]
  refine (implement_run cx _ _ Outcome _ _ n _ _ rfl).trans ?_
  unfold Emit.Macro.any
  cases Emit.Macro.loop cx 0 vs ⟨[], []⟩ [] <;> rfl

/-- C98, `impl_storage`: the text of lib.rs, any_variants.rs and unit_variants.rs on any item does what the model of the macro does. -/
theorem C98_macro (E : Emit.Macro.Env) (cx : Cx) (ast : Ast) (n : Nat) : macroOutcome E cx ast (n + 100) = ofResult (Emit.Macro.implStorage E cx ast) := by
  unfold macroOutcome
  rw [Progs.lib_parsed, Progs.anyVariants_parsed, Progs.unitVariants_parsed, Progs.paths_parsed]
  refine (lib_run E cx ast n (n + 80) rfl rfl).trans ?_
  cases Emit.Macro.implStorage E cx ast <;> rfl

/-- C98, the output of the macro. -/
theorem C98_derive (E : Emit.Macro.Env) (ast : Ast) (n : Nat) : written E (macroOutcome E ⟨ast.ident, ast.vis, ["'a"]⟩ ast (n + 100)) = Emit.Macro.storageDerive E ast := by
  rw [C98_macro]
  unfold Emit.Macro.storageDerive
  cases Emit.Macro.implStorage E ⟨ast.ident, ast.vis, ["'a"]⟩ ast with
  | ok t => rfl
  | panic => rfl
  | err e =>
    show some (e.flatMap _) = some (e.map (Emit.Macro.toCompileError E)).flatten
    rw [List.flatMap]
    rfl

/-! ## Which items are refused -/

theorem allUnit_iff (vs : List Emit.Macro.Variant) : Emit.Macro.isAllUnitVariants vs = true ↔ ∀ v ∈ vs, v.fields = .unit := by
  induction vs with
  | nil => simp [Emit.Macro.isAllUnitVariants]
  | cons v vs ih =>
    rw [Emit.Macro.isAllUnitVariants]
    cases h : v.fields <;> simp [h, ih]

theorem loop_none (cx : Cx) : ∀ (vs : List Emit.Macro.Variant) (i : Nat) (F : Emit.Fields) (e : List String),
    Emit.Macro.loop cx i vs F e = none ↔ ∃ v ∈ vs, v.fields = .unnamed [] := by
  intro vs
  induction vs with
  | nil => intro i F e; simp [Emit.Macro.loop]
  | cons v vs ih =>
    intro i F e
    rw [loop_cons]
    rcases v with ⟨ident, _ | (_ | ⟨a, _ | ⟨b, l⟩⟩) | fs⟩ <;> simp [loopOne, ih]

/-- C98: the text panics exactly for enums with a variant `V()`. -/
theorem C98_panics (E : Emit.Macro.Env) (cx : Cx) (ast : Ast) (n : Nat) :
    macroOutcome E cx ast (n + 100) = .panic ↔ ∃ vs, ast.data = .enum vs ∧ ∃ v ∈ vs, v.fields = .unnamed [] := by
  rw [C98_macro]
  unfold Emit.Macro.implStorage
  dsimp only
  cases hd : ast.data with
  | struct => simp [ofResult]
  | union => simp [ofResult]
  | enum vs =>
    simp only [Data.enum.injEq, exists_eq_left']
    cases hu : Emit.Macro.isAllUnitVariants vs with
    | true =>
      rw [if_pos rfl]
      unfold Emit.Macro.units
      constructor
      · intro h
        split at h <;> cases h
      · rintro ⟨v, hv, h⟩
        rw [(allUnit_iff vs).mp hu v hv] at h
        cases h
    | false =>
      rw [if_neg (by simp), ← loop_none cx vs 0 ⟨[], []⟩ (Emit.Macro.parse E ast.attrs ⟨false, []⟩).errors]
      unfold Emit.Macro.any
      cases Emit.Macro.loop cx 0 vs ⟨[], []⟩ (Emit.Macro.parse E ast.attrs ⟨false, []⟩).errors <;> simp [ofResult]

/-- C98: it refuses exactly the items that are no enums, and those with more than 128 variants, none with payload, for which the attributes ask for a bit set. All other items, such as
enums with variants that it does not support, get tokens. -/
theorem C98_refused (E : Emit.Macro.Env) (cx : Cx) (ast : Ast) (n : Nat) : (∃ e, macroOutcome E cx ast (n + 100) = .refused e) ↔
    (∀ vs, ast.data ≠ .enum vs) ∨
      ∃ vs, ast.data = .enum vs ∧ (∀ v ∈ vs, v.fields = .unit) ∧ (Emit.Macro.parse E ast.attrs ⟨false, []⟩).bitset = true ∧ 128 < vs.length := by
  rw [C98_macro]
  unfold Emit.Macro.implStorage
  dsimp only
  cases hd : ast.data with
  | struct => simp [ofResult]
  | union => simp [ofResult]
  | enum vs =>
    simp only [Data.enum.injEq, exists_eq_left', ← allUnit_iff]
    cases hu : Emit.Macro.isAllUnitVariants vs with
    | true =>
      rw [if_pos rfl]
      have h := C97_refused cx (Emit.Macro.parse E ast.attrs ⟨false, []⟩).bitset (vs.map (·.ident)) n
      rw [C97_units, List.length_map] at h
      unfold Emit.Macro.units
      cases hi : Emit.Units.implement cx (Emit.Macro.parse E ast.attrs ⟨false, []⟩).bitset (vs.map (·.ident)) with
      | none =>
        rw [hi] at h
        simpa [ofResult] using h
      | some t =>
        rw [hi] at h
        simpa [ofResult] using h
    | false =>
      rw [if_neg (by simp)]
      unfold Emit.Macro.any
      cases Emit.Macro.loop cx 0 vs ⟨[], []⟩ (Emit.Macro.parse E ast.attrs ⟨false, []⟩).errors <;> simp [ofResult]

/-- C98: the text is never wrong, whatever the item is. -/
theorem C98_runs (E : Emit.Macro.Env) (cx : Cx) (ast : Ast) (n : Nat) : macroOutcome E cx ast (n + 100) ≠ .wrong := by
  rw [C98_macro]
  cases Emit.Macro.implStorage E cx ast <;> simp [ofResult]

/-- C98 with C91 and C92: what the text writes has good paths; if it is code, it has the items and signatures that the traits ask for. -/
theorem C98_accepted (feat : String → Bool) (E : Emit.Macro.Env) (hl : ∀ m, Paths.cls (E.lit m) = .other) (ast : Ast) (name : String) (n : Nat) :
    (∀ ts, Paths.OfSyn ast name → written E (macroOutcome E ⟨ast.ident, ast.vis, ["'a"]⟩ ast (n + 100)) = some ts → ∀ u ∈ Paths.uses ts, Paths.Good feat u ∨ Paths.OfItem ast u) ∧
    ∀ ts, Impls.WrittenItem ast name → macroOutcome E ⟨ast.ident, ast.vis, ["'a"]⟩ ast (n + 100) = .tokens ts → Impls.Good name ts := by
  constructor
  · intro ts hx h
    rw [C98_derive] at h
    exact Paths.C91_macro feat E hl ast name hx ts h
  · intro ts hx h
    rw [C98_macro] at h
    refine Impls.C92_macro E ast name hx ts ?_
    cases hr : Emit.Macro.implStorage E ⟨ast.ident, ast.vis, ["'a"]⟩ ast with
    | ok t => rw [hr] at h; cases h; rfl
    | err e => rw [hr] at h; cases h
    | panic => rw [hr] at h; cases h

/-- An enum with an unsupported variant is accepted, and the variant is missing in the code; a struct is refused; an enum with `V()` makes the macro panic. -/
example : let cx : Cx := ⟨["Key"], ["pub"], ["'a"]⟩
    (∀ ts, macroOutcome Emit.Macro.exE cx ⟨["Key"], ["pub"], [], .enum [⟨"A", .unit⟩, ⟨"B", .named [("x", ["u8"])]⟩]⟩ 100 = .tokens ts → "A" ∈ ts ∧ "B" ∉ ts) ∧
    (∃ ts, macroOutcome Emit.Macro.exE cx ⟨["Key"], ["pub"], [], .enum [⟨"A", .unit⟩, ⟨"B", .named [("x", ["u8"])]⟩]⟩ 100 = .tokens ts) ∧
    macroOutcome Emit.Macro.exE cx ⟨["Key"], ["pub"], [], .struct⟩ 100 = .refused ["named fields are not supported"] ∧
    macroOutcome Emit.Macro.exE cx ⟨["Key"], ["pub"], [], .enum [⟨"A", .unit⟩, ⟨"V", .unnamed []⟩]⟩ 100 = .panic := by
  have h : macroOutcome Emit.Macro.exE ⟨["Key"], ["pub"], ["'a"]⟩ ⟨["Key"], ["pub"], [], .enum [⟨"A", .unit⟩, ⟨"B", .named [("x", ["u8"])]⟩]⟩ 100 =
      .tokens (Emit.emit ⟨["Key"], ["pub"], ["'a"]⟩ (Emit.fieldsOf ⟨["Key"], ["pub"], ["'a"]⟩ [⟨"A", none⟩])) := (C98_macro _ _ _ 0).trans (by derive_rfl)
  refine ⟨fun ts ht => ?_, ⟨_, h⟩, (C98_macro _ _ _ 0).trans (by derive_rfl), (C98_panics _ _ _ 0).mpr ⟨_, rfl, _, List.mem_cons_of_mem _ (List.mem_singleton.mpr rfl), rfl⟩⟩
  rw [h] at ht
  cases ht
  have a : (Emit.emit ⟨["Key"], ["pub"], ["'a"]⟩ (Emit.fieldsOf ⟨["Key"], ["pub"], ["'a"]⟩ [⟨"A", none⟩])).contains "A" = true := by derive_rfl
  have b : (Emit.emit ⟨["Key"], ["pub"], ["'a"]⟩ (Emit.fieldsOf ⟨["Key"], ["pub"], ["'a"]⟩ [⟨"A", none⟩])).contains "B" = false := by derive_rfl
  exact ⟨List.contains_iff_mem.mp a, fun hb => by rw [List.contains_iff_mem.mpr hb] at b; cases b⟩

end FixedMap.DeriveText
