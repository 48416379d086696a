import Verif.Proofs.DeriveMain
import Verif.Properties.DeriveAttrs

/-!
# C100: the text of the derive from the item to the output
-/

set_option autoImplicit false

namespace FixedMap.DeriveText

open Emit (Toks)
open Emit.Macro (Ast Path)
open Main (DVal)

theorem called_eq (E : Emit.Macro.Env) (n : Nat) :
    called E (n + 100) = ⟨E, fun l => some ⟨true, l⟩, fun a lt => some (Emit.Macro.implStorage E ⟨a.ident, a.vis, [lt]⟩ a)⟩ := by
  have h1 : (fun l => pathOutcome E "leading_path" [.parts l] (n + 100)) = fun l => some ⟨true, l⟩ := by
    funext l
    unfold pathOutcome
    rw [Progs.pathFns_parsed, Progs.symbol_parsed]
    dsimp only
    rw [Attrs.leading_run E (n + 80) l]
  have h2 : (fun (a : Ast) (lt : String) => (derived E ⟨a.ident, a.vis, [lt]⟩ a (n + 100)).result) = fun a lt => some (Emit.Macro.implStorage E ⟨a.ident, a.vis, [lt]⟩ a) := by
    funext a lt
    rw [C99_macro]
    cases Emit.Macro.implStorage E ⟨a.ident, a.vis, [lt]⟩ a <;> rfl
  unfold called
  rw [h1, h2]

/-- C100: the text of the derive, run on any item, writes what the model of the macro writes, or panics where it does. -/
theorem C100_derive (E : Emit.Macro.Env) (ast : Ast) (n : Nat) : expansion E (.ok ast) (n + 100) =
    match Emit.Macro.storageDerive E ast with
    | some t => .tokens t
    | none => .panic := by
  unfold expansion
  rw [Progs.storageDerive_parsed, Progs.ctxt_parsed, called_eq]
  have h : ∀ X : Main.Ext, (match Progs.storageDerive.fns with
      | [f] =>
        match Main.run X Progs.ctxt (n + 100) f.body ⟨f.params.zip [.input (.ok ast)], none⟩ with
        | .val (.toks t) _ => Expansion.tokens t
        | .ret (.toks t) _ => .tokens t
        | .panic => .panic
        | _ => .wrong
      | _ => .wrong) =
      match Main.run X Progs.ctxt (n + 100) Main.mainBody ⟨[("input", .input (.ok ast))], none⟩ with
        | .val (.toks t) _ => Expansion.tokens t
        | .ret (.toks t) _ => .tokens t
        | .panic => .panic
        | _ => .wrong := fun _ => rfl
  refine (h _).trans ?_
  rw [Main.main_begin]
  unfold Emit.Macro.storageDerive
  cases Emit.Macro.implStorage E ⟨ast.ident, ast.vis, ["'a"]⟩ ast with
  | ok t =>
    simp only [Main.implFlow, Main.Flow.bind]
    obtain ⟨s, hs⟩ := Main.main_ok ⟨E, fun l => some ⟨true, l⟩, fun a lt => some (Emit.Macro.implStorage E ⟨a.ident, a.vis, [lt]⟩ a)⟩ ast t n
    rw [hs]
  | err l =>
    simp only [Main.implFlow, Main.Flow.bind]
    obtain ⟨s, hs⟩ := Main.main_err ⟨E, fun l => some ⟨true, l⟩, fun a lt => some (Emit.Macro.implStorage E ⟨a.ident, a.vis, [lt]⟩ a)⟩ ast l n
    rw [hs]
  | panic => rfl

/-- C100: input that is no item gives one `compile_error!` with the message of syn. -/
theorem C100_syntax (E : Emit.Macro.Env) (m : String) (n : Nat) : expansion E (.error m) (n + 100) = .tokens (Emit.Macro.toCompileError E m) := by
  unfold expansion
  rw [Progs.storageDerive_parsed, Progs.ctxt_parsed]
  rfl

/-- C100: there is always output, except for enums with a variant `V()`; no run gets stuck. -/
theorem C100_total (E : Emit.Macro.Env) (ast : Ast) (n : Nat) : expansion E (.ok ast) (n + 100) ≠ .wrong ∧
    (expansion E (.ok ast) (n + 100) = .panic ↔ ∃ vs, ast.data = .enum vs ∧ ∃ v ∈ vs, v.fields = .unnamed []) := by
  rw [C100_derive]
  have h : Emit.Macro.storageDerive E ast = none ↔ ∃ vs, ast.data = .enum vs ∧ ∃ v ∈ vs, v.fields = .unnamed [] := by
    rw [← C98_panics E ⟨ast.ident, ast.vis, ["'a"]⟩ ast n, ← C98_derive E ast n]
    have := C98_runs E ⟨ast.ident, ast.vis, ["'a"]⟩ ast n
    cases ho : macroOutcome E ⟨ast.ident, ast.vis, ["'a"]⟩ ast (n + 100) <;> simp_all [written]
  rw [← h]
  cases Emit.Macro.storageDerive E ast <;> simp

/-- C100 with C91: all paths in what the text writes are good. -/
theorem C100_accepted (feat : String → Bool) (E : Emit.Macro.Env) (hl : ∀ m, Paths.cls (E.lit m) = .other) (ast : Ast) (name : String) (n : Nat) (hx : Paths.OfSyn ast name)
    (ts : Toks) (h : expansion E (.ok ast) (n + 100) = .tokens ts) : ∀ u ∈ Paths.uses ts, Paths.Good feat u ∨ Paths.OfItem ast u := by
  rw [C100_derive] at h
  cases hs : Emit.Macro.storageDerive E ast with
  | none => rw [hs] at h; cases h
  | some t =>
    rw [hs] at h
    cases h
    exact Paths.C91_macro feat E hl ast name hx _ hs

/-! ## Which items get code -/

/-- An enum, and not one without payloads, with more than 128 variants and an attribute `#[key(bitset ..)]`. -/
def Accepted (E : Emit.Macro.Env) (ast : Ast) : Prop :=
  ∃ vs, ast.data = .enum vs ∧ ¬((∀ v ∈ vs, v.fields = .unit) ∧ (∃ a ∈ ast.attrs, a.path = ⟨false, ["key"]⟩ ∧ FirstBitset E a) ∧ 128 < vs.length)

theorem refused_iff (E : Emit.Macro.Env) (ast : Ast) :
    (∃ e, Emit.Macro.implStorage E ⟨ast.ident, ast.vis, ["'a"]⟩ ast = .err e) ↔ ¬Accepted E ast := by
  have h := C98_refused E ⟨ast.ident, ast.vis, ["'a"]⟩ ast 0
  rw [C98_macro] at h
  have hb := all_bitset E ast.attrs ⟨false, []⟩
  simp only [Bool.false_eq_true, false_or] at hb
  rw [hb] at h
  have h1 : (∃ e, Emit.Macro.implStorage E ⟨ast.ident, ast.vis, ["'a"]⟩ ast = .err e) ↔ ∃ e, ofResult (Emit.Macro.implStorage E ⟨ast.ident, ast.vis, ["'a"]⟩ ast) = .refused e := by
    cases Emit.Macro.implStorage E ⟨ast.ident, ast.vis, ["'a"]⟩ ast <;> simp [ofResult]
  rw [h1, h]
  unfold Accepted
  cases ast.data with
  | struct => simp
  | union => simp
  | enum vs =>
    generalize (∃ a ∈ ast.attrs, a.path = ⟨false, ["key"]⟩ ∧ FirstBitset E a) = q
    simp

/-- C100 with C92: if the item is accepted, then what the text writes has the items and signatures that the traits ask for. -/
theorem C100_impls (E : Emit.Macro.Env) (ast : Ast) (name : String) (n : Nat) (hx : Impls.WrittenItem ast name) (ha : Accepted E ast) (ts : Toks)
    (h : expansion E (.ok ast) (n + 100) = .tokens ts) : Impls.Good name ts := by
  rw [C100_derive] at h
  have hr := refused_iff E ast
  unfold Emit.Macro.storageDerive at h
  cases hi : Emit.Macro.implStorage E ⟨ast.ident, ast.vis, ["'a"]⟩ ast with
  | ok t =>
    rw [hi] at h
    cases h
    exact Impls.C92_macro E ast name hx _ hi
  | err e => exact absurd ha (hr.mp ⟨e, hi⟩)
  | panic => rw [hi] at h; cases h

/-- C100: an item that is not accepted gets a `compile_error!` for each error of its attributes, and one that says why it is refused. -/
theorem C100_refused (E : Emit.Macro.Env) (ast : Ast) (n : Nat) (ha : ¬Accepted E ast) :
    ∃ errs m, attrsOutcome E ast.attrs [] (n + 20) = some ((Emit.Macro.parse E ast.attrs ⟨false, []⟩).bitset, errs) ∧
      expansion E (.ok ast) (n + 100) = .tokens ((errs ++ [m]).flatMap (Emit.Macro.toCompileError E)) ∧
      m = match ast.data with
        | .enum vs => "only support up until 128 variants, got " ++ Nat.repr vs.length
        | _ => "named fields are not supported" := by
  obtain ⟨e, he⟩ := (refused_iff E ast).mpr ha
  have hm : e = (Emit.Macro.parse E ast.attrs ⟨false, []⟩).errors ++ [match ast.data with
        | .enum vs => "only support up until 128 variants, got " ++ Nat.repr vs.length
        | _ => "named fields are not supported"] := by
    unfold Emit.Macro.implStorage at he
    dsimp only at he
    cases hd : ast.data with
    | struct => rw [hd] at he; cases he; rfl
    | union => rw [hd] at he; cases he; rfl
    | enum vs =>
      rw [hd] at he
      dsimp only at he ⊢
      split at he
      · unfold Emit.Macro.units at he
        split at he
        · cases he
        · cases he; rfl
      · unfold Emit.Macro.any at he
        split at he <;> cases he
  refine ⟨_, _, C99_attrs E ast.attrs [] n, ?_, rfl⟩
  rw [C100_derive]
  unfold Emit.Macro.storageDerive
  rw [he, ← hm]
  rw [List.flatMap]

/-! ## The methods of Ctxt -/

/-- C100: `Ctxt::new` has no errors, `error` and `span_error` add one at the end, `into_errors` gives them all. -/
theorem C100_errors (X : Main.Ext) (p : Path) (ast : Ast) (lt : String) (l : List String) (m : String) (n : Nat) :
    ctxtCall X (n + 20) "new" [.table p, .ast ast, .lifetime lt] none = some (.ctxt p ast lt, []) ∧
    ctxtCall X (n + 20) "error" [.ctxt p ast lt, .error m] (some l) = some (.unit, l ++ [m]) ∧
    ctxtCall X (n + 20) "span_error" [.ctxt p ast lt, .span, .str m] (some l) = some (.unit, l ++ [m]) ∧
    ctxtCall X (n + 20) "into_errors" [.ctxt p ast lt] (some l) = some (.errors l, l) := by
  unfold ctxtCall
  rw [Progs.ctxt_parsed]
  exact ⟨by derive_rfl, by derive_rfl, by derive_rfl, by derive_rfl⟩

/-- C100: `fallible` passes on what its closure returns; if that is an error, then it goes to the errors, after those that the closure itself has added. -/
theorem C100_fallible (X : Main.Ext) (p : Path) (ast : Ast) (lt : String) (f : List String → List String × Except String Toks) (l : List String) (n : Nat) :
    ctxtCall X (n + 20) "fallible" [.ctxt p ast lt, .op f] (some l) =
      match f l with
      | (l', .ok t) => some (.ok (.toks t), l')
      | (l', .error m) => some (.err .unit, l' ++ [m]) := by
  unfold ctxtCall
  rw [Progs.ctxt_parsed]
  dsimp only
  rw [Main.fallible_begin]
  rcases f l with ⟨l', _ | _⟩
  · derive_rfl
  · derive_rfl

/-! ## Cases -/

/-- `#[key(foo)] struct`: two errors. -/
example : expansion Emit.Macro.exE (.ok ⟨["Key"], ["pub"], [⟨⟨false, ["key"]⟩, .list ["foo"]⟩], .struct⟩) 100 =
    .tokens (Emit.Macro.toCompileError Emit.Macro.exE "Unsupported attribute" ++ Emit.Macro.toCompileError Emit.Macro.exE "named fields are not supported") ∧
    ¬Accepted Emit.Macro.exE ⟨["Key"], ["pub"], [⟨⟨false, ["key"]⟩, .list ["foo"]⟩], .struct⟩ ∧ Accepted Emit.Macro.exE ⟨["Key"], ["pub"], [], .enum [⟨"A", .unit⟩]⟩ :=
  ⟨(C100_derive _ _ 0).trans (by derive_rfl), (fun ⟨_, h, _⟩ => by cases h), ⟨_, rfl, fun h => absurd h.2.2 (by decide)⟩⟩

/-- An enum gets code, a struct an error, `V()` a panic, and what is no item the error of syn. -/
example : expansion Emit.Macro.exE (.ok ⟨["Key"], ["pub"], [], .enum [⟨"A", .unit⟩]⟩) 100 = .tokens ((Emit.Units.implement ⟨["Key"], ["pub"], ["'a"]⟩ false ["A"]).getD []) ∧
    expansion Emit.Macro.exE (.ok ⟨["Key"], ["pub"], [], .struct⟩) 100 = .tokens (Emit.Macro.toCompileError Emit.Macro.exE "named fields are not supported") ∧
    expansion Emit.Macro.exE (.ok ⟨["Key"], ["pub"], [], .enum [⟨"V", .unnamed []⟩]⟩) 100 = .panic ∧
    expansion Emit.Macro.exE (.error "expected one of") 100 = .tokens (Emit.Macro.toCompileError Emit.Macro.exE "expected one of") :=
  ⟨(C100_derive _ _ 0).trans (by derive_rfl), (C100_derive _ _ 0).trans (by derive_rfl), (C100_derive _ _ 0).trans (by derive_rfl), C100_syntax _ _ 0⟩

end FixedMap.DeriveText
