import Verif.Proofs.DeriveAny
import Verif.Proofs.DeriveUnits

/-!
# The text of lib.rs does what the model of the macro does
-/

set_option autoImplicit false
set_option linter.unusedSimpArgs false
set_option linter.unusedVariables false

namespace FixedMap.DeriveText

open Emit (Toks Cx)
open Emit.Macro (Data Attr)

/-- The files that lib.rs calls. -/
abbrev others (E : Emit.Macro.Env) (attrs : List Attr) (n : Nat) : Externals := externals E attrs Progs.unitVariants Progs.anyVariants Progs.paths (n + 100)

theorem attrs_rule {X : Externals} {E : Emit.Macro.Env} {attrs : List Attr} {n : Nat} (hX : X = others E attrs n) (cx : Cx) (data : Data) (F : Emit.Fields) (e : List String) {R : Type}
    {err : Stop → R} {vs : List Val} {h : Heap} {k : Val → Heap → R} {r : R} (hv : vs = [.cx cx data]) (hh : h = ⟨[], F, e⟩)
    (hk : k (.opts (Emit.Macro.parse E attrs ⟨false, e⟩).bitset) ⟨[], F, (Emit.Macro.parse E attrs ⟨false, e⟩).errors⟩ = r) : X.attrs R err vs h k = r := by
  subst hX hv hh
  exact hk

theorem any_rule {X : Externals} {E : Emit.Macro.Env} {attrs : List Attr} {n : Nat} (hX : X = others E attrs n) (cx : Cx) (data : Data) (l : List Emit.Macro.Variant) (F : Emit.Fields)
    (e : List String) {R : Type} {err : Stop → R} {vs : List Val} {h : Heap} {k : Val → Heap → R} {r : R} (hv : vs = [.cx cx data, .en l]) (hh : h = ⟨[], F, e⟩)
    (hk : (match Emit.Macro.loop cx 0 l ⟨[], []⟩ e with | some (F, e) => k (.toks (Emit.emit cx F)) ⟨[], F, e⟩ | none => err .panic) = r) : X.any R err vs h k = r := by
  subst hX hv hh
  exact (implement_run cx data l R err k n F e rfl).trans hk

theorem units_rule {X : Externals} {E : Emit.Macro.Env} {attrs : List Attr} {n : Nat} (hX : X = others E attrs n) (cx : Cx) (data : Data) (b : Bool) (l : List Emit.Macro.Variant)
    (hl : Emit.Macro.isAllUnitVariants l = true) (F : Emit.Fields)
    (e : List String) {R : Type} {err : Stop → R} {vs : List Val} {h : Heap} {k : Val → Heap → R} {r : R} (hv : vs = [.cx cx data, .opts b, .en l]) (hh : h = ⟨[], F, e⟩)
    (hk : (match Emit.Units.implement cx b (l.map (·.ident)) with
      | some t => k (.toks t) ⟨[], F, e⟩
      | none => err (.err (e ++ ["only support up until 128 variants, got " ++ Nat.repr l.length]))) = r) : X.units R err vs h k = r := by
  subst hX hv hh
  have h1 : (others E attrs n).units R err [.cx cx data, .opts b, .en l] ⟨[], F, e⟩ k =
      runFn unitProgram ⟨forLoop, forVariants⟩ (n + 100) R err "implement" [.cx cx data, .opts b, .unitEnum (l.map (·.ident))] ⟨[], F, e⟩ k := by
    show (match Emit.Macro.isAllUnitVariants l with | true => _ | false => _) = _
    rw [hl]
    rfl
  rw [h1]
  rw [← List.length_map (as := l) (·.ident)] at hk
  cases b with
  | false => exact (units_set_run cx data _ R err k n F e rfl).trans hk
  | true => exact (units_bitset_run cx data _ R err k n F e rfl).trans hk

/-- `impl_storage` -/
theorem lib_run (E : Emit.Macro.Env) (cx : Cx) (ast : Emit.Macro.Ast) (n m : Nat) {X : Externals} (hX : X = others E ast.attrs n) {loops : Loops} (hL : loops = ⟨forLoop, forVariants⟩) :
    runFn (libProgram X) loops (m + 20) Outcome stopped "impl_storage" [.cx cx ast.data] ⟨[], ⟨[], []⟩, []⟩ finished =
      match Emit.Macro.implStorage E cx ast with
      | .ok t => .tokens t
      | .err e => .refused e
      | .panic => .panic := by
  rcases ast with ⟨ident, vis, attrs, data⟩
  dexpose
  refine attrs_rule hX cx data ⟨[], []⟩ [] (by derive_rfl) (by derive_rfl) ?_
  unfold Emit.Macro.implStorage
  dsimp only
  generalize Emit.Macro.parse E attrs ⟨false, []⟩ = st
  rcases st with ⟨b, e⟩
  cases data with
  | struct => derive_rfl
  | union => derive_rfl
  | enum l =>
    dsimp only
    dexpose
    refine all_rule hL ?_ ?_ ?_
    · rintro i ⟨ident, _ | _ | _⟩ k <;> derive_rfl
    · intro h
      rw [h, if_pos rfl]
      dexpose
      refine units_rule hX cx (.enum l) b l h ⟨[], []⟩ e (by derive_rfl) (by derive_rfl) ?_
      unfold Emit.Macro.units
      dsimp only
      cases Emit.Units.implement cx b (l.map (·.ident)) with
      | none => derive_rfl
      | some t => derive_rfl
    · intro h
      rw [h, if_neg (by simp)]
      dexpose
      refine any_rule hX cx (.enum l) l ⟨[], []⟩ e (by derive_rfl) (by derive_rfl) ?_
      unfold Emit.Macro.any
      dsimp only
      cases Emit.Macro.loop cx 0 l ⟨[], []⟩ e with
      | none => derive_rfl
      | some p => derive_rfl

end FixedMap.DeriveText
