import Verif.Model.Macro
import Verif.Spec.Paths

/-! # What the user writes, for C91 on the whole macro -/

set_option autoImplicit false

namespace FixedMap.Paths

/-- An item as syn gives it. -/
structure OfSyn (ast : FixedMap.Emit.Macro.Ast) (E : String) : Prop where
  ident : ast.ident = [E]
  isIdent : cls E = .word
  vis : Closed ast.vis
  idents : ∀ vs, ast.data = .enum vs → ∀ v ∈ vs, cls v.ident = .word
  elements : ∀ vs, ast.data = .enum vs → ∀ v ∈ vs, ∀ e, v.fields = .unnamed [e] → Closed e

/-- Written by the user. -/
def OfItem (ast : FixedMap.Emit.Macro.Ast) (u : Use) : Prop :=
  Own ast.vis u ∨ ∃ vs, ast.data = .enum vs ∧ ∃ v ∈ vs, ∃ e, v.fields = .unnamed [e] ∧ Own e u

end FixedMap.Paths
