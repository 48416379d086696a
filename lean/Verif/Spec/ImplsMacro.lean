import Verif.Spec.Impls
import Verif.Model.Macro

/-! # Impls: what the user wrote, for the whole macro -/

set_option autoImplicit false

namespace FixedMap.Impls

structure WrittenItem (ast : FixedMap.Emit.Macro.Ast) (E : String) : Prop where
  ident : ast.ident = [E]
  name : E ∉ special
  vis : Calm ast.vis
  idents : ∀ vs, ast.data = .enum vs → ∀ v ∈ vs, Calm [v.ident]
  elements : ∀ vs, ast.data = .enum vs → ∀ v ∈ vs, ∀ e, v.fields = .unnamed [e] → Calm e

end FixedMap.Impls
