import Verif.Model.RustCmp
import Verif.Spec.RustSource

/-!
# What the functions of src/macro_support.rs are to compute
-/

set_option autoImplicit false

namespace FixedMap.Rust

/-- The result of a comparison, or its panic. -/
def cmpObs {V R σ : Type} (m0 : Option (Val (CX V R))) (r : σ × Option R) : Obs (CX V R) σ :=
  match r.2 with
  | some r' => .ok (.ext (.res r')) m0 r.1 []
  | none => .panic m0 r.1 []

/-- The function `name` for slices of options compares as `storageIteratorCmpD` (Model/Compare) with the comparison `c` of the values, which may have effects and panic; it calls
their method `meth`. -/
def CmpText (P : Prog) (fuel : Nat) (name meth : String) {V R σ : Type} (of : Ordering → R) (isEq : R → Bool) (c : CmpFn σ V R) : Prop :=
  ∀ (u : σ) (a b : List (Option V)),
    obs (run (cmpForeign meth of isEq c) P fuel "" "" name [.ext (.slots a), .ext (.slots b)] ⟨[.unit], u, []⟩) = cmpObs (some .unit) (storageIteratorCmpD of isEq c a b u)

/-- The function `name` for slices of `bool`s gives `spec`. -/
def CmpBoolText (P : Prog) (fuel : Nat) (name meth : String) {V R σ : Type} (of : Ordering → R) (isEq : R → Bool) (c : CmpFn σ V R) (spec : List Bool → List Bool → R) : Prop :=
  ∀ (u : σ) (a b : List Bool),
    obs (run (cmpForeign meth of isEq c) P fuel "" "" name [.ext (.bools a), .ext (.bools b)] ⟨[.unit], u, []⟩) = .ok (.ext (.res (spec a b))) (some .unit) u []

end FixedMap.Rust
