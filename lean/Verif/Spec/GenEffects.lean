import Verif.Model.GenEffects
import Verif.Spec.Gen
import Verif.Spec.GenIter
import Verif.Spec.GenUnits
import Verif.Spec.IterClone

/-! # How states of an owning iterator appear in the generated code -/

set_option autoImplicit false

namespace FixedMap.Gen

variable {H : HashbrownApi} {V : Type}

/-- The values of the fields of the owning iterator of a map storage, in declaration order; fields are numbered from `i`. -/
def intoCells : Nat → (fs : Fields) → (mapFields H V fs).intoIter.St → List (ICell H V)
  | _, .nil => fun _ => []
  | i, .simple fs => fun (st : Option V × (mapFields H V fs).intoIter.St) => .opt (st.1.map .val) :: intoCells (i + 1) fs st.2
  | i, .complex κ fs => fun (st : (mapStorage H V κ).intoIter.I.St × (mapFields H V fs).intoIter.St) =>
    .map κ .intoIter (fieldName i) st.1 :: intoCells (i + 1) fs st.2

/-- The struct `__IntoIter { start, end, _0, _1, .. }`. -/
def intoIterVal (fs : Fields) (st : (mapStorage H V (.enum fs)).intoIter.I.St) : IterVal H V :=
  let st : LoopSt (mapFields H V fs).intoIter.St := st
  ⟨st.start, st.stop, inamed 0 (intoCells 0 fs st.fields)⟩

end FixedMap.Gen
