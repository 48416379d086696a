import Verif.Model.GenUnits
import Verif.Spec.Iter

/-! # How values of the model of unit enums appear in the generated code -/

set_option autoImplicit false

namespace FixedMap.GenUnits

/-- The array `data` of a map storage. -/
def slots {n : Nat} {V : Type} (s : Vector (Option V) n) : Data V := s.toList.map .slot

/-- The array `data` of a set storage. The type `V` plays no role. -/
def flags {n : Nat} (V : Type) (s : Vector Bool n) : Data V := s.toList.map .flag

/-- An entry: the variant's name and the place of its slot. -/
def dynEntry (vs : List String) (e : UnitsEntry vs.length) : DynEntry := ⟨vs[e.key], e.inner.val⟩

/-- Two iterators in given states agree: for every schedule of calls the same outputs (those of the second shown by `out`),
and the same size hint afterwards. -/
def Agree {α β : Type} (I : IterImpl β) (a : I.St) (J : IterImpl α) (b : J.St) (out : α → β) : Prop :=
  ∀ ds, (I.run ds a).map (fun r => (r.1, I.sizeHint r.2)) =
    (J.run ds b).map fun r => (r.1.map (Option.map out), J.sizeHint r.2)

/-- The emitted method returns an iterator that agrees with `J` in state `b`. -/
def IterBody.Does {α V : Type} (c : IterBody) (D : Data V) (J : IterImpl α) (b : J.St) (out : α → Out V) : Prop :=
  ∃ p, c.make D = some p ∧ Agree p.1 p.2 J b out

end FixedMap.GenUnits
