import Verif.Spec.History
import Verif.Spec.Order
import Verif.Spec.SetHistory

/-! # Specifications for C51-C56: operations independent of iteration order, number of keys, sets as maps -/

set_option autoImplicit false

namespace FixedMap

/-- Calls whose answer does not depend on the iteration order: all but `retain`, `iter` and loops over `iter_mut`. -/
def Op.orderFree {σ K V : Type} : Op σ K V → Prop
  | .retain _ _ => False
  | .iter => False
  | .updateAll _ _ => False
  | _ => True

mutual
/-- How many keys there are. (Hash-backed key types count as zero; the theorems exclude them.) -/
def KeyTy.card : KeyTy → Nat
  | .bool => 2
  | .unit => 1
  | .opt κ => κ.card + 1
  | .prim _ => 0
  | .units n => n
  | .bitset n _ _ => n
  | .enum fs => fs.card
def Fields.card : Fields → Nat
  | .nil => 0
  | .simple fs => 1 + fs.card
  | .complex κ fs => κ.card + fs.card
end

/-- The closure of `retain` decides by the element alone and never panics. -/
def SetOp.stateless {T : Type} : SetOp T → Prop
  | .retain f _ => ∃ p : T → Bool, ∀ st x, (f st x).2 = some (p x)
  | _ => True

/-- The operation of a `Set<T>` done on a `Map<T, ()>`. -/
def mapStepAs {T : Type} (M : MapStorage T Unit) (m : M.S) : SetOp T → M.S
  | .insert x => (Map.insert M m x ()).2
  | .remove x => (Map.remove M m x).2
  | .clear => (Map.clear M m).1
  | .retain f st => (Map.retain M (fun st x v => ((f st x).1, v, (f st x).2)) m st).s

/-- A sequence of them. -/
def mapRunAs {T : Type} (M : MapStorage T Unit) (ops : List (SetOp T)) (m : M.S) : M.S := ops.foldl (mapStepAs M) m

end FixedMap
