import Verif.Model.Cost
import Verif.Spec.LoopWord

/-!
# Cost of iterating: specification

The number of calls made by a whole schedule of `next` and `next_back`, and the constants of the bound, which depend on the key type only.
-/

set_option autoImplicit false

namespace FixedMap

/-- All calls made by a schedule. (It ends where a `next_back` is asked for that the iterator does not have.) -/
def Ticks.total {α : Type} {I : IterImpl α} (t : Ticks I) : List Dir → I.St → Nat
  | [], _ => 0
  | .front :: ds, st => t.front st + Ticks.total t ds (I.next st).2
  | .back :: ds, st =>
    match I.nextBack? with
    | none => 0
    | some nb => t.back st + Ticks.total t ds (nb st).2

/-- Schedules cost at most `c` per call, and `w` once. -/
def Linear {S α : Type} (it : IterOf S α) (t : Ticks it.I) (c w : Nat) : Prop :=
  ∀ s ds, t.total ds (it.init s) ≤ c * ds.length + w

mutual
/-- Cost per call: grows with the nesting only. -/
def KeyTy.perCall : KeyTy → Nat
  | .bool => 5
  | .unit => 1
  | .opt κ => κ.perCall + 4
  | .prim _ => 2
  | .units _ => 4
  | .bitset _ _ _ => 4
  | .enum fs => fs.perCall + 2
def Fields.perCall : Fields → Nat
  | .nil => 0
  | .simple fs => max 1 fs.perCall
  | .complex κ fs => max κ.perCall fs.perCall
end

mutual
/-- Cost that arises once per iterator: two per unit variant, and for each variant of an enum with payloads one call of its field that yields nothing. -/
def KeyTy.once : KeyTy → Nat
  | .bool => 0
  | .unit => 0
  | .opt κ => κ.once
  | .prim _ => 0
  | .units n => 2 * n
  | .bitset n _ _ => 2 * n
  | .enum fs => fs.count * (fs.perCall + 1) + fs.once
def Fields.once : Fields → Nat
  | .nil => 0
  | .simple fs => fs.once
  | .complex κ fs => κ.once + fs.once
end

end FixedMap
