import Verif.Spec.Compare
import Verif.Model.Operators
import Verif.Model.MapApi
import Verif.Spec.Order
import Verif.Spec.Hashbrown

/-! # The other operators with `V` methods that have effects or panic: specification -/

set_option autoImplicit false

namespace FixedMap

/-- Change what `value` carries. -/
def HashCall.map {τ υ : Type} (f : τ → υ) : HashCall τ → HashCall υ
  | .lengthPrefix n => .lengthPrefix n
  | .isize i => .isize i
  | .uint w n => .uint w n
  | .value t => .value (f t)

/-- Feed a collection over the keys `ks` to a hasher: for every key whether it is there, and its value. The first panic ends it. -/
def hashKeys {σ V K : Type} (w : HashFn σ (HashCall Empty)) (vh : HashFn σ V) (a : K → Option V) : List K → σ → σ × Bool
  | [], st => (st, true)
  | k :: ks, st =>
    match a k with
    | none =>
      match w st (.isize 0) with
      | (st', true) => hashKeys w vh a ks st'
      | (st', false) => (st', false)
    | some v =>
      match w st (.isize 1) with
      | (st', false) => (st', false)
      | (st', true) =>
        match vh st' v with
        | (st'', true) => hashKeys w vh a ks st''
        | (st'', false) => (st'', false)

/-- One hasher call per key: whether it is there. -/
def hashFlags {σ K : Type} (w : HashFn σ (HashCall Empty)) (a : K → Bool) : List K → σ → σ × Bool
  | [], st => (st, true)
  | k :: ks, st =>
    match w st (.uint 8 (if a k then 1 else 0)) with
    | (st', true) => hashFlags w a ks st'
    | (st', false) => (st', false)

/-- The comparison of two maps, key by key, see C71. -/
def Compared {σ V : Type} {n : Nat} (H : Hashbrown) (c : CmpFn σ V (Option Ordering)) (a b : UnitsSt n V) (st : σ) : σ × Option (Option Ordering) :=
  let M := mapStorage H.api V (.units n)
  orderKeys some (· == some .eq) c (Map.get M a) (Map.get M b) (KeyTy.allKeys (.units n)) st

end FixedMap
