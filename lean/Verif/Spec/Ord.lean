import Verif.Model.OrdHash

/-! # Specification of comparisons

`Std.TransCmp cmp` (Lean's library): swapping the arguments swaps the result, and `≤` is transitive.
`List.compareLex` (Lean's library): lexicographic comparison, a proper prefix is less. -/

set_option autoImplicit false

namespace FixedMap

/-- Compare entries: position of the variant first, then the value. This is how `BTreeMap` compares its entries. -/
def entryCmp {n : Nat} {V : Type} (c : V → V → Ordering) (p q : Fin n × V) : Ordering :=
  (compare p.1.val q.1.val).then (c p.2 q.2)

/-- Compare elements by the position of the variant. -/
def posCmp {n : Nat} (i j : Fin n) : Ordering := compare i.val j.val

/-- The comparison operators and `max`, `min`, `clamp` of a type are those of the order `cmp`. -/
structure FollowsCmp {S : Type} (cmp : S → S → Ordering) (pcmp : S → S → Option Ordering) (lt le gt ge : S → S → Bool)
    (max min : S → S → S) (clamp : S → S → S → Res S) : Prop where
  partial_cmp : ∀ a b, pcmp a b = some (cmp a b)
  lt : ∀ a b, lt a b = true ↔ cmp a b = .lt
  le : ∀ a b, le a b = true ↔ cmp a b ≠ .gt
  gt : ∀ a b, gt a b = true ↔ cmp a b = .gt
  ge : ∀ a b, ge a b = true ↔ cmp a b ≠ .lt
  /-- the larger one, the second one if they compare equal -/
  max : ∀ a b, max a b = if cmp a b = .gt then a else b
  /-- the smaller one, the first one if they compare equal -/
  min : ∀ a b, min a b = if cmp a b = .gt then b else a
  clamp_panic : ∀ a lo hi, clamp a lo hi = .panic ↔ cmp lo hi = .gt
  clamp_ok : ∀ a lo hi, cmp lo hi ≠ .gt → ∃ r, clamp a lo hi = .ok r ∧ cmp lo r ≠ .gt ∧ cmp r hi ≠ .gt ∧
    (cmp lo a ≠ .gt → cmp a hi ≠ .gt → r = a) ∧ (cmp a lo = .lt → r = lo) ∧ (cmp a hi = .gt → r = hi)

/-- The calls as the hasher sees them: the calls of the values are not marked as such. -/
def rawCall : HashCall (HashCall Unit) → HashCall Unit
  | .lengthPrefix n => .lengthPrefix n
  | .isize i => .isize i
  | .uint w n => .uint w n
  | .value t => t

end FixedMap
