import Verif.Model.MapApi

/-!
# `src/set.rs`, `src/set/intersection.rs`, `src/raw.rs`

`Set<T>` is `#[repr(transparent)] struct { storage: T::SetStorage }`; a set value is its storage `M.S`.
-/

set_option autoImplicit false

namespace FixedMap

namespace FSet

variable {T : Type} (M : SetStorage T)

/-- set.rs 153-157 -/
def new : M.S := M.empty
/-- set.rs 181-183 -/
def iter : IterOf M.S T := M.iter
/-- set.rs 204-206 -/
def contains (s : M.S) (value : T) : Bool := M.contains s value
/-- set.rs 234-236 -/
def insert (s : M.S) (value : T) : Bool × M.S := M.insert s value
/-- set.rs 258-260 -/
def remove (s : M.S) (value : T) : Bool × M.S := M.remove s value
/-- set.rs 328-333 -/
def retain {σ : Type} (f : σ → T → σ × Option Bool) (s : M.S) (st : σ) : SetRetainOut M.S σ :=
  M.retain f s st
/-- set.rs 354-356 -/
def clear (s : M.S) : M.S := M.clear s
/-- set.rs 377-379 -/
def isEmpty (s : M.S) : Bool := M.isEmpty s
/-- set.rs 400-402 -/
def len (s : M.S) : Nat := M.len s
/-- set.rs 541-545 -/
def clone (s : M.S) : M.S := M.clone s
/-- set.rs 606-608 -/
def default : M.S := new M
/-- set.rs 689-691 -/
def eq (a b : M.S) : Bool := M.eq a b
/-- `IntoIterator for &Set`, set.rs 925-927 -/
def refIntoIter : IterOf M.S T := iter M
/-- `IntoIterator for Set`, set.rs 980-982 -/
def intoIter : IterOf M.S T := M.intoIter
/-- `FromIterator::from_iter`, set.rs 990-1001, on the list of yielded elements. -/
def fromIter (l : List T) : M.S := l.foldl (fun s v => (insert M s v).2) (new M)
/-- `From<[T; N]>`, set.rs 1087-1089. -/
def fromArray {N : Nat} (arr : Vector T N) : M.S := fromIter M arr.toList

end FSet

/-! ## intersection.rs -/

/-- `struct Intersection`, intersection.rs 34-39. -/
structure Intersection {T : Type} (M : SetStorage T) where
  iter : M.iter.I.St
  other : M.S

namespace Intersection

variable {T : Type} (M : SetStorage T)

/-- `Set::intersection`, set.rs 432-444. -/
def new (a b : M.S) : Intersection M :=
  if FSet.len M a ≤ FSet.len M b then ⟨(FSet.iter M).init a, b⟩
  else ⟨(FSet.iter M).init b, a⟩

/-- `next`, intersection.rs 58-66: a loop; `fuel` bounds its rounds, `none` = out of fuel. -/
def next : Nat → Intersection M → Option (Option T × Intersection M)
  | 0, _ => none
  | fuel + 1, st =>
    match M.iter.I.next st.iter with
    | (none, it) => some (none, { st with iter := it })
    | (some elt, it) =>
      if FSet.contains M st.other elt then some (some elt, { st with iter := it })
      else next fuel { st with iter := it }

/-- `size_hint`, intersection.rs 69-72. -/
def sizeHint (st : Intersection M) : Nat × Option Nat := (0, (M.iter.I.sizeHint st.iter).2)

/-- `fold`, intersection.rs 75-87: `self.iter.fold(..)`, which runs the inner iterator to its end
(`none` = out of fuel). -/
def fold {β : Type} (fuel : Nat) (st : Intersection M) (init : β) (f : β → T → β) : Option β :=
  (M.iter.I.drain fuel st.iter).map fun l =>
    l.foldl (fun acc elt => if FSet.contains M st.other elt then f acc elt else acc) init

/-- Repeated `next` calls until `None`, e.g. a `for` loop over the intersection. -/
def toList (fuel : Nat) : Nat → Intersection M → Option (List T)
  | 0, _ => none
  | n + 1, st =>
    match next M fuel st with
    | none => none
    | some (none, _) => some []
    | some (some x, st') => (toList fuel n st').map (x :: ·)

end Intersection

end FixedMap
