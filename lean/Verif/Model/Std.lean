/-!
# Primitives of `core` used by fixed-map

Everything in this file models functions of the Rust standard library (trusted, see DESIGN.md), not
code of the repository.
-/

set_option autoImplicit false

namespace FixedMap

/-- Result of running code that contains `unsafe` blocks or assertions.
* `ok a`   – returned `a`
* `panic`  – a panic (e.g. a failing `debug_assert!`)
* `ub`     – undefined behaviour, or a violated `# Safety` contract. -/
inductive Res (α : Type) where
  | ok (a : α)
  | panic
  | ub
deriving DecidableEq, Repr

namespace Res

/-- Sequencing: stop at the first `panic`/`ub`. -/
def bind {α β : Type} : Res α → (α → Res β) → Res β
  | ok a, f => f a
  | panic, _ => panic
  | ub, _ => ub

def map {α β : Type} (f : α → β) : Res α → Res β
  | ok a => ok (f a)
  | panic => panic
  | ub => ub

instance : Monad Res where
  pure := ok
  bind := bind

end Res

/-- An iterator type: its state, `Iterator::next`, `DoubleEndedIterator::next_back`
(`none` when the Rust type does not implement `DoubleEndedIterator`) and `Iterator::size_hint`. -/
structure IterImpl (α : Type) : Type 1 where
  St : Type
  next : St → Option α × St
  nextBack? : Option (St → Option α × St)
  sizeHint : St → Nat × Option Nat

/-- `core::option::IntoIter` (also `option::Iter`, `option::IterMut`): the state is the remaining item. -/
def optionIter (α : Type) : IterImpl α where
  St := Option α
  next st := (st, none)
  nextBack? := some fun st => (st, none)
  sizeHint st := (if st.isSome then 1 else 0, some (if st.isSome then 1 else 0))

/-- `core::iter::Map` (and `core::iter::Copied`, with `f` the dereference). -/
def IterImpl.map {α β : Type} (f : α → β) (I : IterImpl α) : IterImpl β where
  St := I.St
  next st := ((I.next st).1.map f, (I.next st).2)
  nextBack? := I.nextBack?.map fun nb st => ((nb st).1.map f, (nb st).2)
  sizeHint := I.sizeHint

/-- `and_then_or_clear` of `core::iter::adapters::{chain, flatten}`: run on the inner iterator if it is
still there, and forget the inner iterator once it returned `None`. -/
def andThenOrClear {St α : Type} (f : St → Option α × St) : Option St → Option α × Option St
  | none => (none, none)
  | some st =>
    match f st with
    | (none, _) => (none, none)
    | (some a, st') => (some a, some st')

/-- `checked_add` on upper bounds, over `Nat` (no overflow). -/
def addHint : Option Nat → Option Nat → Option Nat
  | some a, some b => some (a + b)
  | _, _ => none

/-- `core::iter::Chain { a: Option<A>, b: Option<B> }`. `next` tries `a` (clearing it when exhausted),
then `b` (not cleared); `next_back` the other way round. -/
def IterImpl.chain {α : Type} (I J : IterImpl α) : IterImpl α where
  St := Option I.St × Option J.St
  next st :=
    match andThenOrClear I.next st.1 with
    | (some a, oa) => (some a, (oa, st.2))
    | (none, oa) =>
      match st.2 with
      | none => (none, (oa, none))
      | some b => ((J.next b).1, (oa, some (J.next b).2))
  nextBack? :=
    match I.nextBack?, J.nextBack? with
    | some inb, some jnb => some fun st =>
      match andThenOrClear jnb st.2 with
      | (some a, ob) => (some a, (st.1, ob))
      | (none, ob) =>
        match st.1 with
        | none => (none, (none, ob))
        | some a => ((inb a).1, (some (inb a).2, ob))
    | _, _ => none
  sizeHint st :=
    match st with
    | (some a, some b) =>
      ((I.sizeHint a).1 + (J.sizeHint b).1, addHint (I.sizeHint a).2 (J.sizeHint b).2)
    | (some a, none) => I.sizeHint a
    | (none, some b) => J.sizeHint b
    | (none, none) => (0, some 0)

/-- State of `core::iter::FlatMap`/`Flatten` over an array or slice iterator whose items turn into
`Option`s: the current front and back inner iterators (`option::IntoIter`) and the remaining items. -/
structure FlatSt (β α : Type) where
  front : Option (Option α)
  iter : List β
  back : Option (Option α)

/-- `option::IntoIter::next`. -/
def optNext {α : Type} (o : Option α) : Option α × Option α := (o, none)

/-- `FlattenCompat::next` (loop unrolled along the remaining items). -/
def flatNext {β α : Type} (f : β → Option α) (front : Option (Option α)) (back : Option (Option α)) :
    List β → Option α × FlatSt β α
  | [] =>
    match andThenOrClear optNext front with
    | (some a, fr) => (some a, ⟨fr, [], back⟩)
    | (none, fr) =>
      let r := andThenOrClear optNext back
      (r.1, ⟨fr, [], r.2⟩)
  | b :: bs =>
    match andThenOrClear optNext front with
    | (some a, fr) => (some a, ⟨fr, b :: bs, back⟩)
    | (none, _) => flatNext f (some (f b)) back bs

/-- `FlattenCompat::next_back` on the reversed remaining items. -/
def flatNextBack {β α : Type} (f : β → Option α) (front : Option (Option α))
    (back : Option (Option α)) : List β → Option α × FlatSt β α
  | [] =>
    match andThenOrClear optNext back with
    | (some a, bk) => (some a, ⟨front, [], bk⟩)
    | (none, bk) =>
      let r := andThenOrClear optNext front
      (r.1, ⟨r.2, [], bk⟩)
  | b :: bs =>
    match andThenOrClear optNext back with
    | (some a, bk) => (some a, ⟨front, (b :: bs).reverse, bk⟩)
    | (none, _) => flatNextBack f front (some (f b)) bs

/-- Size of an optional inner `option::IntoIter`. -/
def innerLen {α : Type} : Option (Option α) → Nat
  | some (some _) => 1
  | _ => 0

/-- `core::iter::FlatMap<array::IntoIter<β>, Option<α>, fn>`; with `f = id` it is
`Flatten<array::IntoIter<Option<α>>>` resp. `Flatten<slice::Iter<Option<α>>>`.
`size_hint` is the general one of `FlattenCompat` (upper bound known only when no items are left
in the underlying iterator). -/
def flatIter {β α : Type} (f : β → Option α) : IterImpl α where
  St := FlatSt β α
  next st := flatNext f st.front st.back st.iter
  nextBack? := some fun st => flatNextBack f st.front st.back st.iter.reverse
  sizeHint st :=
    (innerLen st.front + innerLen st.back,
      if st.iter.isEmpty then some (innerLen st.front + innerLen st.back) else none)

/-- A method returning an iterator over (a borrow of) `S`. -/
structure IterOf (S α : Type) : Type 1 where
  I : IterImpl α
  init : S → I.St

/-- `self.iter().map(f)`. -/
def IterOf.map {S α β : Type} (f : α → β) (it : IterOf S α) : IterOf S β where
  I := it.I.map f
  init := it.init

/-- Run an iterator method on a part of `self`. -/
def IterOf.comap {S T α : Type} (p : T → S) (it : IterOf S α) : IterOf T α where
  I := it.I
  init t := it.init (p t)

/-- `a.chain(b)`. -/
def IterOf.chain {S α : Type} (a b : IterOf S α) : IterOf S α where
  I := a.I.chain b.I
  init s := (some (a.init s), some (b.init s))

/-- `opt.iter()` / `opt.into_iter()` for an `Option` computed from `self`. -/
def IterOf.option {S α : Type} (p : S → Option α) : IterOf S α where
  I := optionIter α
  init := p

/-- `into_iter(array).flat_map(f)` for an array computed from `self`. -/
def IterOf.flat {S α β : Type} (f : β → Option α) (p : S → List β) : IterOf S α where
  I := flatIter f
  init s := ⟨none, p s, none⟩

end FixedMap
