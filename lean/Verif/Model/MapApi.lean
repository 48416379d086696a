import Verif.Model.Key

/-!
# `src/map.rs` and `src/map/entry.rs`

`Map<K, V>` is `#[repr(transparent)] struct { storage: K::MapStorage<V> }`; a map value is its storage `M.S`.
-/

set_option autoImplicit false

namespace FixedMap

/-- A `for` loop (or `while let Some(..) = it.next()`): call `next` until it returns `None` and list the
items. `fuel` bounds the number of calls; `none` means that it did not suffice. -/
def IterImpl.drain {α : Type} (I : IterImpl α) : Nat → I.St → Option (List α)
  | 0, _ => none
  | n + 1, st =>
    match I.next st with
    | (none, _) => some []
    | (some a, st') => (IterImpl.drain I n st').map (a :: ·)

namespace Map

variable {K V : Type} (M : MapStorage K V)

/-- map.rs 183-187 -/
def new : M.S := M.empty
/-- map.rs 211-213 -/
def iter : IterOf M.S (K × V) := M.iter
/-- map.rs 260-262 -/
def keys : IterOf M.S K := M.keys
/-- map.rs 307-309 -/
def values : IterOf M.S V := M.values
/-- map.rs 361-363 -/
def iterMut : IterOf M.S (K × M.Addr) := M.iterMut
/-- map.rs 432-434 -/
def valuesMut : IterOf M.S M.Addr := M.valuesMut
/-- map.rs 455-457 -/
def containsKey (m : M.S) (key : K) : Bool := M.containsKey m key
/-- map.rs 495-497 -/
def get (m : M.S) (key : K) : Option V := M.get m key
/-- map.rs 544-546 -/
def getMut (m : M.S) (key : K) : Option M.Addr := M.getMut m key
/-- map.rs 575-577 -/
def insert (m : M.S) (key : K) (value : V) : Option V × M.S := M.insert m key value
/-- map.rs 599-601 -/
def remove (m : M.S) (key : K) : Option V × M.S := M.remove m key
/-- map.rs 666-671 -/
def retain {σ : Type} (f : σ → K → V → σ × V × Option Bool) (m : M.S) (st : σ) : RetainOut M.S σ V :=
  M.retain f m st
/-- map.rs 693-695 -/
def clear (m : M.S) : M.S × List V := M.clear m
/-- map.rs 728-730 -/
def isEmpty (m : M.S) : Bool := M.isEmpty m
/-- map.rs 782-784 -/
def len (m : M.S) : Nat := M.len m
/-- map.rs 832-834 -/
def entry (m : M.S) (key : K) : Res ((M.Occ ⊕ M.Vac) × M.S) := M.entry m key
/-- map.rs 869-873 -/
def clone (c : V → V) (m : M.S) : M.S := M.clone c m
/-- map.rs 934-936 -/
def default : M.S := new M
/-- map.rs 1018-1020 -/
def eq (veq : V → V → Bool) (a b : M.S) : Bool := M.eq veq a b
/-- `IntoIterator for &Map`, map.rs 1256-1258 -/
def refIntoIter : IterOf M.S (K × V) := iter M
/-- `IntoIterator for &mut Map`, map.rs 1271-1273 -/
def mutIntoIter : IterOf M.S (K × M.Addr) := iterMut M
/-- `IntoIterator for Map`, map.rs 1340-1342 -/
def intoIter : IterOf M.S (K × V) := M.intoIter

/-- `FromIterator::from_iter`, map.rs 1372-1381, on the list of yielded pairs. Second component: the values
dropped by the statement `map.insert(k, v);`, whose result is discarded. -/
def fromIter (l : List (K × V)) : M.S × List V :=
  l.foldl (fun acc p =>
    let r := insert M acc.1 p.1 p.2
    (r.2, acc.2 ++ r.1.toList)) (new M, [])

end Map

/-! ## src/map/entry.rs -/

namespace Entry

variable {K V : Type} (M : MapStorage K V)

/-- `enum Entry`, entry.rs 6-14. -/
abbrev T : Type := M.Occ ⊕ M.Vac

/-- `or_insert`, entry.rs 63-68. Third component: values dropped (an unused `default`). -/
def orInsert (e : T M) (s : M.S) (default : V) : Res (M.Addr × M.S × List V) :=
  match e with
  | .inl entry => (M.occIntoMut entry s).map fun a => (a, s, [default])
  | .inr entry => (M.vacInsert entry s default).map fun p => (p.1, p.2, [])

/-- `or_insert_with`, entry.rs 107-115. The closure has a state and may panic (`none`): then the unwinding
leaves the map as it is and there is no result (`none`). -/
def orInsertWith {σ : Type} (e : T M) (s : M.S) (f : σ → σ × Option V) (st : σ) :
    Res (Option M.Addr × M.S × σ) :=
  match e with
  | .inl entry => (M.occIntoMut entry s).map fun a => (some a, s, st)
  | .inr entry =>
    match f st with
    | (st', none) => .ok (none, s, st')
    | (st', some v) => (M.vacInsert entry s v).map fun p => (some p.1, p.2, st')

/-- `or_insert_with_key`, entry.rs 155-166. -/
def orInsertWithKey {σ : Type} (e : T M) (s : M.S) (f : σ → K → σ × Option V) (st : σ) :
    Res (Option M.Addr × M.S × σ) :=
  match e with
  | .inl entry => (M.occIntoMut entry s).map fun a => (some a, s, st)
  | .inr entry =>
    match f st (M.vacKey entry) with
    | (st', none) => .ok (none, s, st')
    | (st', some v) => (M.vacInsert entry s v).map fun p => (some p.1, p.2, st')

/-- `key`, entry.rs 200-205. -/
def key (e : T M) : K :=
  match e with
  | .inl entry => M.occKey entry
  | .inr entry => M.vacKey entry

/-- `and_modify`, entry.rs 259-270. The closure gets `&mut V` (old value in, new value out), has a state and
may panic (`false` in the last component): then there is no entry to continue with. Reading the
reference returned by `get_mut` is a read of a live place, otherwise UB. -/
def andModify {σ : Type} (e : T M) (s : M.S) (f : σ → V → σ × V × Bool) (st : σ) :
    Res (Option (T M) × M.S × σ) :=
  match e with
  | .inl entry =>
    (M.occGetMut entry s).bind fun a =>
      match M.read s a with
      | none => .ub
      | some v =>
        match f st v with
        | (st', v', true) => .ok (some (.inl entry), M.write s a v', st')
        | (st', v', false) => .ok (none, M.write s a v', st')
  | .inr entry => .ok (some (.inr entry), s, st)

/-- `or_default`, entry.rs 309-317. `dflt` is `<V as Default>::default`, called only when vacant (stateful,
may panic). -/
def orDefault {σ : Type} (e : T M) (s : M.S) (dflt : σ → σ × Option V) (st : σ) :
    Res (Option M.Addr × M.S × σ) :=
  match e with
  | .inl entry => (M.occIntoMut entry s).map fun a => (some a, s, st)
  | .inr entry =>
    match dflt st with
    | (st', none) => .ok (none, s, st')
    | (st', some v) => (M.vacInsert entry s v).map fun p => (some p.1, p.2, st')

end Entry

end FixedMap
