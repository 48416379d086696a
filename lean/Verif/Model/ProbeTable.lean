import Verif.Model.Key

/-!
# A hash table with open addressing

hashbrown is an external crate; the theorems hold for everything that satisfies `HashMapLaws`. This file has an implementation that is
shaped like hashbrown's: an array of slots, each empty, deleted or full; the hash of a key gives the order in which slots are probed; a lookup stops at an
empty slot; removing leaves a tombstone unless that is not needed; inserting reuses tombstones, and rebuilds the table, larger or not,
when it runs full. Iteration goes through the array, so the order depends on the hash function and on the history.

The hash function, when to rebuild and when to leave a tombstone are parameters (`Probing`). Simplification against hashbrown: slots are probed one by one
and not in groups, and the seven bits of the hash stored with a slot, which only save comparisons, are left out.
-/

set_option autoImplicit false

namespace FixedMap

/-- The positions that are probed before `q`. -/
def before (l : List Nat) (q : Nat) : List Nat := l.takeWhile (· ≠ q)

/-- Hashing and policy of a table. -/
structure Probing (K : Type) where
  /-- The order in which the slots of a table with `n` slots are probed. -/
  probe : K → Nat → List Nat
  perm : ∀ k n, (probe k n).Perm (List.range n)
  /-- Asked before a new key is stored: `some m` to rebuild with `m` slots first. -/
  resize : (items : Nat) → (empties : Nat) → (slots : Nat) → Option Nat
  room : ∀ items empties slots, items + empties ≤ slots → items < (resize items empties slots).getD slots
  /-- A removed entry at this position needs no tombstone; the list says which slots are empty. -/
  reclaim : List Bool → Nat → Bool
  safe : ∀ e p, reclaim e p = true → ∀ k q, e[q]? = some false → p ∈ before (probe k e.length) q →
    ∃ r ∈ before (probe k e.length) q, e[r]? = some true

namespace Probe

inductive Slot (K V : Type) where
  | empty
  | deleted
  | full (k : K) (v : V)

variable {K V : Type}

def Slot.isEmpty : Slot K V → Bool
  | .empty => true
  | _ => false

def Slot.entry : Slot K V → Option (K × V)
  | .full k v => some (k, v)
  | _ => none

def Slot.mapVal {W : Type} (c : V → W) : Slot K V → Slot K W
  | .empty => .empty
  | .deleted => .deleted
  | .full k v => .full k (c v)

/-- What iteration visits. -/
def entries (s : List (Slot K V)) : List (K × V) := s.filterMap Slot.entry

/-- Probe for a key. -/
def findIn [DecidableEq K] (s : List (Slot K V)) (k : K) : List Nat → Option Nat
  | [] => none
  | p :: ps =>
    match s[p]? with
    | some (.full k' _) => if k' = k then some p else findIn s k ps
    | some .deleted => findIn s k ps
    | _ => none

/-- Probe for a slot for a new key. -/
def freeIn (s : List (Slot K V)) : List Nat → Option Nat
  | [] => none
  | p :: ps =>
    match s[p]? with
    | some (.full _ _) => freeIn s ps
    | _ => some p

variable (P : Probing K)

def find [DecidableEq K] (s : List (Slot K V)) (k : K) : Option Nat := findIn s k (P.probe k s.length)

def valueAt (s : List (Slot K V)) (p : Nat) : Option V := (s[p]?.bind Slot.entry).map Prod.snd

def lookup [DecidableEq K] (s : List (Slot K V)) (k : K) : Option V := (find P s k).bind (valueAt s)

/-- Store a new key in a table with room. -/
def put (s : List (Slot K V)) (k : K) (v : V) : List (Slot K V) :=
  match freeIn s (P.probe k s.length) with
  | some p => s.set p (.full k v)
  | none => s

/-- Move everything to a new array. -/
def rebuild (m : Nat) (s : List (Slot K V)) : List (Slot K V) :=
  (entries s).foldl (fun t p => put P t p.1 p.2) (List.replicate m .empty)

/-- Make room for one more key. -/
def reserve (s : List (Slot K V)) : List (Slot K V) :=
  match P.resize (entries s).length (s.countP Slot.isEmpty) s.length with
  | some m => rebuild P m s
  | none => s

def insertNew (s : List (Slot K V)) (k : K) (v : V) : List (Slot K V) := put P (reserve P s) k v

/-- Overwrite the value in a full slot. -/
def setValue (s : List (Slot K V)) (p : Nat) (v : V) : List (Slot K V) :=
  match s[p]? with
  | some (.full k _) => s.set p (.full k v)
  | _ => s

def insert [DecidableEq K] (s : List (Slot K V)) (k : K) (v : V) : List (Slot K V) :=
  match find P s k with
  | some p => setValue s p v
  | none => insertNew P s k v

/-- Empty a slot. -/
def erase (s : List (Slot K V)) (p : Nat) : List (Slot K V) :=
  s.set p (if P.reclaim (s.map Slot.isEmpty) p then .empty else .deleted)

def remove [DecidableEq K] (s : List (Slot K V)) (k : K) : List (Slot K V) :=
  match find P s k with
  | some p => erase P s p
  | none => s

/-- `clone` keeps the array as it is and clones the values in order; on a panic the new array is lost. Returns the state, the clones made, and the new
array. -/
def cloneSlots {σ : Type} (c : σ → V → σ × Option V) : List (Slot K V) → σ → σ × List V × Option (List (Slot K V))
  | [], st => (st, [], some [])
  | .empty :: s, st =>
    let r := cloneSlots c s st
    (r.1, r.2.1, r.2.2.map (.empty :: ·))
  | .deleted :: s, st =>
    let r := cloneSlots c s st
    (r.1, r.2.1, r.2.2.map (.deleted :: ·))
  | .full k v :: s, st =>
    match c st v with
    | (st', none) => (st', [], none)
    | (st', some w) =>
      let r := cloneSlots c s st'
      (r.1, w :: r.2.1, r.2.2.map (.full k w :: ·))

/-- `retain`: the positions from `i` on; `n` of them remain. -/
def retainFrom {σ : Type} (f : σ → K → V → σ × V × Option Bool) : (n i : Nat) → List (Slot K V) → σ → RetainOut (List (Slot K V)) σ V
  | 0, _, s, st => ⟨s, st, false, []⟩
  | n + 1, i, s, st =>
    match s[i]? with
    | some (.full k v) =>
      match f st k v with
      | (st', v', none) => ⟨setValue s i v', st', true, []⟩
      | (st', v', some true) => retainFrom f n (i + 1) (setValue s i v') st'
      | (st', v', some false) =>
        let r := retainFrom f n (i + 1) (erase P s i) st'
        ⟨r.s, r.st, r.panicked, v' :: r.dropped⟩
    | _ => retainFrom f n (i + 1) s st

/-- Iterators: go through the array. The number of items is known. -/
def scan {β α : Type} (f : β → Option α) : List β → Option α × List β
  | [] => (none, [])
  | b :: l =>
    match f b with
    | some a => (some a, l)
    | none => scan f l

def scanIter {β α : Type} (f : β → Option α) : IterImpl α where
  St := List β
  next := scan f
  nextBack? := none
  sizeHint l := ((l.filterMap f).length, some (l.filterMap f).length)

/-! ## Invariant -/

/-- Keys are distinct, and probing for a key finds it. -/
structure Inv (s : List (Slot K V)) : Prop where
  unique : ∀ (k : K) (v w : V) (p q : Nat), s[p]? = some (.full k v) → s[q]? = some (.full k w) → p = q
  reach : ∀ (k : K) (v : V) (q : Nat), s[q]? = some (.full k v) → ∀ r ∈ before (P.probe k s.length) q, s[r]? ≠ some .empty

end Probe

end FixedMap
