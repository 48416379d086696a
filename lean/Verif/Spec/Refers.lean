import Verif.Model.MapApi

/-! # References into a map, and sequences of calls on an entry -/

set_option autoImplicit false

namespace FixedMap

/-- The `&mut V` reference `a` points to the value of `k` in `m`: it reads that value, and assigning through it changes the
value of `k` and nothing else. -/
def RefersTo {K V : Type} [DecidableEq K] (M : MapStorage K V) (m : M.S) (a : M.Addr) (k : K) : Prop :=
  (M.read m a).isSome ∧ M.read m a = Map.get M m k ∧
    ∀ w k', Map.get M (M.write m a w) k' = if k' = k then some w else Map.get M m k'

/-- `&self`/`&mut self` calls on an occupied entry. -/
inductive OccCall (V : Type) where
  /-- `e.key()`, not asking the storage -/
  | key
  /-- `e.get()` -/
  | get
  /-- `mem::replace(e.get_mut(), v)` -/
  | replace (v : V)
  /-- `e.insert(v)` -/
  | insert (v : V)

/-- The last, consuming call on an occupied entry. -/
inductive OccEnd (V : Type) where
  /-- drop the entry -/
  | drop
  /-- `mem::replace(e.into_mut(), v)` -/
  | intoMut (v : V)
  /-- `e.remove()` -/
  | remove

/-- Answer of a call. -/
inductive OccOut (K V : Type) where
  | key (k : K)
  | val (v : V)
  | unit
deriving DecidableEq

section
variable {K V : Type} (M : MapStorage K V)

/-- Perform one call on an occupied entry. Reading a dead reference would be UB. -/
def occCall (e : M.Occ) (s : M.S) : OccCall V → Res (OccOut K V × M.S)
  | .key => .ok (.key (M.occKey e), s)
  | .get => (M.occGet e s).map fun v => (.val v, s)
  | .replace v => (M.occGetMut e s).bind fun a =>
    match M.read s a with
    | some old => .ok (.val old, M.write s a v)
    | none => .ub
  | .insert v => (M.occInsert e s v).map fun r => (.val r.1, r.2)

/-- Perform the calls in order. -/
def occCalls (e : M.Occ) : M.S → List (OccCall V) → Res (List (OccOut K V) × M.S)
  | s, [] => .ok ([], s)
  | s, c :: cs => (occCall M e s c).bind fun r => (occCalls e r.2 cs).map fun q => (r.1 :: q.1, q.2)

/-- Perform the last call. -/
def occEnd (e : M.Occ) (s : M.S) : OccEnd V → Res (OccOut K V × M.S)
  | .drop => .ok (.unit, s)
  | .intoMut v => (M.occIntoMut e s).bind fun a =>
    match M.read s a with
    | some old => .ok (.val old, M.write s a v)
    | none => .ub
  | .remove => (M.occRemove e s).map fun r => (.val r.1, r.2)

end

section
variable {K V : Type}

/-- What the calls do to one key `k` with value `cur`: answers and final value. -/
def occCallsRef (k : K) : V → List (OccCall V) → List (OccOut K V) × V
  | cur, [] => ([], cur)
  | cur, .key :: cs => let r := occCallsRef k cur cs; (.key k :: r.1, r.2)
  | cur, .get :: cs => let r := occCallsRef k cur cs; (.val cur :: r.1, r.2)
  | cur, .replace v :: cs => let r := occCallsRef k v cs; (.val cur :: r.1, r.2)
  | cur, .insert v :: cs => let r := occCallsRef k v cs; (.val cur :: r.1, r.2)

/-- What the last call does to a key with value `cur`: answer, and the value left (if any). -/
def occEndRef (cur : V) : OccEnd V → OccOut K V × Option V
  | .drop => (.unit, some cur)
  | .intoMut v => (.val cur, some v)
  | .remove => (.val cur, none)

end

/-! ## Buckets -/

/-- Calls on a `SomeBucket` (the consuming ones last, as the receiver types force). -/
inductive BucketCall (V : Type) where
  /-- `b.as_ref()` -/
  | asRef
  /-- `mem::replace(b.as_mut(), v)` -/
  | asMut (v : V)
  /-- `b.replace(v)` -/
  | replace (v : V)

inductive BucketEnd (V : Type) where
  | drop
  /-- `mem::replace(b.into_mut(), v)` -/
  | intoMut (v : V)
  /-- `b.take()` -/
  | take

section
variable {V : Type}

/-- One call: the value it gives and the new content of the slot. -/
def bucketCall (slot : Option V) : BucketCall V → Res (V × Option V)
  | .asRef => (SomeBucket.asRef slot).map fun v => (v, slot)
  | .asMut v => (SomeBucket.asMut slot).bind fun _ =>
    match slot with
    | some old => .ok (old, some v)
    | none => .ub
  | .replace v => SomeBucket.replace slot v

def bucketCalls : Option V → List (BucketCall V) → Res (List V × Option V)
  | slot, [] => .ok ([], slot)
  | slot, c :: cs => (bucketCall slot c).bind fun r => (bucketCalls r.2 cs).map fun q => (r.1 :: q.1, q.2)

def bucketEnd (slot : Option V) : BucketEnd V → Res (Option V × Option V)
  | .drop => .ok (none, slot)
  | .intoMut v => (SomeBucket.intoMut slot).bind fun _ =>
    match slot with
    | some old => .ok (some old, some v)
    | none => .ub
  | .take => (SomeBucket.take slot).map fun r => (some r.1, r.2)

/-- What the calls do to a value: answers and final value. -/
def bucketRef : V → List (BucketCall V) → List V × V
  | cur, [] => ([], cur)
  | cur, .asRef :: cs => (cur :: (bucketRef cur cs).1, (bucketRef cur cs).2)
  | cur, .asMut v :: cs => (cur :: (bucketRef v cs).1, (bucketRef v cs).2)
  | cur, .replace v :: cs => (cur :: (bucketRef v cs).1, (bucketRef v cs).2)

def bucketEndRef (cur : V) : BucketEnd V → Option V × Option V
  | .drop => (none, some cur)
  | .intoMut v => (some cur, some v)
  | .take => (some cur, none)

end

end FixedMap
