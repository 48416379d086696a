import Verif.Spec.FinMap
import Verif.Model.MapApi

/-!
# Histories of map operations: the API and the reference

`Op` is a call of the public API with its arguments (an entry call is the creation of the entry together with what is done
with it). `apiStep` performs the call on a `Map`, `refStep` on a finite map. Both report

* `out`: everything the caller sees,
* `puts`: the values that moved into the map, `moved`: values that moved back to the caller,
* `dropped`: values destroyed on the way.
-/

set_option autoImplicit false

namespace FixedMap

/-- One call on a map. `σ` is the type of closure states; closures may panic (`none`). -/
inductive Op (σ K V : Type) where
  /-- `map.insert(k, v)` -/
  | insert (k : K) (v : V)
  /-- `map.remove(k)` -/
  | remove (k : K)
  /-- `map.get(k)` -/
  | get (k : K)
  /-- `map.contains_key(k)` -/
  | containsKey (k : K)
  /-- `map.len()` -/
  | len
  /-- `map.is_empty()` -/
  | isEmpty
  /-- `map.clear()` -/
  | clear
  /-- `map.retain(f)` -/
  | retain (f : σ → K → V → σ × V × Option Bool) (st : σ)
  /-- `map.get_mut(k).map(|r| mem::replace(r, v))`; `v` stays with the caller if there is no `k` -/
  | replace (k : K) (v : V)
  /-- `map.iter()` run to its end -/
  | iter
  /-- `*map.entry(k).or_insert(v)`, then reading the reference -/
  | orInsert (k : K) (v : V)
  /-- `map.entry(k).or_insert_with(f)` -/
  | orInsertWith (k : K) (f : σ → σ × Option V) (st : σ)
  /-- `map.entry(k).or_insert_with_key(f)` -/
  | orInsertWithKey (k : K) (f : σ → K → σ × Option V) (st : σ)
  /-- `map.entry(k).or_default()` -/
  | orDefault (k : K) (dflt : σ → σ × Option V) (st : σ)
  /-- `map.entry(k).and_modify(|r| mem::replace(r, v)).or_insert(w)`: an occupied entry gets `v`, a vacant one `w`;
  the unused one is dropped -/
  | modifyOrInsert (k : K) (v w : V)
  /-- `match map.entry(k) { Occupied(e) => Some(e.insert(v)), Vacant(e) => { e.insert(v); None } }` -/
  | entryInsert (k : K) (v : V)
  /-- `match map.entry(k) { Occupied(e) => Some(e.remove()), Vacant(_) => None }` -/
  | entryRemove (k : K)
  /-- `map.entry(k).key()` and whether it is occupied -/
  | entryKey (k : K)
  /-- `for (k, r) in map.iter_mut() { /* state and value updated by f */ }` -/
  | updateAll (f : σ → K → V → σ × V) (st : σ)

/-- What the caller sees. -/
inductive Out (σ K V : Type) where
  | unit
  | bool (b : Bool)
  | nat (n : Nat)
  | val (v : Option V)
  | key (k : K) (occupied : Bool)
  | list (l : List (K × V))
  /-- closure state, and the value (nothing after a panic) -/
  | closure (st : σ) (v : Option V)
  /-- closure state, and whether it panicked -/
  | retained (st : σ) (panicked : Bool)
deriving DecidableEq

/-- Result of a step. -/
structure StepOut (σ K V S : Type) where
  out : Out σ K V
  s : S
  puts : List V
  moved : List V
  dropped : List V

section
variable {σ K V : Type}

/-- Values the closure of `retain` leaves in the visited entries, and the values that were there before. -/
def retainWrites (f : σ → K → V → σ × V × Option Bool) : List (K × V) → σ → List V × List V
  | [], _ => ([], [])
  | (k, v) :: l, st =>
    match f st k v with
    | (_, v', none) => ([v'], [v])
    | (st', v', some _) => (v' :: (retainWrites f l st').1, v :: (retainWrites f l st').2)

/-- Update the values of a list of entries one after the other. -/
def updateList (f : σ → K → V → σ × V) : List (K × V) → σ → List (K × V) × σ
  | [], st => ([], st)
  | (k, v) :: l, st =>
    let r := f st k v
    let q := updateList f l r.1
    ((k, r.2) :: q.1, q.2)

/-- One call on a finite map. -/
def refStep [DecidableEq K] (l : List (K × V)) : Op σ K V → StepOut σ K V (List (K × V))
  | .insert k v => ⟨.val (FinMap.get l k), FinMap.put l k v, [v], (FinMap.get l k).toList, []⟩
  | .remove k => ⟨.val (FinMap.get l k), FinMap.erase l k, [], (FinMap.get l k).toList, []⟩
  | .get k => ⟨.val (FinMap.get l k), l, [], [], []⟩
  | .containsKey k => ⟨.bool (FinMap.get l k).isSome, l, [], [], []⟩
  | .len => ⟨.nat l.length, l, [], [], []⟩
  | .isEmpty => ⟨.bool l.isEmpty, l, [], [], []⟩
  | .clear => ⟨.unit, [], [], [], l.map Prod.snd⟩
  | .retain f st =>
    let r := retainRef f l st
    ⟨.retained r.st r.panicked, r.s, (retainWrites f l st).1, (retainWrites f l st).2, r.dropped⟩
  | .replace k v =>
    match FinMap.get l k with
    | some old => ⟨.val (some old), FinMap.put l k v, [v], [old], []⟩
    | none => ⟨.val none, l, [], [], []⟩
  | .iter => ⟨.list l, l, [], [], []⟩
  | .orInsert k v =>
    match FinMap.get l k with
    | some old => ⟨.val (some old), l, [v], [], [v]⟩
    | none => ⟨.val (some v), FinMap.put l k v, [v], [], []⟩
  | .orInsertWith k f st =>
    match FinMap.get l k with
    | some old => ⟨.closure st (some old), l, [], [], []⟩
    | none =>
      match f st with
      | (st', none) => ⟨.closure st' none, l, [], [], []⟩
      | (st', some v) => ⟨.closure st' (some v), FinMap.put l k v, [v], [], []⟩
  | .orInsertWithKey k f st =>
    match FinMap.get l k with
    | some old => ⟨.closure st (some old), l, [], [], []⟩
    | none =>
      match f st k with
      | (st', none) => ⟨.closure st' none, l, [], [], []⟩
      | (st', some v) => ⟨.closure st' (some v), FinMap.put l k v, [v], [], []⟩
  | .orDefault k f st =>
    match FinMap.get l k with
    | some old => ⟨.closure st (some old), l, [], [], []⟩
    | none =>
      match f st with
      | (st', none) => ⟨.closure st' none, l, [], [], []⟩
      | (st', some v) => ⟨.closure st' (some v), FinMap.put l k v, [v], [], []⟩
  | .modifyOrInsert k v w =>
    match FinMap.get l k with
    | some old => ⟨.val (some v), FinMap.put l k v, [v, w], [old], [w]⟩
    | none => ⟨.val (some w), FinMap.put l k w, [v, w], [], [v]⟩
  | .entryInsert k v => ⟨.val (FinMap.get l k), FinMap.put l k v, [v], (FinMap.get l k).toList, []⟩
  | .entryRemove k => ⟨.val (FinMap.get l k), FinMap.erase l k, [], (FinMap.get l k).toList, []⟩
  | .entryKey k => ⟨.key k (FinMap.get l k).isSome, l, [], [], []⟩
  | .updateAll f st =>
    let r := updateList f l st
    ⟨.closure r.2 none, r.1, r.1.map Prod.snd, l.map Prod.snd, []⟩

/-- Read a reference that was just returned; reading a dead one would be UB. -/
def readLive (M : MapStorage K V) (s : M.S) (a : M.Addr) : Res V :=
  match M.read s a with
  | some v => .ok v
  | none => .ub

/-- Update values through references; third component: the values put in and the values that were there. -/
def updateRefs (M : MapStorage K V) (f : σ → K → V → σ × V) : List (K × M.Addr) → M.S → σ →
    Res (M.S × σ × List V × List V)
  | [], s, st => .ok (s, st, [], [])
  | (k, a) :: refs, s, st =>
    (readLive M s a).bind fun v =>
      let r := f st k v
      (updateRefs M f refs (M.write s a r.2) r.1).map fun q => (q.1, q.2.1, r.2 :: q.2.2.1, v :: q.2.2.2)

/-- One call on a map. -/
def apiStep (M : MapStorage K V) (s : M.S) : Op σ K V → Res (StepOut σ K V M.S)
  | .insert k v =>
    let r := Map.insert M s k v
    .ok ⟨.val r.1, r.2, [v], r.1.toList, []⟩
  | .remove k =>
    let r := Map.remove M s k
    .ok ⟨.val r.1, r.2, [], r.1.toList, []⟩
  | .get k => .ok ⟨.val (Map.get M s k), s, [], [], []⟩
  | .containsKey k => .ok ⟨.bool (Map.containsKey M s k), s, [], [], []⟩
  | .len => .ok ⟨.nat (Map.len M s), s, [], [], []⟩
  | .isEmpty => .ok ⟨.bool (Map.isEmpty M s), s, [], [], []⟩
  | .clear =>
    let r := Map.clear M s
    .ok ⟨.unit, r.1, [], [], r.2⟩
  | .retain f st =>
    -- the closure additionally records the values it saw and left
    let g : σ × List V × List V → K → V → (σ × List V × List V) × V × Option Bool := fun st k v =>
      let r := f st.1 k v
      ((r.1, st.2.1 ++ [r.2.1], st.2.2 ++ [v]), r.2)
    let r := Map.retain M g s (st, [], [])
    .ok ⟨.retained r.st.1 r.panicked, r.s, r.st.2.1, r.st.2.2, r.dropped⟩
  | .replace k v =>
    match Map.getMut M s k with
    | some a => (readLive M s a).map fun old => ⟨.val (some old), M.write s a v, [v], [old], []⟩
    | none => .ok ⟨.val none, s, [], [], []⟩
  | .iter =>
    match (Map.iter M).I.drain (Map.len M s + 1) ((Map.iter M).init s) with
    | some l => .ok ⟨.list l, s, [], [], []⟩
    | none => .ub
  | .orInsert k v =>
    (Map.entry M s k).bind fun p =>
      (Entry.orInsert M p.1 p.2 v).bind fun r =>
        (readLive M r.2.1 r.1).map fun x => ⟨.val (some x), r.2.1, [v], [], r.2.2⟩
  | .orInsertWith k f st =>
    (Map.entry M s k).bind fun p =>
      (Entry.orInsertWith M p.1 p.2 (fun st : σ × List V =>
          let r := f st.1
          ((r.1, st.2 ++ r.2.toList), r.2)) (st, [])).bind fun r =>
        match r.1 with
        | some a => (readLive M r.2.1 a).map fun x => ⟨.closure r.2.2.1 (some x), r.2.1, r.2.2.2, [], []⟩
        | none => .ok ⟨.closure r.2.2.1 none, r.2.1, [], [], []⟩
  | .orInsertWithKey k f st =>
    (Map.entry M s k).bind fun p =>
      (Entry.orInsertWithKey M p.1 p.2 (fun (st : σ × List V) k =>
          let r := f st.1 k
          ((r.1, st.2 ++ r.2.toList), r.2)) (st, [])).bind fun r =>
        match r.1 with
        | some a => (readLive M r.2.1 a).map fun x => ⟨.closure r.2.2.1 (some x), r.2.1, r.2.2.2, [], []⟩
        | none => .ok ⟨.closure r.2.2.1 none, r.2.1, [], [], []⟩
  | .orDefault k f st =>
    (Map.entry M s k).bind fun p =>
      (Entry.orDefault M p.1 p.2 (fun st : σ × List V =>
          let r := f st.1
          ((r.1, st.2 ++ r.2.toList), r.2)) (st, [])).bind fun r =>
        match r.1 with
        | some a => (readLive M r.2.1 a).map fun x => ⟨.closure r.2.2.1 (some x), r.2.1, r.2.2.2, [], []⟩
        | none => .ok ⟨.closure r.2.2.1 none, r.2.1, [], [], []⟩
  | .modifyOrInsert k v w =>
    (Map.entry M s k).bind fun p =>
      -- the closure holds `v` and gives it away when called; what remains in it is dropped with it
      (Entry.andModify M p.1 p.2 (fun (st : List V × List V) old => (([], st.2 ++ [old]), v, true)) ([v], [])).bind fun q =>
        match q.1 with
        | none => .panic
        | some e =>
          (Entry.orInsert M e q.2.1 w).bind fun r =>
            (readLive M r.2.1 r.1).map fun x => ⟨.val (some x), r.2.1, [v, w], q.2.2.2, q.2.2.1 ++ r.2.2⟩
  | .entryInsert k v =>
    (Map.entry M s k).bind fun p =>
      match p.1 with
      | .inl e => (M.occInsert e p.2 v).map fun r => ⟨.val (some r.1), r.2, [v], [r.1], []⟩
      | .inr e => (M.vacInsert e p.2 v).map fun r => ⟨.val none, r.2, [v], [], []⟩
  | .entryRemove k =>
    (Map.entry M s k).bind fun p =>
      match p.1 with
      | .inl e => (M.occRemove e p.2).map fun r => ⟨.val (some r.1), r.2, [], [r.1], []⟩
      | .inr _ => .ok ⟨.val none, p.2, [], [], []⟩
  | .entryKey k =>
    (Map.entry M s k).map fun p => ⟨.key (Entry.key M p.1) p.1.isLeft, p.2, [], [], []⟩
  | .updateAll f st =>
    match (Map.iterMut M).I.drain (Map.len M s + 1) ((Map.iterMut M).init s) with
    | some refs => (updateRefs M f refs s st).map fun r => ⟨.closure r.2.1 none, r.1, r.2.2.1, r.2.2.2, []⟩
    | none => .ub

/-- A whole history on a map: the steps' results in order, and the final map. -/
def apiRun (M : MapStorage K V) : List (Op σ K V) → M.S → Res (List (StepOut σ K V Unit) × M.S)
  | [], s => .ok ([], s)
  | op :: ops, s =>
    (apiStep M s op).bind fun r =>
      (apiRun M ops r.s).map fun q => (⟨r.out, (), r.puts, r.moved, r.dropped⟩ :: q.1, q.2)

/-- The results `rs` are what a finite map `l` can give for the history `ops`, ending as `l'`. A finite map has no
particular order, so before every step its entries may be rearranged, in an order compatible with `R` (this only matters
to `retain` and `updateAll` with a stateful or panicking closure, to `iter`, and to the order in which `clear`
drops values, which is left open). -/
inductive RefRun [DecidableEq K] (R : K → K → Prop) :
    List (Op σ K V) → List (K × V) → List (StepOut σ K V Unit) → List (K × V) → Prop where
  | nil {l l' : List (K × V)} : l.Perm l' → RefRun R [] l [] l'
  | cons {op : Op σ K V} {ops : List (Op σ K V)} {l l₀ l' : List (K × V)} {dropped : List V}
      {rs : List (StepOut σ K V Unit)} :
      l.Perm l₀ →
      l₀.Pairwise (fun p q => R p.1 q.1) →
      (refStep l₀ op).dropped.Perm dropped →
      RefRun R ops (refStep l₀ op).s rs l' →
      RefRun R (op :: ops) l
        (⟨(refStep l₀ op).out, (), (refStep l₀ op).puts, (refStep l₀ op).moved, dropped⟩ :: rs) l'

end

end FixedMap
