import Verif.Model.MapApi

/-!
# Destructors that panic

The rest of the model treats dropping a value as an event that always succeeds. Here a destructor is a function that acts on
the outside world `σ` and may panic, and the code of the crate that drops values is modelled again: `clear`, `retain`, `FromIterator`
and dropping the map itself. Keys are `Copy` and have no destructor, so sets drop nothing.

Rules of Rust used: `place = None` writes the new value also if the destructor of the old one panics; the fields of a struct and
the elements of an array are dropped in order, the remaining ones also after a panic; a second panic while unwinding aborts.
Rules of hashbrown used: `clear` and `Drop` drop the values one after the other and leak the remaining ones if a destructor
panics, and `clear` leaves the table empty in any case; `retain` removes the entry before it drops the value.
-/

set_option autoImplicit false

namespace FixedMap

/-- `Drop::drop` of a value: the new world, and whether it panicked. -/
abbrev Dtor (σ V : Type) : Type := σ → V → σ × Bool

/-- Normal, unwinding, or aborted. -/
inductive Fate where
  | normal | unwinding | aborted
deriving DecidableEq, Repr

/-- What a piece of code has dropped so far (destructors started, in order), what it has leaked, and whether it panicked. -/
structure Drops (σ V : Type) where
  st : σ
  fate : Fate
  dropped : List V
  leaked : List V

section
variable {σ V : Type} (d : Dtor σ V)

/-- Nothing dropped yet. -/
def Drops.start (st : σ) : Drops σ V := ⟨st, .normal, [], []⟩

/-- The fate after a panic. -/
def Fate.panic : Fate → Fate
  | .normal => .unwinding
  | .unwinding => .aborted
  | .aborted => .aborted

/-- Drop a value. -/
def Drops.value (v : V) (x : Drops σ V) : Drops σ V :=
  if x.fate = .aborted then x
  else ⟨(d x.st v).1, if (d x.st v).2 then x.fate.panic else x.fate, x.dropped ++ [v], x.leaked⟩

/-- Drop an `Option<V>`. -/
def Drops.slot (slot : Option V) (x : Drops σ V) : Drops σ V :=
  match slot with
  | none => x
  | some v => x.value d v

/-- Drop the elements of an array. -/
def Drops.array (slots : List (Option V)) (x : Drops σ V) : Drops σ V := slots.foldl (fun x o => x.slot d o) x

/-- Drop the values of a hash table: the first panic ends the loop. -/
def Drops.table : List V → Drops σ V → Drops σ V
  | [], x => x
  | v :: vs, x =>
    let y := x.value d v
    if y.fate = x.fate then Drops.table vs y else { y with leaked := y.leaked ++ vs }

/-- The next statement, skipped when unwinding. -/
def Drops.next {S : Type} (x : Drops σ V) (s : S) (c : S → Drops σ V → S × Drops σ V) : S × Drops σ V :=
  if x.fate = .normal then c s x else (s, x)

/-- The statement `if let Some(val) = slot.as_mut() { if !func(key, val) { slot = None; } }` (see `retainSlot`). -/
def retainSlotD {K : Type} (f : σ → K → V → σ × V × Option Bool) (k : K) (slot : Option V) (st : σ) :
    RetainOut (Option V) σ V :=
  match slot with
  | none => ⟨none, st, false, []⟩
  | some v =>
    match f st k v with
    | (st', v', none) => ⟨some v', st', true, []⟩
    | (st', v', some true) => ⟨some v', st', false, []⟩
    | (st', v', some false) => ⟨none, (d st' v').1, (d st' v').2, [v']⟩

/-- `retain`, unit_variants.rs 314-325. -/
def unitsRetainD {n : Nat} (f : σ → Fin n → V → σ × V × Option Bool) :
    List (Fin n) → UnitsSt n V → σ → RetainOut (UnitsSt n V) σ V
  | [], s, st => ⟨s, st, false, []⟩
  | i :: is, s, st =>
    let r := retainSlotD d f i s[i] st
    if r.panicked then ⟨s.set i r.s, r.st, true, r.dropped⟩
    else
      let r' := unitsRetainD f is (s.set i r.s) r.st
      ⟨r'.s, r'.st, r'.panicked, r.dropped ++ r'.dropped⟩

/-- The closure given to hashbrown's `retain`, together with the destructor that `erase` runs. The flag says that a destructor
panicked: then the loop of hashbrown is left, which is written here as keeping all that follows. -/
def dropAfter {K : Type} (f : σ → K → V → σ × V × Option Bool) : σ × Bool → K → V → (σ × Bool) × V × Option Bool :=
  fun st k v =>
    if st.2 then (st, v, some true)
    else
      match f st.1 k v with
      | (st', v', none) => ((st', false), v', none)
      | (st', v', some true) => ((st', false), v', some true)
      | (st', v', some false) => (d st' v', v', some false)

/-- hashbrown's `retain` with destructors that may panic. -/
def tableRetainD {K : Type} (A : HashMapApi K V) (f : σ → K → V → σ × V × Option Bool) (t : A.Table) (st : σ) :
    RetainOut A.Table σ V :=
  let r := A.retain (dropAfter d f) t (st, false)
  ⟨r.s, r.st.1, r.panicked || r.st.2, r.dropped⟩
end

section
variable (H : HashbrownApi) {σ V : Type} (d : Dtor σ V)

mutual
/-- `clear` of the map storages. -/
def KeyTy.clearD : (κ : KeyTy) → (mapStorage H V κ).S → Drops σ V → (mapStorage H V κ).S × Drops σ V
  -- boolean.rs 306-309: `self.t = None; self.f = None;`
  | .bool => fun s x =>
    let r := (x.slot d s.t).next s.f fun o x => (none, x.slot d o)
    (⟨none, r.1⟩, r.2)
  -- singleton.rs 112-114: `self.inner = None;`
  | .unit => fun s x => (none, x.slot d s)
  -- option.rs 326-329: `self.some.clear(); self.none = None;`
  | .opt κ => fun s x =>
    let a := KeyTy.clearD κ s.some x
    let r := a.2.next s.none fun o x => (none, x.slot d o)
    (⟨a.1, r.1⟩, r.2)
  -- hashbrown.rs 217-219: `self.inner.clear();`
  | .prim p => fun s x => (((H p.Key V).clear s).1, x.table d ((H p.Key V).clear s).2)
  -- unit_variants.rs 328-330: `self.data = [None, ..];`
  | .units n => fun s x => (Vector.replicate n none, x.array d s.toList)
  | .bitset n _ _ => fun s x => (Vector.replicate n none, x.array d s.toList)
  -- any_variants.rs 387-402
  | .enum fs => Fields.clearD fs
/-- The statements of the generated `clear`, one per variant. -/
def Fields.clearD : (fs : Fields) → (mapFields H V fs).S → Drops σ V → (mapFields H V fs).S × Drops σ V
  | .nil => fun s x => (s, x)
  -- 392-394: `self.name = None`
  | .simple fs => fun s x =>
    let r := (x.slot d s.1).next s.2 (Fields.clearD fs)
    ((none, r.1), r.2)
  -- 389-391: `MapStorage::clear(&mut self.name)`
  | .complex κ fs => fun s x =>
    let a := KeyTy.clearD κ s.1 x
    let r := a.2.next s.2 (Fields.clearD fs)
    ((a.1, r.1), r.2)
end

mutual
/-- Dropping a map: the fields of the storage struct in order (boolean.rs 74-77, option.rs 72-78, singleton.rs 7-9,
hashbrown.rs 34-36, unit_variants.rs 170-172, any_variants.rs 413-415). No storage implements `Drop`. -/
def KeyTy.dropD : (κ : KeyTy) → (mapStorage H V κ).S → Drops σ V → Drops σ V
  | .bool => fun s x => (x.slot d s.t).slot d s.f
  | .unit => fun s x => x.slot d s
  | .opt κ => fun s x => (KeyTy.dropD κ s.some x).slot d s.none
  | .prim p => fun s x => x.table d ((H p.Key V).clear s).2
  | .units _ => fun s x => x.array d s.toList
  | .bitset _ _ _ => fun s x => x.array d s.toList
  | .enum fs => Fields.dropD fs
def Fields.dropD : (fs : Fields) → (mapFields H V fs).S → Drops σ V → Drops σ V
  | .nil => fun _ x => x
  | .simple fs => fun s x => Fields.dropD fs s.2 (x.slot d s.1)
  | .complex κ fs => fun s x => Fields.dropD fs s.2 (KeyTy.dropD κ s.1 x)
end

mutual
/-- `retain` of the map storages. -/
def KeyTy.retainD : (κ : KeyTy) → (σ → κ.Key → V → σ × V × Option Bool) → (mapStorage H V κ).S → σ →
    RetainOut (mapStorage H V κ).S σ V
  -- boolean.rs 289-303
  | .bool => fun f s st => ((retainSlotD d f true s.t st).andThen s.f fun st => retainSlotD d f false s.f st).mapS
      fun p => ⟨p.1, p.2⟩
  -- singleton.rs 100-109
  | .unit => fun f s st => retainSlotD d f () s st
  -- option.rs 313-323
  | .opt κ => fun f s st => ((KeyTy.retainD κ (fun st k v => f st (.some k) v) s.some st).andThen s.none
      fun st => retainSlotD d f .none s.none st).mapS fun p => ⟨p.1, p.2⟩
  -- hashbrown.rs 209-214
  | .prim p => fun f s st => tableRetainD d (H p.Key V) f s st
  -- unit_variants.rs 314-325
  | .units n => fun f s st => unitsRetainD d f (List.finRange n) s st
  | .bitset n _ _ => fun f s st => unitsRetainD d f (List.finRange n) s st
  -- any_variants.rs 358-385
  | .enum fs => Fields.retainD fs
def Fields.retainD : (fs : Fields) → (σ → fs.Key → V → σ × V × Option Bool) → (mapFields H V fs).S → σ →
    RetainOut (mapFields H V fs).S σ V
  | .nil => fun _ s st => ⟨s, st, false, []⟩
  | .simple fs => fun f s st => (retainSlotD d f (.inl ()) s.1 st).andThen s.2 fun st =>
      Fields.retainD fs (fun st k v => f st (.inr k) v) s.2 st
  | .complex κ fs => fun f s st => (KeyTy.retainD κ (fun st k v => f st (.inl k) v) s.1 st).andThen s.2 fun st =>
      Fields.retainD fs (fun st k v => f st (.inr k) v) s.2 st
end

/-- The loop of `FromIterator`, map.rs 1377-1379: `map.insert(k, v);` drops the value that `insert` returns. A panic ends the
loop and drops the map. Result: the map (`none` when unwinding), the number of items taken, and what was dropped. -/
def fromIterD (κ : KeyTy) : List (κ.Key × V) → (mapStorage H V κ).S → Drops σ V →
    Option (mapStorage H V κ).S × Nat × Drops σ V
  | [], m, x => (some m, 0, x)
  | p :: l, m, x =>
    let r := Map.insert (mapStorage H V κ) m p.1 p.2
    let y := x.slot d r.1
    if y.fate = .normal then
      let z := fromIterD κ l r.2 y
      (z.1, z.2.1 + 1, z.2.2)
    else (none, 1, κ.dropD H d r.2 y)
end

/-- `Map::clear`, map.rs 693-695. -/
def Map.clearD (H : HashbrownApi) {σ V : Type} (κ : KeyTy) (d : Dtor σ V) (m : (mapStorage H V κ).S) (st : σ) :
    (mapStorage H V κ).S × Drops σ V := κ.clearD H d m (.start st)

/-- `drop(map)`. -/
def Map.dropD (H : HashbrownApi) {σ V : Type} (κ : KeyTy) (d : Dtor σ V) (m : (mapStorage H V κ).S) (st : σ) : Drops σ V :=
  κ.dropD H d m (.start st)

/-- `Map::retain`, map.rs 666-671. -/
def Map.retainD (H : HashbrownApi) {σ V : Type} (κ : KeyTy) (d : Dtor σ V) (f : σ → κ.Key → V → σ × V × Option Bool)
    (m : (mapStorage H V κ).S) (st : σ) : RetainOut (mapStorage H V κ).S σ V := κ.retainD H d f m st

/-- `Map::from_iter`, map.rs 1372-1381. -/
def Map.fromIterD (H : HashbrownApi) {σ V : Type} (κ : KeyTy) (d : Dtor σ V) (l : List (κ.Key × V)) (st : σ) :
    Option (mapStorage H V κ).S × Nat × Drops σ V := FixedMap.fromIterD H d κ l (Map.new _) (.start st)

end FixedMap
