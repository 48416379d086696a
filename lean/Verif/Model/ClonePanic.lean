import Verif.Model.DropPanic

/-!
# `Clone` with a `V::clone` that has effects or panics

The rest of the model takes `V::clone` as a pure function. Here it acts on the outside world `σ` and may panic, and the `Clone`
implementations of the map storages are modelled again, with the drops that happen while unwinding. Keys are `Copy`.

Rules of Rust used: the operands of a struct literal are evaluated in order; if one panics, those already evaluated are dropped in
reverse order. Rule of core used: `<[T; N]>::clone` clones the elements in order; if one panics, those already cloned are
dropped in order. (For `T: Copy` core copies the array instead of calling `clone`.) Rule of hashbrown used: `clone` clones the entries
one after the other in the order of `iter()`; if one panics, those already cloned are dropped in that order. What table it
builds is a parameter, `TableCloneApi`.
-/

set_option autoImplicit false

namespace FixedMap

/-- `V::clone`: the new world, and the clone unless it panicked. -/
abbrev Cloner (σ V : Type) : Type := σ → V → σ × Option V

/-- hashbrown's `clone`: the world, the clones made, in order, and the new table unless a clone panicked. -/
abbrev TableCloneApi (H : HashbrownApi) (V : Type) : Type 1 :=
  (K : Type) → [DecidableEq K] → {σ : Type} → Cloner σ V → (H K V).Table → σ → σ × List V × Option (H K V).Table

/-- The outcome of cloning: a clone, or a panic together with what was dropped while unwinding. -/
inductive Cloned (σ V S : Type) where
  | ok (st : σ) (s : S)
  | panicked (x : Drops σ V)

section
variable {σ V : Type}

/-- A panic happened in the world `st`; nothing has been dropped yet. -/
def Drops.unwind (st : σ) : Drops σ V := ⟨st, .unwinding, [], []⟩

/-- `Struct { a, b }`: if `b` panics, the value of `a` is dropped. -/
def Cloned.both {A B : Type} (a : Cloned σ V A) (drop : A → Drops σ V → Drops σ V) (b : σ → Cloned σ V B) : Cloned σ V (A × B) :=
  match a with
  | .panicked x => .panicked x
  | .ok st s =>
    match b st with
    | .panicked x => .panicked (drop s x)
    | .ok st' t => .ok st' (s, t)

/-- `Struct(a)`. -/
def Cloned.map {A B : Type} (f : A → B) : Cloned σ V A → Cloned σ V B
  | .panicked x => .panicked x
  | .ok st s => .ok st (f s)

/-- `Option::clone`. -/
def cloneSlot (c : Cloner σ V) (slot : Option V) (st : σ) : Cloned σ V (Option V) :=
  match slot with
  | none => .ok st none
  | some v =>
    match c st v with
    | (st', none) => .panicked (.unwind st')
    | (st', some w) => .ok st' (some w)

/-- `<[Option<V>; N]>::clone`; `acc` holds the clones made, and `None` in the places not yet written. -/
def cloneArray {n : Nat} (c : Cloner σ V) (d : Dtor σ V) (s : UnitsSt n V) :
    List (Fin n) → UnitsSt n V → σ → Cloned σ V (UnitsSt n V)
  | [], acc, st => .ok st acc
  | i :: is, acc, st =>
    match cloneSlot c s[i] st with
    | .panicked x => .panicked (x.array d acc.toList)
    | .ok st' o => cloneArray c d s is (acc.set i o) st'

/-- `HashMap::clone`. -/
def cloneTable {T : Type} (d : Dtor σ V) (r : σ × List V × Option T) : Cloned σ V T :=
  match r.2.2 with
  | none => .panicked ((Drops.unwind r.1).array d (r.2.1.map some))
  | some t => .ok r.1 t
end

section
variable (H : HashbrownApi) {σ V : Type} (hc : TableCloneApi H V) (c : Cloner σ V) (d : Dtor σ V)

mutual
/-- `clone` of the map storages. -/
def KeyTy.cloneD : (κ : KeyTy) → (mapStorage H V κ).S → σ → Cloned σ V (mapStorage H V κ).S
  -- boolean.rs 73-77 (derived)
  | .bool => fun s st => ((cloneSlot c s.t st).both (fun o x => x.slot d o) (cloneSlot c s.f)).map fun p => ⟨p.1, p.2⟩
  -- singleton.rs 6-9 (derived)
  | .unit => fun s st => cloneSlot c s st
  -- option.rs 87-92
  | .opt κ => fun s st => ((KeyTy.cloneD κ s.some st).both (κ.dropD H d) (cloneSlot c s.none)).map fun p => ⟨p.1, p.2⟩
  -- hashbrown.rs 44-48
  | .prim p => fun s st => cloneTable d (hc p.Key c s st)
  -- unit_variants.rs 177-181
  | .units n => fun s st => cloneArray c d s (List.finRange n) (Vector.replicate n none) st
  | .bitset n _ _ => fun s st => cloneArray c d s (List.finRange n) (Vector.replicate n none) st
  -- any_variants.rs 194-202
  | .enum fs => Fields.cloneD fs
/-- The operands of the generated struct literal, any_variants.rs 198. -/
def Fields.cloneD : (fs : Fields) → (mapFields H V fs).S → σ → Cloned σ V (mapFields H V fs).S
  | .nil => fun s st => .ok st s
  | .simple fs => fun s st => (cloneSlot c s.1 st).both (fun o x => x.slot d o) (Fields.cloneD fs s.2)
  | .complex κ fs => fun s st => (KeyTy.cloneD κ s.1 st).both (κ.dropD H d) (Fields.cloneD fs s.2)
end
end

/-- `Map::clone`, map.rs 869-873. -/
def Map.cloneD (H : HashbrownApi) {σ V : Type} (hc : TableCloneApi H V) (κ : KeyTy) (c : Cloner σ V) (d : Dtor σ V)
    (m : (mapStorage H V κ).S) (st : σ) : Cloned σ V (mapStorage H V κ).S := κ.cloneD H hc c d m st

/-- `Clone::clone_from`, not overridden by the crate: `*self = source.clone()` drops the old map and stores the new one also if a
destructor panics. Result: `self` afterwards, and what was dropped. -/
def Map.cloneFromD (H : HashbrownApi) {σ V : Type} (hc : TableCloneApi H V) (κ : KeyTy) (c : Cloner σ V) (d : Dtor σ V)
    (self source : (mapStorage H V κ).S) (st : σ) : (mapStorage H V κ).S × Drops σ V :=
  match Map.cloneD H hc κ c d source st with
  | .panicked x => (self, x)
  | .ok st' m => (m, κ.dropD H d self (.start st'))

end FixedMap
