import Verif.Model.Bucket

/-!
# The `MapStorage` trait (src/map/storage.rs) as a dictionary
-/

set_option autoImplicit false

namespace FixedMap

/-- Outcome of `retain`: new storage, final closure state, whether the closure panicked, and the values
dropped by the storage, in order. -/
structure RetainOut (S σ V : Type) where
  s : S
  st : σ
  panicked : Bool
  dropped : List V

/-- Continue with a second part of the storage unless the closure panicked (unwinding skips it). -/
def RetainOut.andThen {S T σ V : Type} (a : RetainOut S σ V) (rest : T) (b : σ → RetainOut T σ V) :
    RetainOut (S × T) σ V :=
  if a.panicked then ⟨(a.s, rest), a.st, true, a.dropped⟩
  else
    let r := b a.st
    ⟨(a.s, r.s), r.st, r.panicked, a.dropped ++ r.dropped⟩

/-- Apply a function to the storage part of a `RetainOut`. -/
def RetainOut.mapS {S T σ V : Type} (g : S → T) (a : RetainOut S σ V) : RetainOut T σ V :=
  ⟨g a.s, a.st, a.panicked, a.dropped⟩

/-- The statement
`if let Some(val) = slot.as_mut() { if !func(key, val) { slot = None; } }`
which occurs in boolean.rs 293-302, option.rs 318-322, singleton.rs 104-108, unit_variants.rs 320-324
and any_variants.rs 366-372. `func` may change the value and may panic (`none`); assigning `None`
drops the value. -/
def retainSlot {K V σ : Type} (f : σ → K → V → σ × V × Option Bool) (k : K) (slot : Option V) (st : σ) :
    RetainOut (Option V) σ V :=
  match slot with
  | none => ⟨none, st, false, []⟩
  | some v =>
    match f st k v with
    | (st', v', none) => ⟨some v', st', true, []⟩
    | (st', v', some true) => ⟨some v', st', false, []⟩
    | (st', v', some false) => ⟨none, st', false, [v']⟩

/-- Assigning through a live `&mut V` that points into a slot. -/
def writeSlot {V : Type} : Option V → V → Option V
  | some _, v => some v
  | none, _ => none

/-- The value dropped when a slot is overwritten by `None`. -/
def dropSlot {V : Type} (slot : Option V) : List V := slot.toList

/-- `PartialEq for Option<V>` (core), from `V`'s `PartialEq::eq`. -/
def optBeq {V : Type} (veq : V → V → Bool) : Option V → Option V → Bool
  | none, none => true
  | some a, some b => veq a b
  | _, _ => false

/-- `MapStorage<K, V>` (src/map/storage.rs 25-120) without its iterators, plus `PartialEq` and `Clone`
of the storage, plus `OccupiedEntry` (124-422) and `VacantEntry` (426-518) of its entry types.

* `&mut V` results are addresses (`Addr`) that can be read and written later.
* `entry` returns the entry and the storage (hashbrown may reserve memory in `entry`).
* entry methods take the current storage, because the Rust entry holds a `&mut` to it. -/
structure MapCore (K V : Type) : Type 1 where
  S : Type
  Addr : Type
  Occ : Type
  Vac : Type
  read : S → Addr → Option V
  write : S → Addr → V → S
  empty : S
  len : S → Nat
  isEmpty : S → Bool
  insert : S → K → V → Option V × S
  containsKey : S → K → Bool
  get : S → K → Option V
  getMut : S → K → Option Addr
  remove : S → K → Option V × S
  retain : {σ : Type} → (σ → K → V → σ × V × Option Bool) → S → σ → RetainOut S σ V
  clear : S → S × List V
  entry : S → K → Res ((Occ ⊕ Vac) × S)
  occKey : Occ → K
  occGet : Occ → S → Res V
  occGetMut : Occ → S → Res Addr
  occIntoMut : Occ → S → Res Addr
  occInsert : Occ → S → V → Res (V × S)
  occRemove : Occ → S → Res (V × S)
  vacKey : Vac → K
  vacInsert : Vac → S → V → Res (Addr × S)
  eq : (V → V → Bool) → S → S → Bool
  clone : (V → V) → S → S

/-- The full trait: core plus the six iterators. -/
structure MapStorage (K V : Type) : Type 1 extends MapCore K V where
  iter : IterOf S (K × V)
  keys : IterOf S K
  values : IterOf S V
  iterMut : IterOf S (K × Addr)
  valuesMut : IterOf S Addr
  intoIter : IterOf S (K × V)

end FixedMap
