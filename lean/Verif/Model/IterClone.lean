import Verif.Model.Traits
import Verif.Model.GenIter

/-!
# `Clone` of the iterators

Iterators that borrow are copied: their states hold references and positions only. `into_iter` of a map owns values, so
its clone clones them. The standard adapters (`Option::IntoIter`, `Map`, `Chain`, `FlatMap`, array iterators) clone their parts.
The closures are function pointers. `c` is `V::clone`.
-/

set_option autoImplicit false

namespace FixedMap

/-- `Clone` of `FlatMap` over an array iterator: the parts, and the remaining elements of the array. -/
def cloneFlat {α β : Type} (item : α → α) (elem : β → β) (st : FlatSt β α) : FlatSt β α :=
  ⟨st.front.map (Option.map item), st.iter.map elem, st.back.map (Option.map item)⟩

section
variable (H : HashbrownApi) (V : Type) (c : V → V)

mutual
/-- `clone` of the owning iterator of the map storage; `none` if the type is not `Clone`. -/
def KeyTy.cloneIntoIter : (κ : KeyTy) →
    Option ((mapStorage H V κ).intoIter.I.St → (mapStorage H V κ).intoIter.I.St)
  -- map/storage/boolean.rs 24-27: `Chain<Map<option::IntoIter<V>>, Map<option::IntoIter<V>>>`
  | .bool => some fun (st : Option (Option V) × Option (Option V)) => (st.1.map (Option.map c), st.2.map (Option.map c))
  -- map/storage/singleton.rs 47: `option::IntoIter<(K, V)>`
  | .unit => some fun (st : Option (Unit × V)) => st.map fun p => (p.1, c p.2)
  -- map/storage/option.rs 32-38: `Chain<Map<.., ..>, Map<option::IntoIter<V>>>`
  | .opt κ => (KeyTy.cloneIntoIter κ).map fun f
      (st : Option ((mapStorage H V κ).intoIter.I.St) × Option (Option V)) => (st.1.map f, st.2.map (Option.map c))
  -- map/storage/hashbrown.rs 154: `hash_map::IntoIter` is not `Clone`
  | .prim _ => none
  -- unit_variants.rs 241-245: `FlatMap<array::IntoIter<(K, Option<V>), N>, Option<(K, V)>, ..>`
  | .units n => some (cloneFlat (fun p : Fin n × V => (p.1, c p.2)) (fun p : Fin n × Option V => (p.1, p.2.map c)))
  | .bitset n _ _ => some (cloneFlat (fun p : Fin n × V => (p.1, c p.2)) (fun p : Fin n × Option V => (p.1, p.2.map c)))
  -- any_variants.rs 1447-1456
  | .enum fs => (Fields.cloneIntoIter fs).map fun f (st : LoopSt (mapFields H V fs).intoIter.St) =>
      ⟨st.start, st.stop, f st.fields⟩
/-- `#(#names: Clone::clone(&self.#names),)*`, any_variants.rs 1453. -/
def Fields.cloneIntoIter : (fs : Fields) → Option ((mapFields H V fs).intoIter.St → (mapFields H V fs).intoIter.St)
  | .nil => some id
  | .simple fs => (Fields.cloneIntoIter fs).map fun f (st : Option V × (mapFields H V fs).intoIter.St) => (st.1.map c, f st.2)
  | .complex κ fs => (KeyTy.cloneIntoIter κ).bind fun g => (Fields.cloneIntoIter fs).map fun f
      (st : (mapStorage H V κ).intoIter.I.St × (mapFields H V fs).intoIter.St) => (g st.1, f st.2)
end
end

namespace Gen

/-! ## The emitted impls -/

/-- `self.start`, `self.end`. -/
inductive Bound where
  | start | stop
deriving DecidableEq

/-- `impl Clone for It where bounds.. { fn clone(&self) -> Self { Self { start: self.start, end: self.end, n: Clone::clone(&self.m), .. } } }`. -/
structure CloneCode where
  /-- the types required to be `Clone` -/
  bounds : List IterTy
  start : Bound
  stop : Bound
  fields : List (String × String)

/-- The emitted `Clone` of the iterators of a map: 810-819, 960-969, 1106-1115, 1435-1456; `iter_mut` and
`values_mut` have none. -/
def genMapClone (F : FieldSet) : MapIt → Option CloneCode
  | .iter | .keys | .values => some ⟨[], .start, .stop, F.names.map fun n => (n, n)⟩
  | .intoIter => some ⟨F.fields.filterMap fun f => f.kind.map fun κ => .map κ .intoIter, .start, .stop,
      F.names.map fun n => (n, n)⟩
  | .iterMut | .valuesMut => none

/-- The emitted `Clone` of the iterators of a set: 1592-1601, 1735-1751. -/
def genSetClone (F : FieldSet) : SetIt → CloneCode
  | .iter => ⟨[], .start, .stop, F.names.map fun n => (n, n)⟩
  | .intoIter => ⟨F.fields.filterMap fun f => f.kind.map fun κ => .set κ .intoIter, .start, .stop,
      F.names.map fun n => (n, n)⟩

variable {H : HashbrownApi} {V : Type}

/-- Whether the type is `Clone`, if `V` is. -/
def IterTy.isClone (H : HashbrownApi) (V : Type) : IterTy → Bool
  | .flag => true
  | .opt => true
  | .map κ .intoIter => (KeyTy.cloneIntoIter H V id κ).isSome
  | .map _ .iterMut | .map _ .valuesMut => false
  | .map _ _ => true
  | .set κ .intoIter => κ.setIntoIterClone
  | .set _ .iter => true

/-- `Clone::clone(&self.name)` of a field. `owned`: the `Option`s hold `V`, not `&V`. -/
def ICell.clone (owned : Bool) (c : V → V) : ICell H V → Option (ICell H V)
  | .flag b => some (.flag b)
  | .opt none => some (.opt none)
  | .opt (some (.val v)) => some (.opt (some (.val (if owned then c v else v))))
  -- `&mut V` is not `Clone`
  | .opt (some (.addr _)) => none
  | .map κ .intoIter src st => (KeyTy.cloneIntoIter H V c κ).map fun f => .map κ .intoIter src (f st)
  | .map _ .iterMut _ _ | .map _ .valuesMut _ _ => none
  | .map κ q src st => some (.map κ q src st)
  | .set κ .intoIter st => if κ.setIntoIterClone then some (.set κ .intoIter st) else none
  | .set κ .iter st => some (.set κ .iter st)

def Bound.of (it : IterVal H V) : Bound → Nat
  | .start => it.start
  | .stop => it.stop

def cloneIterFields (owned : Bool) (c : V → V) (S : IStruct H V) : List (String × String) → Option (IStruct H V)
  | [] => some []
  | (n, m) :: l => (S.get m).bind fun x => (x.clone owned c).bind fun y => (cloneIterFields owned c S l).map ((n, y) :: ·)

/-- `Clone::clone(&it)`; the initialized fields must be the declared ones. -/
def CloneCode.run (K : CloneCode) (decls : List (String × IterTy)) (owned : Bool) (c : V → V) (it : IterVal H V) :
    Option (IterVal H V) :=
  if K.bounds.all (IterTy.isClone H V) then
    (cloneIterFields owned c it.fields K.fields).bind fun fs =>
      if fs.map (fun p => (p.1, p.2.ty)) = decls then some ⟨K.start.of it, K.stop.of it, fs⟩ else none
  else none

end Gen

end FixedMap
