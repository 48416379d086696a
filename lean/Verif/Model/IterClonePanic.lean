import Verif.Model.ClonePanic
import Verif.Model.IterDrop

/-!
# `Clone` of an owning iterator with a `V::clone` that has effects or panics

As `Model/IterClone`, with the world and with the drops that happen while unwinding. Rules of core used: the derived `Clone` of
`Chain { a, b }`, `FlatMap { iter, frontiter, backiter }` and `option::IntoIter` clones the fields in order;
`array::IntoIter::clone` clones the remaining elements in order into a new `array::IntoIter`, which is dropped (in order) if one panics.
-/

set_option autoImplicit false

namespace FixedMap

section
variable {σ V : Type} (c : Cloner σ V) (d : Dtor σ V)

/-- `Option<T>::clone`, where `f` clones a `T`. -/
def clonePart {T : Type} (f : T → σ → Cloned σ V T) (o : Option T) (st : σ) : Cloned σ V (Option T) :=
  match o with
  | none => .ok st none
  | some t => (f t st).map some

/-- `array::IntoIter::clone` of `(K, Option<V>)`; `acc` holds the clones made. -/
def cloneElems {K : Type} : List (K × Option V) → List (K × Option V) → σ → Cloned σ V (List (K × Option V))
  | [], acc, st => .ok st acc
  | (k, o) :: l, acc, st =>
    match cloneSlot c o st with
    | .panicked x => .panicked (x.array d (acc.map Prod.snd))
    | .ok st' o' => cloneElems l (acc ++ [(k, o')]) st'

/-- `Option<(K, V)>::clone`; `K` is `Copy`. -/
def cloneEntry {K : Type} (o : Option (K × V)) (st : σ) : Cloned σ V (Option (K × V)) :=
  match o with
  | none => .ok st none
  | some (k, v) => (cloneSlot c (some v) st).map (Option.map fun w => (k, w))

/-- `clone` of the `FlatMap` of `into_iter`, unit_variants.rs 241-245. -/
def cloneFlatD {K : Type} (s : FlatSt (K × Option V) (K × V)) (st : σ) : Cloned σ V (FlatSt (K × Option V) (K × V)) :=
  ((cloneElems c d s.iter [] st).both (fun l x => x.array d (l.map Prod.snd))
    fun st => (clonePart (cloneEntry c) s.front st).both (fun o x => x.part (fun o x => x.slot d (o.map Prod.snd)) o)
      (clonePart (cloneEntry c) s.back)).map fun p => ⟨p.2.1, p.1, p.2.2⟩
end

section
variable (H : HashbrownApi) {σ V : Type} (held : HeldApi H V) (c : Cloner σ V) (d : Dtor σ V)

mutual
/-- `clone` of the owning iterator of a map; `none` if the type is not `Clone`. -/
def KeyTy.cloneIntoIterD : (κ : KeyTy) →
    Option ((mapStorage H V κ).intoIter.I.St → σ → Cloned σ V ((mapStorage H V κ).intoIter.I.St))
  -- map/storage/boolean.rs 24-27
  | .bool => some fun (s : Option (Option V) × Option (Option V)) st =>
    (clonePart (cloneSlot c) s.1 st).both (fun o x => x.part (fun o x => x.slot d o) o) (clonePart (cloneSlot c) s.2)
  -- map/storage/singleton.rs 47
  | .unit => some fun (s : Option (Unit × V)) st => cloneEntry c s st
  -- map/storage/option.rs 32-38
  | .opt κ => (KeyTy.cloneIntoIterD κ).map fun f (s : Option ((mapStorage H V κ).intoIter.I.St) × Option (Option V)) st =>
    (clonePart f s.1 st).both (fun o x => x.part (κ.dropIntoIter H held d) o) (clonePart (cloneSlot c) s.2)
  -- map/storage/hashbrown.rs 154: `hash_map::IntoIter` is not `Clone`
  | .prim _ => none
  -- unit_variants.rs 241-245
  | .units n => some fun (s : FlatSt (Fin n × Option V) (Fin n × V)) st => cloneFlatD c d s st
  | .bitset n _ _ => some fun (s : FlatSt (Fin n × Option V) (Fin n × V)) st => cloneFlatD c d s st
  -- any_variants.rs 1447-1456
  | .enum fs => (Fields.cloneIntoIterD fs).map fun f (s : LoopSt (mapFields H V fs).intoIter.St) st =>
    (f s.fields st).map fun fields => ⟨s.start, s.stop, fields⟩
/-- `#(#names: Clone::clone(&self.#names),)*`, any_variants.rs 1453. -/
def Fields.cloneIntoIterD : (fs : Fields) →
    Option ((mapFields H V fs).intoIter.St → σ → Cloned σ V (mapFields H V fs).intoIter.St)
  | .nil => some fun s st => .ok st s
  | .simple fs => (Fields.cloneIntoIterD fs).map fun f (s : Option V × (mapFields H V fs).intoIter.St) st =>
    (cloneSlot c s.1 st).both (fun o x => x.slot d o) (f s.2)
  | .complex κ fs => (KeyTy.cloneIntoIterD κ).bind fun g => (Fields.cloneIntoIterD fs).map fun f
      (s : (mapStorage H V κ).intoIter.I.St × (mapFields H V fs).intoIter.St) st =>
    (g s.1 st).both (κ.dropIntoIter H held d) (f s.2)
end
end

end FixedMap
