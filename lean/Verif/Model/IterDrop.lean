import Verif.Model.DropPanic
import Verif.Model.IterClone

/-!
# Dropping an owning iterator

`Map::into_iter` moves the values into the iterator; dropping it drops the values it has not handed out. No iterator of the crate
implements `Drop`: the fields are dropped in order. Rules of core used: `Chain { a, b }`, `FlatMap { iter, frontiter, backiter }` and
`array::IntoIter` (the remaining elements in order). `hash_map::IntoIter` drops the values it still holds one after the other and
leaks the others if a destructor panics; which values these are is a parameter, `HeldApi`.
-/

set_option autoImplicit false

namespace FixedMap

/-- The values a `hash_map::IntoIter` still holds, in the order it drops them. -/
abbrev HeldApi (H : HashbrownApi) (V : Type) : Type 1 :=
  (K : Type) → [DecidableEq K] → (H K V).into_iter.I.St → List V

section
variable {σ V : Type} (d : Dtor σ V)

/-- Drop an `Option<T>`, where `f` drops a `T`. -/
def Drops.part {T : Type} (f : T → Drops σ V → Drops σ V) (o : Option T) (x : Drops σ V) : Drops σ V :=
  match o with
  | none => x
  | some t => f t x

/-- Drop the state of the `FlatMap` of `into_iter`, unit_variants.rs 241-245. -/
def Drops.flat {n : Nat} (st : FlatSt (Fin n × Option V) (Fin n × V)) (x : Drops σ V) : Drops σ V :=
  ((x.array d (st.iter.map Prod.snd)).part (fun o x => x.slot d (o.map Prod.snd)) st.front).part
    (fun o x => x.slot d (o.map Prod.snd)) st.back
end

section
variable (H : HashbrownApi) {σ V : Type} (held : HeldApi H V) (d : Dtor σ V)

mutual
/-- Dropping the owning iterator of a map. -/
def KeyTy.dropIntoIter : (κ : KeyTy) → (mapStorage H V κ).intoIter.I.St → Drops σ V → Drops σ V
  -- map/storage/boolean.rs 24-27: `Chain<Map<option::IntoIter<V>>, Map<option::IntoIter<V>>>`
  | .bool => fun (st : Option (Option V) × Option (Option V)) x =>
    (x.part (fun o x => x.slot d o) st.1).part (fun o x => x.slot d o) st.2
  -- map/storage/singleton.rs 47: `option::IntoIter<(K, V)>`
  | .unit => fun (st : Option (Unit × V)) x => x.slot d (st.map Prod.snd)
  -- map/storage/option.rs 32-38: `Chain<Map<.., ..>, Map<option::IntoIter<V>>>`
  | .opt κ => fun (st : Option ((mapStorage H V κ).intoIter.I.St) × Option (Option V)) x =>
    (x.part (KeyTy.dropIntoIter κ) st.1).part (fun o x => x.slot d o) st.2
  -- map/storage/hashbrown.rs 154: `hash_map::IntoIter`
  | .prim p => fun st x => x.table d (held p.Key st)
  -- unit_variants.rs 241-245
  | .units n => fun (st : FlatSt (Fin n × Option V) (Fin n × V)) x => x.flat d st
  | .bitset n _ _ => fun (st : FlatSt (Fin n × Option V) (Fin n × V)) x => x.flat d st
  -- any_variants.rs 1438-1442: `start`, `end`, then one field per variant
  | .enum fs => fun (st : LoopSt (mapFields H V fs).intoIter.St) x => Fields.dropIntoIter fs st.fields x
/-- The fields of the generated iterator, any_variants.rs 1415-1430. -/
def Fields.dropIntoIter : (fs : Fields) → (mapFields H V fs).intoIter.St → Drops σ V → Drops σ V
  | .nil => fun _ x => x
  | .simple fs => fun (st : Option V × (mapFields H V fs).intoIter.St) x => Fields.dropIntoIter fs st.2 (x.slot d st.1)
  | .complex κ fs => fun (st : (mapStorage H V κ).intoIter.I.St × (mapFields H V fs).intoIter.St) x =>
    Fields.dropIntoIter fs st.2 (KeyTy.dropIntoIter κ st.1 x)
end
end

/-- `drop(iter)` for `iter = map.into_iter()` after some calls. -/
def Map.dropIntoIter (H : HashbrownApi) {σ V : Type} (held : HeldApi H V) (κ : KeyTy) (d : Dtor σ V)
    (it : (mapStorage H V κ).intoIter.I.St) (st : σ) : Drops σ V := κ.dropIntoIter H held d it (.start st)

end FixedMap
