import Verif.Model.IterClone

/-!
# The headers of the items emitted by `any_variants.rs`

`Model/Gen*.lean` describe the bodies. Here are the headers: the parameters and field types of the emitted structs, the
parameters and `where` clauses of the emitted `impl`s, and the checks rustc makes on them. Line numbers refer to any_variants.rs.

The rule behind `for<'trivial_bounds>`: rustc rejects a `where` clause that is false and mentions no parameter of the item,
unless it has a `for<..>` binder.

Left out: the entry types (2078-2079 and the items before; they have no `where` clauses), `type` items, and the `impl Key` (84-87).
-/

set_option autoImplicit false

namespace FixedMap

mutual
/-- The iterators of the storages are `DoubleEndedIterator` (all of them have the same answer). -/
def KeyTy.backImpl : KeyTy → Bool
  -- map/storage/boolean.rs 14-27, set/storage/boolean.rs 62: `Chain` and `Map` of `option` iterators
  | .bool => true
  -- map/storage/singleton.rs 27-47, set/storage/singleton.rs 16-17: `option::IntoIter`
  | .unit => true
  -- map/storage/option.rs 8-38, set/storage/option.rs 8-15: `Chain<Map<.., ..>, Map<option::IntoIter<..>, ..>>`
  | .opt κ => κ.backImpl
  -- map/storage/hashbrown.rs 123-154, set/storage/hashbrown.rs 61-65: the iterators of hashbrown are not
  | .prim _ => false
  -- unit_variants.rs 228-245, 445-446, 612-613: `FlatMap` and `Flatten` of array and slice iterators
  | .units _ => true
  | .bitset _ _ _ => true
  -- any_variants.rs 833, 983, 1129, 1228, 1360, 1470, 1615, 1774
  | .enum fs => fs.backImpl
def Fields.backImpl : Fields → Bool
  | .nil => true
  | .simple fs => fs.backImpl
  | .complex κ fs => κ.backImpl && fs.backImpl
end

namespace Gen

/-- Generic parameters: `'a` and `V`. -/
inductive Param where
  | lt | value
deriving DecidableEq, Repr

/-- Types of emitted fields and in emitted `where` clauses. -/
inductive Ty where
  /-- `usize`, `bool` -/
  | plain
  /-- `V` -/
  | value
  /-- `Option<V>` -/
  | optVal
  /-- `Option<&'a V>` -/
  | optRef
  /-- `Option<&'a mut V>` -/
  | optMut
  /-- `<E as Key>::MapStorage::<V>` -/
  | map (κ : KeyTy)
  /-- `<E as Key>::SetStorage` -/
  | set (κ : KeyTy)
  /-- `<<E as Key>::MapStorage::<V> as MapStorage<E, V>>::Iter<'a>`, or without `<'a>` -/
  | mapIter (κ : KeyTy) (q : MapIt) (lt : Bool)
  /-- `<<E as Key>::SetStorage as SetStorage<E>>::Iter<'a>`, or without `<'a>` -/
  | setIter (κ : KeyTy) (q : SetIt) (lt : Bool)
deriving DecidableEq

/-- Traits that are implemented or required. -/
inductive Trait where
  | std (t : Tr)
  | iterator
  | doubleEnded
  /-- `MapStorage<Ident, V>`, `SetStorage<Ident>` -/
  | storage
deriving DecidableEq

/-- Predicates of `where` clauses. -/
inductive Pred where
  /-- `ty: tr`; `hr`: with `for<'trivial_bounds>` in front -/
  | has (hr : Bool) (ty : Ty) (tr : Trait)
  /-- `V: 'a` -/
  | outlives
deriving DecidableEq

/-- The emitted structs. -/
inductive ItemName where
  | mapStorage | setStorage | mapIter (q : MapIt) | setIter (q : SetIt)
deriving DecidableEq

/-- `struct item<params..> where V: 'a { fields.. }`; `outlives`: with that clause. -/
structure Decl where
  item : ItemName
  params : List Param
  outlives : Bool
  fields : List Ty

/-- `impl<params..> tr for item<args..> where preds.. { .. }`. -/
structure Impl where
  params : List Param
  tr : Trait
  item : ItemName
  args : List Param
  preds : List Pred

/-- The element types of the tuple variants, `fields.complex()`, 2144-2149. -/
def FieldSet.complex (F : FieldSet) : List KeyTy := F.fields.filterMap (·.kind)

/-! ## Structs -/

/-- 405-408 and 646-649. -/
def FieldTy.ty : FieldTy → Ty
  | .slot => .optVal
  | .map κ => .map κ
  | .flag => .plain
  | .set κ => .set κ

/-- Fields of the iterators of a map: 783, 787; 895, 914; 1041, 1060; 1188, 1196; 1285, 1304; 1419, 1427. -/
def mapIterTy (q : MapIt) : IterTy → Ty
  | .flag => .plain
  | .opt => match q with
    | .iter | .keys | .values => .optRef
    | .iterMut | .valuesMut => .optMut
    | .intoIter => .optVal
  | .map κ q' => .mapIter κ q' (q != .intoIter)
  | .set κ q' => .setIter κ q' (q != .intoIter)

/-- Fields of the iterators of a set: 1531, 1551; 1675, 1695. -/
def setIterTy (q : SetIt) : IterTy → Ty
  | .flag => .plain
  | .opt => .optVal
  | .map κ q' => .mapIter κ q' (q != .intoIter)
  | .set κ q' => .setIter κ q' (q != .intoIter)

/-- The parameters of the iterators of a map: 803, 953, 1099, 1210, 1342; 1440. -/
def mapIterParams : MapIt → List Param
  | .intoIter => [.value]
  | _ => [.lt, .value]

/-- 1585, 1727. -/
def setIterParams : SetIt → List Param
  | .iter => [.lt]
  | .intoIter => []

def mapIts : List MapIt := [.iter, .keys, .values, .iterMut, .valuesMut, .intoIter]

def setIts : List SetIt := [.iter, .intoIter]

/-- The emitted structs: 413-415, 654-656; 803-807, 953-957, 1099-1103, 1210-1214, 1342-1346, 1440-1444; 1585-1589, 1727-1731. -/
def genDecls (F : FieldSet) : List Decl :=
  [⟨.mapStorage, [.value], false, (genMap F).decls.map fun d => d.2.ty⟩,
    ⟨.setStorage, [], false, (genSet F).decls.map fun d => d.2.ty⟩] ++
  mapIts.map (fun q => ⟨.mapIter q, mapIterParams q, q != .intoIter,
    .plain :: .plain :: (genMapIter F q).decls.map fun d => mapIterTy q d.2⟩) ++
  setIts.map (fun q => ⟨.setIter q, setIterParams q, false,
    .plain :: .plain :: (genSetIter F q).decls.map fun d => setIterTy q d.2⟩)

/-! ## Impls -/

/-- `impl_map_storage`: 417-420, 166-181, 192-205. -/
def mapStorageImpls (F : FieldSet) : List Impl :=
  let on (tr : Trait) (preds : List Pred) : Impl := ⟨[.value], tr, .mapStorage, [.value], preds⟩
  [on .storage [],
    on (.std .partialEq) [.has false .value (.std .partialEq)],
    on (.std .eq) [.has false .value (.std .eq)],
    on (.std .clone) [.has false .value (.std .clone)],
    on (.std .copy) (.has false .value (.std .copy) :: F.complex.map fun κ => .has false (.map κ) (.std .copy))]

/-- `impl_set_storage`: 658-661, 450-462, 475-488. -/
def setStorageImpls (F : FieldSet) : List Impl :=
  let on (tr : Trait) (preds : List Pred) : Impl := ⟨[], tr, .setStorage, [], preds⟩
  [on .storage [],
    on (.std .partialEq) [],
    on (.std .eq) [],
    on (.std .clone) (F.complex.map fun κ => .has true (.set κ) (.std .clone)),
    on (.std .copy) (F.complex.map fun κ => .has true (.set κ) (.std .copy))]

/-- The `where` clause of `DoubleEndedIterator`. The clauses of the fields come first, 739-741, 938-940, 1084-1086, 1328-1330, then
`V: 'a`, 794-797, 944-947, 1090-1093, 1202-1205, 1334-1337; `into_iter` has only the former. -/
def mapBackPreds (F : FieldSet) (q : MapIt) : List Pred :=
  (F.complex.map fun κ => .has false (.mapIter κ q (q != .intoIter)) .doubleEnded) ++ (if q = .intoIter then [] else [.outlives])

/-- 810-838, 960-988, 1106-1134; 1217-1233, 1349-1365; 1447-1475. -/
def mapIterImpls (F : FieldSet) (q : MapIt) : List Impl :=
  let ps := mapIterParams q
  let on (tr : Trait) (preds : List Pred) : Impl := ⟨ps, tr, .mapIter q, ps, preds⟩
  match q with
  | .iter | .keys | .values =>
    [on (.std .clone) [.outlives], on .iterator [.outlives], on .doubleEnded (mapBackPreds F q)]
  | .iterMut | .valuesMut => [on .iterator [.outlives], on .doubleEnded (mapBackPreds F q)]
  | .intoIter =>
    [on (.std .clone) (.has false .value (.std .clone) :: F.complex.map fun κ => .has false (.mapIter κ .intoIter false) (.std .clone)),
      on .iterator [], on .doubleEnded (mapBackPreds F q)]

/-- 1591-1622; 1740-1778. -/
def setIterImpls (F : FieldSet) (q : SetIt) : List Impl :=
  let ps := setIterParams q
  let on (tr : Trait) (preds : List Pred) : Impl := ⟨ps, tr, .setIter q, ps, preds⟩
  match q with
  | .iter => [on (.std .clone) [], on .iterator [],
      on .doubleEnded (F.complex.map fun κ => .has false (.setIter κ .iter true) .doubleEnded)]
  | .intoIter => [on (.std .clone) (F.complex.map fun κ => .has true (.setIter κ .intoIter false) (.std .clone)), on .iterator [],
      on .doubleEnded (F.complex.map fun κ => .has true (.setIter κ .intoIter false) .doubleEnded)]

/-- All emitted `impl`s except those of the entries and of `Key`. -/
def genImpls (F : FieldSet) : List Impl :=
  mapStorageImpls F ++ setStorageImpls F ++ mapIts.flatMap (mapIterImpls F) ++ setIts.flatMap (setIterImpls F)

/-! ## Trait selection -/

/-- `ty: tr`, if the traits of `V` are `v`. -/
def Ty.has (v : Tr → Bool) : Ty → Trait → Bool
  | .plain, .std _ => true
  | .value, .std t => v t
  | .optVal, .std t => v t
  | .optRef, .std t => t == .clone || t == .copy || v t
  | .optMut, .std t => t != .clone && t != .copy && v t
  | .map κ, .std t => κ.mapImpl v t
  | .set κ, .std t => κ.setImpl t
  | .mapIter κ .intoIter _, .std .clone => κ.mapIntoIterClone v
  | .mapIter _ .iterMut _, .std .clone | .mapIter _ .valuesMut _, .std .clone => false
  | .mapIter κ _ _, .std .clone => κ.mapIterClone
  | .setIter κ .iter _, .std .clone => κ.setIterClone
  | .setIter κ .intoIter _, .std .clone => κ.setIntoIterClone
  | .mapIter _ _ _, .iterator | .setIter _ _ _, .iterator => true
  | .mapIter κ _ _, .doubleEnded | .setIter κ _ _, .doubleEnded => κ.backImpl
  | .map _, .storage | .set _, .storage => true
  | _, _ => false

/-- Lifetimes are not tracked: `V: 'a` counts as satisfied. -/
def Pred.holds (v : Tr → Bool) : Pred → Bool
  | .has _ ty tr => ty.has v tr
  | .outlives => true

/-- The `impl` applies. -/
def Impl.applies (h : Impl) (v : Tr → Bool) : Bool := h.preds.all (Pred.holds v)

end Gen

end FixedMap
