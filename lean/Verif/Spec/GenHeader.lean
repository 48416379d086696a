import Verif.Model.GenHeader
import Verif.Spec.Traits

/-!
# What rustc checks on the emitted headers

`Decl.ok`: names are in scope, associated types get their lifetime, every parameter is used (E0392), and a struct that mentions a
borrowing iterator of a map says `V: 'a`. `Impl.ok`: names are in scope, the arguments fit the struct, every parameter is constrained (E0207), no
`where` clause is false for everybody, the supertraits are implemented whenever the `impl` applies, and what the body calls
on the fields follows from the `where` clauses.
-/

set_option autoImplicit false

namespace FixedMap.Gen

/-- The parameters a type mentions. -/
def Ty.params : Ty → List Param
  | .plain | .set _ => []
  | .value | .optVal | .map _ => [.value]
  | .optRef | .optMut => [.lt, .value]
  | .mapIter _ _ lt => if lt then [.lt, .value] else [.value]
  | .setIter _ _ lt => if lt then [.lt] else []

/-- `Iter<'a>` takes a lifetime, `IntoIter` does not (src/map/storage.rs, src/set/storage.rs). -/
def Ty.arity : Ty → Prop
  | .mapIter _ q lt => lt = (q != .intoIter)
  | .setIter _ q lt => lt = (q != .intoIter)
  | _ => True

def Pred.params : Pred → List Param
  | .has _ ty _ => ty.params
  | .outlives => [.lt, .value]

structure Decl.ok (d : Decl) : Prop where
  scope : ∀ t ∈ d.fields, t.params ⊆ d.params
  arity : ∀ t ∈ d.fields, t.arity
  used : ∀ p ∈ d.params, ∃ t ∈ d.fields, p ∈ t.params
  borrows : ∀ κ q, .mapIter κ q true ∈ d.fields → d.outlives = true
  outlives : d.outlives = true → .lt ∈ d.params ∧ .value ∈ d.params

/-- What the body of an `impl` requires of a field. -/
def Trait.needs : Trait → Ty → Option Trait
  /- `Clone::clone(&self.n)`, `PartialEq::ne(&self.n, &other.n)`, and `Copy` of every field; `Eq` has no body -/
  | .std .clone, _ => some (.std .clone)
  | .std .copy, _ => some (.std .copy)
  | .std .partialEq, _ => some (.std .partialEq)
  /- `Iterator::next(&mut self.n)`, `DoubleEndedIterator::next_back(&mut self.n)` -/
  | .iterator, .mapIter _ _ _ | .iterator, .setIter _ _ _ => some .iterator
  | .doubleEnded, .mapIter _ _ _ | .doubleEnded, .setIter _ _ _ => some .doubleEnded
  | _, _ => none

/-- Supertraits among the traits that are implemented. -/
def Trait.supers : Trait → List Trait
  | .std t => t.supers.map .std
  | .doubleEnded => [.iterator]
  | _ => []

/-- A requirement that follows from the clauses of an `impl`: it is one of them, or it is true for all types `V` that satisfy the clauses on `V`. -/
def Impl.meets (h : Impl) (ty : Ty) (tr : Trait) : Prop :=
  (∃ hr, .has hr ty tr ∈ h.preds) ∨
    ∀ v, Lawful v → (∀ hr u, .has hr .value u ∈ h.preds → Ty.value.has v u = true) → ty.has v tr = true

structure Impl.ok (decls : List Decl) (impls : List Impl) (h : Impl) (d : Decl) : Prop where
  mem : d ∈ decls
  item : d.item = h.item
  args : h.args = d.params
  scope : h.args ⊆ h.params ∧ ∀ p ∈ h.preds, p.params ⊆ h.params
  constrained : h.params ⊆ h.args
  arity : ∀ hr ty tr, .has hr ty tr ∈ h.preds → ty.arity
  outlives : d.outlives = true → .outlives ∈ h.preds
  /-- no clause without parameters and without binder is false -/
  global : ∀ ty tr, .has false ty tr ∈ h.preds → ty.params = [] → ∀ v, ty.has v tr = true
  supers : ∀ t ∈ h.tr.supers, ∃ g ∈ impls, g.tr = t ∧ g.item = h.item ∧ ∀ v, Lawful v → h.applies v = true → g.applies v = true
  body : ∀ ty ∈ d.fields, ∀ tr, h.tr.needs ty = some tr → h.meets ty tr

/-- The `impl` without its `for<'trivial_bounds>`. -/
def Pred.plain : Pred → Pred
  | .has _ ty tr => .has false ty tr
  | .outlives => .outlives

def Impl.plain (h : Impl) : Impl := { h with preds := h.preds.map Pred.plain }

/-- The derive emits an `impl` of the trait for the struct that applies if the traits of `V` are `v`. -/
def Emitted (F : FieldSet) (i : ItemName) (t : Trait) (v : Tr → Bool) : Prop :=
  ∃ h ∈ genImpls F, h.item = i ∧ h.tr = t ∧ h.applies v = true

/-- The emitted struct, as other emitted code names it: through `Key` of the enum. -/
def ItemName.ty (κ : KeyTy) : ItemName → Ty
  | .mapStorage => .map κ
  | .setStorage => .set κ
  | .mapIter q => .mapIter κ q (q != .intoIter)
  | .setIter q => .setIter κ q (q != .intoIter)

end FixedMap.Gen
