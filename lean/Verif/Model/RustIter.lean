import Verif.Model.RustMap

/-!
# The iterators that Rust programs build

The programs put iterators together from those of options, foreign storages and their own types with the adapters of `core`. `den` gives such a value its meaning: an
iterator whose items are values of the interpreter.
-/

set_option autoImplicit false

namespace FixedMap.Rust

/-- An iterator in some state. -/
structure AnyIter (α : Type) : Type 1 where
  I : IterImpl α
  st : I.St

def AnyIter.map {α β : Type} (f : α → β) (i : AnyIter α) : AnyIter β := ⟨i.I.map f, i.st⟩

def AnyIter.chain {α : Type} (i j : AnyIter α) : AnyIter α := ⟨i.I.chain j.I, (some i.st, some j.st)⟩

variable {X σ : Type}

def unOpt : Val X → Option (Val X)
  | .con "Option" "Some" [v] => some v
  | _ => none

/-- What `copied` does. -/
def unshare : Val X → Val X
  | .shared v => v
  | v => v

/-- The result of a run. -/
def result : Ans X σ → Val X
  | .ok v _ => v
  | _ => .unit

/-- What is in the first cell after a run. -/
def cell0 : Ans X σ → Val X
  | .ok _ st => st.mem.headD .unit
  | _ => .unit

/-- A `usize`; literals are `u8` in the interpreter. -/
def natOf : Val X → Nat
  | .nat n => n
  | .u8 b => b.toNat
  | _ => 0

def hintOf : Val X → Nat × Option Nat
  | .con "" "" [a, b] => (natOf a, (unOpt b).map natOf)
  | _ => (0, none)

variable (F : Foreign X σ) (P : Prog) (fuel : Nat) (u : σ)

/-- Call a method of an iterator that the program defines; the iterator is in the first cell. -/
def iterRun (ty tr m : String) (v : Val X) : Ans X σ := run F P fuel ty tr m [.ref ⟨0, []⟩] ⟨[v], u, []⟩

/-- An iterator type of the program. -/
def ownIter (ty : String) : IterImpl (Val X) where
  St := Val X
  next v := (unOpt (result (iterRun F P fuel u ty "Iterator" "next" v)), cell0 (iterRun F P fuel u ty "Iterator" "next" v))
  nextBack? :=
    if P.fns.any fun f => f.ty == ty && f.tr == "DoubleEndedIterator" && f.name == "next_back" then
      some fun v => (unOpt (result (iterRun F P fuel u ty "DoubleEndedIterator" "next_back" v)), cell0 (iterRun F P fuel u ty "DoubleEndedIterator" "next_back" v))
    else none
  sizeHint v := hintOf (result (iterRun F P fuel u ty "Iterator" "size_hint" v))

/-- Apply a closure of the program. -/
def app (f : Val X) (v : Val X) : Val X := result ((sem F P fuel).call f [v] ⟨[], u, []⟩ .ok)

/-- The meaning of an iterator value. `iters` is that of foreign iterators; the number bounds the nesting of adapters. -/
def den (iters : Place X → X → AnyIter (Val X)) : Nat → Val X → AnyIter (Val X)
  | 0, _ => ⟨optionIter _, none⟩
  | n + 1, v =>
    match v with
    | .con "iter" "option" [o] => ⟨optionIter _, unOpt o⟩
    | .con "iter" "map" [f, i] => (den iters n i).map (app F P fuel u f)
    | .con "iter" "copied" [i] => (den iters n i).map unshare
    | .con "iter" "chain" [a, b] => (den iters n a).chain (den iters n b)
    | .handle p x => iters p x
    | .struct ty fs => ⟨ownIter F P fuel u ty, .struct ty fs⟩
    | _ => ⟨optionIter _, none⟩

/-- The iterators of `K::MapStorage<V>`. -/
def mapIters {K V : Type} (M : MapStorage K V) (p : Place (MX M)) : MX M → AnyIter (Val (MX M))
  | .iter st => ⟨M.iter.I.map fun q => pair (ky q.1) (.shared (vl q.2)), st⟩
  | .it m s =>
    let adr (a : M.Addr) : Val (MX M) := .ref (p.add (.at (.addr a)))
    match m with
    | "keys" => ⟨M.keys.I.map ky, M.keys.init s⟩
    | "values" => ⟨M.values.I.map fun v => .shared (vl v), M.values.init s⟩
    | "iter_mut" => ⟨M.iterMut.I.map fun q => pair (ky q.1) (adr q.2), M.iterMut.init s⟩
    | "values_mut" => ⟨M.valuesMut.I.map adr, M.valuesMut.init s⟩
    | _ => ⟨M.intoIter.I.map fun q => pair (ky q.1) (vl q.2), M.intoIter.init s⟩
  | _ => ⟨optionIter _, none⟩

/-- The iterators of `hashbrown::HashMap`. -/
def hashIters {K V : Type} (A : HashMapApi K V) (p : Place (HX A)) : HX A → AnyIter (Val (HX A))
  | .it m s =>
    let adr (a : A.Addr) : Val (HX A) := .ref (p.add (.at (.addr a)))
    match m with
    | "iter" => ⟨A.iter.I.map fun q => pair (.shared (.ext (.key q.1))) (.shared (.ext (.val q.2))), A.iter.init s⟩
    | "keys" => ⟨A.keys.I.map fun k => .shared (.ext (.key k)), A.keys.init s⟩
    | "values" => ⟨A.values.I.map fun v => .shared (.ext (.val v)), A.values.init s⟩
    | "iter_mut" => ⟨A.iter_mut.I.map fun q => pair (.shared (.ext (.key q.1))) (adr q.2), A.iter_mut.init s⟩
    | "values_mut" => ⟨A.values_mut.I.map adr, A.values_mut.init s⟩
    | _ => ⟨A.into_iter.I.map fun q => pair (.ext (.key q.1)) (.ext (.val q.2)), A.into_iter.init s⟩
  | _ => ⟨optionIter _, none⟩

/-- The iterators of `T::SetStorage`. -/
def setIters {T : Type} (M : SetStorage T) (_ : Place (SX M)) : SX M → AnyIter (Val (SX M))
  | .iter st => ⟨M.iter.I.map fun k => .ext (.key k), st⟩
  | .into st => ⟨M.intoIter.I.map fun k => .ext (.key k), st⟩
  | _ => ⟨optionIter _, none⟩

/-- The iterators of `hashbrown::HashSet`: the keys of the map. -/
def hashSetIters {T : Type} (A : HashMapApi T Unit) (_ : Place (HX A)) : HX A → AnyIter (Val (HX A))
  | .it m s =>
    match m with
    | "iter" => ⟨A.keys.I.map fun k => .shared (.ext (.key k)), A.keys.init s⟩
    | _ => ⟨A.into_iter.I.map fun q => .ext (.key q.1), A.into_iter.init s⟩
  | _ => ⟨optionIter _, none⟩

end FixedMap.Rust
