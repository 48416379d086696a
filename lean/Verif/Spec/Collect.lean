import Verif.Model.Collect
import Verif.Spec.DropBatches
import Verif.Spec.FinMap

/-! # Collecting from a source that fails or panics: specification -/

set_option autoImplicit false

namespace FixedMap

/-- What was taken from a source. -/
structure Taken (σ K V E : Type) where
  /-- the items, newest first -/
  items : List (K × V)
  /-- the values that later items replaced, in the order in which they were replaced -/
  replaced : List V
  st : σ
  stop : Stop E

section
variable {σ K V E : Type}

/-- Was there a panic? -/
def Stop.fate : Stop E → Fate
  | .panicked => .unwinding
  | _ => .normal

/-- Take items from a source until it ends, fails or panics. An item whose key was seen before replaces the value of that key, which
is dropped before the next item is taken; if its destructor panics no more items are taken. -/
def takeItems [DecidableEq K] (d : Dtor σ V) (next : σ → σ × Pull (K × V) E) : Nat → List (K × V) → List V → σ → Option (Taken σ K V E)
  | 0, _, _, _ => none
  | fuel + 1, items, replaced, st =>
    match next st with
    | (st', .done) => some ⟨items, replaced, st', .done⟩
    | (st', .fail err) => some ⟨items, replaced, st', .fail err⟩
    | (st', .panic) => some ⟨items, replaced, st', .panicked⟩
    | (st', .item p) =>
      match FinMap.get items p.1 with
      | none => takeItems d next fuel (p :: items) replaced st'
      | some old =>
        if (d st' old).2 then some ⟨p :: items, replaced ++ [old], (d st' old).1, .panicked⟩
        else takeItems d next fuel (p :: items) (replaced ++ [old]) (d st' old).1

/-- The drops made while taking the items. -/
def Taken.drops (t : Taken σ K V E) : Drops σ V := ⟨t.st, t.stop.fate, t.replaced, []⟩

/-- Take elements from a source until it ends, fails or panics. -/
def takeElems {T : Type} (next : σ → σ × Pull T E) : Nat → List T → σ → Option (List T × σ × Stop E)
  | 0, _, _ => none
  | fuel + 1, xs, st =>
    match next st with
    | (st', .done) => some (xs, st', .done)
    | (st', .fail err) => some (xs, st', .fail err)
    | (st', .panic) => some (xs, st', .panicked)
    | (st', .item x) => takeElems next fuel (xs ++ [x]) st'
end

/-! ## Sources -/

/-- `vec::IntoIter`: the items that are left are part of the world. -/
def vecNext {σ α E : Type} : σ × List α → (σ × List α) × Pull α E
  | (st, []) => ((st, []), .done)
  | (st, a :: l) => ((st, l), .item a)

/-- A destructor that does not touch the second half of the world. -/
def Dtor.beside {σ τ V : Type} (d : Dtor σ V) : Dtor (σ × τ) V := fun st v => (((d st.1 v).1, st.2), (d st.1 v).2)

/-- Dropping `vec::IntoIter` drops the items that are left. -/
def vecDrop {σ K V : Type} (d : Dtor σ V) (x : Drops (σ × List (K × V)) V) : Drops (σ × List (K × V)) V :=
  dropEach d.beside (x.st.2.map Prod.snd) { x with st := (x.st.1, []) }

/-- The calls of a deserializer that answers as listed. -/
def listNext {α E : Type} : List (Except E α) → List (Except E α) × Pull α E
  | [] => ([], .done)
  | .ok a :: l => (l, .item a)
  | .error err :: l => (l, .fail err)

end FixedMap
