import Verif.Model.DropPanic
import Verif.Spec.Retain

/-! # Destructors that panic: specification -/

set_option autoImplicit false

namespace FixedMap

variable {σ V : Type}

/-- Run the destructors of the values in order: the world afterwards, and how many panicked. -/
def runDtors (d : Dtor σ V) : List V → σ → σ × Nat
  | [], st => (st, 0)
  | v :: vs, st =>
    let r := runDtors d vs (d st v).1
    (r.1, r.2 + (d st v).2.toNat)

/-- One panic unwinds, a second one aborts. -/
def Fate.ofPanics : Nat → Fate
  | 0 => .normal
  | 1 => .unwinding
  | _ => .aborted

/-- The record of drops is what running the destructors of the dropped values gives, after `n` earlier panics; nothing is dropped
after an abort. -/
structure Drops.HonestFrom (n : Nat) (d : Dtor σ V) (st : σ) (x : Drops σ V) : Prop where
  st_eq : x.st = (runDtors d x.dropped st).1
  fate_eq : x.fate = .ofPanics ((runDtors d x.dropped st).2 + n)
  stops : (runDtors d x.dropped.dropLast st).2 + n ≤ 1

/-- The same without earlier panics. -/
abbrev Drops.Honest (d : Dtor σ V) (st : σ) (x : Drops σ V) : Prop := x.HonestFrom 0 d st

/-- `retain` on a list of entries, with destructors that may panic: the entry is removed first. -/
def retainRefD {K : Type} (d : Dtor σ V) (f : σ → K → V → σ × V × Option Bool) :
    List (K × V) → σ → RetainOut (List (K × V)) σ V
  | [], st => ⟨[], st, false, []⟩
  | (k, v) :: l, st =>
    match f st k v with
    | (st', v', none) => ⟨(k, v') :: l, st', true, []⟩
    | (st', v', some true) =>
      let r := retainRefD d f l st'
      ⟨(k, v') :: r.s, r.st, r.panicked, r.dropped⟩
    | (st', v', some false) =>
      if (d st' v').2 then ⟨l, (d st' v').1, true, [v']⟩
      else
        let r := retainRefD d f l (d st' v').1
        ⟨r.s, r.st, r.panicked, v' :: r.dropped⟩

end FixedMap
