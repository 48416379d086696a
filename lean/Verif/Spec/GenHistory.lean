import Verif.Model.GenEntry
import Verif.Spec.GenUnits
import Verif.Spec.Gen
import Verif.Spec.FinMap

/-! # Histories of calls on the emitted map storage, against an association list -/

set_option autoImplicit false

namespace FixedMap.Gen

/-- Calls on the storage; keys (values of the enum) are of type `D`. -/
inductive GenOp (D V : Type) where
  | insert (k : D) (v : V)
  | remove (k : D)
  | get (k : D)
  | containsKey (k : D)
  /-- `if let Some(x) = s.get_mut(k) { *x = v; }`, and the old value -/
  | set (k : D) (v : V)
  /-- `match s.entry(k) { Occupied(mut e) => Some(e.insert(v)), Vacant(e) => { e.insert(v); None } }` -/
  | entryInsert (k : D) (v : V)
  /-- `match s.entry(k) { Occupied(e) => Some(e.remove()), Vacant(_) => None }` -/
  | entryRemove (k : D)
  | len
  | isEmpty
  | clear

def GenOp.key? {D V : Type} : GenOp D V → Option D
  | .insert k _ | .remove k | .get k | .containsKey k | .set k _ | .entryInsert k _ | .entryRemove k => some k
  | _ => none

/-- What a call returns. -/
inductive GenOut (V : Type) where
  | unit
  | bool (b : Bool)
  | nat (n : Nat)
  | opt (o : Option V)
deriving DecidableEq

section
variable {D V : Type} [DecidableEq D]

/-- One call on an association list with distinct keys. -/
def refGen (l : List (D × V)) : GenOp D V → GenOut V × List (D × V)
  | .insert k v => (.opt (FinMap.get l k), FinMap.put l k v)
  | .remove k => (.opt (FinMap.get l k), FinMap.erase l k)
  | .get k => (.opt (FinMap.get l k), l)
  | .containsKey k => (.bool (FinMap.get l k).isSome, l)
  | .set k v => (.opt (FinMap.get l k), if (FinMap.get l k).isSome then FinMap.put l k v else l)
  | .entryInsert k v => (.opt (FinMap.get l k), FinMap.put l k v)
  | .entryRemove k => (.opt (FinMap.get l k), FinMap.erase l k)
  | .len => (.nat l.length, l)
  | .isEmpty => (.bool l.isEmpty, l)
  | .clear => (.unit, [])

def refGenRun : List (GenOp D V) → List (D × V) → List (GenOut V)
  | [], _ => []
  | op :: ops, l => (refGen l op).1 :: refGenRun ops (refGen l op).2

end

variable {H : HashbrownApi} {V : Type}

/-- Results of expressions that are not references. -/
def Val.out : Val H V → Option (GenOut V)
  | .bool b => some (.bool b)
  | .nat n => some (.nat n)
  | .optVal o => some (.opt o)
  | _ => none

/-- `none` if the emitted code is stuck, panics or has undefined behaviour. -/
def resOk {α : Type} : Option (Res α) → Option α
  | some (.ok a) => some a
  | _ => none

/-- One call on the emitted code. -/
def genStep (C : MapCode) (E : EntryCode) (S : Struct H V) : GenOp DynKey V → Option (GenOut V × Struct H V)
  | .insert k v => (C.insert.run [.key k, .val v] S).bind fun p => p.1.out.map fun o => (o, p.2)
  | .remove k => (C.remove.run [.key k] S).bind fun p => p.1.out.map fun o => (o, p.2)
  | .get k => (C.get.run [.key k] S).bind fun p => p.1.out.map fun o => (o, p.2)
  | .containsKey k => (C.containsKey.run [.key k] S).bind fun p => p.1.out.map fun o => (o, p.2)
  | .set k v =>
    (C.getMut.run [.key k] S).bind fun p =>
      match p.1 with
      | .optAddr none => some (.opt none, p.2)
      | .optAddr (some a) => (readAddr p.2 a).map fun old => (.opt (some old), writeAddr p.2 a v)
      | _ => none
  | .entryInsert k v =>
    (resOk (E.runEntry k S)).bind fun p =>
      match p.1 with
      | .inl e => (resOk (E.runOcc E.occInsert [("value", v)] e p.2)).bind fun
        | (.val old, S) => some (.opt (some old), S)
        | _ => none
      | .inr e => (resOk (E.runVac E.vacInsert [("value", v)] e p.2)).bind fun
        | (.addr _, S) => some (.opt none, S)
        | _ => none
  | .entryRemove k =>
    (resOk (E.runEntry k S)).bind fun p =>
      match p.1 with
      | .inl e => (resOk (E.runOcc E.occRemove [] e p.2)).bind fun
        | (.val old, S) => some (.opt (some old), S)
        | _ => none
      | .inr _ => some (.opt none, p.2)
  | .len => (eval [] C.len S).bind fun p => p.1.out.map fun o => (o, p.2)
  | .isEmpty => (eval [] C.isEmpty S).bind fun p => p.1.out.map fun o => (o, p.2)
  | .clear => (runClear C.clear S).map fun p => (.unit, p.1)

def genRun (C : MapCode) (E : EntryCode) : List (GenOp DynKey V) → Struct H V → Option (List (GenOut V))
  | [], _ => some []
  | op :: ops, S => (genStep C E S op).bind fun p => (genRun C E ops p.2).map (p.1 :: ·)

end FixedMap.Gen

namespace FixedMap.GenUnits

open Gen (GenOp GenOut resOk)

variable {V : Type}

/-- Results of expressions that are not references. -/
def Val.out : Val V → Option (GenOut V)
  | .bool b => some (.bool b)
  | .nat n => some (.nat n)
  | .optVal o => some (.opt o)
  | _ => none

/-- One call on the code emitted for a unit enum; a key is the name of a variant. -/
def genStep (C : MapCode) (D : Data V) : GenOp String V → Option (GenOut V × Data V)
  | .insert k v => (resOk (C.insert.run [.key k, .val v] D)).bind fun p => p.1.out.map fun o => (o, p.2)
  | .remove k => (resOk (C.remove.run [.key k] D)).bind fun p => p.1.out.map fun o => (o, p.2)
  | .get k => (resOk (C.get.run [.key k] D)).bind fun p => p.1.out.map fun o => (o, p.2)
  | .containsKey k => (resOk (C.containsKey.run [.key k] D)).bind fun p => p.1.out.map fun o => (o, p.2)
  | .set k v =>
    (resOk (C.getMut.run [.key k] D)).bind fun p =>
      match p.1 with
      | .optAddr none => some (.opt none, p.2)
      | .optAddr (some i) => (slotAt p.2 i).bind fun o => o.map fun old => (.opt (some old), p.2.set i (.slot (some v)))
      | _ => none
  | .entryInsert k v =>
    (resOk (C.entry.run [.key k] D)).bind fun p =>
      match p.1 with
      | .occupied e => (resOk (e.insert p.2 v)).map fun q => (.opt (some q.1), q.2)
      | .vacant e => (resOk (e.vacInsert p.2 v)).map fun q => (.opt none, q.2)
      | _ => none
  | .entryRemove k =>
    (resOk (C.entry.run [.key k] D)).bind fun p =>
      match p.1 with
      | .occupied e => (resOk (e.remove p.2)).map fun q => (.opt (some q.1), q.2)
      | .vacant _ => some (.opt none, p.2)
      | _ => none
  | .len => (resOk (C.len.run D)).bind fun p => p.1.out.map fun o => (o, p.2)
  | .isEmpty => (resOk (C.isEmpty.run D)).bind fun p => p.1.out.map fun o => (o, p.2)
  | .clear => (arrayLit C.count C.clear (.slot none)).map fun D => (.unit, D)

def genRun (C : MapCode) : List (GenOp String V) → Data V → Option (List (GenOut V))
  | [], _ => some []
  | op :: ops, D => (genStep C D op).bind fun p => (genRun C ops p.2).map (p.1 :: ·)

end FixedMap.GenUnits
