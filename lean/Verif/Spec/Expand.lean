import Verif.Model.Expand
import Verif.Spec.Derive
import Verif.Spec.GenHistory
import Verif.Spec.SetQuirks

/-!
# Specification of the derive as a whole

Values of the enum, calls on maps and sets that use the emitted code, and ordinary finite sets to compare with
(`Spec/GenHistory.lean` has the finite maps).
-/

set_option autoImplicit false

namespace FixedMap.Derive

open Gen (DynKey GenOp GenOut resOk)

/-! ## The item -/

/-- The shape of the fields, without types. -/
def SynFields.shape : SynFields → VariantFields
  | .unit => .unit
  | .unnamed elems => .unnamed elems.length
  | .named fields => .named fields.length

/-- The item without names and types. -/
def Ast.shape (ast : Ast) : Input where
  attrs := ast.attrs
  data := match ast.data with
    | .enum variants => .enum (variants.map (·.fields.shape))
    | .struct => .struct
    | .union => .union

/-- `d` is a value of this variant, without or with one payload. -/
def SynVariant.HasValue (v : SynVariant) (d : DynKey) : Prop :=
  d.var = v.ident ∧
    match v.fields with
    | .unit => d.arg = none
    | .unnamed [κ] => ∃ k : κ.Key, d.arg = some ⟨κ, k⟩
    | _ => False

/-- `d` is a value of the enum. -/
def IsValue (vs : List SynVariant) (d : DynKey) : Prop := ∃ v ∈ vs, v.HasValue d

/-- rustc accepts names of variants only if they are distinct (E0428). -/
def DistinctNames (vs : List SynVariant) : Prop := (vs.map (·.ident)).Nodup

/-- Every payload type satisfies `P`. -/
def AllPayloads (P : KeyTy → Prop) (vs : List SynVariant) : Prop :=
  ∀ v ∈ vs, ∀ elems, v.fields = .unnamed elems → ∀ κ ∈ elems, P κ

/-- The emitted code is of the kind that `derive` decided on. -/
def Items.HasShape : Items → Code → Prop
  | .units map set, .units n none => map.count = n ∧ set.count = n
  | .bits map set, .units n (some w) => map.count = n ∧ set.width = w
  | .any map _ _ set _, .any fields =>
    map.decls.map Prod.fst = fields.map (fun f => Gen.fieldName f.1) ∧
    set.decls.map Prod.fst = fields.map (fun f => Gen.fieldName f.1) ∧
    map.decls.map (fun d => match d.2 with | .slot => Kind.simple | _ => .complex) = fields.map Prod.snd ∧
    set.decls.map (fun d => match d.2 with | .flag => Kind.simple | _ => .complex) = fields.map Prod.snd
  | _, _ => False

/-- The variants named in the patterns of each emitted `match` on a value of the enum. -/
def Items.matches : Items → List (List String)
  | .units map set =>
    [map.insert, map.containsKey, map.get, map.getMut, map.remove, map.entry, set.insert, set.contains, set.remove].map
      fun f => f.arms.map Prod.fst
  | .bits map set =>
    set.toBits.map Prod.fst ::
      [map.insert, map.containsKey, map.get, map.getMut, map.remove, map.entry].map fun f => f.arms.map Prod.fst
  | .any map _ entry set _ =>
    entry.entry.map (·.1.variant) ::
      [map.insert, map.containsKey, map.get, map.getMut, map.remove, set.insert, set.contains, set.remove].map
        fun f => f.arms.map (·.1.variant)

/-- Every emitted `match` has an arm for every variant; rustc rejects others (E0004). -/
def Items.Exhaustive (i : Items) (vs : List SynVariant) : Prop := ∀ vars ∈ i.matches, ∀ v ∈ vs, v.ident ∈ vars

/-! ## Maps -/

/-- In a unit enum the value is the variant. -/
def unitKey (d : DynKey) : Option String := if d.arg.isNone then some d.var else none

/-- The call with the key given by the name of the variant. -/
def unitOp {V : Type} : GenOp DynKey V → Option (GenOp String V)
  | .insert k v => (unitKey k).map fun k => .insert k v
  | .remove k => (unitKey k).map .remove
  | .get k => (unitKey k).map .get
  | .containsKey k => (unitKey k).map .containsKey
  | .set k v => (unitKey k).map fun k => .set k v
  | .entryInsert k v => (unitKey k).map fun k => .entryInsert k v
  | .entryRemove k => (unitKey k).map .entryRemove
  | .len => some .len
  | .isEmpty => some .isEmpty
  | .clear => some .clear

/-- Calls on the map of a unit enum, one after the other, from `Map::new()` on. -/
def unitsMapRun {V : Type} (map : GenUnits.MapCode) (ops : List (GenOp DynKey V)) : Option (List (GenOut V)) :=
  (ops.mapM unitOp).bind fun ops => (GenUnits.arrayLit map.count map.empty (.slot none)).bind (GenUnits.genRun map ops)

/-- Calls on the map, one after the other, from `Map::new()` on: what they return. -/
def Items.mapRun (H : HashbrownApi) (V : Type) : Items → List (GenOp DynKey V) → Option (List (GenOut V))
  | .units map _, ops => unitsMapRun map ops
  | .bits map _, ops => unitsMapRun map ops
  | .any map _ entry _ _, ops =>
    (Gen.runEmpty (H := H) (V := V) map.decls map.empty).bind (Gen.genRun map entry ops)

/-! ## Sets -/

/-- Calls on a set. -/
inductive GenSetOp where
  | insert (k : DynKey)
  | remove (k : DynKey)
  | contains (k : DynKey)
  | len
  | isEmpty
  | clear
deriving DecidableEq

def GenSetOp.key? : GenSetOp → Option DynKey
  | .insert k | .remove k | .contains k => some k
  | _ => none

/-- What a call returns. -/
inductive SetOut where
  | unit
  | bool (b : Bool)
  | nat (n : Nat)
deriving DecidableEq

/-- One call on an ordinary set, given as a list without duplicates. -/
def refSet (l : List DynKey) : GenSetOp → SetOut × List DynKey
  | .insert k => (.bool (k ∉ l), if k ∈ l then l else k :: l)
  | .remove k => (.bool (k ∈ l), l.filter (· ≠ k))
  | .contains k => (.bool (k ∈ l), l)
  | .len => (.nat l.length, l)
  | .isEmpty => (.bool l.isEmpty, l)
  | .clear => (.unit, [])

def refSetRun : List GenSetOp → List DynKey → List SetOut
  | [], _ => []
  | op :: ops, l => (refSet l op).1 :: refSetRun ops (refSet l op).2

/-- What the answers of `contains` and `len` are among the results; the others are hidden. -/
def contentsOnly (ops : List GenSetOp) (outs : List SetOut) : List SetOut :=
  List.zipWith (fun op o => match op with
    | .contains _ => o
    | .len => o
    | _ => .unit) ops outs

/-- A set that uses the emitted code. -/
structure SetMachine where
  St : Type
  init : Option St
  step : St → GenSetOp → Option (SetOut × St)

def SetMachine.runFrom (m : SetMachine) : List GenSetOp → m.St → Option (List SetOut)
  | [], _ => some []
  | op :: ops, s => (m.step s op).bind fun p => (m.runFrom ops p.2).map (p.1 :: ·)

/-- Calls on the set, one after the other, from `Set::new()` on: what they return. -/
def SetMachine.run (m : SetMachine) (ops : List GenSetOp) : Option (List SetOut) := m.init.bind (m.runFrom ops)

def genOut {H : HashbrownApi} {V : Type} : Gen.Val H V → Option SetOut
  | .bool b => some (.bool b)
  | .nat n => some (.nat n)
  | _ => none

def unitsOut {V : Type} : GenUnits.Val V → Option SetOut
  | .bool b => some (.bool b)
  | .nat n => some (.nat n)
  | _ => none

/-- The set of a unit enum. -/
def unitsMachine (set : GenUnits.SetCode) : SetMachine where
  St := GenUnits.Data Unit
  init := GenUnits.arrayLit set.count set.empty (.flag false)
  step D
    | .insert k => (unitKey k).bind fun k => (resOk (set.insert.run [.key k] D)).bind fun p =>
        (unitsOut p.1).map fun o => (o, p.2)
    | .remove k => (unitKey k).bind fun k => (resOk (set.remove.run [.key k] D)).bind fun p =>
        (unitsOut p.1).map fun o => (o, p.2)
    | .contains k => (unitKey k).bind fun k => (resOk (set.contains.run [.key k] D)).bind fun p =>
        (unitsOut p.1).map fun o => (o, p.2)
    | .len => (resOk (set.len.run D)).bind fun p => (unitsOut p.1).map fun o => (o, p.2)
    | .isEmpty => (resOk (set.isEmpty.run D)).bind fun p => (unitsOut p.1).map fun o => (o, p.2)
    | .clear => (GenUnits.arrayLit set.count set.clear (.flag false)).map fun D => (.unit, D)

/-- The set of a unit enum with `#[key(bitset)]`. -/
def bitsMachine (set : GenUnits.BitsetCode) : SetMachine where
  St := BitVec set.width
  init := some set.empty
  step s
    | .insert k => (unitKey k).bind fun k => (set.insert s k).map fun p => (.bool p.1, p.2)
    | .remove k => (unitKey k).bind fun k => (set.remove s k).map fun p => (.bool p.1, p.2)
    | .contains k => (unitKey k).bind fun k => (set.contains s k).map fun b => (.bool b, s)
    | .len => some (.nat (set.len s), s)
    | .isEmpty => some (.bool (set.isEmpty s), s)
    | .clear => some (.unit, set.empty)

/-- The set of an enum with payloads. -/
def anyMachine (H : HashbrownApi) (set : Gen.SetCode) : SetMachine where
  St := Gen.Struct H Unit
  init := Gen.runEmpty set.decls set.empty
  step S
    | .insert k => (set.insert.run [.key k] S).bind fun p => (genOut p.1).map fun o => (o, p.2)
    | .remove k => (set.remove.run [.key k] S).bind fun p => (genOut p.1).map fun o => (o, p.2)
    | .contains k => (set.contains.run [.key k] S).bind fun p => (genOut p.1).map fun o => (o, p.2)
    | .len => (Gen.eval [] set.len S).bind fun p => (genOut p.1).map fun o => (o, p.2)
    | .isEmpty => (Gen.eval [] set.isEmpty S).bind fun p => (genOut p.1).map fun o => (o, p.2)
    | .clear => (Gen.runClear set.clear S).map fun p => (.unit, p.1)

/-- The set of the enum. -/
def Items.setMachine (H : HashbrownApi) : Items → SetMachine
  | .units _ set => unitsMachine set
  | .bits _ set => bitsMachine set
  | .any _ _ _ set _ => anyMachine H set

/-! ## What calls on sets answer, exactly

Like `refSet`, but with the deviations of the sets of the payloads (`Spec/SetQuirks.lean`). -/

/-- `insert` answers the wrong way round for this value: its payload is or contains a `bool` or `None`. -/
def inverted (d : DynKey) : Bool :=
  match d.arg with
  | none => false
  | some ⟨κ, k⟩ => κ.insertInverted k

/-- `remove` of this value answers whether any of these is present. -/
def siblings (d : DynKey) : List DynKey :=
  match d.arg with
  | none => [d]
  | some ⟨κ, k⟩ => (κ.siblings k).map fun k => ⟨d.var, some ⟨κ, k⟩⟩

/-- `is_empty` takes the variant for absent from the set with the elements `P`. -/
def SynVariant.saysEmpty (v : SynVariant) (P : DynKey → Prop) : Prop :=
  match v.fields with
  | .unit => ¬P ⟨v.ident, none⟩
  | .unnamed [κ] => κ.saysEmpty fun k => P ⟨v.ident, some ⟨κ, k⟩⟩
  | _ => True

/-- The call answers `o` if the set has the elements `l`. -/
def Answers (vs : List SynVariant) (l : List DynKey) : GenSetOp → SetOut → Prop
  | .insert k, o => ∃ b, o = .bool b ∧ (b = true ↔ (k ∈ l ↔ inverted k = true))
  | .remove k, o => ∃ b, o = .bool b ∧ (b = true ↔ ∃ d ∈ siblings k, d ∈ l)
  | .contains k, o => o = .bool (k ∈ l)
  | .len, o => o = .nat l.length
  | .isEmpty, o => ∃ b, o = .bool b ∧ (b = true ↔ ∀ v ∈ vs, v.saysEmpty (· ∈ l))
  | .clear, o => o = .unit

/-- The calls answer `outs`, one after the other; the elements change as those of an ordinary set. -/
def AnswersAll (vs : List SynVariant) : List GenSetOp → List SetOut → List DynKey → Prop
  | [], outs, _ => outs = []
  | op :: ops, outs, l => ∃ o rest, outs = o :: rest ∧ Answers vs l op o ∧ AnswersAll vs ops rest (refSet l op).2

end FixedMap.Derive
