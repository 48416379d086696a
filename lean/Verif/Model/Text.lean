import Verif.Model.OrdHash

/-!
# serde and `Debug`
-/

set_option autoImplicit false

namespace FixedMap

/-! ## `serde::Serialize` / `Deserialize` (feature `serde`) -/

/-- `serde::Serializer` restricted to maps: `serialize_map(len)`, `SerializeMap::serialize_entry`, `end`. -/
structure MapSerializer (K V E Out : Type) : Type 1 where
  St : Type
  serialize_map : Option Nat → Except E St
  serialize_entry : St → K → V → Except E St
  finish : St → Except E Out

/-- `serde::Serializer` restricted to sequences. -/
structure SeqSerializer (T E Out : Type) : Type 1 where
  St : Type
  serialize_seq : Option Nat → Except E St
  serialize_element : St → T → Except E St
  finish : St → Except E Out

/-- The loop `for (k, v) in self { map.serialize_entry(&k, v)?; }` over the items of the iterator. -/
def serializeEntries {K V E Out : Type} (Z : MapSerializer K V E Out) :
    List (K × V) → Z.St → Except E Z.St
  | [], st => .ok st
  | p :: l, st =>
    match Z.serialize_entry st p.1 p.2 with
    | .error e => .error e
    | .ok st' => serializeEntries Z l st'

def serializeElements {T E Out : Type} (Z : SeqSerializer T E Out) : List T → Z.St → Except E Z.St
  | [], st => .ok st
  | p :: l, st =>
    match Z.serialize_element st p with
    | .error e => .error e
    | .ok st' => serializeElements Z l st'

/-- `Serialize for Map`, map.rs 1391-1404. `none` = out of fuel (see `IterImpl.drain`); the loop iterates
over `&self` (map.rs 1256). -/
def Map.serialize {K V E Out : Type} (M : MapStorage K V) (Z : MapSerializer K V E Out) (fuel : Nat)
    (m : M.S) : Option (Except E Out) :=
  match Z.serialize_map (some (Map.len M m)) with
  | .error e => some (.error e)
  | .ok st =>
    ((Map.refIntoIter M).I.drain fuel ((Map.refIntoIter M).init m)).map fun l =>
      match serializeEntries Z l st with
      | .error e => .error e
      | .ok st' => Z.finish st'

/-- `Serialize for Set`, set.rs 1010-1023. -/
def FSet.serialize {T E Out : Type} (M : SetStorage T) (Z : SeqSerializer T E Out) (fuel : Nat)
    (s : M.S) : Option (Except E Out) :=
  match Z.serialize_seq (some (FSet.len M s)) with
  | .error e => some (.error e)
  | .ok st =>
    ((FSet.refIntoIter M).I.drain fuel ((FSet.refIntoIter M).init s)).map fun l =>
      match serializeElements Z l st with
      | .error e => .error e
      | .ok st' => Z.finish st'

/-- `visit_map`, map.rs 1432-1443, on the results of the successive `next_entry()` calls: `ok (some p)` an
entry, `error` an error; the end of the list stands for `ok none`. Second component of the success:
values dropped because of duplicate keys. -/
def Map.visitMap {K V E : Type} (M : MapStorage K V) (calls : List (Except E (K × V))) : Except E (M.S × List V) :=
  go (Map.new M) [] calls
where
  go (m : M.S) (dropped : List V) : List (Except E (K × V)) → Except E (M.S × List V)
  | [] => .ok (m, dropped)
  | .error e :: _ => .error e
  | .ok p :: l => go (Map.insert M m p.1 p.2).2 (dropped ++ (Map.insert M m p.1 p.2).1.toList) l

/-- `visit_seq`, set.rs 1049-1060. -/
def FSet.visitSeq {T E : Type} (M : SetStorage T) (calls : List (Except E T)) : Except E M.S :=
  go (FSet.new M) calls
where
  go (s : M.S) : List (Except E T) → Except E M.S
  | [] => .ok s
  | .error e :: _ => .error e
  | .ok x :: l => go (FSet.insert M s x).2 l

/-! ## `Debug` without `#`: the builders of core::fmt -/

/-- `core::fmt::{DebugInner, DebugMap}`: the text written so far and `has_fields`. -/
structure DebugBuilder where
  text : String
  hasFields : Bool

/-- `f.debug_map()`, `f.debug_set()`: write `{`. -/
def DebugBuilder.brace : DebugBuilder := ⟨"{", false⟩
/-- `f.debug_list()`: write `[`. -/
def DebugBuilder.bracket : DebugBuilder := ⟨"[", false⟩
/-- `DebugMap::entry` = `key` then `value`. -/
def DebugBuilder.entry (b : DebugBuilder) (k v : String) : DebugBuilder :=
  ⟨(if b.hasFields then b.text ++ ", " else b.text) ++ k ++ ": " ++ v, true⟩
/-- `DebugInner::entry` (sets and lists). -/
def DebugBuilder.item (b : DebugBuilder) (x : String) : DebugBuilder :=
  ⟨(if b.hasFields then b.text ++ ", " else b.text) ++ x, true⟩
/-- `DebugMap::finish`, `DebugSet::finish`: write `}`. -/
def DebugBuilder.finishBrace (b : DebugBuilder) : String := b.text ++ "}"
/-- `DebugList::finish`: write `]`. -/
def DebugBuilder.finishBracket (b : DebugBuilder) : String := b.text ++ "]"

/-- `Debug for Map`, map.rs 963-965: `f.debug_map().entries(self.iter()).finish()`. `fk`, `fv` are the `Debug` texts of keys and
values. -/
def Map.debug {K V : Type} (M : MapStorage K V) (fk : K → String) (fv : V → String) (fuel : Nat)
    (m : M.S) : Option String :=
  ((Map.iter M).I.drain fuel ((Map.iter M).init m)).map fun l =>
    (l.foldl (fun b p => DebugBuilder.entry b (fk p.1) (fv p.2)) DebugBuilder.brace).finishBrace

/-- `Debug for Set`, set.rs 634-636: `f.debug_set().entries(self.iter()).finish()`. -/
def FSet.debug {T : Type} (M : SetStorage T) (f : T → String) (fuel : Nat) (s : M.S) : Option String :=
  ((FSet.iter M).I.drain fuel ((FSet.iter M).init s)).map fun l =>
    (l.foldl (fun b x => DebugBuilder.item b (f x)) DebugBuilder.brace).finishBrace

/-- `Debug for Intersection`, intersection.rs 94-96: lists a clone of the iterator. -/
def Intersection.debug {T : Type} (M : SetStorage T) (f : T → String) (fuel : Nat) (st : Intersection M) :
    Option String :=
  (Intersection.toList M fuel fuel st).map fun l =>
    (l.foldl (fun b x => DebugBuilder.item b (f x)) DebugBuilder.bracket).finishBracket

/-! ## `Debug` with any formatter -/

/-- A formatter with its flags (`{:#?}`, width, …), the `Debug` impls of the items and a sink that may fail: `start` is
`f.debug_map()` (or `debug_set`, `debug_list`), `entry` one call of `entry`, `finish` the `fmt::Result` and what was written. -/
structure DebugApi (α Out : Type) : Type 1 where
  St : Type
  start : St
  entry : St → α → St
  finish : St → Out

/-- `DebugMap::entries` and the like: one `entry` per item of the iterator. -/
def DebugApi.entries {α Out : Type} (D : DebugApi α Out) (l : List α) : Out := D.finish (l.foldl D.entry D.start)

/-- map.rs 963-965 -/
def Map.debugWith {K V Out : Type} (M : MapStorage K V) (D : DebugApi (K × V) Out) (fuel : Nat) (m : M.S) : Option Out :=
  ((Map.iter M).I.drain fuel ((Map.iter M).init m)).map D.entries

/-- set.rs 634-636 -/
def FSet.debugWith {T Out : Type} (M : SetStorage T) (D : DebugApi T Out) (fuel : Nat) (s : M.S) : Option Out :=
  ((FSet.iter M).I.drain fuel ((FSet.iter M).init s)).map D.entries

/-- intersection.rs 94-96 -/
def Intersection.debugWith {T Out : Type} (M : SetStorage T) (D : DebugApi T Out) (fuel : Nat) (st : Intersection M) :
    Option Out :=
  (Intersection.toList M fuel fuel st).map D.entries

end FixedMap
