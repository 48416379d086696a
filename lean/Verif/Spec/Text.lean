import Verif.Model.Text

/-! # Specification of serialized and printed forms -/

set_option autoImplicit false

namespace FixedMap

/-- Feed a serializer with a map of the given entries: announce their number, emit them in order, end; stop at the first error. -/
def MapSerializer.feed {K V E Out : Type} (Z : MapSerializer K V E Out) (l : List (K × V)) : Except E Out := do
  let st ← Z.serialize_map (some l.length)
  let st ← l.foldlM (fun st p => Z.serialize_entry st p.1 p.2) st
  Z.finish st

/-- Likewise a sequence. -/
def SeqSerializer.feed {T E Out : Type} (Z : SeqSerializer T E Out) (l : List T) : Except E Out := do
  let st ← Z.serialize_seq (some l.length)
  let st ← l.foldlM Z.serialize_element st
  Z.finish st

/-- A serializer that records what it is given: the announced length and the entries encoded. -/
def recordMap {K V W : Type} (encK : K → W) (encV : V → W) : MapSerializer K V Empty (Option Nat × List (W × W)) where
  St := Option Nat × List (W × W)
  serialize_map n := .ok (n, [])
  serialize_entry st k v := .ok (st.1, st.2 ++ [(encK k, encV v)])
  finish st := .ok st

/-- Likewise for sequences. -/
def recordSeq {T W : Type} (enc : T → W) : SeqSerializer T Empty (Option Nat × List W) where
  St := Option Nat × List W
  serialize_seq n := .ok (n, [])
  serialize_element st x := .ok (st.1, st.2 ++ [enc x])
  finish st := .ok st

/-- Decode a recorded entry. -/
def decodeEntry {K V W E : Type} (decK : W → Except E K) (decV : W → Except E V) (p : W × W) : Except E (K × V) := do
  let k ← decK p.1
  let v ← decV p.2
  return (k, v)

/-- Texts separated by commas. -/
def listed : List String → String
  | [] => ""
  | [a] => a
  | a :: b :: l => a ++ ", " ++ listed (b :: l)

end FixedMap
