import Verif.Model.Macro
import Verif.Spec.EmitUnits
import Verif.Spec.Emit

/-!
# What the macro is to write
-/

set_option autoImplicit false

namespace FixedMap.Emit.Macro

open FixedMap.Derive (Meta KeyAttr Items Expansion Diag)

/-! ## Attributes -/

/-- The tokens of a path. -/
def Path.toks (p : Path) : Toks := (if p.leading then ["::"] else []) ++ sepBy ["::"] (p.segments.map fun s => [s])

/-- A path that can be written. -/
def Path.Valid (E : Env) (p : Path) : Prop := p.segments ≠ [] ∧ ∀ s ∈ p.segments, E.isIdent s = true

/-- The path `bitset`. -/
def bitset : Path := ⟨false, ["bitset"]⟩

/-- The path `key`. -/
def key : Path := ⟨false, ["key"]⟩

/-- `::` is not an identifier. -/
def Env.Ok (E : Env) : Prop := E.isIdent "::" = false

/-- The tokens start with this path, and it goes no further. -/
def Starts (E : Env) (ts : Toks) (p : Path) (rest : Toks) : Prop := p.Valid E ∧ ts = p.toks ++ rest ∧ rest.head? ≠ some "::"

/-- What is in the parentheses of `#[key(..)]`: items with commas between them, and a comma after the last one if one likes. Reading stops at the first item that is not
`bitset`. -/
inductive Reads (E : Env) : Toks → List Meta → Prop
  | one {ts} : Starts E ts bitset [] → Reads E ts [.bitset]
  | comma {ts} : Starts E ts bitset [","] → Reads E ts [.bitset]
  | more {ts us l} : Starts E ts bitset ("," :: us) → us ≠ [] → Reads E us l → Reads E ts (.bitset :: l)
  | unsupported {ts p rest} : Starts E ts p rest → p ≠ bitset → Reads E ts [.unsupported]
  | junk {ts t rest} : Starts E ts bitset (t :: rest) → t ≠ "," → Reads E ts [.bitset, .syntaxError]
  | noPath {ts} : (∀ p rest, ¬Starts E ts p rest) → Reads E ts [.syntaxError]

/-- What the `#[key]` attributes of an item say; other attributes are none of our business. -/
inductive AttrsRead (E : Env) : List Attr → List KeyAttr → Prop
  | nil : AttrsRead E [] []
  | other {a l ks} : a.path ≠ key → AttrsRead E l ks → AttrsRead E (a :: l) ks
  | empty {l ks} : AttrsRead E l ks → AttrsRead E (⟨key, .list []⟩ :: l) (.list [] :: ks)
  | list {ts ms l ks} : ts ≠ [] → Reads E ts ms → AttrsRead E l ks → AttrsRead E (⟨key, .list ts⟩ :: l) (.list ms :: ks)
  | bare {l ks} : AttrsRead E l ks → AttrsRead E (⟨key, .none⟩ :: l) (.notAList :: ks)
  | value {ts l ks} : AttrsRead E l ks → AttrsRead E (⟨key, .nameValue ts⟩ :: l) (.notAList :: ks)

/-! ## Items -/

/-- The tokens of the fields, if types are written like this. -/
def fieldsToks (el : KeyTy → Toks) : Derive.SynFields → Fields
  | .unit => .unit
  | .unnamed l => .unnamed (l.map el)
  | .named l => .named (l.map fun p => (p.1, el p.2))

def dataToks (el : KeyTy → Toks) : Derive.SynData → Data
  | .enum vs => .enum (vs.map fun v => ⟨v.ident, fieldsToks el v.fields⟩)
  | .struct => .struct
  | .union => .union

/-- The tokens are this code, printed. -/
def Prints (cx : Cx) (el : KeyTy → Toks) (out : Toks) : Items → Prop
  | .units map set => out = Units.Print.code cx map (.inl set)
  | .bits map set => out = Units.Print.code cx map (.inr set)
  | .any map mapIter entry set setIter => ∃ c : Print.Code, out = Print.code cx el c ∧
      c.map = map ∧ c.mapIter = mapIter ∧ c.entry = entry ∧ c.set = set ∧ c.setIter = setIter ∧
      ∃ F, c.decls = Gen.genDecls F ∧ c.impls = Gen.genImpls F ∧ Gen.genMap F = map ∧ Gen.genSet F = set

/-- The last diagnostic. -/
def text (data : Derive.SynData) : String :=
  match data with
  | .enum vs => "only support up until 128 variants, got " ++ Nat.repr vs.length
  | _ => "named fields are not supported"

/-- `compile_error!` with a message. -/
def compileError (E : Env) (message : String) : Toks := quote! "::core::compile_error!" ++ ["{", E.lit message, "}"]

end FixedMap.Emit.Macro
