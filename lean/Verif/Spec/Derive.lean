import Verif.Model.Derive

/-! # Specification: which derive inputs are supported -/

set_option autoImplicit false

namespace FixedMap.Derive

/-- A unit variant or a tuple variant with one field. -/
def VariantFields.supported : VariantFields → Prop
  | .unit => True
  | .unnamed n => n = 1
  | .named _ => False

/-- `#[key(bitset, bitset, ...)]`. -/
def KeyAttr.supported : KeyAttr → Prop
  | .list items => ∀ m ∈ items, m = .bitset
  | .notAList => False

/-- `bitset` occurs in some `#[key(..)]`, before anything unsupported in the same attribute. -/
def asksBitset (attrs : List KeyAttr) : Prop :=
  ∃ items, KeyAttr.list items ∈ attrs ∧ .bitset ∈ items.takeWhile (· == .bitset)

/-- A bitset enum with too many variants. -/
def tooLarge (attrs : List KeyAttr) (vs : List VariantFields) : Prop :=
  asksBitset attrs ∧ (∀ v ∈ vs, v = .unit) ∧ 128 < vs.length

/-- rustc accepts the enum with its derive: the macro produced code, which covers all variants. -/
def Accepted (attrs : List KeyAttr) (vs : List VariantFields) : Prop :=
  ∃ c, derive ⟨attrs, .enum vs⟩ = .code c ∧ exhaustive vs c = true

/-- The macro itself reports errors. -/
def Diagnosed (input : Input) : Prop := ∃ d l, derive input = .compileErrors (d :: l)

end FixedMap.Derive
