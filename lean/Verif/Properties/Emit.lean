import Verif.Proofs.Emit
import Verif.Proofs.EmitUnits

/-!
# C86: the modelled code is the code that is written

The properties of the emitted code (C50–C52, C77, C78, C83 and others) are about the data in `Model/Gen*.lean`. The derive does not produce data, it writes tokens, with templates.
`Model/Emit.lean` and `Model/EmitUnits.lean` have these templates as they are in the source. Here: what they write, with the enum filled in, is the data, printed token by token.
-/

set_option autoImplicit false

namespace FixedMap.Emit

/-- C86, enums with payloads: for all variants, however the enum is called and the payloads are written. -/
theorem C86_any (cx : Cx) (el : KeyTy → Toks) (vs : List Gen.Variant) :
    implement cx (variantsOf el vs) = Print.code cx el (codeOf (Gen.collect vs)) := implement_eq cx el vs

/-- C86, enums without payloads, with or without `#[key(bitset)]`; nothing is emitted if there is no code. -/
theorem C86_units (cx : Cx) (bitset : Bool) (en : List String) :
    Units.implement cx bitset en = (Units.setOf bitset en).map fun s => Units.Print.code cx (GenUnits.genMap en) s := Units.implement_eq cx bitset en

/-- The fields that `next_back` needs to be double-ended (`IterCode.bounds`) are those that the `where` clause asks it of. -/
theorem C86_bounds (F : Gen.FieldSet) :
    (∀ q, ∃ rest, Gen.mapBackPreds F q = ((Gen.genMapIter F q).bounds.map fun b => .has false (Gen.mapIterTy q b) .doubleEnded) ++ rest ∧ ∀ p ∈ rest, p = .outlives) ∧
    ∀ q, ∃ hr h, h ∈ Gen.setIterImpls F q ∧ h.tr = .doubleEnded ∧ h.preds = (Gen.genSetIter F q).bounds.map fun b => .has hr (Gen.setIterTy q b) .doubleEnded := by
  constructor
  · intro q
    refine ⟨if q = .intoIter then [] else [.outlives], ?_, ?_⟩
    · simp only [Gen.mapBackPreds, Gen.genMapIter, Gen.FieldSet.complex, List.map_filterMap]
      congr 2
      funext f
      cases h : f.kind <;> simp [Gen.mapIterBound, Gen.mapIterTy, h]
    · intro p hp
      split at hp <;> simp_all
  · intro q
    have hb : ∀ hr, ((Gen.genSetIter F q).bounds.map fun b => Gen.Pred.has hr (Gen.setIterTy q b) .doubleEnded) =
        F.complex.map fun κ => .has hr (.setIter κ q (q != .intoIter)) .doubleEnded := by
      intro hr
      simp only [Gen.genSetIter, Gen.FieldSet.complex, List.map_filterMap]
      congr 1
      funext f
      cases h : f.kind <;> simp [Gen.setIterBound, Gen.setIterTy, h]
    cases q with
    | iter => exact ⟨false, _, List.mem_cons_of_mem _ (List.mem_cons_of_mem _ (List.mem_cons_self ..)), rfl, (hb false).symm⟩
    | intoIter => exact ⟨true, _, List.mem_cons_of_mem _ (List.mem_cons_of_mem _ (List.mem_cons_self ..)), rfl, (hb true).symm⟩

/-- `#(..),*` puts the separator between the items, and nowhere else. -/
theorem C86_separators (sep : Toks) (l : List Toks) : sepBy sep l = sep.intercalate l := by
  induction l with
  | nil => rfl
  | cons x l ih =>
    cases l with
    | nil => simp [sepBy, List.intercalate]
    | cons y l =>
      rw [sepBy, ih]
      simp [List.intercalate, List.intersperse]

/-! ## Concrete cases -/

/-- `pub enum Part { One, Two(bool) }` -/
def exCx : Cx := ⟨["Part"], ["pub"], ["'a"]⟩

def exVs : List Gen.Variant := [⟨"One", none⟩, ⟨"Two", some .bool⟩]

def exEl : KeyTy → Toks
  | .bool => ["bool"]
  | _ => ["Sub"]

/-- A function of the code for it. -/
example : Print.matchFn exCx exEl "insert" (quote! "&mut self") [exCx.ident, ["V"]] (quote! "::core::option::Option<V>") (codeOf (Gen.collect exVs)).map.insert = quote! "
    #[inline]
    fn insert(&mut self, key: Part, value: V) -> ::core::option::Option<V> {
      match key {
        Part::One => ::core::option::Option::replace(&mut self._0, value),
        Part::Two(v) => <<bool as ::fixed_map::Key>::MapStorage::<V> as ::fixed_map::map::MapStorage<bool, V>>::insert(&mut self._1, v, value),
      }
    }" := rfl

/-- What is emitted for it begins with the struct. -/
example : (implement exCx (variantsOf exEl exVs)).take 44 = (quote! "
    const _: () = {
      pub struct __MapStorage<V> {
        _0: ::core::option::Option<V>,
        _1: <bool as ::fixed_map::Key>::MapStorage::<V>,
      }") := rfl

/-- A bitset with two variants. -/
example : ∃ c, Units.implement exCx true ["A", "B"] = some (Units.Print.code exCx (GenUnits.genMap ["A", "B"]) (.inr c)) ∧ c.toBits = [("A", 1), ("B", 2)] :=
  ⟨⟨8, _, _, _, _⟩, C86_units exCx true ["A", "B"], rfl⟩

/-- Too many variants for a bitset. -/
example (en : List String) (h : 128 < en.length) : Units.implement exCx true en = none := by
  have : determineBits en.length = none := by
    simp only [determineBits]
    repeat' split
    all_goals first | rfl | omega
  rw [C86_units]
  simp [Units.setOf, GenUnits.genBitset, this]

end FixedMap.Emit
