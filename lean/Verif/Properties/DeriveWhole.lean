import Verif.Properties.DeriveMain
import Verif.Properties.Expand
import Verif.Properties.Macro

/-!
# C101: from the text of the derive to the maps and sets of the user
-/

set_option autoImplicit false
set_option linter.unusedSimpArgs false

namespace FixedMap.DeriveText

open Emit (Toks)
open Emit.Macro (Attr AttrsRead Prints dataToks)
open Derive (KeyAttr SynVariant DistinctNames IsValue tooLarge)
open Gen (DynKey GenOp refGenRun)

/-- If the derive decides on code, then the text of the derive writes this code. -/
theorem text_prints (E : Emit.Macro.Env) (ok : E.Ok) (ident vis : Toks) (el : KeyTy → Toks) (attrs : List Attr) (ks : List KeyAttr) (h : AttrsRead E attrs ks)
    (data : Derive.SynData) (i : Derive.Items) (hi : Derive.expand ⟨ks, data⟩ = .items i) (n : Nat) :
    ∃ ts, expansion E (.ok ⟨ident, vis, attrs, dataToks el data⟩) (n + 100) = .tokens ts ∧ Prints ⟨ident, vis, ["'a"]⟩ el ts i := by
  have hm := Emit.Macro.C89_macro E ok ident vis el attrs ks h data
  rw [hi] at hm
  obtain ⟨ts, h1, h2⟩ := hm
  refine ⟨ts, ?_, h2⟩
  rw [C100_derive, h1]

/-- C101: for every supported enum, the text of the derive writes code that, used as a map, answers any history of calls like an association list. -/
theorem C101_map (H : Hashbrown) (V : Type) (E : Emit.Macro.Env) (ok : E.Ok) (ident vis : Toks) (el : KeyTy → Toks) (attrs : List Attr) (ks : List KeyAttr)
    (h : AttrsRead E attrs ks) (vs : List SynVariant) (hd : DistinctNames vs) (hs : ∀ v ∈ vs, v.fields.shape.supported)
    (hl : ¬tooLarge ks (vs.map (·.fields.shape))) (n : Nat) :
    ∃ ts i, expansion E (.ok ⟨ident, vis, attrs, dataToks el (.enum vs)⟩) (n + 100) = .tokens ts ∧ Prints ⟨ident, vis, ["'a"]⟩ el ts i ∧
      ∀ ops : List (GenOp DynKey V), (∀ op ∈ ops, ∀ d, op.key? = some d → IsValue vs d) → i.mapRun H.api V ops = some (refGenRun ops []) := by
  obtain ⟨i, hi, hr⟩ := C63_map_history H V ks vs hd hs hl
  obtain ⟨ts, h1, h2⟩ := text_prints E ok ident vis el attrs ks h _ i hi n
  exact ⟨ts, i, h1, h2, hr⟩

/-- C101: the same for sets: the elements are those of an ordinary set, and each call answers as described for its payload type. -/
theorem C101_set (H : Hashbrown) (E : Emit.Macro.Env) (ok : E.Ok) (ident vis : Toks) (el : KeyTy → Toks) (attrs : List Attr) (ks : List KeyAttr)
    (h : AttrsRead E attrs ks) (vs : List SynVariant) (hd : DistinctNames vs) (hs : ∀ v ∈ vs, v.fields.shape.supported)
    (hl : ¬tooLarge ks (vs.map (·.fields.shape))) (n : Nat) :
    ∃ ts i, expansion E (.ok ⟨ident, vis, attrs, dataToks el (.enum vs)⟩) (n + 100) = .tokens ts ∧ Prints ⟨ident, vis, ["'a"]⟩ el ts i ∧
      ∀ ops : List Derive.GenSetOp, (∀ op ∈ ops, ∀ d, op.key? = some d → IsValue vs d) →
        ∃ outs, (i.setMachine H.api).run ops = some outs ∧ Derive.AnswersAll vs ops outs [] := by
  obtain ⟨i, hi, hr⟩ := C63_set_exact H ks vs hd hs hl
  obtain ⟨ts, h1, h2⟩ := text_prints E ok ident vis el attrs ks h _ i hi n
  exact ⟨ts, i, h1, h2, hr⟩

/-- C101, enums with a payload: the text of the derive writes code whose iterators do, on every state of the storages, what those of the model do (C08 to C11 and C36 say what that is). -/
theorem C101_iter (H : HashbrownApi) (V : Type) (E : Emit.Macro.Env) (ok : E.Ok) (ident vis : Toks) (el : KeyTy → Toks) (attrs : List Attr) (ks : List KeyAttr)
    (h : AttrsRead E attrs ks) (vs : List SynVariant) (hs : ∀ v ∈ vs, v.fields.shape.supported) (hp : ∃ v ∈ vs, v.fields ≠ .unit) (n : Nat) :
    ∃ ts map mapIter entry set setIter, expansion E (.ok ⟨ident, vis, attrs, dataToks el (.enum vs)⟩) (n + 100) = .tokens ts ∧
      Prints ⟨ident, vis, ["'a"]⟩ el ts (.any map mapIter entry set setIter) ∧
      let us := vs.map (·.toVariant)
      let M := mapStorage H V (.enum (Gen.fieldsOf us))
      let N := setStorage H (.enum (Gen.fieldsOf us))
      (∀ s : M.S,
        let S := Gen.mapStruct (H := H) (V := V) (Gen.fieldsOf us) s
        (mapIter .iter).Does S M.iter.I (M.iter.init s) (fun p => .entry (Gen.dynKey us p.1) (.val p.2)) ∧
        (mapIter .keys).Does S M.keys.I (M.keys.init s) (fun k => .key (Gen.dynKey us k)) ∧
        (mapIter .values).Does S M.values.I (M.values.init s) (fun v => .value (.val v)) ∧
        (mapIter .iterMut).Does S M.iterMut.I (M.iterMut.init s) (fun p => .entry (Gen.dynKey us p.1) (.addr (Gen.dynAddr 0 (Gen.fieldsOf us) p.2))) ∧
        (mapIter .valuesMut).Does S M.valuesMut.I (M.valuesMut.init s) (fun a => .value (.addr (Gen.dynAddr 0 (Gen.fieldsOf us) a))) ∧
        (mapIter .intoIter).Does S M.intoIter.I (M.intoIter.init s) (fun p => .entry (Gen.dynKey us p.1) (.val p.2))) ∧
      ∀ s : N.S,
        let S := Gen.setStruct (H := H) V (Gen.fieldsOf us) s
        (setIter .iter).Does S N.iter.I (N.iter.init s) (fun k => .key (Gen.dynKey us k)) ∧
        (setIter .intoIter).Does S N.intoIter.I (N.intoIter.init s) (fun k => .key (Gen.dynKey us k)) := by
  obtain ⟨v, hv, hne⟩ := hp
  have hl : ¬tooLarge ks (vs.map (·.fields.shape)) := fun hl => hne <| (Derive.shape_unit _).1 (hl.2.1 _ (List.mem_map_of_mem hv))
  obtain ⟨i, hi, hc⟩ := Derive.expand_supported ks vs hs hl
  rcases hc with ⟨hu, -⟩ | ⟨hu, -⟩ | rfl
  · exact absurd (hu v hv) hne
  · exact absurd (hu v hv) hne
  · obtain ⟨ts, h1, h2⟩ := text_prints E ok ident vis el attrs ks h _ _ hi n
    exact ⟨ts, _, _, _, _, _, h1, h2, fun s => C61_map_iter H V _ s, fun s => C61_set_iter H V _ s⟩

/-- C101, enums without payloads: the same for the map storage, and for the set storage, which is an array without `#[key(bitset)]` and a word with it. -/
theorem C101_units_iter (V : Type) (E : Emit.Macro.Env) (ok : E.Ok) (ident vis : Toks) (el : KeyTy → Toks) (attrs : List Attr) (ks : List KeyAttr)
    (h : AttrsRead E attrs ks) (vs : List SynVariant) (hd : DistinctNames vs) (hu : ∀ v ∈ vs, v.fields = .unit) (hl : ¬tooLarge ks (vs.map (·.fields.shape))) (n : Nat) :
    let names := vs.map (·.ident)
    let M := unitsMap names.length V
    ∃ ts i map, expansion E (.ok ⟨ident, vis, attrs, dataToks el (.enum vs)⟩) (n + 100) = .tokens ts ∧ Prints ⟨ident, vis, ["'a"]⟩ el ts i ∧
      (∀ s : UnitsSt names.length V,
        map.iter.Does (GenUnits.slots s) M.iter.I (M.iter.init s) (fun p => .entry names[p.1] p.2) ∧
        map.keys.Does (GenUnits.slots s) M.keys.I (M.keys.init s) (fun k => .key names[k]) ∧
        map.values.Does (GenUnits.slots s) M.values.I (M.values.init s) .value ∧
        map.iterMut.Does (GenUnits.slots s) M.iterMut.I (M.iterMut.init s) (fun p => .entryMut names[p.1] p.2.val) ∧
        map.valuesMut.Does (GenUnits.slots s) M.valuesMut.I (M.valuesMut.init s) (fun i => .valueMut i.val) ∧
        map.intoIter.Does (GenUnits.slots s) M.intoIter.I (M.intoIter.init s) (fun p => .entry names[p.1] p.2)) ∧
      ((¬Derive.asksBitset ks ∧ ∃ set, i = .units map set ∧ ∀ s : UnitsSetSt names.length,
          let N := unitsSet names.length
          set.iter.Does (GenUnits.flags V s) N.iter.I (N.iter.init s) (fun k => .key names[k]) ∧
          set.intoIter.Does (GenUnits.flags V s) N.intoIter.I (N.intoIter.init s) (fun k => .key names[k])) ∨
        (Derive.asksBitset ks ∧ ∃ set, i = .bits map set ∧ ∀ s : BitVec set.width,
          let N := bitsetSet names.length set.width
          (∃ l, GenUnits.bitsetItems s set.iter = some l ∧
            GenUnits.Agree (flatIter id) (⟨none, l, none⟩ : FlatSt _ _) N.iter.I (N.iter.init s) (fun k => names[k])) ∧
          ∃ l, GenUnits.bitsetItems s set.intoIter = some l ∧
            GenUnits.Agree (flatIter id) (⟨none, l, none⟩ : FlatSt _ _) N.intoIter.I (N.intoIter.init s) (fun k => names[k]))) := by
  intro names M
  have ha : Derive.allUnit vs = true := (Derive.allUnit_iff vs).2 hu
  have hb := Derive.parseAttrs_bitset ks ⟨false, []⟩
  simp only [Bool.false_eq_true, false_or] at hb
  by_cases hk : Derive.asksBitset ks
  · cases hg : GenUnits.genBitset names with
    | none =>
      refine absurd ⟨hk, ?_, ?_⟩ hl
      · intro f hf
        obtain ⟨v, hv, rfl⟩ := List.mem_map.1 hf
        rw [hu v hv]
        rfl
      · have := (C62_bitset names hd).1.1 hg
        rw [List.length_map] at this ⊢
        exact this
    | some set =>
      have hi : Derive.expand ⟨ks, .enum vs⟩ = .items (.bits (GenUnits.genMap names) set) := by
        unfold Derive.expand Derive.expandUnits
        simp only [ha, if_true, hb.2 hk]
        rw [show GenUnits.genBitset (vs.map (·.ident)) = some set from hg]
      obtain ⟨ts, h1, h2⟩ := text_prints E ok ident vis el attrs ks h _ _ hi n
      refine ⟨ts, _, _, h1, h2, fun s => C62_map_iter V names s, .inr ⟨hk, set, rfl, fun s => ?_⟩⟩
      have := ((C62_bitset names hd).2 set hg).2 s
      exact ⟨this.2.2.2.2.2.2.1, this.2.2.2.2.2.2.2⟩
  · have hf : (Derive.parseAttrs ks ⟨false, []⟩).bitset = false := by
      cases e : (Derive.parseAttrs ks ⟨false, []⟩).bitset with
      | false => rfl
      | true => exact absurd (hb.1 e) hk
    have hi : Derive.expand ⟨ks, .enum vs⟩ = .items (.units (GenUnits.genMap names) (GenUnits.genSet names)) := by
      unfold Derive.expand Derive.expandUnits
      simp only [ha, if_true, hf, Bool.false_eq_true, if_false]
      rfl
    obtain ⟨ts, h1, h2⟩ := text_prints E ok ident vis el attrs ks h _ _ hi n
    refine ⟨ts, _, _, h1, h2, fun s => C62_map_iter V names s, .inl ⟨hk, _, rfl, fun s => ?_⟩⟩
    have := C62_set V names hd s
    exact ⟨this.2.2.2.2.2.2.1, this.2.2.2.2.2.2.2⟩

/-! ## Cases -/

/-- An enum with a unit variant, a `u8` and a `bool`, under `#[key(bitset, bitset)] #[key(other)]`. -/
example : Emit.Macro.exE.Ok ∧ AttrsRead Emit.Macro.exE Emit.Macro.exAttrs [.list [.bitset, .bitset], .list [.unsupported]] ∧
    DistinctNames exAst ∧ (∀ v ∈ exAst, v.fields.shape.supported) ∧ ¬tooLarge [.list [.bitset, .bitset], .list [.unsupported]] (exAst.map (·.fields.shape)) := by
  refine ⟨Emit.Macro.exE_ok, Emit.Macro.exAttrs_read, by unfold DistinctNames exAst; decide, fun v hv => ?_, fun h => by simpa [exAst, Derive.shape_unnamed] using h.2.1⟩
  simp only [exAst, List.mem_cons, List.not_mem_nil, or_false] at hv
  rcases hv with rfl | rfl | rfl <;> trivial

/-- It has payloads. -/
example : ∃ v ∈ exAst, v.fields ≠ .unit := ⟨⟨"Byte", .unnamed [.prim .u8]⟩, by simp [exAst], fun h => by cases h⟩

/-- With the same attributes, an enum without payloads, which becomes a bitset. -/
example : DistinctNames [⟨"A", .unit⟩, ⟨"B", .unit⟩] ∧ (∀ v ∈ [(⟨"A", .unit⟩ : SynVariant), ⟨"B", .unit⟩], v.fields = .unit) ∧
    ¬tooLarge [.list [.bitset, .bitset], .list [.unsupported]] [.unit, .unit] ∧ Derive.asksBitset [.list [.bitset, .bitset], .list [.unsupported]] :=
  ⟨by unfold DistinctNames; decide, by simp, fun h => absurd h.2.2 (by decide), (by simpa using Derive.parseAttrs_bitset [.list [.bitset, .bitset], .list [.unsupported]] ⟨false, []⟩ |>.1 rfl)⟩

end FixedMap.DeriveText
