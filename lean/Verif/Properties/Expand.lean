import Verif.Proofs.Expand
import Verif.Properties.Gen

/-!
# C63: the derive from the item to the behaviour of its maps and sets
-/

set_option autoImplicit false
set_option linter.unusedSimpArgs false

namespace FixedMap

open Derive
open Gen (DynKey GenOp refGenRun)

/-- C63: the emitted code, the diagnostics and the panic are those of the decisions in `Model/Derive.lean` (C49), for every
item. -/
theorem C63_decision (ast : Ast) :
    match expand ast with
    | .items i => ∃ c, derive ast.shape = .code c ∧ i.HasShape c
    | .compileErrors l => derive ast.shape = .compileErrors l
    | .panic => derive ast.shape = .panic := by
  obtain ⟨attrs, data⟩ := ast
  cases data with
  | struct => rfl
  | union => rfl
  | enum vs =>
    have hu : isAllUnitVariants (vs.map (·.fields.shape)) = allUnit vs := by
      rw [Bool.eq_iff_iff, isAllUnit_iff, allUnit_iff]
      simp [shape_unit]
    simp only [expand, derive, Ast.shape, hu]
    by_cases h : allUnit vs = true
    · simp only [h, if_true, expandUnits, implementUnits]
      by_cases hb : (parseAttrs attrs ⟨false, []⟩).bitset = true
      · simp only [hb, if_true, List.length_map]
        have hw := genBitset_width (vs.map (·.ident))
        rw [List.length_map] at hw
        cases hg : GenUnits.genBitset (vs.map (·.ident)) with
        | none =>
          rw [hg] at hw
          rw [← hw]
          rfl
        | some set =>
          rw [hg] at hw
          rw [← hw]
          exact ⟨_, rfl, by simp [Items.HasShape, GenUnits.genMap]⟩
      · simp only [hb, if_false, List.length_map, Bool.false_eq_true]
        exact ⟨_, rfl, by simp [Items.HasShape, GenUnits.genMap, GenUnits.genSet]⟩
    · simp only [h, if_false, Bool.false_eq_true]
      rcases collectLoop_fields vs 0 ⟨[], []⟩ (parseAttrs attrs ⟨false, []⟩).errors with ⟨h1, h2⟩ | ⟨e, h1, h2⟩
      · rw [h1, h2]
      · rw [h1, h2]
        refine ⟨_, rfl, ?_⟩
        simp only [anyItems, Items.HasShape, Gen.genMap, Gen.genSet, List.nil_append, List.map_map]
        refine ⟨List.map_congr_left fun f hf => ?_, List.map_congr_left fun f hf => ?_, List.map_congr_left fun f _ => ?_,
          List.map_congr_left fun f _ => ?_⟩
        · have := kept_name vs 0 f hf
          simp only [Function.comp]
          split <;> exact this
        · have := kept_name vs 0 f hf
          simp only [Function.comp]
          split <;> exact this
        · cases h : f.kind <;> simp [Function.comp, fieldKind, h]
        · cases h : f.kind <;> simp [Function.comp, fieldKind, h]

/-- C63: code is emitted whose every `match` covers every variant exactly if all variants are supported and the enum is not
too large for a bitset. -/
theorem C63_accepts (attrs : List KeyAttr) (vs : List SynVariant) (hd : DistinctNames vs) :
    (∃ i, expand ⟨attrs, .enum vs⟩ = .items i ∧ i.Exhaustive vs) ↔
      (∀ v ∈ vs, v.fields.shape.supported) ∧ ¬tooLarge attrs (vs.map (·.fields.shape)) := by
  constructor
  · rintro ⟨i, hi, he⟩
    simp only [expand] at hi
    by_cases h : allUnit vs = true
    · have hu := (allUnit_iff vs).1 h
      refine ⟨fun v hv => by rw [hu v hv]; trivial, fun ht => ?_⟩
      have hb : (parseAttrs attrs ⟨false, []⟩).bitset = true := (parseAttrs_bitset attrs _).2 (.inr ht.1)
      have hn : GenUnits.genBitset (vs.map (·.ident)) = none := by
        have := genBitset_width (vs.map (·.ident))
        rw [List.length_map, (determineBits_none _).2 (by simpa using ht.2.2)] at this
        exact Option.map_eq_none_iff.1 this
      simp only [h, if_true, expandUnits, hb, hn] at hi
      cases hi
    · simp only [h, if_false, Bool.false_eq_true] at hi
      refine ⟨fun v hv => ?_, fun ht => h ((allUnit_iff vs).2 fun v hv =>
        (shape_unit _).1 (ht.2.1 _ (List.mem_map.2 ⟨v, hv, rfl⟩)))⟩
      rcases collectLoop_fields vs 0 ⟨[], []⟩ (parseAttrs attrs ⟨false, []⟩).errors with ⟨h1, h2⟩ | ⟨e, h1, h2⟩
      · rw [h1] at hi
        cases hi
      · rw [h1] at hi
        cases hi
        have := he _ (anyItems_insert _) v hv
        simp only [List.nil_append] at this
        rw [any_matches (kept 0 vs) _ (anyItems_insert _)] at this
        obtain ⟨w, hw, e1, e2⟩ := (kept_var vs 0 _).1 this
        rwa [← distinct_eq hd hw hv e1]
  · rintro ⟨hs, hl⟩
    obtain ⟨i, hi, hc⟩ := expand_supported attrs vs hs hl
    refine ⟨i, hi, fun vars hvars v hv => ?_⟩
    have hmem : v.ident ∈ vs.map (·.ident) := List.mem_map.2 ⟨v, hv, rfl⟩
    rcases hc with ⟨hu, rfl⟩ | ⟨hu, set, hset, rfl⟩ | rfl
    · rwa [units_matches _ vars hvars]
    · rwa [bits_matches _ set hset vars hvars]
    · rw [collect_kept vs hs] at hvars
      rw [any_matches _ vars hvars]
      exact (kept_var vs 0 _).2 ⟨v, hv, rfl, hs v hv⟩

/-- C63: any history of calls on a new map gives what an association list gives; in particular the emitted code is never
stuck, does not panic and has no undefined behaviour. -/
theorem C63_map_history (H : Hashbrown) (V : Type) (attrs : List KeyAttr) (vs : List SynVariant) (hd : DistinctNames vs)
    (hs : ∀ v ∈ vs, v.fields.shape.supported) (hl : ¬tooLarge attrs (vs.map (·.fields.shape))) :
    ∃ i, expand ⟨attrs, .enum vs⟩ = .items i ∧
      ∀ ops : List (GenOp DynKey V), (∀ op ∈ ops, ∀ d, op.key? = some d → IsValue vs d) →
        i.mapRun H.api V ops = some (refGenRun ops []) := by
  obtain ⟨i, hi, hc⟩ := expand_supported attrs vs hs hl
  refine ⟨i, hi, fun ops hk => ?_⟩
  have units : ∀ hu : ∀ v ∈ vs, v.fields = .unit,
      unitsMapRun (GenUnits.genMap (vs.map (·.ident))) ops = some (refGenRun ops []) := by
    intro hu
    obtain ⟨ops', h1, h2, h3⟩ := unitOps (vs.map (·.ident)) ops fun op ho d e => isValue_unit hu (hk op ho d e)
    rw [unitsMapRun, h1, Option.bind_some, C62_history V _ hd ops' h3, h2]
    exact congrArg some (refGenRun_rename unitVal_inj ops' []).symm
  rcases hc with ⟨hu, rfl⟩ | ⟨hu, set, _, rfl⟩ | rfl
  · exact units hu
  · exact units hu
  · exact C61_history H V _ (distinct_toVariant hd) ops fun op ho d e => isValue_isKey (hk op ho d e)

theorem units_sim (H : Hashbrown) (names : List String) (hd : names.Nodup) :
    SetSim (unitsMachine (GenUnits.genSet names)) (setStorage H.api (.units names.length)).toSetCore
      (fun k : Fin names.length => unitVal names[k]) (GenUnits.flags Unit) := by
  have h := fun s => C62_set Unit names hd s
  refine ⟨(h (unitsSet names.length).empty).2.1, fun s k => ?_, fun s k => ?_, fun s k => ?_, fun s => ?_, fun s => ?_, fun s => ?_⟩
  · simp only [unitsMachine, unitKey_unitVal, Option.bind_some]
    rw [((h s).1 k).1]
    rfl
  · simp only [unitsMachine, unitKey_unitVal, Option.bind_some]
    rw [((h s).1 k).2.2]
    rfl
  · simp only [unitsMachine, unitKey_unitVal, Option.bind_some]
    rw [((h s).1 k).2.1]
    rfl
  · simp only [unitsMachine]
    rw [(h s).2.2.1]
    rfl
  · simp only [unitsMachine]
    rw [(h s).2.2.2.1]
    rfl
  · simp only [unitsMachine]
    rw [(h s).2.2.2.2.2.1]
    rfl

theorem bits_sim (names : List String) (hd : names.Nodup) (set : GenUnits.BitsetCode)
    (hset : GenUnits.genBitset names = some set) :
    SetSim (bitsMachine set) (bitsetSet names.length set.width).toSetCore
      (fun k : Fin names.length => unitVal names[k]) (fun s => s) := by
  have h := ((C62_bitset names hd).2 set hset).2
  refine ⟨rfl, fun s k => ?_, fun s k => ?_, fun s k => ?_, fun s => rfl, fun s => rfl, fun s => rfl⟩
  · simp only [bitsMachine, unitKey_unitVal, Option.bind_some]
    rw [((h s).2.2.2.2.1 k).1]
    rfl
  · simp only [bitsMachine, unitKey_unitVal, Option.bind_some]
    rw [((h s).2.2.2.2.1 k).2.2]
    rfl
  · simp only [bitsMachine, unitKey_unitVal, Option.bind_some]
    rw [((h s).2.2.2.2.1 k).2.1]
    rfl

theorem any_sim (H : Hashbrown) (vs : List Gen.Variant) (hd : Gen.Distinct vs) :
    SetSim (anyMachine H.api (Gen.genSet (Gen.collect vs))) (setStorage H.api (.enum (Gen.fieldsOf vs))).toSetCore
      (Gen.dynKey vs) (Gen.setStruct Unit (Gen.fieldsOf vs)) := by
  have h := fun s k => C61_set_key H.api Unit vs hd s k
  have g := fun s => C61_set_all H.api Unit vs s s
  refine ⟨(g (setStorage H.api (.enum (Gen.fieldsOf vs))).empty).1, fun s k => ?_, fun s k => ?_, fun s k => ?_,
    fun s => ?_, fun s => ?_, fun s => ?_⟩
  · simp only [anyMachine]
    rw [(h s k).1]
    rfl
  · simp only [anyMachine]
    rw [(h s k).2.2]
    rfl
  · simp only [anyMachine]
    rw [(h s k).2.1]
    rfl
  · simp only [anyMachine]
    rw [(g s).2.1]
    rfl
  · simp only [anyMachine]
    rw [(g s).2.2.1]
    rfl
  · simp only [anyMachine]
    rw [(g s).2.2.2.2.1]
    rfl

/-- C63: in any history of calls on a new set, `contains` and `len` give what an ordinary set gives, for all payload types; and so
do all calls if no payload type contains `bool` or `Option`. -/
theorem C63_set_history (H : Hashbrown) (attrs : List KeyAttr) (vs : List SynVariant) (hd : DistinctNames vs)
    (hs : ∀ v ∈ vs, v.fields.shape.supported) (hl : ¬tooLarge attrs (vs.map (·.fields.shape))) :
    ∃ i, expand ⟨attrs, .enum vs⟩ = .items i ∧
      ∀ ops : List GenSetOp, (∀ op ∈ ops, ∀ d, op.key? = some d → IsValue vs d) →
        ∃ outs, (i.setMachine H.api).run ops = some outs ∧
          contentsOnly ops outs = contentsOnly ops (refSetRun ops []) ∧
          (AllPayloads (fun κ => κ.noBool = true ∧ κ.noOpt = true) vs → outs = refSetRun ops []) := by
  obtain ⟨i, hi, hc⟩ := expand_supported attrs vs hs hl
  refine ⟨i, hi, fun ops hk => ?_⟩
  have inj : ∀ k k' : Fin (vs.map (·.ident)).length, unitVal (vs.map (·.ident))[k] = unitVal (vs.map (·.ident))[k'] → k = k' := by
    intro k k' e
    exact Fin.ext ((List.getElem_inj hd).1 (unitVal_inj _ _ e))
  have unitKeys : (∀ v ∈ vs, v.fields = .unit) → ∀ op ∈ ops, ∀ d, op.key? = some d →
      ∃ k : Fin (vs.map (·.ident)).length, unitVal (vs.map (·.ident))[k] = d := by
    intro hu op ho d e
    obtain ⟨x, hx, rfl⟩ := isValue_unit hu (hk op ho d e)
    obtain ⟨n, hn, rfl⟩ := List.getElem_of_mem hx
    exact ⟨⟨n, hn⟩, rfl⟩
  rcases hc with ⟨hu, rfl⟩ | ⟨hu, set, hset, rfl⟩ | rfl
  · obtain ⟨outs, h1, h2, h3⟩ := (units_sim H _ hd).run (setLaws H (.units _)) inj ops (unitKeys hu)
    exact ⟨outs, h1, h2, fun _ => h3 (honest H (.units _) rfl rfl)⟩
  · have hw := ((C62_bitset _ hd).2 set hset).1
    obtain ⟨outs, h1, h2, h3⟩ := (bits_sim _ hd set hset).run (setLaws H (.bitset _ set.width hw)) inj ops (unitKeys hu)
    exact ⟨outs, h1, h2, fun _ => h3 (honest H (.bitset _ _ _) rfl rfl)⟩
  · obtain ⟨outs, h1, h2, h3⟩ := (any_sim H _ (distinct_toVariant hd)).run (setLaws H (.enum _)) (Gen.dynKey_inj _ (distinct_toVariant hd))
      ops fun op ho d e => Gen.dynKey_surj _ d (isValue_isKey (hk op ho d e))
    refine ⟨outs, h1, h2, fun hp => h3 (honest H (.enum _) ?_ ?_)⟩
    · exact payloads_noBool vs hs fun v hv l e κ hκ => (hp v hv l e κ hκ).1
    · exact payloads_noOpt vs hs fun v hv l e κ hκ => (hp v hv l e κ hκ).2

/-- C63, exactly, for all payload types: the elements are always those of an ordinary set, and each call answers as described
for its payload type in `Answers`. -/
theorem C63_set_exact (H : Hashbrown) (attrs : List KeyAttr) (vs : List SynVariant) (hd : DistinctNames vs)
    (hs : ∀ v ∈ vs, v.fields.shape.supported) (hl : ¬tooLarge attrs (vs.map (·.fields.shape))) :
    ∃ i, expand ⟨attrs, .enum vs⟩ = .items i ∧
      ∀ ops : List GenSetOp, (∀ op ∈ ops, ∀ d, op.key? = some d → IsValue vs d) →
        ∃ outs, (i.setMachine H.api).run ops = some outs ∧ AnswersAll vs ops outs [] := by
  obtain ⟨i, hi, hc⟩ := expand_supported attrs vs hs hl
  refine ⟨i, hi, fun ops hk => ?_⟩
  have inj : ∀ k k' : Fin (vs.map (·.ident)).length, unitVal (vs.map (·.ident))[k] = unitVal (vs.map (·.ident))[k'] → k = k' := by
    intro k k' e
    exact Fin.ext ((List.getElem_inj hd).1 (unitVal_inj _ _ e))
  have unitKeys : (∀ v ∈ vs, v.fields = .unit) → ∀ op ∈ ops, ∀ d, op.key? = some d →
      ∃ k : Fin (vs.map (·.ident)).length, unitVal (vs.map (·.ident))[k] = d := by
    intro hu op ho d e
    obtain ⟨x, hx, rfl⟩ := isValue_unit hu (hk op ho d e)
    obtain ⟨n, hn, rfl⟩ := List.getElem_of_mem hx
    exact ⟨⟨n, hn⟩, rfl⟩
  rcases hc with ⟨hu, rfl⟩ | ⟨hu, set, hset, rfl⟩ | rfl
  · exact (units_sim H _ hd).runExact (setLaws H (.units _)) (exact_units hu _ (honest H (.units _) rfl rfl) inj) inj ops (unitKeys hu)
  · have hw := ((C62_bitset _ hd).2 set hset).1
    exact (bits_sim _ hd set hset).runExact (setLaws H (.bitset _ set.width hw))
      (exact_units hu _ (honest H (.bitset _ _ _) rfl rfl) inj) inj ops (unitKeys hu)
  · exact (any_sim H _ (distinct_toVariant hd)).runExact (setLaws H (.enum _)) (exact_any H hs hd)
      (Gen.dynKey_inj _ (distinct_toVariant hd)) ops fun op ho d e => Gen.dynKey_surj _ d (isValue_isKey (hk op ho d e))

/-- The answers are determined by the calls. -/
theorem C63_set_exact_unique (vs : List SynVariant) (ops : List GenSetOp) (outs outs' : List SetOut) (l : List DynKey)
    (h : AnswersAll vs ops outs l) (h' : AnswersAll vs ops outs' l) : outs = outs' := by
  have bool : ∀ {p : Prop} {o o' : SetOut}, (∃ b, o = .bool b ∧ (b = true ↔ p)) → (∃ b, o' = .bool b ∧ (b = true ↔ p)) →
      o = o' := by
    rintro p o o' ⟨b, rfl, h⟩ ⟨b', rfl, h'⟩
    rw [Bool.eq_iff_iff.2 (h.trans h'.symm)]
  induction ops generalizing outs outs' l with
  | nil => exact h.trans h'.symm
  | cons op ops ih =>
    obtain ⟨o, r, rfl, h1, h2⟩ := h
    obtain ⟨o', r', rfl, h1', h2'⟩ := h'
    rw [ih r r' _ h2 h2']
    congr 1
    cases op with
    | insert => exact bool h1 h1'
    | remove => exact bool h1 h1'
    | contains => exact Eq.trans h1 (Eq.symm h1')
    | len => exact Eq.trans h1 (Eq.symm h1')
    | isEmpty => exact bool h1 h1'
    | clear => exact Eq.trans h1 (Eq.symm h1')

/-! ## Concrete cases -/

/-- `enum E { Unit, Byte(u8), Flag(bool) }`. -/
def exAst : List SynVariant := [⟨"Unit", .unit⟩, ⟨"Byte", .unnamed [.prim .u8]⟩, ⟨"Flag", .unnamed [.bool]⟩]

/-- The hypotheses hold of it, and of histories on it. -/
example : DistinctNames exAst ∧ (∀ v ∈ exAst, v.fields.shape.supported) ∧ ¬tooLarge [] (exAst.map (·.fields.shape)) := by
  refine ⟨by unfold DistinctNames exAst; decide, fun v hv => ?_, fun h => by simpa [exAst, shape_unnamed] using h.2.1⟩
  simp only [exAst, List.mem_cons, List.not_mem_nil, or_false] at hv
  rcases hv with rfl | rfl | rfl <;> trivial

/-- A history on its map: insert two keys, overwrite one through the entry, count, remove. -/
example :
    (match expand ⟨[], .enum exAst⟩ with
      | .items i => i.mapRun Ex.H.api Nat [.insert ⟨"Unit", none⟩ 1, .insert ⟨"Byte", some ⟨.prim .u8, (7 : BitVec 8)⟩⟩ 2,
          .entryInsert ⟨"Unit", none⟩ 3, .len, .remove ⟨"Flag", some ⟨.bool, true⟩⟩, .get ⟨"Unit", none⟩]
      | _ => none) =
    some [.opt none, .opt none, .opt (some 1), .nat 2, .opt none, .opt (some 3)] := rfl

/-- A history on its set. The answer of `insert` is inverted for the payload `bool` (disagreement 5 in DESIGN.md), so it is
not the answer of an ordinary set; `contains` and `len` are. -/
example :
    (match expand ⟨[], .enum exAst⟩ with
      | .items i => (i.setMachine Ex.H.api).run [.insert ⟨"Unit", none⟩, .insert ⟨"Flag", some ⟨.bool, true⟩⟩,
          .contains ⟨"Flag", some ⟨.bool, true⟩⟩, .len]
      | _ => none) =
    some [.bool true, .bool false, .bool true, .nat 2] := rfl

/-- Its answers are as described: `insert` of a new `Flag(true)` says `false`, `remove` of the absent `Flag(false)` says `true`. -/
example : AnswersAll exAst [.insert ⟨"Flag", some ⟨.bool, true⟩⟩, .remove ⟨"Flag", some ⟨.bool, false⟩⟩, .len, .isEmpty]
    [.bool false, .bool true, .nat 1, .bool false] [] := by
  refine ⟨_, _, rfl, ⟨_, rfl, ?_⟩, _, _, rfl, ⟨_, rfl, ?_⟩, _, _, rfl, rfl, _, _, rfl, ⟨_, rfl, ?_⟩, rfl⟩
  · simp [inverted, KeyTy.insertInverted]
  · simp [siblings, KeyTy.siblings, refSet]
    exact ⟨true, List.mem_cons_self, rfl⟩
  · simp [exAst, SynVariant.saysEmpty, refSet, KeyTy.saysEmpty]
    exact ⟨true, rfl, fun h => absurd (show true = false from eq_of_heq (Sigma.mk.inj h).2) (by decide)⟩

/-- `is_empty` of a new set of `enum F { Maybe(Option<bool>) }` says `false`, `insert(Maybe(None))` says `false`, and then the set
with one element is said to be empty. -/
example : AnswersAll [⟨"Maybe", .unnamed [.opt .bool]⟩]
    [.isEmpty, .insert ⟨"Maybe", some ⟨.opt .bool, none⟩⟩, .isEmpty, .len] [.bool false, .bool false, .bool true, .nat 1] [] := by
  refine ⟨_, _, rfl, ⟨_, rfl, ?_⟩, _, _, rfl, ⟨_, rfl, ?_⟩, _, _, rfl, ⟨_, rfl, ?_⟩, _, _, rfl, rfl, rfl⟩
  · simp [SynVariant.saysEmpty, KeyTy.saysEmpty, refSet]
  · simp [inverted, KeyTy.insertInverted, optQuirk, refSet]
  · simp [SynVariant.saysEmpty, refSet, KeyTy.saysEmpty]
    exact fun b h => absurd (show some (show Bool from b) = none from eq_of_heq (Sigma.mk.inj h).2) (by simp)

/-- A bitset enum. -/
example :
    (match expand ⟨[.list [.bitset]], .enum [⟨"A", .unit⟩, ⟨"B", .unit⟩]⟩ with
      | .items i => (i.setMachine Ex.H.api).run [.insert ⟨"B", none⟩, .contains ⟨"A", none⟩, .contains ⟨"B", none⟩, .len,
          .remove ⟨"B", none⟩, .isEmpty]
      | _ => none) =
    some [.bool true, .bool false, .bool true, .nat 1, .bool true, .bool true] := rfl

/-- Skipped variants are not covered: `enum E { A, B { x: u8 } }`. -/
example : ∃ i, expand ⟨[], .enum [⟨"A", .unit⟩, ⟨"B", .named [("x", .prim .u8)]⟩]⟩ = .items i ∧
    "B" ∉ i.matches.head! := ⟨_, rfl, by decide⟩

end FixedMap
