import Verif.Proofs.Macro
import Verif.Properties.Expand

/-!
# C89: the macro writes the code that the histories are about, or diagnostics
-/

set_option autoImplicit false
set_option linter.unusedSimpArgs false

namespace FixedMap.Emit.Macro

open FixedMap.Derive (Meta KeyAttr Items Expansion Diag)

/-- C89: the whole macro. The input is an item as tokens, with whatever in its attributes. If the derive decides on code (C49, C63), this code is written, and nothing else;
if it decides on diagnostics, there is one `compile_error!` for each, and the last one says what is wrong with the item. -/
theorem C89_macro (E : Env) (ok : E.Ok) (ident vis : Toks) (el : KeyTy → Toks) (attrs : List Attr) (ks : List KeyAttr) (h : AttrsRead E attrs ks) (data : Derive.SynData) :
    let out := storageDerive E ⟨ident, vis, attrs, dataToks el data⟩
    match Derive.expand ⟨ks, data⟩ with
    | .items i => ∃ ts, out = some ts ∧ Prints ⟨ident, vis, ["'a"]⟩ el ts i
    | .compileErrors ds => ∃ ms : List String, out = some ((ms ++ [text data]).flatMap (compileError E)) ∧
        ∃ d, ds = ms.map (fun _ => .attribute) ++ [d] ∧ (d = .tooManyVariants ∨ d = .notAnEnum) ∧ ((∃ vs, data = .enum vs) ↔ d = .tooManyVariants)
    | .panic => out = none := by
  intro out
  obtain ⟨hb, he⟩ := parse_of ok h ⟨false, []⟩ ⟨false, []⟩ rfl rfl
  have errs : ∀ errors : List String, (errors.map (toCompileError E)).flatten = errors.flatMap (compileError E) := fun errors => by
    rw [List.flatMap]
    rfl
  cases data with
  | struct =>
    refine ⟨(parse E attrs ⟨false, []⟩).errors, ?_, .notAnEnum, by rw [he], .inr rfl, ?_⟩
    · rw [← errs]
      rfl
    · constructor
      · rintro ⟨vs, hv⟩
        cases hv
      · intro hv
        cases hv
  | union =>
    refine ⟨(parse E attrs ⟨false, []⟩).errors, ?_, .notAnEnum, by rw [he], .inr rfl, ?_⟩
    · rw [← errs]
      rfl
    · constructor
      · rintro ⟨vs, hv⟩
        cases hv
      · intro hv
        cases hv
  | enum vs =>
    have ho : out = match (if Derive.allUnit vs then units ⟨ident, vis, ["'a"]⟩ (parse E attrs ⟨false, []⟩) (vs.map fun v => ⟨v.ident, fieldsToks el v.fields⟩)
        else any ⟨ident, vis, ["'a"]⟩ (parse E attrs ⟨false, []⟩) (vs.map fun v => ⟨v.ident, fieldsToks el v.fields⟩)) with
        | .ok tokens => some tokens
        | .err errors => some (errors.map (toCompileError E)).flatten
        | .panic => none := by
      rw [← allUnit_eq el]
      rfl
    rw [ho]
    simp only [Derive.expand]
    by_cases hu : Derive.allUnit vs = true
    · simp only [hu, if_true, Derive.expandUnits, hb, units, Units.implement_eq, Units.setOf, List.map_map]
      have hn : (vs.map ((fun x : Variant => x.ident) ∘ fun v => ⟨v.ident, fieldsToks el v.fields⟩)) = vs.map (·.ident) := rfl
      rw [hn]
      cases hbit : (parse E attrs ⟨false, []⟩).bitset with
      | false => exact prints_some (prints_units _ el _ _)
      | true =>
        simp only [if_true]
        cases GenUnits.genBitset (vs.map (·.ident)) with
        | some set => exact prints_some (prints_bits _ el _ _)
        | none =>
          have ht : text (.enum vs) = "only support up until 128 variants, got " ++ Nat.repr vs.length := rfl
          simp only [Option.map_none, List.length_map]
          rw [errs, ← ht]
          exact ⟨_, rfl, .tooManyVariants, by rw [he], .inl rfl, fun _ => rfl, fun _ => ⟨vs, rfl⟩⟩
    · simp only [hu, Bool.false_eq_true, if_false, any]
      have hl := loop_eq ⟨ident, vis, ["'a"]⟩ el vs 0 ⟨[], []⟩ (parse E attrs ⟨false, []⟩).errors (Derive.parseAttrs ks ⟨false, []⟩).errors
      cases hc : Derive.collectLoop 0 vs ⟨[], []⟩ (Derive.parseAttrs ks ⟨false, []⟩).errors with
      | none =>
        rw [hc] at hl
        have : loop ⟨ident, vis, ["'a"]⟩ 0 (vs.map fun v => ⟨v.ident, fieldsToks el v.fields⟩) ⟨[], []⟩ (parse E attrs ⟨false, []⟩).errors = none :=
          Option.map_eq_none_iff.1 hl
        rw [this]
      | some p =>
        rw [hc] at hl
        obtain ⟨q, h1, h2⟩ := Option.map_eq_some_iff.1 hl
        have h1 : loop ⟨ident, vis, ["'a"]⟩ 0 (vs.map fun v => ⟨v.ident, fieldsToks el v.fields⟩) ⟨[], []⟩ (parse E attrs ⟨false, []⟩).errors = some q := h1
        rw [h1]
        refine ⟨_, rfl, ?_⟩
        rw [h2, emit_eq]
        exact prints_any _ el p.1

/-- C89: whatever the attributes are, they say something. -/
theorem C89_total (E : Env) (attrs : List Attr) : ∃ ks, AttrsRead E attrs ks := attrs_total E attrs

/-- C89: an unsupported item in `#[key(..)]` gives this message; `bitset` before it still counts. -/
theorem C89_unsupported (E : Env) (ok : E.Ok) (ts : Toks) (ms : List Meta) (h : Reads E ts ms) (hu : .unsupported ∈ ms) (st : State) :
    nestedMeta E ts st = (⟨st.bitset || ms.contains .bitset, st.errors⟩, some "Unsupported attribute") := by
  obtain ⟨b', e, h1, h2, -, h4⟩ := nested_of ok h st.bitset st.errors ⟨st.bitset, []⟩ rfl
  refine h1.trans ?_
  rw [h4 hu, ← h2]
  congr 2
  clear h1 h2 h4
  have : ∀ (ms : List Meta) (b : Bool), Reads E ts ms ∨ True → (Derive.parseItems ms ⟨b, []⟩).bitset = (b || (ms.takeWhile (· == .bitset)).contains .bitset) := by
    intro ms
    induction ms with
    | nil => simp [Derive.parseItems]
    | cons m ms ih =>
      intro b _
      cases m with
      | bitset =>
        rw [Derive.parseItems, ih true (.inr trivial)]
        simp
      | unsupported => simp [Derive.parseItems]
      | syntaxError => simp [Derive.parseItems]
  rw [this ms _ (.inr trivial)]
  congr 1
  clear this hu
  induction h with
  | one => rfl
  | comma => rfl
  | more _ _ _ ih => simp
  | unsupported => rfl
  | junk => rfl
  | noPath => rfl

/-- C89: there is always output, if there is no panic. -/
theorem C89_output (E : Env) (ok : E.Ok) (ident vis : Toks) (el : KeyTy → Toks) (attrs : List Attr) (data : Derive.SynData) (ts : Toks)
    (h : storageDerive E ⟨ident, vis, attrs, dataToks el data⟩ = some ts) :
    (∃ us, ts = quote! "const _: () =" ++ us) ∨ ∃ m us, ts = compileError E m ++ us := by
  obtain ⟨ks, hk⟩ := attrs_total E attrs
  have := C89_macro E ok ident vis el attrs ks hk data
  revert this
  cases Derive.expand ⟨ks, data⟩ with
  | panic =>
    intro this
    exact nomatch h.symm.trans this
  | compileErrors ds =>
    rintro ⟨ms, h1, -⟩
    right
    rw [h] at h1
    rw [Option.some.inj h1]
    cases ms with
    | nil => exact ⟨_, _, List.flatMap_cons ..⟩
    | cons m ms => exact ⟨_, _, List.flatMap_cons ..⟩
  | items i =>
    rintro ⟨us, h1, h2⟩
    left
    rw [h] at h1
    rw [Option.some.inj h1]
    cases i with
    | units m s =>
      rw [show us = _ from h2]
      exact ⟨_, rfl⟩
    | bits m s =>
      rw [show us = _ from h2]
      exact ⟨_, rfl⟩
    | any m mi e s si =>
      obtain ⟨c, hc, -⟩ := h2
      rw [hc]
      exact ⟨_, rfl⟩

/-- C89: for an enum that is accepted, what is written is code with which every history of calls on a map gives what an association list gives. -/
theorem C89_history (E : Env) (ok : E.Ok) (H : Hashbrown) (V : Type) (ident vis : Toks) (el : KeyTy → Toks) (attrs : List Attr) (ks : List KeyAttr)
    (h : AttrsRead E attrs ks) (vs : List Derive.SynVariant) (hd : Derive.DistinctNames vs) (hs : ∀ v ∈ vs, v.fields.shape.supported)
    (hl : ¬Derive.tooLarge ks (vs.map (·.fields.shape))) :
    ∃ ts i, storageDerive E ⟨ident, vis, attrs, dataToks el (.enum vs)⟩ = some ts ∧ Prints ⟨ident, vis, ["'a"]⟩ el ts i ∧
      ∀ ops : List (Gen.GenOp Gen.DynKey V), (∀ op ∈ ops, ∀ d, op.key? = some d → Derive.IsValue vs d) → i.mapRun H.api V ops = some (Gen.refGenRun ops []) := by
  obtain ⟨i, hi, hr⟩ := C63_map_history H V ks vs hd hs hl
  have := C89_macro E ok ident vis el attrs ks h (.enum vs)
  rw [hi] at this
  obtain ⟨ts, h1, h2⟩ := this
  exact ⟨ts, i, h1, h2, hr⟩

/-! ## Concrete cases -/

def exE : Env where
  isIdent t := !["::", ",", "=", "#"].contains t
  lit m := "\"" ++ m ++ "\""
  synError _ := "expected something else"

theorem exE_ok : exE.Ok := rfl

/-- `#[doc = ".."] #[key(bitset, bitset,)] #[key(other)]` -/
def exAttrs : List Attr := [⟨⟨false, ["doc"]⟩, .nameValue ["\"..\""]⟩, ⟨key, .list ["bitset", ",", "bitset", ","]⟩, ⟨key, .list ["other"]⟩]

theorem exStarts (p : Path) (rest : Toks) (hv : p.Valid exE) (hr : rest.head? ≠ some "::") : Starts exE (p.toks ++ rest) p rest := ⟨hv, rfl, hr⟩

theorem exAttrs_read : AttrsRead exE exAttrs [.list [.bitset, .bitset], .list [.unsupported]] := by
  have hb : bitset.Valid exE := ⟨List.cons_ne_nil _ _, fun s hs => by rw [List.mem_singleton.1 hs]; rfl⟩
  refine .other (by decide) (.list (List.cons_ne_nil _ _) ?_ (.list (List.cons_ne_nil _ _) ?_ .nil))
  · exact .more (exStarts bitset [",", "bitset", ","] hb (by decide)) (List.cons_ne_nil _ _) (.comma (exStarts bitset [","] hb (by decide)))
  · exact .unsupported (p := ⟨false, ["other"]⟩) (exStarts _ [] ⟨List.cons_ne_nil _ _, fun s hs => by rw [List.mem_singleton.1 hs]; rfl⟩ (by decide)) (by decide)

/-- On a struct: two errors, the second one about the struct. -/
example : storageDerive exE ⟨["S"], [], exAttrs, .struct⟩ =
    some (["::", "core", "::", "compile_error", "!", "{", "\"Unsupported attribute\"", "}"] ++
      ["::", "core", "::", "compile_error", "!", "{", "\"named fields are not supported\"", "}"]) := by
  obtain ⟨ms, h1, d, h2, -, -⟩ := C89_macro exE exE_ok ["S"] [] (fun _ => []) exAttrs _ exAttrs_read .struct
  have hs : (parse exE exAttrs ⟨false, []⟩).errors = ["Unsupported attribute"] := by
    have hb : bitset.Valid exE := ⟨List.cons_ne_nil _ _, fun s hs => by rw [List.mem_singleton.1 hs]; rfl⟩
    have a1 := metaPath_of exE_ok (exStarts bitset [",", "bitset", ","] hb (by decide))
    have a2 := metaPath_of exE_ok (exStarts bitset [","] hb (by decide))
    have a3 := C89_unsupported exE exE_ok ["other"] [.unsupported]
      (.unsupported (p := ⟨false, ["other"]⟩) (exStarts _ [] ⟨List.cons_ne_nil _ _, fun s hs => by rw [List.mem_singleton.1 hs]; rfl⟩ (by decide)) (by decide)) (by simp)
      ⟨true, []⟩
    have b : nestedMeta exE ["bitset", ",", "bitset", ","] ⟨false, []⟩ = (⟨true, []⟩, none) :=
      (nestedMeta_ok a1 _).trans (nestedMeta_ok a2 _)
    have c1 : Path.isIdent ⟨false, ["doc"]⟩ "key" = false := by decide
    have c2 : key.isIdent "key" = true := by decide
    simp only [exAttrs, parse, parseNestedMeta, b, a3, c1, c2, Bool.not_true, Bool.not_false, Bool.false_eq_true, if_true, if_false, List.nil_append]
  simp only [storageDerive, implStorage, hs]
  rfl

/-- On an enum the error is lost, and code for a bitset is written. -/
example : ∃ ts set, storageDerive exE ⟨["S"], [], exAttrs, dataToks (fun _ => []) (.enum [⟨"A", .unit⟩])⟩ = some ts ∧
    Prints ⟨["S"], [], ["'a"]⟩ (fun _ => []) ts (.bits (GenUnits.genMap ["A"]) set) := by
  obtain ⟨ts, h1, h2⟩ := C89_macro exE exE_ok ["S"] [] (fun _ => []) exAttrs _ exAttrs_read (.enum [⟨"A", .unit⟩])
  exact ⟨ts, _, h1, h2⟩

end FixedMap.Emit.Macro
