import Verif.Proofs.DeriveAttrs
import Verif.Properties.DeriveMacro

/-!
# C99: the text of attrs.rs, symbol.rs and the paths of context.rs
-/

set_option autoImplicit false

namespace FixedMap.DeriveText

open Emit (Toks Cx)
open Emit.Macro (Ast Attr)

/-- C99, attrs.rs: its text on any attributes does what the model of the macro does. -/
theorem C99_attrs (E : Emit.Macro.Env) (attrs : List Attr) (errs : List String) (n : Nat) :
    attrsOutcome E attrs errs (n + 20) = some ((Emit.Macro.parse E attrs ⟨false, errs⟩).bitset, (Emit.Macro.parse E attrs ⟨false, errs⟩).errors) := by
  unfold attrsOutcome
  rw [Progs.attrs_parsed, Progs.symbol_parsed]
  dsimp only
  rw [Attrs.attrs_run]
  rfl

/-- C99, all of the derive from its text: lib.rs, attrs.rs, symbol.rs, any_variants.rs and unit_variants.rs on any item. -/
theorem C99_macro (E : Emit.Macro.Env) (cx : Cx) (ast : Ast) (n : Nat) : derived E cx ast (n + 100) = ofResult (Emit.Macro.implStorage E cx ast) := by
  rw [← C98_macro E cx ast n]
  have h : attrsText E ast.attrs (n + 100) = attrsExternal E ast.attrs := by
    funext R err vs h k
    unfold attrsText attrsExternal
    split
    · rw [C99_attrs E ast.attrs h.errs (n + 80)]
    · rename_i hv
      split
      · rename_i c d
        exact absurd rfl (hv c d)
      · rfl
  unfold derived macroOutcome externals
  rw [h, Progs.lib_parsed, Progs.anyVariants_parsed, Progs.unitVariants_parsed]

/-- C99, the output of the macro. -/
theorem C99_derive (E : Emit.Macro.Env) (ast : Ast) (n : Nat) : written E (derived E ⟨ast.ident, ast.vis, ["'a"]⟩ ast (n + 100)) = Emit.Macro.storageDerive E ast := by
  rw [C99_macro, ← C98_macro E _ _ n, C98_derive]

/-! ## Which attributes ask for bitsets -/

theorem nested_mono (E : Emit.Macro.Env) : ∀ (n : Nat) (ts : Toks) (e : List String), ts.length < n → (Emit.Macro.nestedMeta E ts ⟨true, e⟩).1.bitset = true := by
  intro n
  induction n with
  | zero => intro ts e h; omega
  | succ n ih =>
    intro ts e h
    cases hm : Emit.Macro.metaPath E ts with
    | error m => rw [Emit.Macro.nestedMeta_error hm]
    | ok p =>
      rcases p with ⟨path, rest⟩
      rw [Emit.Macro.nestedMeta_ok hm]
      unfold Emit.Macro.logic
      cases path.isIdent "bitset" with
      | false => rfl
      | true =>
        simp only [if_true]
        cases ha : Emit.Macro.afterItem E rest with
        | error m => rfl
        | ok o =>
          cases o with
          | none => rfl
          | some r =>
            have h1 := Emit.Macro.metaPath_lt E ts path rest hm
            have h2 := Emit.Macro.afterItem_le E rest r ha
            exact ih r e (by omega)

/-- The first item is `bitset`. -/
def FirstBitset (E : Emit.Macro.Env) (a : Attr) : Prop :=
  ∃ ts rest, a.args = .list ts ∧ Emit.Macro.metaPath E ts = .ok (⟨false, ["bitset"]⟩, rest)

theorem isIdent_iff (p : Emit.Macro.Path) (w : String) : p.isIdent w = true ↔ p = ⟨false, [w]⟩ := by
  rcases p with ⟨_ | _, l⟩ <;> simp [Emit.Macro.Path.isIdent]

theorem metaPath_nil (E : Emit.Macro.Env) : ∀ p, Emit.Macro.metaPath E [] ≠ .ok p := by
  rintro ⟨p, r⟩ h
  have := Emit.Macro.metaPath_lt E [] p r h
  simp at this

theorem one_bitset (E : Emit.Macro.Env) (a : Attr) (b : Bool) (e : List String) :
    (Emit.Macro.parseNestedMeta E a.args ⟨b, e⟩).1.bitset = true ↔ b = true ∨ FirstBitset E a := by
  unfold FirstBitset
  rcases a with ⟨path, _ | v | ts⟩
  · simp [Emit.Macro.parseNestedMeta]
  · simp [Emit.Macro.parseNestedMeta]
  · cases ts with
    | nil =>
      have : ∀ rest, Emit.Macro.metaPath E [] ≠ .ok (⟨false, ["bitset"]⟩, rest) := fun rest => metaPath_nil E _
      simp [Emit.Macro.parseNestedMeta, this]
    | cons t ts =>
      have hp : Emit.Macro.parseNestedMeta E (.list (t :: ts)) ⟨b, e⟩ = Emit.Macro.nestedMeta E (t :: ts) ⟨b, e⟩ := rfl
      dsimp only
      rw [hp]
      cases hm : Emit.Macro.metaPath E (t :: ts) with
      | error m =>
        rw [Emit.Macro.nestedMeta_error hm]
        constructor
        · exact .inl
        · rintro (h | ⟨us, r, h1, h2⟩)
          · exact h
          · cases h1
            rw [hm] at h2
            cases h2
      | ok p =>
        rcases p with ⟨path, rest⟩
        by_cases hi : path = ⟨false, ["bitset"]⟩
        · have : (Emit.Macro.nestedMeta E (t :: ts) ⟨b, e⟩).1.bitset = true := by
            rw [Emit.Macro.nestedMeta_ok hm]
            unfold Emit.Macro.logic
            rw [if_pos ((isIdent_iff _ _).mpr hi)]
            dsimp only
            cases Emit.Macro.afterItem E rest with
            | error m => rfl
            | ok o =>
              cases o with
              | none => rfl
              | some r => exact nested_mono E _ r e (Nat.lt_succ_self _)
          rw [this]
          exact ⟨fun _ => .inr ⟨_, rest, rfl, hi ▸ hm⟩, fun _ => rfl⟩
        · have : Emit.Macro.nestedMeta E (t :: ts) ⟨b, e⟩ = (⟨b, e⟩, some "Unsupported attribute") := by
            rw [Emit.Macro.nestedMeta_ok hm]
            unfold Emit.Macro.logic
            rw [if_neg (fun h => hi ((isIdent_iff _ _).mp h))]
          rw [this]
          constructor
          · exact .inl
          · rintro (h | ⟨us, r, h1, h2⟩)
            · exact h
            · cases h1
              rw [hm] at h2
              cases h2
              exact absurd rfl hi

theorem all_bitset (E : Emit.Macro.Env) : ∀ (attrs : List Attr) (st : Emit.Macro.State),
    (Emit.Macro.parse E attrs st).bitset = true ↔ st.bitset = true ∨ ∃ a ∈ attrs, a.path = ⟨false, ["key"]⟩ ∧ FirstBitset E a := by
  intro attrs
  induction attrs with
  | nil => intro st; simp [Emit.Macro.parse]
  | cons a attrs ih =>
    rintro ⟨b, e⟩
    have hk := isIdent_iff a.path "key"
    rw [Emit.Macro.parse]
    cases hi : a.path.isIdent "key" with
    | false =>
      rw [hi] at hk
      have hk : a.path ≠ ⟨false, ["key"]⟩ := fun h => absurd (hk.mpr h) (by simp)
      simp only [Bool.not_false, if_true]
      rw [ih]
      simp [hk]
    | true =>
      have hk := hk.mp hi
      simp only [Bool.not_true, Bool.false_eq_true, if_false]
      rw [ih]
      have h1 := one_bitset E a b e
      generalize Emit.Macro.parseNestedMeta E a.args ⟨b, e⟩ = r at h1 ⊢
      rcases r with ⟨⟨b', e'⟩, _ | m⟩ <;> simp_all [or_assoc]

/-- C99: the text sets `opts.bitset` exactly if some attribute `#[key(..)]` has `bitset` as its first item; whatever comes after it, and whatever the other attributes are. -/
theorem C99_bitset (E : Emit.Macro.Env) (attrs : List Attr) (errs : List String) (n : Nat) :
    (∃ errs', attrsOutcome E attrs errs (n + 20) = some (true, errs')) ↔ ∃ a ∈ attrs, a.path = ⟨false, ["key"]⟩ ∧ FirstBitset E a := by
  rw [C99_attrs]
  have := all_bitset E attrs ⟨false, errs⟩
  simp only [Bool.false_eq_true, false_or] at this
  rw [← this]
  simp

/-! ## Paths -/

/-- C99, context.rs: `suffixed(&leading_path(first), rest)` is the path with all the parts and a leading `::`. -/
theorem C99_suffixed (E : Emit.Macro.Env) (first rest : List String) (n : Nat) : suffixedPath E first rest (n + 20) = some ⟨true, first ++ rest⟩ := by
  unfold suffixedPath pathOutcome
  rw [Progs.pathFns_parsed, Progs.symbol_parsed]
  dsimp only
  rw [Attrs.leading_run]
  dsimp only
  rw [Attrs.suffixed_run]

theorem printSegments_cons (s : String) (l : List String) : printSegments (s :: l) = s :: l.flatMap fun p => ["::", p] := by
  induction l generalizing s with
  | nil => rfl
  | cons t l ih =>
    rw [printSegments, ih]
    rfl

/-- C99: the paths of `cx.toks` print as in the model: those of `core` below `leading_path(["core"])`, those of `crate` below `leading_path(["fixed_map"])`. -/
theorem C99_paths (E : Emit.Macro.Env) (l : List String) (n : Nat) :
    (suffixedPath E ["core"] l (n + 20)).map pathTokens = some (pathToks ("core" :: l)) ∧
    (suffixedPath E ["fixed_map"] l (n + 20)).map pathTokens = some (pathToks ("crate" :: l)) := by
  constructor
  · rw [C99_suffixed]
    show some ("::" :: printSegments ("core" :: l)) = some (Emit.core l)
    rw [printSegments_cons]
    rfl
  · rw [C99_suffixed]
    show some ("::" :: printSegments ("fixed_map" :: l)) = some (Emit.crate l)
    rw [printSegments_cons]
    rfl

/-- C99: every path of the table is one of the two. -/
theorem C99_table (name : String) (p : List String) (h : (name, p) ∈ parsePaths Text.paths) : ∃ l, p = "core" :: l ∨ p = "crate" :: l := by
  rw [Progs.paths_parsed] at h
  have : ∀ q ∈ Progs.paths, ∃ l, q.2 = "core" :: l ∨ q.2 = "crate" :: l := by
    simp only [Progs.paths, List.forall_mem_cons]
    simp
  exact this _ h

/-! ## Cases -/

/-- `#[doc = ..] #[key(bitset, foo)]` sets the option and adds an error; `#[key(foo, bitset)]` adds the error only. -/
example : attrsOutcome Emit.Macro.exE [⟨⟨false, ["doc"]⟩, .nameValue ["x"]⟩, ⟨⟨false, ["key"]⟩, .list ["bitset", ",", "foo"]⟩] [] 20 = some (true, ["Unsupported attribute"]) ∧
    attrsOutcome Emit.Macro.exE [⟨⟨false, ["key"]⟩, .list ["foo", ",", "bitset"]⟩] [] 20 = some (false, ["Unsupported attribute"]) := by
  constructor <;> derive_rfl

example : (suffixedPath Emit.Macro.exE ["core"] ["option", "Option"] 20).map pathTokens = some ["::", "core", "::", "option", "::", "Option"] := (C99_paths _ _ 0).1

/-- The whole derive: the attribute error is dropped, because the enum is accepted. -/
example : derived Emit.Macro.exE ⟨["Key"], ["pub"], ["'a"]⟩ ⟨["Key"], ["pub"], [⟨⟨false, ["key"]⟩, .list ["foo"]⟩], .enum [⟨"A", .unit⟩]⟩ 100 =
    .tokens ((Emit.Units.implement ⟨["Key"], ["pub"], ["'a"]⟩ false ["A"]).getD []) :=
  (C99_macro _ _ _ 0).trans (by derive_rfl)

end FixedMap.DeriveText
