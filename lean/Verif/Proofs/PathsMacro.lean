import Verif.Proofs.PathsAny
import Verif.Proofs.PathsUnits
import Verif.Spec.PathsMacro

/-! # The paths in what the macro writes -/

set_option autoImplicit false
set_option linter.unusedSimpArgs false
set_option linter.unusedVariables false

namespace FixedMap.Paths

open FixedMap.Emit (Toks Cx emit complexOf buildTupleStructPat fieldName)
open FixedMap.Emit.Macro (Ast Env loop storageDerive implStorage toCompileError)

/-- The fields that the loop collects are those of some variants. -/
theorem loop_fields (cx : Cx) (vs : List Emit.Macro.Variant) : ∀ (i : Nat) (l : List (Emit.Variant × Nat)) (errs errs' : List String) (F : Emit.Fields),
    loop cx i vs (Any.fieldsAt cx l) errs = some (F, errs') →
    ∃ l' : List (Emit.Variant × Nat), F = Any.fieldsAt cx (l ++ l') ∧ ∀ x ∈ l', ∃ v ∈ vs, x.1.ident = v.ident ∧ ∀ e, x.1.element = some e → v.fields = .unnamed [e] := by
  have snoc : ∀ (l : List (Emit.Variant × Nat)) (x : Emit.Variant × Nat), Any.fieldsAt cx (l ++ [x]) =
      ⟨(Any.fieldsAt cx l).fields ++ [⟨x.2, fieldName x.2, [x.1.ident], x.1.element.map (complexOf cx)⟩],
        (Any.fieldsAt cx l).patterns ++ [buildTupleStructPat cx.ident [x.1.ident] (x.1.element.map fun _ => ["v"])]⟩ := by
    intro l x
    simp [Any.fieldsAt]
  induction vs with
  | nil =>
    intro i l errs errs' F h
    cases h
    exact ⟨[], by simp, by simp⟩
  | cons v vs ih =>
    intro i l errs errs' F h
    obtain ⟨name, fields⟩ := v
    have more : ∀ (x : Emit.Variant × Nat) (errs : List String), x.1.ident = name → (∀ e, x.1.element = some e → fields = .unnamed [e]) →
        loop cx (i + 1) vs (Any.fieldsAt cx (l ++ [x])) errs = some (F, errs') →
        ∃ l' : List (Emit.Variant × Nat), F = Any.fieldsAt cx (l ++ l') ∧
          ∀ x ∈ l', ∃ v ∈ (⟨name, fields⟩ : Emit.Macro.Variant) :: vs, x.1.ident = v.ident ∧ ∀ e, x.1.element = some e → v.fields = .unnamed [e] := by
      intro x errs hn hf h
      obtain ⟨l', h1, h2⟩ := ih _ _ _ _ _ h
      refine ⟨x :: l', by rw [h1]; simp, fun y hy => ?_⟩
      rcases List.mem_cons.mp hy with rfl | hy
      · exact ⟨_, List.mem_cons_self .., hn, hf⟩
      · obtain ⟨w, hw, h⟩ := h2 y hy
        exact ⟨w, List.mem_cons_of_mem _ hw, h⟩
    have skip : ∀ (errs : List String), loop cx (i + 1) vs (Any.fieldsAt cx l) errs = some (F, errs') →
        ∃ l' : List (Emit.Variant × Nat), F = Any.fieldsAt cx (l ++ l') ∧
          ∀ x ∈ l', ∃ v ∈ (⟨name, fields⟩ : Emit.Macro.Variant) :: vs, x.1.ident = v.ident ∧ ∀ e, x.1.element = some e → v.fields = .unnamed [e] := by
      intro errs h
      obtain ⟨l', h1, h2⟩ := ih _ _ _ _ _ h
      refine ⟨l', h1, fun y hy => ?_⟩
      obtain ⟨w, hw, h⟩ := h2 y hy
      exact ⟨w, List.mem_cons_of_mem _ hw, h⟩
    cases fields with
    | unit =>
      refine more (⟨name, none⟩, i) errs rfl (fun e he => nomatch he) ?_
      rw [snoc]
      exact h
    | named fs => exact skip _ h
    | unnamed elems =>
      rw [loop] at h
      dsimp only at h
      split at h
      · exact skip _ h
      · rename_i hl
        cases elems with
        | nil => cases h
        | cons e es =>
          have : es = [] := by
            cases es with
            | nil => rfl
            | cons _ _ => simp at hl
          subst this
          refine more (⟨name, some e⟩, i) errs rfl (fun e' he => by cases he; rfl) ?_
          rw [snoc]
          exact h

variable {feat : String → Bool} {U : Use → Prop}

theorem ok_errors {E : Env} (hl : ∀ m, cls (E.lit m) = .other) (errors : List String) : Ok feat U start (errors.map (toCompileError E)).flatten := by
  rw [Emit.Scan.flatten_map, ← List.append_nil (List.flatMap _ _)]
  refine ok_rep _ (by rw [ok_nil]; trivial) fun m _ r hr => ?_
  unfold start at hr ⊢
  simp only [toCompileError, List.cons_append, List.nil_append, okLit, ok_other (hl m), free_other]
  exact hr

theorem ok_units {cx : Cx} {E : String} (hx : Input cx E) (hcx : ∀ u, Own cx.vis u → U u) {st : Emit.Macro.State} {vs : List Emit.Macro.Variant} (hv : ∀ v ∈ vs, cls v.ident = .word) {ts : Toks}
    (h : Emit.Macro.units cx st vs = .ok ts) : Ok feat U start ts := by
  unfold Emit.Macro.units at h
  generalize ho : Emit.Units.implement cx st.bitset (vs.map fun v => v.ident) = o at h
  cases o with
  | none => cases h
  | some ts' =>
    cases h
    refine Units.ok_implement hx hcx ?_ ho
    intro v hv'
    obtain ⟨w, hw, rfl⟩ := List.mem_map.mp hv'
    exact hv w hw

theorem ok_any {cx : Cx} {E : String} (hx : Input cx E) (hcx : ∀ u, Own cx.vis u → U u) {st : Emit.Macro.State} {vs : List Emit.Macro.Variant} (hv : ∀ v ∈ vs, cls v.ident = .word)
    (he : ∀ v ∈ vs, ∀ e, v.fields = .unnamed [e] → Closed e) (hvs : ∀ v ∈ vs, ∀ e, v.fields = .unnamed [e] → ∀ u, Own e u → U u) {ts : Toks}
    (h : Emit.Macro.any cx st vs = .ok ts) : Ok feat U start ts := by
  unfold Emit.Macro.any at h
  generalize ho : loop cx 0 vs ⟨[], []⟩ st.errors = o at h
  match o, ho, h with
  | some (F, errs), ho, h =>
    obtain ⟨l, hF, hl⟩ := loop_fields cx vs 0 [] _ _ _ ho
    have h : emit cx F = ts := Emit.Macro.Result.ok.inj h
    rw [← h, hF]
    refine Any.ok_emit hx ?_ ?_ hcx ?_
    · intro x hx'
      obtain ⟨v, hv', h1, -⟩ := hl x hx'
      rw [h1]
      exact hv v hv'
    · intro x hx' e hxe
      obtain ⟨v, hv', -, h2⟩ := hl x hx'
      exact he v hv' e (h2 e hxe)
    · intro x hx' e hxe
      obtain ⟨v, hv', -, h2⟩ := hl x hx'
      exact hvs v hv' e (h2 e hxe)

theorem ok_macro {env : Env} (hl : ∀ m, cls (env.lit m) = .other) {ast : Ast} {E : String} (hx : OfSyn ast E) (hU : ∀ u, OfItem ast u → U u) {ts : Toks} (h : storageDerive env ast = some ts) :
    Ok feat U start ts := by
  have hin : Input ⟨ast.ident, ast.vis, ["'a"]⟩ E := ⟨hx.ident, hx.isIdent, hx.vis, rfl⟩
  have hvis : ∀ u, Own ast.vis u → U u := fun u hu => hU u (.inl hu)
  unfold storageDerive at h
  generalize ho : implStorage env ⟨ast.ident, ast.vis, ["'a"]⟩ ast = o at h
  cases o with
  | ok tokens =>
    cases h
    unfold implStorage at ho
    dsimp only at ho
    split at ho
    · rename_i vs hd
      split at ho
      · exact ok_units hin hvis (hx.idents vs hd) ho
      · exact ok_any hin hvis (hx.idents vs hd) (hx.elements vs hd) (fun v hv e he u hu => hU u (.inr ⟨vs, hd, v, hv, e, he, hu⟩)) ho
    · cases ho
  | err errors =>
    cases h
    exact ok_errors hl _
  | panic => cases h

end FixedMap.Paths
