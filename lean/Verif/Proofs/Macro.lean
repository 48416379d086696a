import Verif.Spec.Macro
import Verif.Proofs.Emit
import Verif.Proofs.EmitUnits
import Verif.Proofs.Expand

set_option autoImplicit false
set_option linter.unusedSimpArgs false

namespace FixedMap.Emit.Macro

open FixedMap.Derive (Meta KeyAttr Items Expansion Diag)

/-! ## Attributes -/

theorem sep_cons (s : String) (l : List String) : sepBy ["::"] ((s :: l).map fun s => [s]) = s :: l.flatMap fun x => ["::", x] := by
  induction l generalizing s with
  | nil => rfl
  | cons t l ih =>
    have := ih t
    simp only [List.map_cons] at this
    simp only [List.map_cons, sepBy, this, List.flatMap_cons]
    rfl

theorem moreSegments_append (E : Env) (l : List String) (hl : ∀ s ∈ l, E.isIdent s = true) (rest : Toks) (hr : rest.head? ≠ some "::") :
    moreSegments E ((l.flatMap fun x => ["::", x]) ++ rest) = .ok (l, rest) := by
  induction l with
  | nil =>
    rw [List.flatMap_nil, List.nil_append, moreSegments]
    · intro t rest' h
      rw [h] at hr
      exact hr rfl
    · intro h
      rw [h] at hr
      exact hr rfl
  | cons s l ih =>
    have := ih fun x hx => hl x (List.mem_cons_of_mem _ hx)
    simp only [List.flatMap_cons, List.cons_append, List.nil_append, moreSegments, hl s (List.mem_cons_self ..), if_true, this]
    rfl

theorem segments_append (E : Env) (b : Bool) (s : String) (l : List String) (hl : ∀ x ∈ s :: l, E.isIdent x = true) (rest : Toks)
    (hr : rest.head? ≠ some "::") : segments E b (sepBy ["::"] ((s :: l).map fun s => [s]) ++ rest) = .ok (⟨b, s :: l⟩, rest) := by
  rw [sep_cons, List.cons_append, segments, if_pos (hl s (List.mem_cons_self ..)),
    moreSegments_append E l (fun x hx => hl x (List.mem_cons_of_mem _ hx)) rest hr]
  rfl

theorem metaPath_of {E : Env} (ok : E.Ok) {ts : Toks} {p : Path} {rest : Toks} (h : Starts E ts p rest) : metaPath E ts = .ok (p, rest) := by
  obtain ⟨⟨hne, hv⟩, rfl, hr⟩ := h
  obtain ⟨b, segs⟩ := p
  cases segs with
  | nil => exact absurd rfl hne
  | cons s l =>
    have key := segments_append E b s l hv rest hr
    cases b with
    | true => exact key
    | false =>
      simp only [Path.toks, Bool.false_eq_true, if_false, List.nil_append]
      rw [← key, sep_cons, List.cons_append, metaPath]
      intro us h
      have : s = "::" := List.head_eq_of_cons_eq h
      rw [this] at hv
      exact absurd (hv "::" (List.mem_cons_self ..)) (by rw [show E.isIdent "::" = false from ok]; exact Bool.false_ne_true)

theorem moreSegments_ok (E : Env) (ts : Toks) (l : List String) (r : Toks) (h : moreSegments E ts = .ok (l, r)) :
    (∀ s ∈ l, E.isIdent s = true) ∧ ts = (l.flatMap fun x => ["::", x]) ++ r ∧ r.head? ≠ some "::" := by
  induction ts using moreSegments.induct E generalizing l r with
  | case1 t rest hi ih =>
    rw [moreSegments, if_pos hi] at h
    cases hm : moreSegments E rest with
    | error e =>
      rw [hm] at h
      cases h
    | ok p =>
      rw [hm] at h
      simp only [Except.map, Except.ok.injEq, Prod.mk.injEq] at h
      obtain ⟨h1, h2, h3⟩ := ih p.1 p.2 hm
      rw [← h.1, ← h.2]
      refine ⟨?_, ?_, h3⟩
      · intro s hs
        rcases List.mem_cons.1 hs with rfl | hs
        · exact hi
        · exact h1 s hs
      · conv => lhs; rw [h2]
        rfl
  | case2 t rest hi =>
    rw [moreSegments, if_neg hi] at h
    cases h
  | case3 => cases h
  | case4 ts h1 h2 =>
    rw [moreSegments] at h
    · simp only [Except.ok.injEq, Prod.mk.injEq] at h
      rw [← h.1, ← h.2]
      refine ⟨fun s hs => (nomatch hs), rfl, fun h => ?_⟩
      cases ts with
      | nil => cases h
      | cons a ts =>
        have : a = "::" := Option.some.inj h
        subst this
        cases ts with
        | nil => exact h2 rfl
        | cons b ts => exact h1 b ts rfl
    · exact h1
    · exact h2

theorem metaPath_ok {E : Env} {ts : Toks} {p : Path} {rest : Toks} (h : metaPath E ts = .ok (p, rest)) : Starts E ts p rest := by
  have key : ∀ b us, segments E b us = .ok (p, rest) → p.Valid E ∧ p.leading = b ∧ us = sepBy ["::"] (p.segments.map fun s => [s]) ++ rest ∧ rest.head? ≠ some "::" := by
    intro b us h
    cases us with
    | nil => cases h
    | cons t us =>
      rw [segments] at h
      split at h
      · next hi =>
        cases hm : moreSegments E us with
        | error e =>
          rw [hm] at h
          cases h
        | ok q =>
          rw [hm] at h
          simp only [Except.map, Except.ok.injEq, Prod.mk.injEq] at h
          obtain ⟨h1, h2, h3⟩ := moreSegments_ok E us q.1 q.2 hm
          rw [← h.1, ← h.2]
          refine ⟨⟨List.cons_ne_nil _ _, fun s hs => ?_⟩, rfl, ?_, h3⟩
          · rcases List.mem_cons.1 hs with rfl | hs
            · exact hi
            · exact h1 s hs
          · rw [sep_cons, List.cons_append, ← h2]
      · cases h
  unfold metaPath at h
  split at h
  · obtain ⟨h1, h2, h3, h4⟩ := key _ _ h
    refine ⟨h1, ?_, h4⟩
    rw [Path.toks, if_pos h2, h3]
    rfl
  · obtain ⟨h1, h2, h3, h4⟩ := key _ _ h
    refine ⟨h1, ?_, h4⟩
    rw [Path.toks, h2, h3]
    rfl

theorem isIdent_iff (p : Path) (w : String) : p.isIdent w = true ↔ p = ⟨false, [w]⟩ := by
  obtain ⟨b, l⟩ := p
  cases b <;> simp [Path.isIdent]

theorem nestedMeta_error {E : Env} {ts : Toks} {e : String} (h : metaPath E ts = .error e) (st : State) : nestedMeta E ts st = (st, some e) := by
  rw [nestedMeta]
  split
  · next e' h' =>
    rw [h] at h'
    cases h'
    rfl
  · next h' =>
    rw [h] at h'
    cases h'

theorem nestedMeta_ok {E : Env} {ts : Toks} {p : Path} {rest : Toks} (h : metaPath E ts = .ok (p, rest)) (st : State) : nestedMeta E ts st =
    match logic p st with
    | .error e => (st, some e)
    | .ok st =>
      match afterItem E rest with
      | .error e => (st, some e)
      | .ok none => (st, none)
      | .ok (some rest) => nestedMeta E rest st := by
  rw [nestedMeta]
  split
  · next h' =>
    rw [h] at h'
    cases h'
  · next h' =>
    rw [h] at h'
    cases h'
    cases logic p st with
    | error e => rfl
    | ok st =>
      simp only
      split
      · next h => rw [h]
      · next h => rw [h]
      · next h => rw [h]

/-- One attribute does what its items say. -/
theorem nested_of {E : Env} (ok : E.Ok) {ts : Toks} {ms : List Meta} (h : Reads E ts ms) (b : Bool) (errs : List String) (cx : Derive.Cx) (hb : cx.bitset = b) :
    ∃ b' e, nestedMeta E ts ⟨b, errs⟩ = (⟨b', errs⟩, e) ∧ (Derive.parseItems ms cx).bitset = b' ∧
      (Derive.parseItems ms cx).errors = cx.errors ++ (e.toList.map fun _ => .attribute) ∧ (.unsupported ∈ ms → e = some "Unsupported attribute") := by
  have hi : bitset.isIdent "bitset" = true := rfl
  induction h generalizing b cx with
  | one h =>
    refine ⟨true, none, ?_, rfl, (List.append_nil _).symm, by simp⟩
    rw [nestedMeta_ok (metaPath_of ok h)]
    simp only [logic, hi, if_true, afterItem]
  | comma h =>
    refine ⟨true, none, ?_, rfl, (List.append_nil _).symm, by simp⟩
    rw [nestedMeta_ok (metaPath_of ok h)]
    simp only [logic, hi, if_true, afterItem, List.isEmpty_nil]
  | @more ts us l h hne _ ih =>
    obtain ⟨b', e, h1, h2, h3, h4⟩ := ih true { cx with bitset := true } rfl
    refine ⟨b', e, ?_, h2, h3, ?_⟩
    · rw [nestedMeta_ok (metaPath_of ok h)]
      simp only [logic, hi, if_true, afterItem, List.isEmpty_iff, hne, if_false]
      exact h1
    · intro hm
      rcases List.mem_cons.1 hm with hm | hm
      · cases hm
      · exact h4 hm
  | @unsupported ts p rest h hp =>
    have hn : p.isIdent "bitset" = false := by
      rw [← Bool.not_eq_true, isIdent_iff]
      exact hp
    refine ⟨b, some "Unsupported attribute", ?_, hb, rfl, fun _ => rfl⟩
    rw [nestedMeta_ok (metaPath_of ok h)]
    simp only [logic, hn, Bool.false_eq_true, if_false]
  | @junk ts t rest h ht =>
    refine ⟨true, some (E.synError (t :: rest)), ?_, rfl, rfl, by simp⟩
    rw [nestedMeta_ok (metaPath_of ok h)]
    simp only [logic, hi, if_true, afterItem, ht, if_false]
  | @noPath ts h =>
    cases hm : metaPath E ts with
    | ok p => exact absurd (metaPath_ok hm) (h p.1 p.2)
    | error e =>
      refine ⟨b, some e, ?_, hb, rfl, by simp⟩
      exact nestedMeta_error hm _

/-- Every list of tokens says something. -/
theorem reads_total (E : Env) (ts : Toks) : ∃ ms, Reads E ts ms := by
  induction h : ts.length using Nat.strongRecOn generalizing ts with
  | ind n ih =>
    cases hm : metaPath E ts with
    | error e =>
      by_cases hp : ∃ p rest, Starts E ts p rest
      · obtain ⟨p, rest, hs⟩ := hp
        by_cases hb : p = bitset
        · subst hb
          cases rest with
          | nil => exact ⟨_, .one hs⟩
          | cons t rest =>
            by_cases ht : t = ","
            · subst ht
              by_cases hr : rest = []
              · subst hr
                exact ⟨_, .comma hs⟩
              · obtain ⟨ms, hms⟩ := ih rest.length (by rw [← h, hs.2.1]; simp only [List.length_append, List.length_cons]; omega) rest rfl
                exact ⟨_, .more hs hr hms⟩
            · exact ⟨_, .junk hs ht⟩
        · exact ⟨_, .unsupported hs hb⟩
      · exact ⟨_, .noPath fun p rest hs => hp ⟨p, rest, hs⟩⟩
    | ok p =>
      obtain ⟨p, rest⟩ := p
      have hs := metaPath_ok hm
      by_cases hb : p = bitset
      · subst hb
        cases rest with
        | nil => exact ⟨_, .one hs⟩
        | cons t rest =>
          by_cases ht : t = ","
          · subst ht
            by_cases hr : rest = []
            · subst hr
              exact ⟨_, .comma hs⟩
            · obtain ⟨ms, hms⟩ := ih rest.length (by rw [← h, hs.2.1]; simp only [List.length_append, List.length_cons]; omega) rest rfl
              exact ⟨_, .more hs hr hms⟩
          · exact ⟨_, .junk hs ht⟩
      · exact ⟨_, .unsupported hs hb⟩

theorem attrs_total (E : Env) (attrs : List Attr) : ∃ ks, AttrsRead E attrs ks := by
  induction attrs with
  | nil => exact ⟨_, .nil⟩
  | cons a l ih =>
    obtain ⟨ks, h⟩ := ih
    obtain ⟨p, args⟩ := a
    by_cases hp : p = key
    · subst hp
      cases args with
      | none => exact ⟨_, .bare h⟩
      | nameValue ts => exact ⟨_, .value h⟩
      | list ts =>
        by_cases ht : ts = []
        · subst ht
          exact ⟨_, .empty h⟩
        · obtain ⟨ms, hms⟩ := reads_total E ts
          exact ⟨_, .list ht hms h⟩
    · exact ⟨_, .other hp h⟩

theorem parse_of {E : Env} (ok : E.Ok) {attrs : List Attr} {ks : List KeyAttr} (h : AttrsRead E attrs ks) (st : State) (cx : Derive.Cx)
    (hb : cx.bitset = st.bitset) (he : cx.errors = st.errors.map fun _ => .attribute) :
    (Derive.parseAttrs ks cx).bitset = (parse E attrs st).bitset ∧ (Derive.parseAttrs ks cx).errors = (parse E attrs st).errors.map fun _ => .attribute := by
  have hk : key.isIdent "key" = true := rfl
  induction h generalizing st cx with
  | nil => exact ⟨hb, he⟩
  | @other a l ks hp _ ih =>
    have hn : a.path.isIdent "key" = false := by
      rw [← Bool.not_eq_true, isIdent_iff]
      exact hp
    rw [parse, hn]
    exact ih st cx hb he
  | empty _ ih =>
    rw [parse, hk]
    exact ih st cx hb he
  | @list ts ms l ks hne hr _ ih =>
    obtain ⟨b', e, h1, h2, h3, -⟩ := nested_of ok hr st.bitset st.errors cx hb
    have hp : parseNestedMeta E (.list ts) st = (⟨b', st.errors⟩, e) := by
      cases ts with
      | nil => exact absurd rfl hne
      | cons t ts => exact h1
    rw [parse, hk, hp]
    simp only [Derive.parseAttrs, Bool.not_true, Bool.false_eq_true, if_false]
    cases e with
    | none => exact ih ⟨b', st.errors⟩ _ h2 (by rw [h3, he]; exact List.append_nil _)
    | some e => exact ih ⟨b', st.errors ++ [e]⟩ _ h2 (by rw [h3, he]; simp)
  | bare _ ih =>
    rw [parse, hk]
    exact ih ⟨st.bitset, st.errors ++ [_]⟩ _ hb (by simp [he])
  | value _ ih =>
    rw [parse, hk]
    exact ih ⟨st.bitset, st.errors ++ [_]⟩ _ hb (by simp [he])

/-! ## Variants -/

theorem allUnit_eq (el : KeyTy → Toks) (vs : List Derive.SynVariant) :
    isAllUnitVariants (vs.map fun v => ⟨v.ident, fieldsToks el v.fields⟩) = Derive.allUnit vs := by
  induction vs with
  | nil => rfl
  | cons v vs ih =>
    obtain ⟨x, f⟩ := v
    cases f with
    | unit => exact ih
    | unnamed l => rfl
    | named l => rfl

theorem loop_eq (cx : Cx) (el : KeyTy → Toks) (vs : List Derive.SynVariant) (i : Nat) (F : Gen.FieldSet) (errs : List String) (ds : List Diag) :
    (loop cx i (vs.map fun v => ⟨v.ident, fieldsToks el v.fields⟩) (toks cx el F) errs).map (·.1) = (Derive.collectLoop i vs F ds).map fun p => toks cx el p.1 := by
  induction vs generalizing i F errs ds with
  | nil => rfl
  | cons v vs ih =>
    obtain ⟨x, f⟩ := v
    cases f with
    | unit =>
      rw [List.map_cons, loop, Derive.collectLoop]
      simp only [fieldsToks]
      rw [← ih (i + 1) _ errs ds]
      congr 2
      simp [toks, fieldToks, fieldName, Gen.fieldName, Print.pat, buildTupleStructPat, Print.variant, Print.variantOf]
    | named l =>
      rw [List.map_cons, loop, Derive.collectLoop]
      exact ih (i + 1) F _ _
    | unnamed l =>
      rw [List.map_cons, loop, Derive.collectLoop]
      simp only [fieldsToks, List.length_map, List.head?_map]
      by_cases hl : l.length > 1
      · simp only [hl, if_true]
        exact ih (i + 1) F _ _
      · simp only [hl, if_false]
        cases l with
        | nil => rfl
        | cons κ l =>
          simp only [List.head?_cons, Option.map_some]
          rw [← ih (i + 1) _ errs ds]
          congr 2
          simp [toks, fieldToks, fieldName, Gen.fieldName, Print.pat, buildTupleStructPat, Print.variant, Print.variantOf]

theorem prints_any (cx : Cx) (el : KeyTy → Toks) (F : Gen.FieldSet) : Prints cx el (Print.code cx el (codeOf F)) (Derive.anyItems F) :=
  ⟨codeOf F, rfl, rfl, rfl, rfl, rfl, rfl, F, rfl, rfl, rfl, rfl⟩

theorem prints_units (cx : Cx) (el : KeyTy → Toks) (map : GenUnits.MapCode) (set : GenUnits.SetCode) :
    Prints cx el (Units.Print.code cx map (.inl set)) (.units map set) := rfl

theorem prints_bits (cx : Cx) (el : KeyTy → Toks) (map : GenUnits.MapCode) (set : GenUnits.BitsetCode) :
    Prints cx el (Units.Print.code cx map (.inr set)) (.bits map set) := rfl

theorem prints_some {cx : Cx} {el : KeyTy → Toks} {i : Items} {ts : Toks} (h : Prints cx el ts i) : ∃ us, some ts = some us ∧ Prints cx el us i := ⟨ts, rfl, h⟩

end FixedMap.Emit.Macro
