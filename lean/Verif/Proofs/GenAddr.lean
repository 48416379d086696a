import Verif.Proofs.Gen

/-! # References into the generated struct, and keys as values of the enum -/

set_option autoImplicit false
set_option linter.unusedSimpArgs false

namespace FixedMap.Gen

variable {H : HashbrownApi} {V : Type}

theorem readAddr_pos : ∀ (vs : List Variant) (pre : List (Cell H V)) (s : (mapFields H V (fieldsOf vs)).S)
    (a : (mapFields H V (fieldsOf vs)).Addr),
    readAddr (named 0 (pre ++ mapCells (fieldsOf vs) s)) (dynAddr pre.length (fieldsOf vs) a) =
      (mapFields H V (fieldsOf vs)).read s a
  | [], _, _, a => Empty.elim a
  | ⟨x, none⟩ :: vs, pre, (o, s), .inl _ => by
    have hg := named_get pre (mapCells (fieldsOf vs) s) (.slot o) 0
    simp only [Nat.zero_add] at hg
    simp [fieldsOf, mapCells, dynAddr, readAddr, hg, mapFields]
  | ⟨x, none⟩ :: vs, pre, (o, s), .inr a => by
    have ih := readAddr_pos vs (pre ++ [.slot o]) s a
    simp only [List.append_assoc, List.cons_append, List.nil_append, List.length_append, List.length_cons,
      List.length_nil, Nat.zero_add] at ih
    exact ih
  | ⟨x, some κ⟩ :: vs, pre, (m, s), .inl a => by
    have hg := named_get pre (mapCells (fieldsOf vs) s) (.map κ m) 0
    simp only [Nat.zero_add] at hg
    simp [fieldsOf, mapCells, dynAddr, readAddr, hg, mapFields]
  | ⟨x, some κ⟩ :: vs, pre, (m, s), .inr a => by
    have ih := readAddr_pos vs (pre ++ [.map κ m]) s a
    simp only [List.append_assoc, List.cons_append, List.nil_append, List.length_append, List.length_cons,
      List.length_nil, Nat.zero_add] at ih
    exact ih

theorem writeAddr_pos (v : V) : ∀ (vs : List Variant) (pre : List (Cell H V)) (s : (mapFields H V (fieldsOf vs)).S)
    (a : (mapFields H V (fieldsOf vs)).Addr),
    writeAddr (named 0 (pre ++ mapCells (fieldsOf vs) s)) (dynAddr pre.length (fieldsOf vs) a) v =
      named 0 (pre ++ mapCells (fieldsOf vs) ((mapFields H V (fieldsOf vs)).write s a v))
  | [], _, _, a => Empty.elim a
  | ⟨x, none⟩ :: vs, pre, (o, s), .inl _ => by
    have hg := named_get pre (mapCells (fieldsOf vs) s) (.slot o) 0
    have hs := fun c => named_set pre (mapCells (fieldsOf vs) s) (.slot o) c 0
    simp only [Nat.zero_add] at hg hs
    simp [fieldsOf, mapCells, dynAddr, writeAddr, hg, hs, mapFields]
  | ⟨x, none⟩ :: vs, pre, (o, s), .inr a => by
    have ih := writeAddr_pos v vs (pre ++ [.slot o]) s a
    simp only [List.append_assoc, List.cons_append, List.nil_append, List.length_append, List.length_cons,
      List.length_nil, Nat.zero_add] at ih
    exact ih
  | ⟨x, some κ⟩ :: vs, pre, (m, s), .inl a => by
    have hg := named_get pre (mapCells (fieldsOf vs) s) (.map κ m) 0
    have hs := fun c => named_set pre (mapCells (fieldsOf vs) s) (.map κ m) c 0
    simp only [Nat.zero_add] at hg hs
    simp [fieldsOf, mapCells, dynAddr, writeAddr, hg, hs, mapFields]
  | ⟨x, some κ⟩ :: vs, pre, (m, s), .inr a => by
    have ih := writeAddr_pos v vs (pre ++ [.map κ m]) s a
    simp only [List.append_assoc, List.cons_append, List.nil_append, List.length_append, List.length_cons,
      List.length_nil, Nat.zero_add] at ih
    exact ih

theorem dynKey_inj : ∀ (vs : List Variant), Distinct vs → ∀ k l : (fieldsOf vs).Key, dynKey vs k = dynKey vs l → k = l
  | [], _, k, _, _ => Empty.elim k
  | ⟨_, none⟩ :: _, _, .inl _, .inl _, _ => rfl
  | ⟨x, none⟩ :: vs, hd, .inl _, .inr l, h => absurd (congrArg DynKey.var h) (hd.ne l)
  | ⟨x, none⟩ :: vs, hd, .inr k, .inl _, h => absurd (congrArg DynKey.var h).symm (hd.ne k)
  | ⟨x, none⟩ :: vs, hd, .inr k, .inr l, h => congrArg Sum.inr (dynKey_inj vs hd.tail k l h)
  | ⟨_, some κ⟩ :: _, _, .inl k, .inl l, h => by
    have : (⟨κ, k⟩ : (κ : KeyTy) × κ.Key) = ⟨κ, l⟩ := Option.some.inj (congrArg DynKey.arg h)
    have h2 : k = l := by cases this; rfl
    rw [h2]
  | ⟨x, some κ⟩ :: vs, hd, .inl _, .inr l, h => absurd (congrArg DynKey.var h) (hd.ne l)
  | ⟨x, some κ⟩ :: vs, hd, .inr k, .inl _, h => absurd (congrArg DynKey.var h).symm (hd.ne k)
  | ⟨x, some κ⟩ :: vs, hd, .inr k, .inr l, h => congrArg Sum.inr (dynKey_inj vs hd.tail k l h)

theorem dynKey_isKey : ∀ (vs : List Variant) (k : (fieldsOf vs).Key), IsKey vs (dynKey vs k)
  | [], k => Empty.elim k
  | ⟨_, none⟩ :: _, .inl _ => ⟨_, List.mem_cons_self, rfl, rfl⟩
  | ⟨_, none⟩ :: vs, .inr k =>
    have ⟨v, h, h'⟩ := dynKey_isKey vs k
    ⟨v, List.mem_cons_of_mem _ h, h'⟩
  | ⟨_, some _⟩ :: _, .inl _ => ⟨_, List.mem_cons_self, rfl, rfl⟩
  | ⟨_, some _⟩ :: vs, .inr k =>
    have ⟨v, h, h'⟩ := dynKey_isKey vs k
    ⟨v, List.mem_cons_of_mem _ h, h'⟩

theorem dynKey_surj : ∀ (vs : List Variant) (d : DynKey), IsKey vs d → ∃ k, dynKey vs k = d
  | [], _, ⟨_, h, _⟩ => nomatch h
  | v :: vs, d, ⟨w, h, h1, h2⟩ => by
    rcases List.mem_cons.1 h with rfl | h
    · rcases w with ⟨x, _ | κ⟩
      · rcases d with ⟨y, _ | a⟩
        · exact ⟨.inl (), by cases h1; rfl⟩
        · cases h2
      · rcases d with ⟨y, _ | ⟨κ', k⟩⟩
        · cases h2
        · cases h2
          exact ⟨.inl k, by cases h1; rfl⟩
    · obtain ⟨k, hk⟩ := dynKey_surj vs d ⟨w, h, h1, h2⟩
      rcases v with ⟨x, _ | κ⟩ <;> exact ⟨.inr k, hk⟩

end FixedMap.Gen
