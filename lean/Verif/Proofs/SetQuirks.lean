import Verif.Proofs.SetEnum
import Verif.Spec.SetQuirks

/-! # Return values of `insert`, `remove`, `is_empty` of sets, exactly -/

set_option autoImplicit false
set_option linter.unusedSimpArgs false

namespace FixedMap

/-! ## insert -/

theorem boolSet_insert_ret (s : BitVec 8) (x : Bool) : (boolSet.insert s x).1 = (boolSet.contains s x == true) := by
  simp

theorem optSet_insert_ret {T : Type} {M : SetStorage T} {q : T → Bool}
    (h : ∀ s x, (M.insert s x).1 = (M.contains s x == q x)) (s : OptSetSt M.S) (x : Option T) :
    ((optSet M).insert s x).1 = ((optSet M).contains s x == optQuirk q x) := by
  cases x <;> simp [optQuirk, h]

theorem simpleSet_insert_ret {T : Type} {F : SetFields T} {q : T → Bool}
    (h : ∀ s x, (F.insert s x).1 = (F.contains s x == q x)) (s : Bool × F.S) (x : Unit ⊕ T) :
    ((setFieldsSimple F).insert s x).1 = ((setFieldsSimple F).contains s x == Sum.elim (fun _ => false) q x) := by
  cases x <;> simp [h]

theorem complexSet_insert_ret {E T : Type} {M : SetStorage E} {F : SetFields T} {p : E → Bool} {q : T → Bool}
    (g : ∀ s x, (M.insert s x).1 = (M.contains s x == p x))
    (h : ∀ s x, (F.insert s x).1 = (F.contains s x == q x)) (s : M.S × F.S) (x : E ⊕ T) :
    ((setFieldsComplex M F).insert s x).1 = ((setFieldsComplex M F).contains s x == Sum.elim p q x) := by
  cases x <;> simp [h, g]

theorem hashSet_insert_ret {T : Type} {A : HashMapApi T Unit} (L : HashMapLaws A) (s : A.Table) (x : T) :
    ((hashSet A).insert s x).1 = ((hashSet A).contains s x == false) := by
  simp [L.insert_ret, L.contains_key_eq]

theorem unitsSet_insert_ret {n : Nat} (s : UnitsSetSt n) (x : Fin n) :
    ((unitsSet n).insert s x).1 = ((unitsSet n).contains s x == false) := by simp

theorem bitsetSet_insert_ret {n w : Nat} (s : BitVec w) (x : Fin n) :
    ((bitsetSet n w).insert s x).1 = ((bitsetSet n w).contains s x == false) := by
  show (s &&& bitsetMask w x == 0) = ((s &&& bitsetMask w x != 0) == false)
  rw [bne]
  cases (s &&& bitsetMask w x == 0) <;> rfl

mutual
theorem set_insert_ret (H : Hashbrown) : (κ : KeyTy) → ∀ s x,
    ((setStorage H.api κ).insert s x).1 = ((setStorage H.api κ).contains s x == κ.insertInverted x)
  | .bool => boolSet_insert_ret
  | .unit => fun s _ => by cases s <;> rfl
  | .opt κ => optSet_insert_ret (set_insert_ret H κ)
  | .prim p => hashSet_insert_ret (H.laws p.Key Unit)
  | .units _ => unitsSet_insert_ret
  | .bitset _ _ _ => bitsetSet_insert_ret
  | .enum fs => fields_insert_ret H fs
theorem fields_insert_ret (H : Hashbrown) : (fs : Fields) → ∀ s x,
    ((setFields H.api fs).insert s x).1 = ((setFields H.api fs).contains s x == fs.insertInverted x)
  | .nil => fun _ x => x.elim
  | .simple fs => simpleSet_insert_ret (fields_insert_ret H fs)
  | .complex κ fs => complexSet_insert_ret (set_insert_ret H κ) (fields_insert_ret H fs)
end

mutual
theorem insertInverted_false : (κ : KeyTy) → κ.noBool = true → κ.noOpt = true → ∀ x, κ.insertInverted x = false
  | .unit, _, _ => fun _ => rfl
  | .prim _, _, _ => fun _ => rfl
  | .units _, _, _ => fun _ => rfl
  | .bitset _ _ _, _, _ => fun _ => rfl
  | .enum fs, h, h' => fieldsInverted_false fs h h'
theorem fieldsInverted_false : (fs : Fields) → fs.noBool = true → fs.noOpt = true → ∀ x, fs.insertInverted x = false
  | .nil, _, _ => fun _ => rfl
  | .simple fs, h, h' => fun x => by
    cases x with
    | inl => rfl
    | inr x => exact fieldsInverted_false fs h h' x
  | .complex κ fs, h, h' => fun x => by
    simp only [Fields.noBool, Fields.noOpt, Bool.and_eq_true] at h h'
    cases x with
    | inl x => exact insertInverted_false κ h.1 h'.1 x
    | inr x => exact fieldsInverted_false fs h.2 h'.2 x
end

/-! ## remove -/

theorem boolSet_remove_ret (s : BitVec 8) (hs : s < 4#8) (x : Bool) :
    (boolSet.remove s x).1 = [true, false].any (boolSet.contains s) := by
  show (s != 0) = [true, false].any (boolTest s)
  rcases boolBits_lt4 s hs with rfl | rfl | rfl | rfl <;> decide

theorem any_map' {A B : Type} (g : A → B) (l : List A) (p : B → Bool) : (l.map g).any p = l.any fun a => p (g a) := by
  rw [List.any_map]; rfl

theorem optSet_remove_ret {T : Type} {M : SetStorage T} {v : M.S → Prop} {q : T → List T}
    (h : ∀ s, v s → ∀ x, (M.remove s x).1 = (q x).any (M.contains s)) (s : OptSetSt M.S) (hs : v s.some) (x : Option T) :
    ((optSet M).remove s x).1 = (Option.elim x [none] fun k => (q k).map some).any ((optSet M).contains s) := by
  cases x with
  | none => simp
  | some x => simp only [Option.elim, any_map']; exact h s.some hs x

theorem simpleSet_remove_ret {T : Type} {F : SetFields T} {v : F.S → Prop} {q : T → List T}
    (h : ∀ s, v s → ∀ x, (F.remove s x).1 = (q x).any (F.contains s)) (s : Bool × F.S) (hs : v s.2) (x : Unit ⊕ T) :
    ((setFieldsSimple F).remove s x).1 = (Sum.elim (fun _ => [Sum.inl ()]) (fun k => (q k).map Sum.inr) x).any
      ((setFieldsSimple F).contains s) := by
  cases x with
  | inl => simp
  | inr x => simp only [Sum.elim_inr, any_map']; exact h s.2 hs x

theorem complexSet_remove_ret {E T : Type} {M : SetStorage E} {F : SetFields T} {u : M.S → Prop} {v : F.S → Prop}
    {p : E → List E} {q : T → List T} (g : ∀ s, u s → ∀ x, (M.remove s x).1 = (p x).any (M.contains s))
    (h : ∀ s, v s → ∀ x, (F.remove s x).1 = (q x).any (F.contains s)) (s : M.S × F.S) (hs : u s.1 ∧ v s.2) (x : E ⊕ T) :
    ((setFieldsComplex M F).remove s x).1 =
      (Sum.elim (fun k => (p k).map Sum.inl) (fun k => (q k).map Sum.inr) x).any ((setFieldsComplex M F).contains s) := by
  cases x with
  | inl x => simp only [Sum.elim_inl, any_map']; exact g s.1 hs.1 x
  | inr x => simp only [Sum.elim_inr, any_map']; exact h s.2 hs.2 x

theorem hashSet_remove_ret {T : Type} {A : HashMapApi T Unit} (L : HashMapLaws A) (s : A.Table) (x : T) :
    ((hashSet A).remove s x).1 = [x].any ((hashSet A).contains s) := by
  simp [L.remove_ret, L.contains_key_eq]

theorem any_self {A : Type} (p : A → Bool) (x : A) : p x = [x].any p := by simp

mutual
theorem set_remove_ret (H : Hashbrown) : (κ : KeyTy) → ∀ s, (setLaws H κ).valid s → ∀ x,
    ((setStorage H.api κ).remove s x).1 = (κ.siblings x).any ((setStorage H.api κ).contains s)
  | .bool => boolSet_remove_ret
  | .unit => fun s _ _ => by cases s <;> rfl
  | .opt κ => optSet_remove_ret (set_remove_ret H κ)
  | .prim p => fun s _ => hashSet_remove_ret (H.laws p.Key Unit) s
  | .units _ => fun s _ x => any_self _ _
  | .bitset _ _ _ => fun s _ x => any_self _ _
  | .enum fs => fields_remove_ret H fs
theorem fields_remove_ret (H : Hashbrown) : (fs : Fields) → ∀ s, (setFieldsLaws H fs).valid s → ∀ x,
    ((setFields H.api fs).remove s x).1 = (fs.siblings x).any ((setFields H.api fs).contains s)
  | .nil => fun _ _ x => x.elim
  | .simple fs => simpleSet_remove_ret (fields_remove_ret H fs)
  | .complex κ fs => complexSet_remove_ret (set_remove_ret H κ) (fields_remove_ret H fs)
end

mutual
theorem siblings_self : (κ : KeyTy) → κ.noBool = true → ∀ x, κ.siblings x = [x]
  | .unit, _ => fun _ => rfl
  | .prim _, _ => fun _ => rfl
  | .units _, _ => fun _ => rfl
  | .bitset _ _ _, _ => fun _ => rfl
  | .opt κ, h => fun x => by
    cases x with
    | none => rfl
    | some x => exact congrArg (List.map some) (siblings_self κ h x)
  | .enum fs, h => fieldsSiblings_self fs h
theorem fieldsSiblings_self : (fs : Fields) → fs.noBool = true → ∀ x, fs.siblings x = [x]
  | .nil, _ => fun x => x.elim
  | .simple fs, h => fun x => by
    cases x with
    | inl => rfl
    | inr x => exact congrArg (List.map Sum.inr) (fieldsSiblings_self fs h x)
  | .complex κ fs, h => fun x => by
    simp only [Fields.noBool, Bool.and_eq_true] at h
    cases x with
    | inl x => exact congrArg (List.map Sum.inl) (siblings_self κ h.1 x)
    | inr x => exact congrArg (List.map Sum.inr) (fieldsSiblings_self fs h.2 x)
end

/-! ## is_empty -/

theorem boolSet_isEmpty_iff (s : BitVec 8) (hs : s < 4#8) :
    boolSet.isEmpty s = true ↔ ∀ b, ¬boolSet.contains s b = true := by
  show (s == 0) = true ↔ ∀ b, ¬boolTest s b = true
  rcases boolBits_lt4 s hs with rfl | rfl | rfl | rfl <;> decide

theorem bitsetSet_isEmpty_iff {n w : Nat} (hw : n ≤ w) (s : BitVec w) (hs : Declared n s) :
    (bitsetSet n w).isEmpty s = true ↔ ∀ b, ¬(bitsetSet n w).contains s b = true := by
  show (s == 0) = true ↔ ∀ x : Fin n, ¬(s &&& bitsetMask w x != 0) = true
  simp only [bitset_test hw, beq_iff_eq]
  constructor
  · rintro rfl; simp
  · intro h
    apply BitVec.eq_of_getLsbD_eq
    intro j _
    by_cases hj : j < n
    · simpa using h ⟨j, hj⟩
    · rw [hs j (by omega)]; simp

theorem unitsSet_isEmpty_iff {n : Nat} (s : UnitsSetSt n) :
    (unitsSet n).isEmpty s = true ↔ ∀ b, ¬(unitsSet n).contains s b = true := by
  show s.toList.foldl (fun acc b => acc && !b) true = true ↔ ∀ i : Fin n, ¬s[i] = true
  rw [foldl_noneSet, toList_eq_map]
  simp [List.all_eq_true]

theorem hashSet_isEmpty_iff {T : Type} {A : HashMapApi T Unit} (L : HashMapLaws A) (s : A.Table) :
    (hashSet A).isEmpty s = true ↔ ∀ b, ¬(hashSet A).contains s b = true := by
  show A.is_empty s = true ↔ ∀ b, ¬A.contains_key s b = true
  simp only [← L.mem_keys, L.is_empty_eq]
  rw [List.isEmpty_iff]
  constructor
  · intro h; simp [h]
  · intro h
    cases e : L.entries s with
    | nil => rfl
    | cons p l => exact absurd (by rw [e]; exact .head _) (h p.1)

mutual
theorem set_isEmpty_iff (H : Hashbrown) : (κ : KeyTy) → ∀ s, (setLaws H κ).valid s →
    ((setStorage H.api κ).isEmpty s = true ↔ κ.saysEmpty fun x => (setStorage H.api κ).contains s x = true)
  | .bool => boolSet_isEmpty_iff
  | .unit => fun (s : Bool) _ => (by cases s <;> simp : (!s) = true ↔ ¬s = true)
  | .opt κ => fun s hs => by
    refine Iff.trans (b := ((setStorage H.api κ).isEmpty s.some && s.none) = true) Iff.rfl ?_
    rw [Bool.and_eq_true]
    exact and_congr (set_isEmpty_iff H κ s.some hs) Iff.rfl
  | .prim p => fun s _ => hashSet_isEmpty_iff (H.laws p.Key Unit) s
  | .units _ => fun s _ => unitsSet_isEmpty_iff s
  | .bitset _ _ h => bitsetSet_isEmpty_iff (determineBits_le h)
  | .enum fs => fields_isEmpty_iff H fs
theorem fields_isEmpty_iff (H : Hashbrown) : (fs : Fields) → ∀ s, (setFieldsLaws H fs).valid s →
    ((setFields H.api fs).isEmpty s = true ↔ fs.saysEmpty fun x => (setFields H.api fs).contains s x = true)
  | .nil => fun _ _ => Iff.intro (fun _ => trivial) fun _ => rfl
  | .simple fs => fun s hs => by
    refine Iff.trans (b := (!s.1 && (setFields H.api fs).isEmpty s.2) = true) Iff.rfl ?_
    rw [Bool.and_eq_true]
    refine and_congr ?_ (fields_isEmpty_iff H fs s.2 hs)
    show (!s.1) = true ↔ ¬s.1 = true
    cases s.1 <;> simp
  | .complex κ fs => fun s hs => by
    refine Iff.trans (b := ((setStorage H.api κ).isEmpty s.1 && (setFields H.api fs).isEmpty s.2) = true) Iff.rfl ?_
    rw [Bool.and_eq_true]
    exact and_congr (set_isEmpty_iff H κ s.1 hs.1) (fields_isEmpty_iff H fs s.2 hs.2)
end

mutual
theorem saysEmpty_iff : (κ : KeyTy) → κ.noOpt = true → ∀ P, κ.saysEmpty P ↔ ∀ x, ¬P x
  | .bool, _ => fun _ => Iff.rfl
  | .unit, _ => fun _ => ⟨fun h _ => h, fun h => h ()⟩
  | .prim _, _ => fun _ => Iff.rfl
  | .units _, _ => fun _ => Iff.rfl
  | .bitset _ _ _, _ => fun _ => Iff.rfl
  | .enum fs, h => fieldsSaysEmpty_iff fs h
theorem fieldsSaysEmpty_iff : (fs : Fields) → fs.noOpt = true → ∀ P, fs.saysEmpty P ↔ ∀ x, ¬P x
  | .nil, _ => fun _ => ⟨fun _ x => x.elim, fun _ => trivial⟩
  | .simple fs, h => fun P => by
    refine (and_congr Iff.rfl (fieldsSaysEmpty_iff fs h _)).trans ?_
    constructor
    · rintro ⟨h1, h2⟩ (_ | x)
      · exact h1
      · exact h2 x
    · exact fun h => ⟨h _, fun x => h _⟩
  | .complex κ fs, h => fun P => by
    simp only [Fields.noOpt, Bool.and_eq_true] at h
    refine (and_congr (saysEmpty_iff κ h.1 _) (fieldsSaysEmpty_iff fs h.2 _)).trans ?_
    constructor
    · rintro ⟨h1, h2⟩ (x | x)
      · exact h1 x
      · exact h2 x
    · exact fun h => ⟨fun x => h _, fun x => h _⟩
end

/-! ## which elements `retain` visits -/

theorem mem_sum_visits {A B : Type} {l : List A} {l' : List B} {p : A → Prop} {q : B → Prop}
    (h : ∀ a, a ∈ l ↔ p a) (h' : ∀ b, b ∈ l' ↔ q b) (x : A ⊕ B) :
    x ∈ l.map Sum.inl ++ l'.map Sum.inr ↔ Sum.elim p q x := by
  cases x <;> simp [h, h']

theorem mem_opt_visits {T : Type} {l : List T} {c p : T → Bool} (h : ∀ x, x ∈ l ↔ c x = true ∨ p x = true) (b : Bool)
    (x : Option T) : x ∈ l.map some ++ flagList none b ↔
      (match x with | some x => c x | none => b) = true ∨ Option.elim x false p = true := by
  rw [List.mem_append, List.mem_map, mem_flagList]
  cases x with
  | none => simp
  | some x => simp [h]

theorem mem_simple_visits {T : Type} {l : List T} {c p : T → Bool} (h : ∀ x, x ∈ l ↔ c x = true ∨ p x = true) (b : Bool)
    (x : Unit ⊕ T) : x ∈ flagList (Sum.inl ()) b ++ l.map Sum.inr ↔
      (match x with | .inr x => c x | .inl _ => b) = true ∨ Sum.elim (fun _ => false) p x = true := by
  rw [List.mem_append, List.mem_map, mem_flagList]
  cases x with
  | inl => simp
  | inr x => simp [h]

mutual
theorem mem_visits (H : Hashbrown) : (κ : KeyTy) → ∀ s x,
    x ∈ (setLaws H κ).visits s ↔ (setStorage H.api κ).contains s x = true ∨ κ.phantom x = true
  | .bool => fun s x => (mem_boolBitsList s x).trans ((or_iff_left (by simp [KeyTy.phantom])).symm)
  | .unit => fun s x => ⟨fun _ => .inr rfl, fun _ => .head _⟩
  | .opt κ => fun s x => mem_opt_visits (mem_visits H κ s.some) s.none x
  | .prim p => fun s x => ((H.laws p.Key Unit).mem_keys s x).trans ((or_iff_left (by simp [KeyTy.phantom])).symm)
  | .units n => fun s x => ((unitsSetLaws n).mem_elems s x).trans ((or_iff_left (by simp [KeyTy.phantom])).symm)
  | .bitset n w h => fun s x =>
    ((bitsetSetLaws (determineBits_le h)).mem_elems s x).trans ((or_iff_left (by simp [KeyTy.phantom])).symm)
  | .enum fs => mem_fieldVisits H fs
theorem mem_fieldVisits (H : Hashbrown) : (fs : Fields) → ∀ s x,
    x ∈ (setFieldsLaws H fs).visits s ↔ (setFields H.api fs).contains s x = true ∨ fs.phantom x = true
  | .nil => fun _ x => x.elim
  | .simple fs => fun s x => by
    refine (mem_simple_visits (mem_fieldVisits H fs s.2) s.1 x).trans ?_
    cases x <;> exact Iff.rfl
  | .complex κ fs => fun s x => by
    refine (mem_sum_visits (mem_visits H κ s.1) (mem_fieldVisits H fs s.2) x).trans ?_
    cases x <;> exact Iff.rfl
end

end FixedMap
