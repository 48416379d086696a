import Verif.Proofs.Gen
import Verif.Spec.GenEntry

/-!
# The generated entries do what the variant-by-variant model says
-/

set_option autoImplicit false
set_option linter.unusedSimpArgs false

namespace FixedMap.Gen

variable {H : HashbrownApi} {V : Type}

theorem simple_ne (i : Nat) : ¬ "Simple" = fieldName i := by
  intro h
  have := congrArg (fun s => s.toList.head?) h
  simp [fieldName, String.toList_append] at this

theorem ne_simple (i : Nat) : ¬ fieldName i = "Simple" := fun h => simple_ne i h.symm

/-- The arms of the tuple variants from `i` on. -/
def armsFrom {β : Type} (arm : Field → KeyTy → β) (i : Nat) (vs : List Variant) : List (String × β) :=
  (fieldsFrom i vs).filterMap fun f => f.kind.map fun κ => (f.name, arm f κ)

theorem complexArms_eq {β : Type} (arm : Field → KeyTy → β) (vs : List Variant) :
    complexArms (collect vs) arm = armsFrom arm 0 vs := by
  simp [complexArms, armsFrom, collect_fields]

theorem armsFrom_none {β : Type} (arm : Field → KeyTy → β) (i : Nat) (x : String) (vs : List Variant) :
    armsFrom arm i (⟨x, none⟩ :: vs) = armsFrom arm (i + 1) vs := by
  simp [armsFrom, fieldsFrom, fieldAt]

theorem armsFrom_some {β : Type} (arm : Field → KeyTy → β) (i : Nat) (x : String) (κ : KeyTy) (vs : List Variant) :
    armsFrom arm i (⟨x, some κ⟩ :: vs) = (fieldName i, arm (fieldAt i ⟨x, some κ⟩) κ) :: armsFrom arm (i + 1) vs := by
  simp [armsFrom, fieldsFrom, fieldAt]

/-- Arms after the first do not match an earlier field. -/
theorem armsFrom_lookup_lt {β : Type} (arm : Field → KeyTy → β) (vs : List Variant) :
    ∀ i j, j < i → (armsFrom arm i vs).lookup (fieldName j) = none := by
  induction vs with
  | nil => intro i j _; rfl
  | cons v vs ih =>
    intro i j h
    rcases v with ⟨x, _ | κ⟩
    · rw [armsFrom_none]; exact ih (i + 1) j (by omega)
    · have hne : (fieldName j == fieldName i) = false := by simp; omega
      rw [armsFrom_some, List.lookup_cons, hne]
      exact ih (i + 1) j (by omega)

/-- The tags of the generated enums are distinct. -/
theorem armsFrom_nodup {β : Type} (arm : Field → KeyTy → β) (vs : List Variant) :
    ∀ i, ((armsFrom arm i vs).map (·.1)).Nodup ∧ "Simple" ∉ (armsFrom arm i vs).map (·.1) ∧
      ∀ j, j < i → fieldName j ∉ (armsFrom arm i vs).map (·.1) := by
  induction vs with
  | nil => intro i; simp [armsFrom, fieldsFrom]
  | cons v vs ih =>
    intro i
    obtain ⟨h1, h2, h3⟩ := ih (i + 1)
    rcases v with ⟨x, _ | κ⟩
    · rw [armsFrom_none]; exact ⟨h1, h2, fun j h => h3 j (by omega)⟩
    · rw [armsFrom_some]
      refine ⟨List.nodup_cons.2 ⟨h3 i (by omega), h1⟩, ?_, fun j h => ?_⟩
      · simp only [List.map_cons, List.mem_cons, not_or]
        exact ⟨simple_ne i, h2⟩
      · simp only [List.map_cons, List.mem_cons, not_or]
        exact ⟨by simp; omega, h3 j (by omega)⟩

/-- The arm that handles an entry, by position. -/
def occArm {β : Type} (a0 : β) (arm : Field → KeyTy → β) :
    Nat → (vs : List Variant) → (mapFields H V (fieldsOf vs)).Occ → β
  | _, [], e => Empty.elim e
  | _, ⟨_, none⟩ :: _, .inl _ => a0
  | i, ⟨_, none⟩ :: vs, .inr e => occArm a0 arm (i + 1) vs e
  | i, ⟨x, some κ⟩ :: _, .inl _ => arm (fieldAt i ⟨x, some κ⟩) κ
  | i, ⟨_, some _⟩ :: vs, .inr e => occArm a0 arm (i + 1) vs e

theorem occ_tag : ∀ (i : Nat) (vs : List Variant) (e : (mapFields H V (fieldsOf vs)).Occ),
    (dynOcc i vs e).tag = "Simple" ∨ ∃ j, i ≤ j ∧ (dynOcc i vs e).tag = fieldName j
  | _, [], e => Empty.elim e
  | _, ⟨_, none⟩ :: _, .inl _ => .inl rfl
  | i, ⟨_, none⟩ :: vs, .inr e =>
    (occ_tag (i + 1) vs e).imp id fun ⟨j, h, h'⟩ => ⟨j, by omega, h'⟩
  | i, ⟨_, some _⟩ :: _, .inl _ => .inr ⟨i, Nat.le_refl _, rfl⟩
  | i, ⟨_, some _⟩ :: vs, .inr e =>
    (occ_tag (i + 1) vs e).imp id fun ⟨j, h, h'⟩ => ⟨j, by omega, h'⟩

theorem occ_lookup {β : Type} (a0 : β) (arm : Field → KeyTy → β) :
    ∀ (i : Nat) (vs : List Variant) (e : (mapFields H V (fieldsOf vs)).Occ),
      (("Simple", a0) :: armsFrom arm i vs).lookup (dynOcc i vs e).tag = some (occArm a0 arm i vs e)
  | _, [], e => Empty.elim e
  | _, ⟨_, none⟩ :: _, .inl _ => by simp [dynOcc, occArm]
  | i, ⟨x, none⟩ :: vs, .inr e => by
    rw [armsFrom_none]
    exact occ_lookup a0 arm (i + 1) vs e
  | i, ⟨x, some κ⟩ :: vs, .inl e => by
    rw [armsFrom_some]
    have h : (fieldName i == "Simple") = false := by simpa using ne_simple i
    show List.lookup (fieldName i) _ = _
    rw [List.lookup_cons, h]
    simp [occArm]
  | i, ⟨x, some κ⟩ :: vs, .inr e => by
    rw [armsFrom_some]
    have ih := occ_lookup a0 arm (i + 1) vs e
    show List.lookup (dynOcc (i + 1) vs e).tag _ = some (occArm a0 arm (i + 1) vs e)
    rw [← ih, List.lookup_cons, List.lookup_cons, List.lookup_cons]
    rcases occ_tag (i + 1) vs e with h | ⟨j, hj, h⟩
    · rw [h]; simp
    · rw [h]
      have h2 : (fieldName j == fieldName i) = false := by simp; omega
      rw [h2]

/-- The arm that handles an entry, by position. -/
def vacArm {β : Type} (a0 : β) (arm : Field → KeyTy → β) :
    Nat → (vs : List Variant) → (mapFields H V (fieldsOf vs)).Vac → β
  | _, [], e => Empty.elim e
  | _, ⟨_, none⟩ :: _, .inl _ => a0
  | i, ⟨_, none⟩ :: vs, .inr e => vacArm a0 arm (i + 1) vs e
  | i, ⟨x, some κ⟩ :: _, .inl _ => arm (fieldAt i ⟨x, some κ⟩) κ
  | i, ⟨_, some _⟩ :: vs, .inr e => vacArm a0 arm (i + 1) vs e

theorem vac_tag : ∀ (i : Nat) (vs : List Variant) (e : (mapFields H V (fieldsOf vs)).Vac),
    (dynVac i vs e).tag = "Simple" ∨ ∃ j, i ≤ j ∧ (dynVac i vs e).tag = fieldName j
  | _, [], e => Empty.elim e
  | _, ⟨_, none⟩ :: _, .inl _ => .inl rfl
  | i, ⟨_, none⟩ :: vs, .inr e =>
    (vac_tag (i + 1) vs e).imp id fun ⟨j, h, h'⟩ => ⟨j, by omega, h'⟩
  | i, ⟨_, some _⟩ :: _, .inl _ => .inr ⟨i, Nat.le_refl _, rfl⟩
  | i, ⟨_, some _⟩ :: vs, .inr e =>
    (vac_tag (i + 1) vs e).imp id fun ⟨j, h, h'⟩ => ⟨j, by omega, h'⟩

theorem vac_lookup {β : Type} (a0 : β) (arm : Field → KeyTy → β) :
    ∀ (i : Nat) (vs : List Variant) (e : (mapFields H V (fieldsOf vs)).Vac),
      (("Simple", a0) :: armsFrom arm i vs).lookup (dynVac i vs e).tag = some (vacArm a0 arm i vs e)
  | _, [], e => Empty.elim e
  | _, ⟨_, none⟩ :: _, .inl _ => by simp [dynVac, vacArm]
  | i, ⟨x, none⟩ :: vs, .inr e => by
    rw [armsFrom_none]
    exact vac_lookup a0 arm (i + 1) vs e
  | i, ⟨x, some κ⟩ :: vs, .inl e => by
    rw [armsFrom_some]
    have h : (fieldName i == "Simple") = false := by simpa using ne_simple i
    show List.lookup (fieldName i) _ = _
    rw [List.lookup_cons, h]
    simp [vacArm]
  | i, ⟨x, some κ⟩ :: vs, .inr e => by
    rw [armsFrom_some]
    have ih := vac_lookup a0 arm (i + 1) vs e
    show List.lookup (dynVac (i + 1) vs e).tag _ = some (vacArm a0 arm (i + 1) vs e)
    rw [← ih, List.lookup_cons, List.lookup_cons, List.lookup_cons]
    rcases vac_tag (i + 1) vs e with h | ⟨j, hj, h⟩
    · rw [h]; simp
    · rw [h]
      have h2 : (fieldName j == fieldName i) = false := by simp; omega
      rw [h2]

theorem res_map_map {α β γ : Type} (r : Res α) (f : α → β) (g : β → γ) : (r.map f).map g = r.map fun a => g (f a) := by
  cases r <;> rfl

theorem res_map_congr {α β : Type} {r : Res α} {f g : α → β} (h : ∀ a, f a = g a) : r.map f = r.map g := by
  cases r with
  | ok a => exact congrArg Res.ok (h a)
  | panic => rfl
  | ub => rfl

theorem some_comp {α β γ : Type} (r : Res α) (f : α → β) (g : α → γ) (h : γ → β) (hc : ∀ a, f a = h (g a)) :
    some (r.map f) = some ((r.map g).map h) := by
  cases r with
  | ok a => exact congrArg (fun x => some (Res.ok x)) (hc a)
  | panic => rfl
  | ub => rfl

theorem occ_get (C : EntryCode) (hC : C.simpleOcc = (genEntry (collect [])).simpleOcc) : ∀ (vs : List Variant) (i : Nat) (pre : List (Cell H V)) (_ : pre.length = i)
    (s : (mapFields H V (fieldsOf vs)).S) (e : (mapFields H V (fieldsOf vs)).Occ),
    OccBody.run C [] (named 0 (pre ++ mapCells (fieldsOf vs) s)) (occArm (.inherent .get []) (fun _ κ => .assoc κ .get []) i vs e) (dynOcc i vs e).arg =
      some (((mapFields H V (fieldsOf vs)).occGet e s).map fun v => (.val v, named 0 (pre ++ mapCells (fieldsOf vs) s)))
  | [], _, _, _, _, e => Empty.elim e
  | ⟨x, none⟩ :: vs, i, pre, hi, (o, s), .inl e => by
    subst hi
    have hg := named_get pre (mapCells (fieldsOf vs) s) (.slot o) 0
    have hs := fun c => named_set pre (mapCells (fieldsOf vs) s) (.slot o) c 0
    simp only [Nat.zero_add] at hg hs
    simp only [mapCells, occArm, dynOcc, OccBody.run, SomeFn.run, OccMeth.run, hC, genEntry, hg, lookupAll, List.lookup_cons, beq_self_eq_true, Option.bind_some,
      Option.map_some, Cell.asMap_self, dite_true, mapFields, fieldsOf, hs]
    first | done | rfl | exact some_comp _ _ _ _ fun a => by first | rfl | simp [hs, mapCells, dynAddr]
  | ⟨x, none⟩ :: vs, i, pre, hi, (o, s), .inr e => by
    have ih := occ_get C hC vs (i + 1) (pre ++ [.slot o]) (by simp [hi]) s e
    simp only [List.append_assoc, List.cons_append, List.nil_append] at ih
    refine ih.trans ?_
    first | rfl | exact some_comp _ _ _ _ fun a => rfl
  | ⟨x, some κ⟩ :: vs, i, pre, hi, (m, s), .inl e => by
    subst hi
    have hg := named_get pre (mapCells (fieldsOf vs) s) (.map κ m) 0
    have hs := fun c => named_set pre (mapCells (fieldsOf vs) s) (.map κ m) c 0
    simp only [Nat.zero_add] at hg hs
    simp only [mapCells, occArm, dynOcc, OccBody.run, SomeFn.run, OccMeth.run, hC, genEntry, hg, lookupAll, List.lookup_cons, beq_self_eq_true, Option.bind_some,
      Option.map_some, Cell.asMap_self, dite_true, mapFields, fieldsOf, hs]
    first | done | rfl | exact some_comp _ _ _ _ fun a => by first | rfl | simp [hs, mapCells, dynAddr]
  | ⟨x, some κ⟩ :: vs, i, pre, hi, (m, s), .inr e => by
    have ih := occ_get C hC vs (i + 1) (pre ++ [.map κ m]) (by simp [hi]) s e
    simp only [List.append_assoc, List.cons_append, List.nil_append] at ih
    refine ih.trans ?_
    first | rfl | exact some_comp _ _ _ _ fun a => rfl

theorem occ_getMut (C : EntryCode) (hC : C.simpleOcc = (genEntry (collect [])).simpleOcc) : ∀ (vs : List Variant) (i : Nat) (pre : List (Cell H V)) (_ : pre.length = i)
    (s : (mapFields H V (fieldsOf vs)).S) (e : (mapFields H V (fieldsOf vs)).Occ),
    OccBody.run C [] (named 0 (pre ++ mapCells (fieldsOf vs) s)) (occArm (.inherent .getMut []) (fun _ κ => .assoc κ .getMut []) i vs e) (dynOcc i vs e).arg =
      some (((mapFields H V (fieldsOf vs)).occGetMut e s).map fun a => (.addr (dynAddr i (fieldsOf vs) a), named 0 (pre ++ mapCells (fieldsOf vs) s)))
  | [], _, _, _, _, e => Empty.elim e
  | ⟨x, none⟩ :: vs, i, pre, hi, (o, s), .inl e => by
    subst hi
    have hg := named_get pre (mapCells (fieldsOf vs) s) (.slot o) 0
    have hs := fun c => named_set pre (mapCells (fieldsOf vs) s) (.slot o) c 0
    simp only [Nat.zero_add] at hg hs
    simp only [mapCells, occArm, dynOcc, OccBody.run, SomeFn.run, OccMeth.run, hC, genEntry, hg, lookupAll, List.lookup_cons, beq_self_eq_true, Option.bind_some,
      Option.map_some, Cell.asMap_self, dite_true, mapFields, fieldsOf, hs]
    first | done | rfl | exact some_comp _ _ _ _ fun a => by first | rfl | simp [hs, mapCells, dynAddr]
  | ⟨x, none⟩ :: vs, i, pre, hi, (o, s), .inr e => by
    have ih := occ_getMut C hC vs (i + 1) (pre ++ [.slot o]) (by simp [hi]) s e
    simp only [List.append_assoc, List.cons_append, List.nil_append] at ih
    refine ih.trans ?_
    first | rfl | exact some_comp _ _ _ _ fun a => rfl
  | ⟨x, some κ⟩ :: vs, i, pre, hi, (m, s), .inl e => by
    subst hi
    have hg := named_get pre (mapCells (fieldsOf vs) s) (.map κ m) 0
    have hs := fun c => named_set pre (mapCells (fieldsOf vs) s) (.map κ m) c 0
    simp only [Nat.zero_add] at hg hs
    simp only [mapCells, occArm, dynOcc, OccBody.run, SomeFn.run, OccMeth.run, hC, genEntry, hg, lookupAll, List.lookup_cons, beq_self_eq_true, Option.bind_some,
      Option.map_some, Cell.asMap_self, dite_true, mapFields, fieldsOf, hs]
    first | done | rfl | exact some_comp _ _ _ _ fun a => by first | rfl | simp [hs, mapCells, dynAddr]
  | ⟨x, some κ⟩ :: vs, i, pre, hi, (m, s), .inr e => by
    have ih := occ_getMut C hC vs (i + 1) (pre ++ [.map κ m]) (by simp [hi]) s e
    simp only [List.append_assoc, List.cons_append, List.nil_append] at ih
    refine ih.trans ?_
    first | rfl | exact some_comp _ _ _ _ fun a => rfl

theorem occ_intoMut (C : EntryCode) (hC : C.simpleOcc = (genEntry (collect [])).simpleOcc) : ∀ (vs : List Variant) (i : Nat) (pre : List (Cell H V)) (_ : pre.length = i)
    (s : (mapFields H V (fieldsOf vs)).S) (e : (mapFields H V (fieldsOf vs)).Occ),
    OccBody.run C [] (named 0 (pre ++ mapCells (fieldsOf vs) s)) (occArm (.inherent .intoMut []) (fun _ κ => .assoc κ .intoMut []) i vs e) (dynOcc i vs e).arg =
      some (((mapFields H V (fieldsOf vs)).occIntoMut e s).map fun a => (.addr (dynAddr i (fieldsOf vs) a), named 0 (pre ++ mapCells (fieldsOf vs) s)))
  | [], _, _, _, _, e => Empty.elim e
  | ⟨x, none⟩ :: vs, i, pre, hi, (o, s), .inl e => by
    subst hi
    have hg := named_get pre (mapCells (fieldsOf vs) s) (.slot o) 0
    have hs := fun c => named_set pre (mapCells (fieldsOf vs) s) (.slot o) c 0
    simp only [Nat.zero_add] at hg hs
    simp only [mapCells, occArm, dynOcc, OccBody.run, SomeFn.run, OccMeth.run, hC, genEntry, hg, lookupAll, List.lookup_cons, beq_self_eq_true, Option.bind_some,
      Option.map_some, Cell.asMap_self, dite_true, mapFields, fieldsOf, hs]
    first | done | rfl | exact some_comp _ _ _ _ fun a => by first | rfl | simp [hs, mapCells, dynAddr]
  | ⟨x, none⟩ :: vs, i, pre, hi, (o, s), .inr e => by
    have ih := occ_intoMut C hC vs (i + 1) (pre ++ [.slot o]) (by simp [hi]) s e
    simp only [List.append_assoc, List.cons_append, List.nil_append] at ih
    refine ih.trans ?_
    first | rfl | exact some_comp _ _ _ _ fun a => rfl
  | ⟨x, some κ⟩ :: vs, i, pre, hi, (m, s), .inl e => by
    subst hi
    have hg := named_get pre (mapCells (fieldsOf vs) s) (.map κ m) 0
    have hs := fun c => named_set pre (mapCells (fieldsOf vs) s) (.map κ m) c 0
    simp only [Nat.zero_add] at hg hs
    simp only [mapCells, occArm, dynOcc, OccBody.run, SomeFn.run, OccMeth.run, hC, genEntry, hg, lookupAll, List.lookup_cons, beq_self_eq_true, Option.bind_some,
      Option.map_some, Cell.asMap_self, dite_true, mapFields, fieldsOf, hs]
    first | done | rfl | exact some_comp _ _ _ _ fun a => by first | rfl | simp [hs, mapCells, dynAddr]
  | ⟨x, some κ⟩ :: vs, i, pre, hi, (m, s), .inr e => by
    have ih := occ_intoMut C hC vs (i + 1) (pre ++ [.map κ m]) (by simp [hi]) s e
    simp only [List.append_assoc, List.cons_append, List.nil_append] at ih
    refine ih.trans ?_
    first | rfl | exact some_comp _ _ _ _ fun a => rfl

theorem occ_insert (C : EntryCode) (hC : C.simpleOcc = (genEntry (collect [])).simpleOcc) (v : V) : ∀ (vs : List Variant) (i : Nat) (pre : List (Cell H V)) (_ : pre.length = i)
    (s : (mapFields H V (fieldsOf vs)).S) (e : (mapFields H V (fieldsOf vs)).Occ),
    OccBody.run C [("value", v)] (named 0 (pre ++ mapCells (fieldsOf vs) s)) (occArm (.inherent .insert ["value"]) (fun _ κ => .assoc κ .insert ["value"]) i vs e) (dynOcc i vs e).arg =
      some (((mapFields H V (fieldsOf vs)).occInsert e s v).map fun p => (.val p.1, named 0 (pre ++ mapCells (fieldsOf vs) p.2)))
  | [], _, _, _, _, e => Empty.elim e
  | ⟨x, none⟩ :: vs, i, pre, hi, (o, s), .inl e => by
    subst hi
    have hg := named_get pre (mapCells (fieldsOf vs) s) (.slot o) 0
    have hs := fun c => named_set pre (mapCells (fieldsOf vs) s) (.slot o) c 0
    simp only [Nat.zero_add] at hg hs
    simp only [mapCells, occArm, dynOcc, OccBody.run, SomeFn.run, OccMeth.run, hC, genEntry, hg, lookupAll, List.lookup_cons, beq_self_eq_true, Option.bind_some,
      Option.map_some, Cell.asMap_self, dite_true, mapFields, fieldsOf, hs]
    first | done | rfl | exact some_comp _ _ _ _ fun a => by first | rfl | simp [hs, mapCells, dynAddr]
  | ⟨x, none⟩ :: vs, i, pre, hi, (o, s), .inr e => by
    have ih := occ_insert C hC v vs (i + 1) (pre ++ [.slot o]) (by simp [hi]) s e
    simp only [List.append_assoc, List.cons_append, List.nil_append] at ih
    refine ih.trans ?_
    first | rfl | exact some_comp _ _ _ _ fun a => rfl
  | ⟨x, some κ⟩ :: vs, i, pre, hi, (m, s), .inl e => by
    subst hi
    have hg := named_get pre (mapCells (fieldsOf vs) s) (.map κ m) 0
    have hs := fun c => named_set pre (mapCells (fieldsOf vs) s) (.map κ m) c 0
    simp only [Nat.zero_add] at hg hs
    simp only [mapCells, occArm, dynOcc, OccBody.run, SomeFn.run, OccMeth.run, hC, genEntry, hg, lookupAll, List.lookup_cons, beq_self_eq_true, Option.bind_some,
      Option.map_some, Cell.asMap_self, dite_true, mapFields, fieldsOf, hs]
    first | done | rfl | exact some_comp _ _ _ _ fun a => by first | rfl | simp [hs, mapCells, dynAddr]
  | ⟨x, some κ⟩ :: vs, i, pre, hi, (m, s), .inr e => by
    have ih := occ_insert C hC v vs (i + 1) (pre ++ [.map κ m]) (by simp [hi]) s e
    simp only [List.append_assoc, List.cons_append, List.nil_append] at ih
    refine ih.trans ?_
    first | rfl | exact some_comp _ _ _ _ fun a => rfl

theorem occ_remove (C : EntryCode) (hC : C.simpleOcc = (genEntry (collect [])).simpleOcc) : ∀ (vs : List Variant) (i : Nat) (pre : List (Cell H V)) (_ : pre.length = i)
    (s : (mapFields H V (fieldsOf vs)).S) (e : (mapFields H V (fieldsOf vs)).Occ),
    OccBody.run C [] (named 0 (pre ++ mapCells (fieldsOf vs) s)) (occArm (.inherent .remove []) (fun _ κ => .assoc κ .remove []) i vs e) (dynOcc i vs e).arg =
      some (((mapFields H V (fieldsOf vs)).occRemove e s).map fun p => (.val p.1, named 0 (pre ++ mapCells (fieldsOf vs) p.2)))
  | [], _, _, _, _, e => Empty.elim e
  | ⟨x, none⟩ :: vs, i, pre, hi, (o, s), .inl e => by
    subst hi
    have hg := named_get pre (mapCells (fieldsOf vs) s) (.slot o) 0
    have hs := fun c => named_set pre (mapCells (fieldsOf vs) s) (.slot o) c 0
    simp only [Nat.zero_add] at hg hs
    simp only [mapCells, occArm, dynOcc, OccBody.run, SomeFn.run, OccMeth.run, hC, genEntry, hg, lookupAll, List.lookup_cons, beq_self_eq_true, Option.bind_some,
      Option.map_some, Cell.asMap_self, dite_true, mapFields, fieldsOf, hs]
    first | done | rfl | exact some_comp _ _ _ _ fun a => by first | rfl | simp [hs, mapCells, dynAddr]
  | ⟨x, none⟩ :: vs, i, pre, hi, (o, s), .inr e => by
    have ih := occ_remove C hC vs (i + 1) (pre ++ [.slot o]) (by simp [hi]) s e
    simp only [List.append_assoc, List.cons_append, List.nil_append] at ih
    refine ih.trans ?_
    first | rfl | exact some_comp _ _ _ _ fun a => rfl
  | ⟨x, some κ⟩ :: vs, i, pre, hi, (m, s), .inl e => by
    subst hi
    have hg := named_get pre (mapCells (fieldsOf vs) s) (.map κ m) 0
    have hs := fun c => named_set pre (mapCells (fieldsOf vs) s) (.map κ m) c 0
    simp only [Nat.zero_add] at hg hs
    simp only [mapCells, occArm, dynOcc, OccBody.run, SomeFn.run, OccMeth.run, hC, genEntry, hg, lookupAll, List.lookup_cons, beq_self_eq_true, Option.bind_some,
      Option.map_some, Cell.asMap_self, dite_true, mapFields, fieldsOf, hs]
    first | done | rfl | exact some_comp _ _ _ _ fun a => by first | rfl | simp [hs, mapCells, dynAddr]
  | ⟨x, some κ⟩ :: vs, i, pre, hi, (m, s), .inr e => by
    have ih := occ_remove C hC vs (i + 1) (pre ++ [.map κ m]) (by simp [hi]) s e
    simp only [List.append_assoc, List.cons_append, List.nil_append] at ih
    refine ih.trans ?_
    first | rfl | exact some_comp _ _ _ _ fun a => rfl

theorem vac_insert (v : V) : ∀ (vs : List Variant) (i : Nat) (pre : List (Cell H V)) (_ : pre.length = i)
    (s : (mapFields H V (fieldsOf vs)).S) (e : (mapFields H V (fieldsOf vs)).Vac),
    VacBody.run [("value", v)] (named 0 (pre ++ mapCells (fieldsOf vs) s)) (vacArm (.inherent ["value"]) (fun _ κ => .assoc κ ["value"]) i vs e) (dynVac i vs e).arg =
      some (((mapFields H V (fieldsOf vs)).vacInsert e s v).map fun p => (.addr (dynAddr i (fieldsOf vs) p.1), named 0 (pre ++ mapCells (fieldsOf vs) p.2)))
  | [], _, _, _, _, e => Empty.elim e
  | ⟨x, none⟩ :: vs, i, pre, hi, (o, s), .inl e => by
    subst hi
    have hg := named_get pre (mapCells (fieldsOf vs) s) (.slot o) 0
    have hs := fun c => named_set pre (mapCells (fieldsOf vs) s) (.slot o) c 0
    simp only [Nat.zero_add] at hg hs
    simp only [mapCells, vacArm, dynVac, VacBody.run, hg, lookupAll, List.lookup_cons, beq_self_eq_true, Option.bind_some,
      Option.map_some, Cell.asMap_self, dite_true, mapFields, fieldsOf, hs]
    first | done | rfl | exact some_comp _ _ _ _ fun a => by first | rfl | simp [hs, mapCells, dynAddr]
  | ⟨x, none⟩ :: vs, i, pre, hi, (o, s), .inr e => by
    have ih := vac_insert v vs (i + 1) (pre ++ [.slot o]) (by simp [hi]) s e
    simp only [List.append_assoc, List.cons_append, List.nil_append] at ih
    refine ih.trans ?_
    first | rfl | exact some_comp _ _ _ _ fun a => rfl
  | ⟨x, some κ⟩ :: vs, i, pre, hi, (m, s), .inl e => by
    subst hi
    have hg := named_get pre (mapCells (fieldsOf vs) s) (.map κ m) 0
    have hs := fun c => named_set pre (mapCells (fieldsOf vs) s) (.map κ m) c 0
    simp only [Nat.zero_add] at hg hs
    simp only [mapCells, vacArm, dynVac, VacBody.run, hg, lookupAll, List.lookup_cons, beq_self_eq_true, Option.bind_some,
      Option.map_some, Cell.asMap_self, dite_true, mapFields, fieldsOf, hs]
    first | done | rfl | exact some_comp _ _ _ _ fun a => by first | rfl | simp [hs, mapCells, dynAddr]
  | ⟨x, some κ⟩ :: vs, i, pre, hi, (m, s), .inr e => by
    have ih := vac_insert v vs (i + 1) (pre ++ [.map κ m]) (by simp [hi]) s e
    simp only [List.append_assoc, List.cons_append, List.nil_append] at ih
    refine ih.trans ?_
    first | rfl | exact some_comp _ _ _ _ fun a => rfl

theorem occ_key (C : EntryCode) (S : Struct H V) : ∀ (vs : List Variant) (i : Nat) (e : (mapFields H V (fieldsOf vs)).Occ),
    OccBody.run C [] S (occArm .keyField (fun f κ => .keyOf f.var κ) i vs e) (dynOcc i vs e).arg =
      some (.ok (.key (dynKey vs ((mapFields H V (fieldsOf vs)).occKey e)), S))
  | [], _, e => Empty.elim e
  | ⟨_, none⟩ :: _, _, .inl _ => rfl
  | ⟨_, none⟩ :: vs, i, .inr e => occ_key C S vs (i + 1) e
  | ⟨_, some _⟩ :: _, _, .inl _ => by simp [occArm, dynOcc, OccBody.run, fieldAt, dynKey, mapFields, fieldsOf]
  | ⟨_, some _⟩ :: vs, i, .inr e => occ_key C S vs (i + 1) e

theorem vac_key (S : Struct H V) : ∀ (vs : List Variant) (i : Nat) (e : (mapFields H V (fieldsOf vs)).Vac),
    VacBody.run [] S (vacArm .keyField (fun f κ => .keyOf f.var κ) i vs e) (dynVac i vs e).arg =
      some (.ok (.key (dynKey vs ((mapFields H V (fieldsOf vs)).vacKey e)), S))
  | [], _, e => Empty.elim e
  | ⟨_, none⟩ :: _, _, .inl _ => rfl
  | ⟨_, none⟩ :: vs, i, .inr e => vac_key S vs (i + 1) e
  | ⟨_, some _⟩ :: _, _, .inl _ => by simp [vacArm, dynVac, VacBody.run, fieldAt, dynKey, mapFields, fieldsOf]
  | ⟨_, some _⟩ :: vs, i, .inr e => vac_key S vs (i + 1) e

/-! ## `entry` -/

def entryArm (f : Field) : Pat × EntryBody :=
  match f.kind with
  | none => (.path f.var, .optionToEntry f.name "key")
  | some _ => (.tuple f.var "key", .elem f.name "key" f.name f.name)

/-- The enum declares the variants of the fields from `i` on. -/
def Declares (l : List (String × Option KeyTy)) (i : Nat) (vs : List Variant) : Prop :=
  l.lookup "Simple" = some none ∧
    ∀ j κ, (armsFrom (fun _ κ => some κ) i vs).lookup (fieldName j) = some (some κ) → l.lookup (fieldName j) = some (some κ)

theorem Declares.all (vs : List Variant) :
    Declares (("Simple", none) :: complexArms (collect vs) fun _ κ => some κ) 0 vs := by
  refine ⟨by simp, fun j κ h => ?_⟩
  have hne : (fieldName j == "Simple") = false := by simpa using ne_simple j
  rw [List.lookup_cons, hne, complexArms_eq]
  exact h

theorem Declares.tail {l : List (String × Option KeyTy)} {i : Nat} {v : Variant} {vs : List Variant}
    (h : Declares l i (v :: vs)) : Declares l (i + 1) vs := by
  refine ⟨h.1, fun j κ hj => h.2 j κ ?_⟩
  rcases v with ⟨x, _ | κ'⟩
  · rw [armsFrom_none]; exact hj
  · have hji : ¬ j = i := by
      rintro rfl
      rw [armsFrom_lookup_lt _ _ _ _ (Nat.lt_succ_self _)] at hj
      cases hj
    have hne : (fieldName j == fieldName i) = false := by simpa using hji
    rw [armsFrom_some, List.lookup_cons, hne]
    exact hj

theorem Declares.head {l : List (String × Option KeyTy)} {i : Nat} {x : String} {κ : KeyTy} {vs : List Variant}
    (h : Declares l i (⟨x, some κ⟩ :: vs)) : l.lookup (fieldName i) = some (some κ) :=
  h.2 i κ (by rw [armsFrom_some]; simp)

theorem entry_pos (C : EntryCode) : ∀ (vs : List Variant) (_ : Distinct vs) (i : Nat) (_ : Declares C.occ i vs)
    (_ : Declares C.vac i vs) (pre : List (Cell H V)) (_ : pre.length = i) (s : (mapFields H V (fieldsOf vs)).S)
    (k : (fieldsOf vs).Key),
    runEntryArms C (dynKey vs k) (named 0 (pre ++ mapCells (fieldsOf vs) s)) ((fieldsFrom i vs).map entryArm) =
      some (((mapFields H V (fieldsOf vs)).entry s k).map fun p =>
        (p.1.map (dynOcc i vs) (dynVac i vs), named 0 (pre ++ mapCells (fieldsOf vs) p.2)))
  | [], _, _, _, _, _, _, _, k => Empty.elim k
  | ⟨x, none⟩ :: vs, _, i, ho, hv, pre, hi, (o, s), .inl u => by
    subst hi
    have hg := named_get pre (mapCells (fieldsOf vs) s) (.slot o) 0
    simp only [Nat.zero_add] at hg
    simp only [fieldsFrom, fieldAt, List.map_cons, entryArm, runEntryArms, dynKey, Pat.variant, if_true, Pat.bind,
      Option.bind_some, EntryBody.run, mapCells, hg, List.nil_append, List.lookup_cons, beq_self_eq_true, ho.1, hv.1,
      mapFields, fieldsOf, simpleOptionToEntry]
    exact some_comp _ _ _ _ fun a => by cases a <;> rfl
  | ⟨x, none⟩ :: vs, hd, i, ho, hv, pre, hi, (o, s), .inr k => by
    have ih := entry_pos C vs hd.tail (i + 1) ho.tail hv.tail (pre ++ [.slot o]) (by simp [hi]) s k
    simp only [List.append_assoc, List.cons_append, List.nil_append] at ih
    have h := hd.ne k
    simp only [fieldsFrom, fieldAt, List.map_cons, entryArm, runEntryArms, dynKey, Pat.variant, h, if_false]
    refine ih.trans ?_
    exact some_comp _ _ _ _ fun a => by rcases a with ⟨a | a, s'⟩ <;> rfl
  | ⟨x, some κ⟩ :: vs, _, i, ho, hv, pre, hi, (m, s), .inl k => by
    have h1 := ho.head
    have h2 := hv.head
    subst hi
    have hg := named_get pre (mapCells (fieldsOf vs) s) (.map κ m) 0
    have hs := fun c => named_set pre (mapCells (fieldsOf vs) s) (.map κ m) c 0
    simp only [Nat.zero_add] at hg hs
    simp only [fieldsFrom, fieldAt, List.map_cons, entryArm, runEntryArms, dynKey, Pat.variant, if_true, Pat.bind,
      Option.bind_some, EntryBody.run, mapCells, hg, List.cons_append, List.nil_append, List.lookup_cons,
      beq_self_eq_true, h1, h2, and_self, Val.asElem_self, Option.map_some, mapFields, fieldsOf, hs]
    exact some_comp _ _ _ _ fun a => by rcases a with ⟨a | a, s'⟩ <;> rfl
  | ⟨x, some κ⟩ :: vs, hd, i, ho, hv, pre, hi, (m, s), .inr k => by
    have ih := entry_pos C vs hd.tail (i + 1) ho.tail hv.tail (pre ++ [.map κ m]) (by simp [hi]) s k
    simp only [List.append_assoc, List.cons_append, List.nil_append] at ih
    have h := hd.ne k
    simp only [fieldsFrom, fieldAt, List.map_cons, entryArm, runEntryArms, dynKey, Pat.variant, h, if_false]
    refine ih.trans ?_
    exact some_comp _ _ _ _ fun a => by rcases a with ⟨a | a, s'⟩ <;> rfl

end FixedMap.Gen
