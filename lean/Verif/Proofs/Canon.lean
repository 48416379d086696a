import Verif.Proofs.History
import Verif.Proofs.SetEnum

/-! # Storages without hash tables are determined by their contents -/

set_option autoImplicit false
set_option linter.unusedSimpArgs false

namespace FixedMap

/-- States with the same content are the same. -/
def CanonMap {K V : Type} (M : MapCore K V) : Prop := ∀ s t : M.S, (∀ k, M.get s k = M.get t k) → s = t

theorem canon_opt {K V : Type} {M : MapStorage K V} (h : CanonMap M.toMapCore) : CanonMap (optMap M).toMapCore := by
  rintro ⟨a, b⟩ ⟨c, d⟩ e
  have h1 : a = c := h a c fun k => e (some k)
  have h2 : b = d := e none
  rw [h1, h2]

theorem canon_simple {K V : Type} {F : MapFields K V} (h : CanonMap F.toMapCore) :
    CanonMap (fieldsSimple F).toMapCore := by
  rintro ⟨a, b⟩ ⟨c, d⟩ e
  have h1 : a = c := e (.inl ())
  have h2 : b = d := h b d fun k => e (.inr k)
  rw [h1, h2]

theorem canon_complex {E K V : Type} {M : MapStorage E V} {F : MapFields K V} (g : CanonMap M.toMapCore)
    (h : CanonMap F.toMapCore) : CanonMap (fieldsComplex M F).toMapCore := by
  rintro ⟨a, b⟩ ⟨c, d⟩ e
  have h1 : a = c := g a c fun k => e (.inl k)
  have h2 : b = d := h b d fun k => e (.inr k)
  rw [h1, h2]

theorem canon_units (n : Nat) (V : Type) : CanonMap (unitsMap n V).toMapCore := by
  intro s t e
  exact Vector.ext fun i hi => e ⟨i, hi⟩

mutual
theorem canonMap (H : HashbrownApi) (V : Type) : (κ : KeyTy) → κ.hashFree = true → CanonMap (mapStorage H V κ).toMapCore
  | .bool, _ => by
    rintro ⟨a, b⟩ ⟨c, d⟩ e
    have h1 : a = c := e true
    have h2 : b = d := e false
    rw [h1, h2]
  | .unit, _ => fun _ _ e => e ()
  | .opt κ, h => canon_opt (canonMap H V κ h)
  | .units n, _ => canon_units n V
  | .bitset n _ _, _ => canon_units n V
  | .enum fs, h => canonFields H V fs h
theorem canonFields (H : HashbrownApi) (V : Type) : (fs : Fields) → fs.hashFree = true →
    CanonMap (mapFields H V fs).toMapCore
  | .nil, _ => fun _ _ _ => rfl
  | .simple fs, h => canon_simple (canonFields H V fs h)
  | .complex κ fs, h => by
    simp only [Fields.hashFree, Bool.and_eq_true] at h
    exact canon_complex (canonMap H V κ h.1) (canonFields H V fs h.2)
end

/-- Valid states with the same elements are the same. -/
def CanonSet {T : Type} {M : SetCore T} (L : SetLaws M) : Prop :=
  ∀ s t : M.S, L.valid s → L.valid t → (∀ x, M.contains s x = M.contains t x) → s = t

theorem canonSet_opt {T : Type} {M : SetStorage T} {L : SetLaws M.toSetCore} (h : CanonSet L) : CanonSet (optSetLaws L) := by
  rintro ⟨a, b⟩ ⟨c, d⟩ v w e
  have h1 : a = c := h a c v w fun k => e (some k)
  have h2 : b = d := e none
  rw [h1, h2]

theorem canonSet_simple {T : Type} {F : SetFields T} {L : SetLaws F.toSetCore} (h : CanonSet L) :
    CanonSet (simpleSetLaws L) := by
  rintro ⟨a, b⟩ ⟨c, d⟩ v w e
  have h1 : a = c := e (.inl ())
  have h2 : b = d := h b d v w fun k => e (.inr k)
  rw [h1, h2]

theorem canonSet_complex {E T : Type} {M : SetStorage E} {F : SetFields T} {LA : SetLaws M.toSetCore}
    {L : SetLaws F.toSetCore} (g : CanonSet LA) (h : CanonSet L) : CanonSet (complexSetLaws LA L) := by
  rintro ⟨a, b⟩ ⟨c, d⟩ v w e
  have h1 : a = c := g a c v.1 w.1 fun k => e (.inl k)
  have h2 : b = d := h b d v.2 w.2 fun k => e (.inr k)
  rw [h1, h2]

theorem canonSet_bool : CanonSet boolSetLaws := fun (_ _ : BitVec 8) v w e =>
  eq_of_beq ((boolSetLaws.eq_iff _ _ v w).mpr e)

theorem canonSet_bitset {n w : Nat} (hw : n ≤ w) : CanonSet (bitsetSetLaws hw) := fun (_ _ : BitVec w) hs ht e =>
  eq_of_beq (((bitsetSetLaws hw).eq_iff _ _ hs ht).mpr e)

mutual
theorem canonSet (H : Hashbrown) : (κ : KeyTy) → κ.hashFree = true → CanonSet (setLaws H κ)
  | .bool, _ => canonSet_bool
  | .unit, _ => fun _ _ _ _ e => e ()
  | .opt κ, h => canonSet_opt (canonSet H κ h)
  | .units _, _ => fun _ _ _ _ e => Vector.ext fun i hi => e ⟨i, hi⟩
  | .bitset _ _ h, _ => canonSet_bitset (determineBits_le h)
  | .enum fs, h => canonSetFields H fs h
theorem canonSetFields (H : Hashbrown) : (fs : Fields) → fs.hashFree = true → CanonSet (setFieldsLaws H fs)
  | .nil, _ => fun _ _ _ _ _ => rfl
  | .simple fs, h => canonSet_simple (canonSetFields H fs h)
  | .complex κ fs, h => by
    simp only [Fields.hashFree, Bool.and_eq_true] at h
    exact canonSet_complex (canonSet H κ h.1) (canonSetFields H fs h.2)
end

end FixedMap
