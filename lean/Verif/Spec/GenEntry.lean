import Verif.Model.GenEntry
import Verif.Spec.Gen

/-! # How entries of the variant-by-variant model appear in the generated code -/

set_option autoImplicit false

namespace FixedMap.Gen

variable {H : HashbrownApi} {V : Type}

/-- `OccupiedEntry::Simple(..)` for unit variants, `OccupiedEntry::_i(..)` for tuple variants; variants are numbered
from `i`. -/
def dynOcc : Nat → (vs : List Variant) → (mapFields H V (fieldsOf vs)).Occ → DynOcc H V
  | _, [], e => Empty.elim e
  | i, ⟨x, none⟩ :: vs, .inl e => ⟨"Simple", .simple (dynKey (⟨x, none⟩ :: vs) e.key) (fieldName i)⟩
  | i, ⟨_, none⟩ :: vs, .inr e => dynOcc (i + 1) vs e
  | i, ⟨_, some κ⟩ :: _, .inl e => ⟨fieldName i, .elem κ (fieldName i) e⟩
  | i, ⟨_, some _⟩ :: vs, .inr e => dynOcc (i + 1) vs e

/-- `VacantEntry::Simple(..)` or `VacantEntry::_i(..)`. -/
def dynVac : Nat → (vs : List Variant) → (mapFields H V (fieldsOf vs)).Vac → DynVac H V
  | _, [], e => Empty.elim e
  | i, ⟨x, none⟩ :: vs, .inl e => ⟨"Simple", .simple (dynKey (⟨x, none⟩ :: vs) e.key) (fieldName i)⟩
  | i, ⟨_, none⟩ :: vs, .inr e => dynVac (i + 1) vs e
  | i, ⟨_, some κ⟩ :: _, .inl e => ⟨fieldName i, .elem κ (fieldName i) e⟩
  | i, ⟨_, some _⟩ :: vs, .inr e => dynVac (i + 1) vs e

/-- An entry together with the storage. -/
def dynEntry (vs : List Variant)
    (p : ((mapFields H V (fieldsOf vs)).Occ ⊕ (mapFields H V (fieldsOf vs)).Vac) × (mapFields H V (fieldsOf vs)).S) :
    (DynOcc H V ⊕ DynVac H V) × Struct H V :=
  (p.1.map (dynOcc 0 vs) (dynVac 0 vs), mapStruct (fieldsOf vs) p.2)

end FixedMap.Gen
