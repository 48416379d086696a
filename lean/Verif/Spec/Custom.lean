import Verif.Model.Key
import Verif.Spec.SetExact

/-! # Keys with storages of the user: specification

`KeyTy` covers the key types of the crate. `Key`, `MapStorage` and `SetStorage` are public traits, so a payload may also have a
storage the crate knows nothing about. `Payloads` is an enum whose tuple variants hold keys with arbitrary storages. -/

set_option autoImplicit false

namespace FixedMap

/-- The variants of an enum, with the map and set storage of each payload. The index is the type of keys. -/
inductive Payloads (V : Type) : Type → Type 1 where
  | nil : Payloads V Empty
  /-- unit variant -/
  | simple {K : Type} (p : Payloads V K) : Payloads V (Unit ⊕ K)
  /-- tuple variant with payload `E` -/
  | complex {E K : Type} (M : MapStorage E V) (N : SetStorage E) (p : Payloads V K) : Payloads V (E ⊕ K)

variable {V : Type}

/-- The derived map storage: the construction of `mapFields`, any_variants.rs 142-426, over arbitrary payload storages. -/
def Payloads.mapFields {K : Type} : Payloads V K → MapFields K V
  | .nil => fieldsNil V
  | .simple p => fieldsSimple p.mapFields
  | .complex M _ p => fieldsComplex M p.mapFields

/-- The derived set storage, any_variants.rs 428-660. -/
def Payloads.setFields {K : Type} : Payloads V K → SetFields K
  | .nil => setFieldsNil
  | .simple p => setFieldsSimple p.setFields
  | .complex _ N p => setFieldsComplex N p.setFields

/-- `Map<E, V>` for the derived enum. -/
def Payloads.map {K : Type} (p : Payloads V K) : MapStorage K V := enumMap p.mapFields

/-- `Set<E>` for the derived enum. -/
def Payloads.set {K : Type} (p : Payloads V K) : SetStorage K := enumSet p.setFields

/-- The answers of an ordinary set whose `iter` follows `R`. After a panic of the closure of `retain`: nothing new, and only
rejected elements may be missing. -/
def SetCall.Plain {T : Type} (R : T → T → Prop) (P : T → Prop) : (c : SetCall T) → c.Out → (T → Prop) → Prop
  | .insert x, out, P' => (∀ y, P' y ↔ y = x ∨ P y) ∧ ((out : Bool) = true ↔ ¬P x)
  | .remove x, out, P' => (∀ y, P' y ↔ y ≠ x ∧ P y) ∧ ((out : Bool) = true ↔ P x)
  | .contains x, out, P' => (∀ y, P' y ↔ P y) ∧ ((out : Bool) = true ↔ P x)
  | .len, out, P' => (∀ y, P' y ↔ P y) ∧ ∃ l, Lists R l P ∧ (out : Nat) = l.length
  | .isEmpty, out, P' => (∀ y, P' y ↔ P y) ∧ ((out : Bool) = true ↔ ∀ y, ¬P y)
  | .clear, _, P' => ∀ y, ¬P' y
  | .retain f st, out, P' => ∃ l, Lists R l P ∧ out = ((visit f l st).st, (visit f l st).panicked) ∧
      Retained (visit f l st) P P'
  | .iter, out, P' => (∀ y, P' y ↔ P y) ∧ Lists R out P
  | .clone, _, P' => ∀ y, P' y ↔ P y

/-- A sequence of calls on an ordinary set. -/
def SetCall.PlainRun {T : Type} (R : T → T → Prop) :
    List (Sigma fun c : SetCall T => c.Out) → (T → Prop) → (T → Prop) → Prop
  | [], P, P' => ∀ y, P' y ↔ P y
  | ⟨c, out⟩ :: l, P, P' => ∃ Q, c.Plain R P out Q ∧ SetCall.PlainRun R l Q P'

end FixedMap
