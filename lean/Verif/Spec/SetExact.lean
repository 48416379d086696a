import Verif.Spec.SetHistory
import Verif.Spec.SetQuirks
import Verif.Spec.Exhaust

/-! # The complete observable behaviour of a set

A reference description of a `Set`, with every deviation of the code from an ordinary set (`SetQuirks`). It knows only
which elements are contained. -/

set_option autoImplicit false

namespace FixedMap

/-- The element with which the closure was called when it panicked, if it did. -/
def panicAt {T σ : Type} (f : σ → T → σ × Option Bool) : List T → σ → Option T
  | [], _ => none
  | x :: l, st =>
    match f st x with
    | (_, none) => some x
    | (st', some _) => panicAt f l st'

/-- `both p q a b`: `p` holds of the payloads if both are on the left, `q` if both are on the right. -/
def both {A B : Type} (p : A → A → Bool) (q : B → B → Bool) : A ⊕ B → A ⊕ B → Bool
  | .inl a, .inl b => p a b
  | .inr a, .inr b => q a b
  | _, _ => false

/-- `p` holds of the contents if both are `Some`. -/
def bothSome {A : Type} (p : A → A → Bool) : Option A → Option A → Bool
  | some a, some b => p a b
  | _, _ => false

mutual
/-- Both elements are variants of one `#[key(bitset)]` enum, in the same place of the key. `retain` writes such a set
back only after its last call of the closure. -/
def KeyTy.sameBatch : (κ : KeyTy) → κ.Key → κ.Key → Bool
  | .bool => fun _ _ => false
  | .unit => fun _ _ => false
  | .opt κ => bothSome κ.sameBatch
  | .prim _ => fun _ _ => false
  | .units _ => fun _ _ => false
  | .bitset _ _ _ => fun _ _ => true
  | .enum fs => fs.sameBatch
def Fields.sameBatch : (fs : Fields) → fs.Key → fs.Key → Bool
  | .nil => fun _ _ => false
  | .simple fs => both (fun _ _ => false) fs.sameBatch
  | .complex κ fs => both κ.sameBatch fs.sameBatch
end

/-- What `retain` leaves of the elements `P` when it calls the closure with the elements of `l` in order. Accepted
elements are in, elements the closure was not called with stay, rejected elements are out; except for the rejected
elements of the bitset during whose `retain` the closure panicked, which stay. -/
def retained {T σ : Type} (batch : T → T → Bool) (f : σ → T → σ × Option Bool) (l : List T) (st : σ) (P : T → Prop)
    (x : T) : Prop :=
  x ∈ (visit f l st).kept ∨
    P x ∧ (x ∉ (visit f l st).rejected ∨ ∃ p, panicAt f l st = some p ∧ batch p x = true)

/-- Calls of a set. -/
inductive SetCall (T : Type) : Type 1 where
  | insert (x : T)
  | remove (x : T)
  | contains (x : T)
  | len
  | isEmpty
  | clear
  | retain {σ : Type} (f : σ → T → σ × Option Bool) (st : σ)
  /-- `iter()`, run to its end -/
  | iter
  /-- `clone()`, keeping the clone -/
  | clone

/-- What the caller sees. -/
def SetCall.Out {T : Type} : SetCall T → Type
  | .insert _ => Bool
  | .remove _ => Bool
  | .contains _ => Bool
  | .len => Nat
  | .isEmpty => Bool
  | .clear => Unit
  | .retain (σ := σ) _ _ => σ × Bool
  | .iter => List T
  | .clone => Unit

/-- `l` lists the elements satisfying `P`, each once, in an order allowed by `R`. -/
def Lists {T : Type} (R : T → T → Prop) (l : List T) (P : T → Prop) : Prop :=
  l.Nodup ∧ l.Pairwise R ∧ ∀ x, x ∈ l ↔ P x

/-- The reference: from a set with the elements `P`, the call may answer `out` and leave the elements `P'`. -/
def SetCall.Ref (κ : KeyTy) (P : κ.Key → Prop) : (c : SetCall κ.Key) → c.Out → (κ.Key → Prop) → Prop
  | .insert x, out, P' => (∀ y, P' y ↔ y = x ∨ P y) ∧ ((out : Bool) = true ↔ (P x ↔ κ.insertInverted x = true))
  | .remove x, out, P' => (∀ y, P' y ↔ y ≠ x ∧ P y) ∧ ((out : Bool) = true ↔ ∃ y ∈ κ.siblings x, P y)
  | .contains x, out, P' => (∀ y, P' y ↔ P y) ∧ ((out : Bool) = true ↔ P x)
  | .len, out, P' => (∀ y, P' y ↔ P y) ∧ ∃ l, Lists κ.mayPrecede l P ∧ (out : Nat) = l.length
  | .isEmpty, out, P' => (∀ y, P' y ↔ P y) ∧ ((out : Bool) = true ↔ κ.saysEmpty P)
  | .clear, _, P' => ∀ y, ¬P' y
  | .retain f st, out, P' => ∃ l, Lists κ.mayPrecede l (fun x => P x ∨ κ.phantom x = true) ∧
      out = ((visit f l st).st, (panicAt f l st).isSome) ∧ ∀ y, P' y ↔ retained κ.sameBatch f l st P y
  | .iter, out, P' => (∀ y, P' y ↔ P y) ∧ Lists κ.mayPrecede out P
  | .clone, _, P' => ∀ y, P' y ↔ P y

/-- The reference on a sequence of calls and answers. -/
def SetCall.RefRun (κ : KeyTy) : List (Sigma fun c : SetCall κ.Key => c.Out) → (κ.Key → Prop) → (κ.Key → Prop) → Prop
  | [], P, P' => ∀ y, P' y ↔ P y
  | ⟨c, out⟩ :: l, P, P' => ∃ Q, c.Ref κ P out Q ∧ SetCall.RefRun κ l Q P'

/-- The code: from the set `s`, the call answers `out` and leaves the set `s'`. -/
def FSet.Does {T : Type} (M : SetStorage T) (s : M.S) : (c : SetCall T) → c.Out → M.S → Prop
  | .insert x, out, s' => out = (FSet.insert M s x).1 ∧ s' = (FSet.insert M s x).2
  | .remove x, out, s' => out = (FSet.remove M s x).1 ∧ s' = (FSet.remove M s x).2
  | .contains x, out, s' => out = FSet.contains M s x ∧ s' = s
  | .len, out, s' => out = FSet.len M s ∧ s' = s
  | .isEmpty, out, s' => out = FSet.isEmpty M s ∧ s' = s
  | .clear, _, s' => s' = FSet.clear M s
  | .retain f st, out, s' => out = ((FSet.retain M f s st).st, (FSet.retain M f s st).panicked) ∧ s' = (FSet.retain M f s st).s
  | .iter, out, s' => (FSet.iter M).runsTo s out ∧ s' = s
  | .clone, _, s' => s' = FSet.clone M s

/-- The code on a sequence of calls. -/
def FSet.DoesAll {T : Type} (M : SetStorage T) : List (Sigma fun c : SetCall T => c.Out) → M.S → M.S → Prop
  | [], s, s' => s' = s
  | ⟨c, out⟩ :: l, s, s' => ∃ t, FSet.Does M s c out t ∧ FSet.DoesAll M l t s'

end FixedMap
