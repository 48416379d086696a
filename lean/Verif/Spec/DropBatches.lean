import Verif.Spec.DropPanic
import Verif.Spec.Order

/-!
# What exactly `clear` and dropping a map do when destructors panic

The entries come in batches: those that one statement of `clear` drops. All values of a batch are dropped even if one of
them panics, except in a hash table, which leaks the rest.
-/

set_option autoImplicit false

namespace FixedMap

/-- Entries that are dropped together. -/
structure Batch (K V : Type) where
  /-- in a hash table -/
  table : Bool
  /-- in the order of `iter()` -/
  entries : List (K × V)
  /-- the values, in the order in which they are dropped -/
  order : List V

section
variable {σ K V : Type} (d : Dtor σ V)

/-- Drop all values, one after the other. -/
def dropEach : List V → Drops σ V → Drops σ V
  | [], x => x
  | v :: vs, x => dropEach vs (x.value d v)

/-- Drop the values one after the other until one panics; leak the others. -/
def dropUntilPanic : List V → Drops σ V → Drops σ V
  | [], x => x
  | v :: vs, x =>
    if (d x.st v).2 then { x.value d v with leaked := (x.value d v).leaked ++ vs }
    else dropUntilPanic vs (x.value d v)

/-- Drop a batch, unless the program has been aborted. -/
def Batch.drop (b : Batch K V) (x : Drops σ V) : Drops σ V :=
  if x.fate = .aborted then x
  else if b.table then dropUntilPanic d b.order x
  else dropEach d b.order x

/-- Drop batch after batch. -/
def dropBatches : List (Batch K V) → Drops σ V → Drops σ V
  | [], x => x
  | b :: bs, x => dropBatches bs (b.drop d x)

/-- Drop batch after batch until a panic: the batches that remain, and what was dropped. -/
def clearBatches : List (Batch K V) → Drops σ V → List (Batch K V) × Drops σ V
  | [], x => ([], x)
  | b :: bs, x => if x.fate = .normal then clearBatches bs (b.drop d x) else (b :: bs, x)
end

/-- Both on the left and related by `p`, or both on the right and related by `q`. -/
def sameSide {A B : Type} (p : A → A → Bool) (q : B → B → Bool) : A ⊕ B → A ⊕ B → Bool
  | .inl a, .inl b => p a b
  | .inr a, .inr b => q a b
  | _, _ => false

mutual
/-- The values of the two keys are dropped by the same statement of `clear`. -/
def KeyTy.together : (κ : KeyTy) → κ.Key → κ.Key → Bool
  | .bool => fun a b => (a : Bool) == (b : Bool)
  | .unit => fun _ _ => true
  | .opt κ => fun a b =>
    match (a : Option κ.Key), (b : Option κ.Key) with
    | some a, some b => κ.together a b
    | none, none => true
    | _, _ => false
  | .prim _ => fun _ _ => true
  | .units _ => fun _ _ => true
  | .bitset _ _ _ => fun _ _ => true
  | .enum fs => fs.together
def Fields.together : (fs : Fields) → fs.Key → fs.Key → Bool
  | .nil => fun _ _ => false
  | .simple fs => sameSide (fun _ _ => true) fs.together
  | .complex κ fs => sameSide κ.together fs.together
end

mutual
/-- The value of the key is in a hash table. -/
def KeyTy.inTable : (κ : KeyTy) → κ.Key → Bool
  | .bool => fun _ => false
  | .unit => fun _ => false
  | .opt κ => fun a => Option.elim a false κ.inTable
  | .prim _ => fun _ => true
  | .units _ => fun _ => false
  | .bitset _ _ _ => fun _ => false
  | .enum fs => fs.inTable
def Fields.inTable : (fs : Fields) → fs.Key → Bool
  | .nil => fun _ => false
  | .simple fs => Sum.elim (fun _ => false) fs.inTable
  | .complex κ fs => Sum.elim κ.inTable fs.inTable
end

/-- `bs` is the list `l` of entries cut into batches: `T` says which keys belong together, `inT` which are in hash tables. -/
structure IsBatches {K V : Type} (T : K → K → Bool) (inT : K → Bool) (bs : List (Batch K V)) (l : List (K × V)) : Prop where
  concat : bs.flatMap (·.entries) = l
  /-- only a hash table may drop its values in another order -/
  order : ∀ b ∈ bs, b.order.Perm (b.entries.map Prod.snd) ∧ (b.table = false → b.order = b.entries.map Prod.snd)
  table : ∀ b ∈ bs, ∀ p ∈ b.entries, inT p.1 = b.table
  together : ∀ b ∈ bs, ∀ p ∈ b.entries, ∀ q ∈ b.entries, T p.1 q.1 = true
  apart : bs.Pairwise fun b c => ∀ p ∈ b.entries, ∀ q ∈ c.entries, T p.1 q.1 = false

/-- Cut a list between neighbours that do not belong together. -/
def cut {K V : Type} (T : K → K → Bool) : List (K × V) → List (List (K × V))
  | [] => []
  | p :: l =>
    match cut T l with
    | (q :: b) :: bs => if T p.1 q.1 then (p :: q :: b) :: bs else [p] :: (q :: b) :: bs
    | bs => [p] :: bs

/-- The batches of the entries of a map without hash tables. -/
def plainBatches {V : Type} (κ : KeyTy) (l : List (κ.Key × V)) : List (Batch κ.Key V) :=
  (cut κ.together l).map fun b => ⟨false, b, b.map Prod.snd⟩

end FixedMap
