import Verif.Model.Compare
import Verif.Spec.DropBatches

/-! # Comparisons with a `V::eq` or `V::cmp` that has effects or panics: specification -/

set_option autoImplicit false

namespace FixedMap

section
variable {σ V K : Type}

/-- Compare two collections key by key: `V::eq` is asked only about two values under one key, and the first difference (or panic) ends
the comparison. `last` is the answer if no difference was found. -/
def compareKeys (e : EqFn σ V) (a b : K → Option V) (last : Bool) : List K → σ → σ × Option Bool
  | [], st => (st, some last)
  | k :: ks, st =>
    match a k, b k with
    | none, none => compareKeys e a b last ks st
    | some v, some w =>
      match e st v w with
      | (st', none) => (st', none)
      | (st', some false) => (st', some false)
      | (st', some true) => compareKeys e a b last ks st'
    | _, _ => (st, some false)

/-- The entries in `l` whose keys are in the same table as `k`. -/
def tableOf (T : K → K → Bool) (l : List (K × V)) (k : K) : List (K × V) := l.filter fun p => T p.1 k

/-- `ks` and `last` are what `==` has to look at, for collections that list the entries `la` and `lb`. `T` says which keys are in
one table, `inT` which are in a table at all, and `B` which keys come first. A key outside the tables is always looked at. A table
is compared by size first; if the sizes agree, the keys of the left one are looked at in its own order. -/
structure Course (T : K → K → Bool) (inT : K → Bool) (B : K → K → Prop) (la lb : List (K × V)) (ks : List K) (last : Bool) :
    Prop where
  order : ks.Pairwise B
  present : ∀ k ∈ ks, inT k = true → k ∈ la.map Prod.fst
  table : ∀ k ∈ ks, inT k = true → ks.filter (fun k' => T k' k) = (tableOf T la k).map Prod.fst ∧
    (tableOf T la k).length = (tableOf T lb k).length
  /-- nothing is left out -/
  done : last = true → (∀ k, inT k = false ∨ k ∈ la.map Prod.fst → k ∈ ks) ∧
    ∀ k, inT k = true → (tableOf T la k).length = (tableOf T lb k).length
  /-- two tables of different sizes end the comparison, unless it has ended before -/
  stop : last = false → ∃ k, inT k = true ∧ (tableOf T la k).length ≠ (tableOf T lb k).length ∧
    (∀ k', k' ∈ ks ↔ (B k' k ∧ T k' k = false) ∧ (inT k' = false ∨ k' ∈ la.map Prod.fst)) ∧
    ∀ k', inT k' = true → B k' k → T k' k = false → (tableOf T la k').length = (tableOf T lb k').length
end

/-- `None` before `Some(_)`. -/
def optAfter {K : Type} (R : K → K → Prop) : Option K → Option K → Prop
  | some a, some b => R a b
  | none, some _ => True
  | _, none => False

mutual
/-- `a` may be compared before `b`: declared earlier, except that `None` comes before `Some(_)`; or different keys of one table. -/
def KeyTy.comparedBefore : (κ : KeyTy) → κ.Key → κ.Key → Prop
  | .bool => fun a b => a = true ∧ b = false
  | .unit => fun _ _ => False
  | .opt κ => optAfter κ.comparedBefore
  | .prim _ => fun a b => a ≠ b
  | .units n => fun a b => LT.lt (α := Fin n) a b
  | .bitset n _ _ => fun a b => LT.lt (α := Fin n) a b
  | .enum fs => fs.comparedBefore
def Fields.comparedBefore : (fs : Fields) → fs.Key → fs.Key → Prop
  | .nil => fun _ _ => False
  | .simple fs => sumBefore (fun _ _ => False) fs.comparedBefore
  | .complex κ fs => sumBefore κ.comparedBefore fs.comparedBefore
end

mutual
/-- All keys in the order in which `==` looks at them. (Hash-backed keys are left out.) -/
def KeyTy.comparedKeys : (κ : KeyTy) → List κ.Key
  | .bool => [true, false]
  | .unit => [()]
  | .opt κ => none :: κ.comparedKeys.map some
  | .prim _ => []
  | .units n => List.finRange n
  | .bitset n _ _ => List.finRange n
  | .enum fs => fs.comparedKeys
def Fields.comparedKeys : (fs : Fields) → List fs.Key
  | .nil => []
  | .simple fs => Sum.inl () :: fs.comparedKeys.map Sum.inr
  | .complex κ fs => κ.comparedKeys.map Sum.inl ++ fs.comparedKeys.map Sum.inr
end

/-- Order two collections over the keys `ks`: values are compared only under a common key, in order, up to the first answer other than
`Equal` (or panic). At a key that only the left has, the left is less if the right has a later key, else greater; and vice versa. -/
def orderKeys {σ V K R : Type} (of : Ordering → R) (isEq : R → Bool) (c : CmpFn σ V R) (a b : K → Option V) : List K → σ → σ × Option R
  | [], st => (st, some (of .eq))
  | k :: ks, st =>
    match a k, b k with
    | none, none => orderKeys of isEq c a b ks st
    | some v, some w =>
      match c st v w with
      | (st', none) => (st', none)
      | (st', some r) => if isEq r then orderKeys of isEq c a b ks st' else (st', some r)
    | some _, none => (st, some (of (if ks.any fun k => (b k).isSome then .lt else .gt)))
    | none, some _ => (st, some (of (if ks.any fun k => (a k).isSome then .gt else .lt)))

end FixedMap
