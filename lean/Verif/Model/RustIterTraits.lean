import Verif.Model.RustTraits

/-!
# Which iterators of the storages are `Clone` and which are double-ended, from the text of a file

The associated types in the `impl` of `MapStorage` or `SetStorage` are followed: through the `type`s of the file (whose parameters have the same names wherever they are used, so that nothing is
substituted), its own `struct`s, the payload's storage, and the types of core and hashbrown, for which the rules are those of their documentation.
-/

set_option autoImplicit false

namespace FixedMap.Rust

inductive IterTr where
  | clone | doubleEnded
deriving DecidableEq, Repr

/-- `type name<..> = ty where ..;` outside of braces. -/
def topTypes : Nat → Toks → List (String × Toks)
  | 0, _ => []
  | _ + 1, [] => []
  | n + 1, "{" :: l => topTypes n ((inGroup "{" "}" 0 [] l).elim [] Prod.snd)
  | n + 1, "type" :: name :: l =>
    let d := ((l.dropWhile (· != "=")).drop 1).takeWhile (· != ";")
    (name, d.takeWhile (· != "where")) :: topTypes n ((l.dropWhile (· != ";")).drop 1)
  | n + 1, _ :: l => topTypes n l

/-- `<..>`, if it is there, left out. -/
def skipGenerics : Toks → Toks
  | "<" :: l => (inGroup "<" ">" 0 [] l).elim [] Prod.snd
  | l => l

/-- The body of `impl<..> trait<..> for name ..`. -/
def implBody (trait name : String) : Nat → Toks → Option Toks
  | 0, _ => none
  | _ + 1, [] => none
  | n + 1, "impl" :: l =>
    match skipGenerics l with
    | tr :: l =>
      match skipGenerics l with
      | "for" :: x :: l =>
        if tr == trait && x == name then (inGroup "{" "}" 0 [] ((l.dropWhile (· != "{")).drop 1)).map Prod.fst else implBody trait name n l
      | l => implBody trait name n l
    | [] => none
  | n + 1, _ :: l => implBody trait name n l

/-- Split at commas that are not between brackets of any kind. -/
def splitArgs : Nat → Toks → Toks → List Toks
  | _, acc, [] => if acc.isEmpty then [] else [acc.reverse]
  | d, acc, t :: l =>
    if t == "," && d == 0 then acc.reverse :: splitArgs 0 [] l
    else splitArgs (if t == "<" || t == "(" then d + 1 else if t == ">" || t == ")" then d - 1 else d) (t :: acc) l

/-- The arguments of a type, after `<`; nothing may follow them. -/
def typeArgs (l : Toks) : Option (List Toks) :=
  match inGroup "<" ">" 0 [] l with
  | some (g, []) => some (splitArgs 0 [] g)
  | _ => none

/-- `ty: Clone` for what an iterator holds, but for tuples: keys are `Copy`. -/
def elemClone (v : Tr → Bool) : Toks → Option Bool
  | "&" :: _ :: "mut" :: _ => some false
  | "&" :: _ => some true
  | ["V"] => some (v .clone)
  | ["K"] => some true
  | ["T"] => some true
  | ["Option", "<", "K", ">"] => some true
  | ["Option", "<", "T", ">"] => some true
  | _ => none

/-- The same for a pair. -/
def itemClone (v : Tr → Bool) : Toks → Option Bool
  | "(" :: l =>
    match inGroup "(" ")" 0 [] l with
    | some (g, []) =>
      match splitArgs 0 [] g with
      | [a, b] => do return (← elemClone v a) && (← elemClone v b)
      | _ => none
    | _ => none
  | l => elemClone v l

/-- Whether the iterator type has the trait; `inner` says which iterators of the payload's storage have it. -/
def iterHas (f : Toks) (t : IterTr) (v : Tr → Bool) (inner : String → Bool) : Nat → Toks → Option Bool
  | 0, _ => none
  | n + 1, "core" :: "::" :: l => iterHas f t v inner n l
  | n + 1, "iter" :: "::" :: "Chain" :: "<" :: l =>
    match typeArgs l with
    | some [a, b] => do return (← iterHas f t v inner n a) && (← iterHas f t v inner n b)
    | _ => none
  | n + 1, "iter" :: "::" :: "Map" :: "<" :: l =>
    match typeArgs l with
    | some [a, "fn" :: _] => iterHas f t v inner n a
    | _ => none
  | n + 1, "iter" :: "::" :: "Copied" :: "<" :: l =>
    match typeArgs l with
    | some [a] => iterHas f t v inner n a
    | _ => none
  | _ + 1, "option" :: "::" :: x :: "<" :: l =>
    match t with
    | .doubleEnded => if x == "Iter" || x == "IterMut" || x == "IntoIter" then some true else none
    | .clone =>
      if x == "Iter" then some true else if x == "IterMut" then some false
      else if x == "IntoIter" then
        match typeArgs l with
        | some [a] => itemClone v a
        | _ => none
      else none
  | _ + 1, "::" :: "hashbrown" :: "::" :: m :: "::" :: x :: "<" :: _ =>
    if m == "hash_map" || m == "hash_set" then
      match t with
      | .doubleEnded => some false
      | .clone => some (x == "Iter" || x == "Keys" || x == "Values")
    else none
  | _ + 1, "<" :: "<" :: "K" :: "as" :: "Key" :: ">" :: "::" :: "MapStorage" :: "<" :: "V" :: ">" :: "as" :: "MapStorage" :: "<" :: "K" :: "," :: "V" :: ">" :: ">" :: "::" :: x :: _ => some (inner x)
  | _ + 1, "<" :: "<" :: "T" :: "as" :: "Key" :: ">" :: "::" :: "SetStorage" :: "as" :: "SetStorage" :: "<" :: "T" :: ">" :: ">" :: "::" :: x :: _ => some (inner x)
  | n + 1, x :: l =>
    match (topTypes (f.length + 1) f).lookup x with
    | some a => iterHas f t v inner n a
    | none =>
      if l.isEmpty then
        match t with
        | .clone => textImpl f x v (fun _ => false) false .clone
        | .doubleEnded => some ((traitImpls (f.length + 1) f []).any fun i => i.trait == "DoubleEndedIterator" && i.ty == [x])
      else none
  | _ + 1, [] => none

/-- Whether the iterator `it` of the storage `name`, which is one for `trait`, has the trait `t`. -/
def storageIterHas (f : Toks) (trait name : String) (t : IterTr) (v : Tr → Bool) (inner : String → Bool) (it : String) : Option Bool := do
  let body ← implBody trait name (f.length + 1) f
  let ty ← (topTypes (body.length + 1) body).lookup it
  iterHas f t v inner 20 ty

end FixedMap.Rust
