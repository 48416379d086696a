import Verif.Model.RustKey
import Verif.Model.Traits

/-!
# The `impl`s of standard traits in the text of a file

Read are `#[derive(..)]` in front of a `struct`, and the headers `impl<..> Trait for Name<..> where ..`. What is inside the bodies is not looked at here.
-/

set_option autoImplicit false

namespace FixedMap.Rust

/-- The name of a trait in the text. -/
def traitName : Tr → String
  | .clone => "Clone"
  | .copy => "Copy"
  | .partialEq => "PartialEq"
  | .eq => "Eq"
  | .hash => "Hash"
  | .partialOrd => "PartialOrd"
  | .ord => "Ord"

def traitOf (s : String) : Option Tr :=
  [Tr.clone, .copy, .partialEq, .eq, .hash, .partialOrd, .ord].find? fun t => traitName t == s

/-- Split at commas that are not between `<` and `>`; a comma at the end adds nothing. -/
def splitCommas : Nat → Toks → Toks → List Toks
  | _, acc, [] => if acc.isEmpty then [] else [acc.reverse]
  | d, acc, t :: l =>
    if t == "," && d == 0 then acc.reverse :: splitCommas 0 [] l
    else splitCommas (if t == "<" then d + 1 else if t == ">" then d - 1 else d) (t :: acc) l

/-- `ty: A + B` gives `ty: A` and `ty: B`. -/
def readBound (b : Toks) : List (Toks × String) :=
  (((b.dropWhile (· != ":")).drop 1).filter (· != "+")).map fun t => (b.takeWhile (· != ":"), t)

/-- `trait` is implemented for the type `ty` (its name and parameters) if all bounds hold. -/
structure TraitImpl where
  trait : String
  ty : Toks
  bounds : List (Toks × String)
deriving Repr, DecidableEq

/-- `impl<..> Trait for ty where ..`, after `impl<..>`; `none` if the trait has parameters or there is no trait. -/
def readTraitHead (l : Toks) : Option TraitImpl :=
  match l with
  | trait :: "for" :: l =>
    let head := l.takeWhile (· != "{")
    some ⟨trait, head.takeWhile (· != "where"), (splitCommas 0 [] ((head.dropWhile (· != "where")).drop 1)).flatMap readBound⟩
  | _ => none

/-- `#[derive(A, B)] pub struct Name<P, Q>` stands for `impl<P, Q> A for Name<P, Q> where P: A, Q: A`, and the same for `B`. -/
def derivedImpls (ds : List String) (name : String) (ps : List String) : List TraitImpl :=
  ds.map fun d => ⟨d, name :: (if ps.isEmpty then [] else "<" :: (List.intersperse "," ps ++ [">"])), ps.map fun p => ([p], d)⟩

/-- All of a file. The third argument are the traits in `derive`s since the last item. -/
def traitImpls : Nat → Toks → List String → List TraitImpl
  | 0, _, _ => []
  | _ + 1, [], _ => []
  | n + 1, "#" :: "[" :: "derive" :: "(" :: l, ds =>
    traitImpls n ((l.dropWhile (· != "]")).drop 1) (ds ++ (l.takeWhile (· != ")")).filter (· != ","))
  | n + 1, "#" :: "[" :: l, ds => traitImpls n ((inGroup "[" "]" 0 [] l).elim [] Prod.snd) ds
  | n + 1, "pub" :: "struct" :: name :: "<" :: l, ds =>
    derivedImpls ds name ((l.takeWhile (· != ">")).filter (· != ",")) ++ traitImpls n l []
  | n + 1, "pub" :: "struct" :: name :: l, ds => derivedImpls ds name [] ++ traitImpls n l []
  | n + 1, "impl" :: "<" :: l, _ =>
    match inGroup "<" ">" 0 [] l with
    | some (_, l) => (readTraitHead l).toList ++ traitImpls n l []
    | none => []
  | n + 1, "impl" :: l, _ => (readTraitHead l).toList ++ traitImpls n l []
  | n + 1, _ :: l, _ => traitImpls n l []

/-- The `impl`s of `Clone`, `Copy`, `PartialEq`, `Eq`, `Hash`, `PartialOrd` and `Ord` for the type `name` in a file. -/
def readTraits (f : Toks) (name : String) : List TraitImpl :=
  (traitImpls (f.length + 1) f []).filter fun i => i.ty.head? == some name && (traitOf i.trait).isSome

/-- Whether a bound holds, if the value type `V` has the traits `v`, and the storage of the key type the traits `inner`. The key type is a key, `Clone` and `Copy` (`trait Key: Copy`, key.rs),
and `hashed` says that it is `Eq` and `Hash`. Other bounds have no meaning here. -/
def boundHolds (v inner : Tr → Bool) (hashed : Bool) : Toks × String → Option Bool
  | (["V"], t) => (traitOf t).map v
  | (["K", "::", "MapStorage", "<", "V", ">"], t) => (traitOf t).map inner
  | (["T", "::", "SetStorage"], t) => (traitOf t).map inner
  | ([p], t) =>
    if p == "K" || p == "T" then
      if t == "Key" || t == "Clone" || t == "Copy" then some true else if t == "Eq" || t == "Hash" then some hashed else none
    else none
  | _ => none

/-- All bounds hold. -/
def boundsHold (v inner : Tr → Bool) (hashed : Bool) : List (Toks × String) → Option Bool
  | [] => some true
  | b :: bs => do return (← boundHolds v inner hashed b) && (← boundsHold v inner hashed bs)

/-- Whether the type `name` of a file implements `t`; two `impl`s that could apply are an error. -/
def textImpl (f : Toks) (name : String) (v inner : Tr → Bool) (hashed : Bool) (t : Tr) : Option Bool :=
  match (readTraits f name).filter fun i => i.trait == traitName t with
  | [] => some false
  | [i] => boundsHold v inner hashed i.bounds
  | _ => none

end FixedMap.Rust
