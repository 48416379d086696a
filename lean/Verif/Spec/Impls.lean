import Verif.Model.TraitItems
import Verif.Spec.TokenNames

/-!
# Impls, as they stand in the emitted tokens

`read` finds the impls: what is between `impl` and the brace, without the `where` clause, and for each item what is before its body. `Accepted` says what rustc asks of them as far as items and
signatures go.
-/

set_option autoImplicit false

namespace FixedMap.Impls

open FixedMap.Emit (Toks)

structure Impl where
  /-- after `impl`, up to `where` or the brace -/
  header : Toks
  /-- functions up to the brace, types up to the semicolon -/
  items : List Toks
deriving DecidableEq

inductive Mode where
  | out
  | header
  /-- the `where` clause of an impl -/
  | bounds
  | body
  /-- an attribute in an impl -/
  | attr
  | sig
  | type
  /-- in the body of a function, in this many braces -/
  | inner (depth : Nat)
deriving DecidableEq

/-- What was read is kept in reverse. -/
structure State where
  mode : Mode
  done : List Impl
  header : Toks
  items : List Toks
  item : Toks
deriving DecidableEq

def step (s : State) (t : String) : State :=
  match s.mode with
  | .out => if t = "impl" then { s with mode := .header } else s
  | .header => if t = "{" then { s with mode := .body } else if t = "where" then { s with mode := .bounds } else { s with header := t :: s.header }
  | .bounds => if t = "{" then { s with mode := .body } else s
  | .body =>
    if t = "fn" then { s with mode := .sig, item := [t] }
    else if t = "type" then { s with mode := .type, item := [t] }
    else if t = "#" then { s with mode := .attr }
    else if t = "}" then ⟨.out, ⟨s.header.reverse, s.items.reverse⟩ :: s.done, [], [], []⟩
    -- not expected: an item of its own
    else { s with items := [t] :: s.items }
  | .attr => if t = "]" then { s with mode := .body } else s
  | .sig => if t = "{" then { s with mode := .inner 0, items := s.item.reverse :: s.items, item := [] } else { s with item := t :: s.item }
  | .type => if t = ";" then { s with mode := .body, items := s.item.reverse :: s.items, item := [] } else { s with item := t :: s.item }
  | .inner d => if t = "{" then { s with mode := .inner (d + 1) } else if t = "}" then { s with mode := if d = 0 then .body else .inner (d - 1) } else s

def run (s : State) (ts : Toks) : State := ts.foldl step s

def start : State := ⟨.out, [], [], [], []⟩

/-- The impls in the order in which they stand. An impl that is not finished is not there. -/
def read (ts : Toks) : List Impl := (run start ts).done.reverse

/-- Nothing is left open. -/
def Finished (ts : Toks) : Prop := (run start ts).mode = .out

/-! ## Headers, signatures -/

/-- Up to the first `c`, and after it. -/
def breakAt (c : String) : Toks → Option (Toks × Toks)
  | [] => none
  | t :: l => if t = c then some ([], l) else (breakAt c l).map fun x => (t :: x.1, x.2)

/-- The parts between the brackets, for which the first one has been read, and what comes after the last one. -/
def angles : Nat → Toks → Toks → List Toks × Toks
  | _, cur, [] => ([cur.reverse], [])
  | d, cur, t :: l =>
    if t = ">" then (if d = 0 then ([cur.reverse], l) else angles (d - 1) (t :: cur) l)
    else if t = "," ∧ d = 0 then match angles 0 [] l with
      | (ps, r) => (cur.reverse :: ps, r)
    else if t = "<" ∨ t = "(" then angles (d + 1) (t :: cur) l
    else if t = ")" then angles (d - 1) (t :: cur) l
    else angles d (t :: cur) l

/-- `<a, b>` at the beginning, and the rest. -/
def args (l : Toks) : List Toks × Toks :=
  match l with
  | [] => ([], [])
  | t :: r => if t = "<" then angles 0 [] r else ([], t :: r)

/-- `::a::b` at the beginning, and the rest. -/
def path : Toks → List String × Toks
  | t :: s :: l => if t = "::" then match path l with
      | (p, r) => (s :: p, r)
    else ([], t :: s :: l)
  | l => ([], l)

structure TraitRef where
  path : List String
  args : List Toks

def traitRef (l : Toks) : TraitRef := match path l with
  | (p, r) => ⟨p, (args r).1⟩

/-- The trait and the type; `none` if there is no `for`. -/
def Impl.target (i : Impl) : Option (TraitRef × Toks) := (breakAt "for" (args i.header).2).map fun x => (traitRef x.1, x.2)

/-- The name of an item. -/
def nameOf (item : Toks) : Option String := item[1]?

/-- Write names as absolute paths. -/
def absolute (uses : List (String × List String)) (prev : String) : Toks → Toks
  | [] => []
  | t :: l => (if prev = "::" then [t] else match uses.lookup t with
    | some p => p.flatMap fun s => ["::", s]
    | none => [t]) ++ absolute uses t l

/-- Leave out the names of parameters: `mut x:` and `x:` after a parenthesis or comma. -/
def types (prev : String) : Toks → Toks
  | t :: c :: l =>
    if (prev = "(" ∨ prev = ",") ∧ c = ":" then types ":" l
    else if (prev = "(" ∨ prev = ",") ∧ t = "mut" then types prev (c :: l)
    else t :: types t (c :: l)
  | l => l

/-- Replace parameters. -/
def subst (σ : List (String × Toks)) (l : Toks) : Toks := l.flatMap fun t => (σ.lookup t).getD [t]

/-- Replace `Self`, and `Self::A` if `A` is known. -/
def unself (self : Toks) (assoc : List (String × Toks)) : Toks → Toks
  | [] => []
  | [t] => if t = "Self" then self else [t]
  | [t, c] => (if t = "Self" then self else [t]) ++ unself self assoc [c]
  | t :: c :: n :: l =>
    if t = "Self" then
      if c = "::" then match assoc.lookup n with
        | some v => v ++ unself self assoc l
        | none => self ++ c :: n :: unself self assoc l
      else self ++ unself self assoc (c :: n :: l)
    else t :: unself self assoc (c :: n :: l)

/-- Without a comma at the end. -/
def trim (l : Toks) : Toks := if l.getLast? = some "," then l.dropLast else l

/-- `type A<..> = value where ..`, after the name. -/
structure Ty where
  params : List Toks
  value : Toks
  wheres : List Toks

/-- Conditions between commas. -/
def conditions (l : Toks) : List Toks := if l.isEmpty then [] else (angles 0 [] l).1

def tyOf (item : Toks) : Ty :=
  let rest := (args (item.drop 2)).2
  ⟨(args (item.drop 2)).1, ((breakAt "where" rest).map (·.1)).getD rest |>.drop 1, conditions (((breakAt "where" rest).map (·.2)).getD [])⟩

/-- The types without parameters that an impl defines. -/
def Impl.assoc (i : Impl) : List (String × Toks) := i.items.filterMap fun t => match nameOf t with
  | some n => if t.head? = some "type" ∧ (tyOf t).params = [] then some (n, (tyOf t).value) else none
  | none => none

/-! ## What rustc asks for -/

/-- The arguments of a trait, with defaults. -/
def paramsOf (tr : Trait) (a : List Toks) : List (String × Toks) := tr.params.zipIdx.map fun x => (x.1.1, (a[x.2]?).getD (x.1.2.getD []))

/-- In the emitted code, `Option` is the only such name in a signature. -/
def option : List (String × List String) := [("Option", ["core", "option", "Option"])]

/-- A function has the signature that the trait says, up to the names of its parameters. -/
def SigOk (i : Impl) (tr : Trait) (a : List Toks) (self : Toks) (item want : Toks) : Prop :=
  trim (unself self i.assoc (absolute option "" (types "" item))) = unself self i.assoc (subst (paramsOf tr a) (absolute tr.uses "" (types "" want)))

/-- An impl of this trait, with these arguments and associated types, for this type. -/
def Provides (L : List Impl) (b : TraitRef) (self : Toks) : Prop :=
  ∃ j ∈ L, ∃ r, j.target = some (r, self) ∧ r.path = b.path ∧ r.args = b.args.filter (fun x => !x.contains "=") ∧
    ∀ x ∈ b.args, ∀ n v, breakAt "=" x = some ([n], v) → (n, v) ∈ j.assoc

/-- The items of iterators of core over arrays and slices. -/
def baseItem (l : Toks) : Option Toks :=
  let r := traitRef l
  match r.args with
  | [a, b] => if r.path = ["core", "array", "IntoIter"] then some a else if r.path = ["core", "slice", "Iter"] then some ("&" :: a ++ b)
    else if r.path = ["core", "slice", "IterMut"] then some ("&" :: a ++ "mut" :: b) else none
  | _ => none

/-- `Option<T>`, `&'a Option<T>` and `&'a mut Option<T>` as iterators. -/
def optionItem (l : Toks) : Option Toks :=
  let k := if l.head? = some "&" then (if l[2]? = some "mut" then 3 else 2) else 0
  let r := traitRef (l.drop k)
  match r.args with
  | [x] => if r.path = ["core", "option", "Option"] then some (l.take k ++ x) else none
  | _ => none

/-- The items of `Flatten<I>` and `FlatMap<I, U, fn(T) -> U>`. -/
def coreItem (l : Toks) : Option Toks :=
  let r := traitRef l
  match r.args with
  | [i] => if r.path = ["core", "iter", "Flatten"] then (baseItem i).bind optionItem else none
  | [i, u, f] => if r.path = ["core", "iter", "FlatMap"] then (baseItem i).bind fun t => if f = "fn" :: "(" :: t ++ ")" :: "->" :: u then optionItem u else none else none
  | _ => none

/-- The same for types of core. The only ones that have to be `Clone` are `Flatten<IntoIter<Option<E>, n>>`, and keys are `Copy`. -/
def CoreProvides (b : TraitRef) (l : Toks) : Prop :=
  (b.path = ["core", "iter", "Iterator"] ∧ ∃ x, b.args = ["Item" :: "=" :: x] ∧ coreItem l = some x) ∨ (b.path = ["core", "clone", "Clone"] ∧ (traitRef l).path = ["core", "iter", "Flatten"])

/-- The parts between `+`. -/
def bounds (l : Toks) : List Toks := match l with
  | [] => []
  | l => go [] l
where
  go (cur : Toks) : Toks → List Toks
  | [] => [cur.reverse]
  | t :: l => if t = "+" then cur.reverse :: go [] l else go (t :: cur) l

/-- An associated type has as many parameters as the trait says, no conditions of its own, and the impls that the trait asks for. -/
def TyOk (L : List Impl) (i : Impl) (tr : Trait) (a : List Toks) (self : Toks) (item want : Toks) : Prop :=
  (tyOf item).params.length = (tyOf want).params.length ∧
  let σ := ((tyOf want).params.map fun p => p.headD "").zip (tyOf item).params ++ paramsOf tr a
  (∀ c ∈ (tyOf item).wheres, c ∈ (tyOf want).wheres.map (subst σ) ∨ ∃ x ∈ self, ∃ lt, c = [x, ":", lt] ∧ ["Self", ":", lt] ∈ (tyOf want).wheres.map (subst σ)) ∧
  ∀ b ∈ bounds (tyOf want).value, let b := traitRef (unself self i.assoc (subst σ (absolute tr.uses "" b))); Provides L b (tyOf item).value ∨ CoreProvides b (tyOf item).value

/-- An impl is one of a trait that is known, has each of its items once and nothing else, and these are as they should be. Or it is an inherent one, and the names of its functions are different. -/
def ImplOk (L : List Impl) (i : Impl) : Prop :=
  match i.target with
  | none => (i.items.map nameOf).Nodup ∧ ∀ t ∈ i.items, t.head? = some "fn"
  | some (r, self) => ∃ tr ∈ traits, tr.path = r.path ∧ r.args.length ≤ tr.params.length ∧ (∀ x ∈ tr.params.drop r.args.length, x.2 ≠ none) ∧
      (i.items.map nameOf).Perm (tr.items.map nameOf) ∧
      ∀ item ∈ i.items, ∀ want ∈ tr.items, nameOf item = nameOf want → item.head? = want.head? ∧
        (item.head? = some "fn" → SigOk i tr r.args self item want) ∧ (item.head? = some "type" → TyOk L i tr r.args self item want)

/-- All impls are; and none is there twice. -/
structure Accepted (L : List Impl) : Prop where
  impls : ∀ i ∈ L, ImplOk L i
  once : L.Pairwise fun i j => ∀ r s self, i.target = some (r, self) → j.target = some (s, self) → r.path ≠ s.path

/-! ## What the user wrote -/

/-- Tokens that are not the name of an enum, nor a number: all but one cannot be. `Option` is written without a path in a signature. -/
def special : List String := ["impl", "{", "}", "where", ";", "]", "#", "fn", "type", ">", ",", "<", "(", ")", "::", ":", "mut", "Self", "for", "=", "+", "&", "->", "Option"]

/-- No impls and no braces. There is `[u8; { 1 + 1 }]`, and `impl` can be in braces only. -/
def Calm (l : FixedMap.Emit.Toks) : Prop := ∀ t ∈ l, t ∉ ["impl", "{", "}"]

structure Written (cx : FixedMap.Emit.Cx) (E : String) : Prop where
  ident : cx.ident = [E]
  name : E ∉ special
  vis : Calm cx.vis
  lt : cx.lt = ["'a"]

structure WrittenVs (vs : List FixedMap.Emit.Variant) : Prop where
  idents : ∀ v ∈ vs, Calm [v.ident]
  elements : ∀ v ∈ vs, ∀ e, v.element = some e → Calm e

end FixedMap.Impls
