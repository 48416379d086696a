import Lean

/-!
# `quote!`

Token streams, and the macro with which the derive writes them. `quote! "…"` takes the text of a template as it stands in the Rust source. The text is split into
tokens when the Lean file is elaborated, and the result is an ordinary term:

* a token stands for itself;
* `#x` is the Lean variable `x` (tokens); if there is no such variable, it is the field `x` of the Lean variable `cx`. (In the Rust source, all such `x` are bound by
  `let x = cx.toks.x();`, `let ident = &cx.ast.ident;`, `let vis = &cx.ast.vis;` or `let lt = cx.lt;`.)
* `#( .. )*` is repeated for the elements of the lists of tokens named in it, all at once, until the shortest is exhausted; variables that are not lists are the same each
  time. `#( .. ) sep *` puts `sep` in between.

Left out: spans, the spacing of punctuation (`::` and the like are single tokens here), and the grouping by delimiters.
-/

set_option autoImplicit false

namespace FixedMap.Emit

abbrev Toks := List String

/-- Repetition with a separator. -/
def sepBy (sep : Toks) : List Toks → Toks
  | [] => []
  | [x] => x
  | x :: y :: l => x ++ sep ++ sepBy sep (y :: l)

namespace Quote

open Lean Elab Term Meta

inductive Tpl where
  | tok (s : String)
  | var (x : String)
  | rep (body : List Tpl) (sep : Option String)

def puncts : List String := ["::", "->", "=>", "==", "!=", "&&", "|="]

def identStart (c : Char) : Bool := c.isAlpha || c == '_'
def identRest (c : Char) : Bool := c.isAlphanum || c == '_'

/-- Split into tokens; the first argument bounds the number of steps. -/
def lex : Nat → List Char → List String
  | n + 1, c :: l =>
    if c.isWhitespace then lex n l
    else if identRest c || c == '\'' then String.ofList (c :: l.takeWhile identRest) :: lex n (l.dropWhile identRest)
    else match l with
      | d :: l' => if puncts.contains (String.ofList [c, d]) then String.ofList [c, d] :: lex n l' else String.singleton c :: lex n l
      | [] => [String.singleton c]
  | _, _ => []

/-- Up to the parenthesis that closes a repetition. -/
def splitRep : Nat → List String → List String → Option (List String × List String)
  | _, _, [] => none
  | 0, acc, ")" :: l => some (acc.reverse, l)
  | d + 1, acc, ")" :: l => splitRep d (")" :: acc) l
  | d, acc, "(" :: l => splitRep (d + 1) ("(" :: acc) l
  | d, acc, t :: l => splitRep d (t :: acc) l

def parse : Nat → List String → Except String (List Tpl)
  | n + 1, "#" :: "(" :: l => do
    let some (body, rest) := splitRep 0 [] l | .error "unbalanced repetition"
    let body ← parse n body
    match rest with
    | "*" :: rest => return .rep body none :: (← parse n rest)
    | s :: "*" :: rest => return .rep body (some s) :: (← parse n rest)
    | _ => .error "`*` expected"
  | n + 1, "#" :: x :: l => do
    if identStart x.front then return .var x :: (← parse n l) else return .tok "#" :: (← parse n (x :: l))
  | n + 1, t :: l => return .tok t :: (← parse n l)
  | _, _ => .ok []

def vars : Nat → List Tpl → List String
  | n + 1, .tok _ :: l => vars n l
  | n + 1, .var x :: l => x :: vars n l
  | n + 1, .rep b _ :: l => vars n b ++ vars n l
  | _, _ => []

/-- The variable is a list of token streams. -/
def repeats (x : String) : TermElabM Bool := do
  match (← getLCtx).findFromUserName? (Name.mkSimple x) with
  | none => return false
  | some d => isDefEq (← instantiateMVars d.type) (mkApp (mkConst ``List [.zero]) (mkConst ``Toks))

/-- The term for a variable; `bound`: by a repetition. -/
def varTerm (bound : List String) (x : String) : TermElabM Term := do
  if bound.contains x || ((← getLCtx).findFromUserName? (Name.mkSimple x)).isSome then return mkIdent (Name.mkSimple x)
  else return mkIdent (Name.mkStr (Name.mkSimple "cx") x)

def litTerm (ts : List String) : Term := Id.run do
  let elems : Array Term := (ts.map fun t => (Syntax.mkStrLit t : Term)).toArray
  return ⟨mkNode `«term[_]» #[mkAtom "[", mkNullNode (mkSepArray elems (mkAtom ",")), mkAtom "]"]⟩

/-- Join literal tokens and terms. -/
def join (l : List (String ⊕ Term)) : TermElabM Term := do
  let rec go (lits : List String) : List (String ⊕ Term) → List Term
    | [] => if lits.isEmpty then [] else [litTerm lits.reverse]
    | .inl t :: l => go (t :: lits) l
    | .inr p :: l => if lits.isEmpty then p :: go [] l else litTerm lits.reverse :: p :: go [] l
  match (go [] l).reverse with
  | [] => `(([] : Toks))
  | t :: ts => ts.foldlM (fun acc s => `($s ++ $acc)) t

def build : Nat → List String → List Tpl → TermElabM Term
  | 0, _, _ => throwError "nested too deeply"
  | n + 1, bound, l => do
    let parts ← l.mapM fun
      | .tok t => pure (Sum.inl t)
      | .var x => return .inr (← varTerm bound x)
      | .rep body sep => do
        let xs ← (vars 1000 body).eraseDups.filterM repeats
        let b ← build n (xs ++ bound) body
        let items ← match xs.map fun x => mkIdent (Name.mkSimple x) with
          | [x] => `(List.map (fun ($x : Toks) => $b) $x)
          | [x, y] => `(List.zipWith (fun ($x : Toks) ($y : Toks) => $b) $x $y)
          | _ => throwError "one or two repeated variables expected"
        match sep with
        | none => return .inr (← `(List.flatten $items))
        | some s => return .inr (← `(sepBy [$(Syntax.mkStrLit s)] $items))
    join parts

syntax (name := quoteStx) "quote! " str : term

@[term_elab quoteStx] def elabQuote : TermElab := fun stx expected? => do
  let some s := stx[1].isStrLit? | throwUnsupportedSyntax
  let ts := lex s.length s.toList
  match parse ts.length ts with
  | .error e => throwError e
  | .ok l => elabTerm (← `(($(← build 4 [] l) : Toks))) expected?

end Quote

/-! ## Examples -/

example : quote! "fn eq(&self, other: &'a Self) -> bool" = ["fn", "eq", "(", "&", "self", ",", "other", ":", "&", "'a", "Self", ")", "->", "bool"] := rfl

example (x : Toks) : quote! "#[inline] a != #x::b" = ["#", "[", "inline", "]", "a", "!="] ++ (x ++ ["::", "b"]) := rfl

example (names : List Toks) (x : Toks) : quote! "0 #(+ #names(#x))*" =
    ["0"] ++ (names.map fun n => ["+"] ++ (n ++ (["("] ++ (x ++ [")"])))).flatten := rfl

example (names bodies : List Toks) : quote! "[#(#names => #bodies),*]" =
    ["["] ++ (sepBy [","] (List.zipWith (fun n b => n ++ (["=>"] ++ b)) names bodies) ++ ["]"]) := rfl

end FixedMap.Emit
