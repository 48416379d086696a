import Verif.Model.Quote

/-!
# The Rust in which the derive is written

A lexer and a parser for the part of Rust in which fixed-map-derive/src/any_variants.rs and unit_variants.rs are written. `derive_rust! "…"` is the list of the tokens of a text;
`parseFile` turns the tokens of a file into its functions, structs and constants. What is inside of `quote!` becomes a template (`Quote.Tpl`).

Left out, because none of it has an effect on the tokens that are written: types (except the types of the fields of structs, for `Default`), visibilities, generics, `&`, `&mut` and
`*` (see the semantics, DeriveSem.lean), spans.
-/

set_option autoImplicit false

namespace FixedMap.DeriveText

open Emit (Toks)
open Emit.Quote (Tpl identRest puncts)

/-! ## Tokens -/

/-- Split into tokens, like `Quote.lex`, and string literals, without the closing quotation mark. -/
def lex : Nat → List Char → List String
  | n + 1, '"' :: l => String.ofList ('"' :: l.takeWhile (· != '"')) :: lex n ((l.dropWhile (· != '"')).drop 1)
  | n + 1, c :: l =>
    if c.isWhitespace then lex n l
    else if identRest c || c == '\'' then String.ofList (c :: l.takeWhile identRest) :: lex n (l.dropWhile identRest)
    else match l with
      | d :: l' => if puncts.contains (String.ofList [c, d]) then String.ofList [c, d] :: lex n l' else String.singleton c :: lex n l
      | [] => [String.singleton c]
  | _, _ => []

open Lean Elab Term in
/-- The tokens of a text, split when the Lean file is elaborated. -/
elab "derive_rust! " s:str : term <= expected => do
  let t := s.getString
  let ts := lex t.length t.toList
  let elems : Array Term := (ts.map fun t => (Syntax.mkStrLit t : Term)).toArray
  elabTerm (← `(([$elems,*] : List String))) expected

/-! ## Syntax -/

inductive Pat where
  | wild
  | bind (x : String)
  /-- `Kind::Complex(p)` -/
  | con (path : List String) (args : List Pat)
  /-- `Field { a, b, .. }` -/
  | struct (path : List String) (fs : List String)
  | tuple (ps : List Pat)
  /-- `lo..=hi` -/
  | range (lo hi : Nat)
deriving Repr, Inhabited

deriving instance Repr for Tpl

inductive Ex where
  | unit
  | str (s : String)
  | int (n : Nat)
  | path (l : List String)
  | call (f : List String) (args : List Ex)
  | method (e : Ex) (m : String) (args : List Ex)
  | field (e : Ex) (f : String)
  | struct (path : List String) (fs : List (String × Ex))
  | tuple (es : List Ex)
  | shl (a b : Ex)
  | gt (a b : Ex)
  | ite (c t e : Ex)
  | cases (e : Ex) (arms : List (Pat × Ex))
  | letIn (p : Pat) (e body : Ex)
  | seq (a b : Ex)
  | lambda (ps : List Pat) (body : Ex)
  | try (e : Ex)
  | ret (e : Ex)
  | for (p : Pat) (e body : Ex)
  | mac (name : String) (args : List Ex)
  | quote (t : List Tpl)
deriving Repr, Inhabited

structure Fn where
  ty : String
  name : String
  params : List String
  body : Ex
deriving Repr, Inhabited

/-- A file: its functions (`ty`: the type of their `impl`), its structs with the heads of the types of their fields, its constants. -/
structure File where
  fns : List Fn
  structs : List (String × List (String × String))
  consts : List (String × Ex)
deriving Repr, Inhabited

/-! ## Parser -/

abbrev PR (α : Type) := Option (α × Toks)

structure Parser where
  expr : Bool → Nat → Toks → PR Ex
  pat : Toks → PR Pat
  block : Toks → PR Ex

def isIdent (t : String) : Bool :=
  match t.toList with
  | c :: _ => c.isAlpha || c == '_'
  | [] => false

def isUpperIdent (t : String) : Bool :=
  match t.toList with
  | c :: _ => c.isUpper
  | [] => false

def digit (c : Char) : Nat := c.toNat - '0'.toNat

/-- Decimal literals, possibly with the suffix `u128`. -/
def parseNat (t : String) : Option Nat :=
  match t.toList with
  | c :: l => if c.isDigit then some (((c :: l).takeWhile (·.isDigit)).foldl (fun a c => 10 * a + digit c) 0) else none
  | [] => none

/-- The tokens up to the bracket that closes, and the rest after it; `d` brackets are open besides. -/
def group (o c : String) : Nat → Toks → Toks → Toks × Toks
  | _, acc, [] => (acc.reverse, [])
  | d, acc, t :: l =>
    if t == o then group o c (d + 1) (t :: acc) l
    else if t == c then (match d with | 0 => (acc.reverse, l) | d + 1 => group o c d (t :: acc) l)
    else group o c d (t :: acc) l

/-- The tokens before the one that is equal to one of `stop` outside of all brackets, and the rest from that token on. -/
def splitAtTop (stop : List String) : Nat → Toks → Toks → Toks × Toks
  | _, acc, [] => (acc.reverse, [])
  | d, acc, t :: l =>
    if d == 0 && stop.contains t then (acc.reverse, t :: l)
    else if ["(", "[", "<", "{"].contains t then splitAtTop stop (d + 1) (t :: acc) l
    else if [")", "]", ">", "}"].contains t then splitAtTop stop (d - 1) (t :: acc) l
    else splitAtTop stop d (t :: acc) l

/-- Split at the commas outside of all brackets. -/
def commas : Nat → Toks → List Toks
  | 0, _ => []
  | n + 1, l =>
    match splitAtTop [","] 0 [] l with
    | (a, _ :: rest) => a :: commas n rest
    | ([], []) => []
    | (a, []) => [a]

/-- `::b::c`. -/
def parsePath : Nat → Toks → List String × Toks
  | n + 1, "::" :: t :: l => let r := parsePath n l; (t :: r.1, r.2)
  | _, l => ([], l)

def listOf {α : Type} (p : Toks → PR α) (close : String) : Nat → Toks → PR (List α)
  | 0, _ => none
  | n + 1, l =>
    match l with
    | [] => none
    | t :: rest =>
      if t == close then some ([], rest)
      else match p l with
        | none => none
        | some (a, "," :: l') => (listOf p close n l').map fun r => (a :: r.1, r.2)
        | some (a, t' :: l') => if t' == close then some ([a], l') else none
        | some (_, []) => none

/-- `field: e`, or `field` for `field: field`. -/
def fieldInit (P : Parser) : Toks → PR (String × Ex)
  | f :: ":" :: l => (P.expr false 0 l).map fun r => ((f, r.1), r.2)
  | f :: l => some ((f, .path [f]), l)
  | [] => none

/-- `P => e`; a block as `e` need not be followed by a comma. -/
def armOf (P : Parser) (l : Toks) : PR (Pat × Ex) :=
  match P.pat l with
  | some (p, "=>" :: "{" :: l') =>
    match P.block l' with
    | some (e, "," :: l'') => some ((p, e), "," :: l'')
    | some (e, l'') => some ((p, e), "," :: l'')
    | none => none
  | some (p, "=>" :: l') => (P.expr false 0 l').map fun r => ((p, r.1), r.2)
  | _ => none

def closureParams (P : Parser) : Nat → Toks → PR (List Pat)
  | 0, _ => none
  | _, "|" :: l => some ([], l)
  | n + 1, l =>
    match P.pat l with
    | some (p, "," :: l') => (closureParams P n l').map fun r => (p :: r.1, r.2)
    | some (p, "|" :: l') => some ([p], l')
    | _ => none

/-- The template in a `quote!`; in `quote_spanned!` it is after `=>`. -/
def quoteOf (name : String) (body : Toks) : Option Ex :=
  let ts := if name == "quote_spanned" then (splitAtTop ["=>"] 0 [] body).2.drop 1 else body
  match Emit.Quote.parse ts.length ts with
  | .ok t => some (.quote t)
  | .error _ => none

/-- An expression that starts with a name. -/
def pathOf (P : Parser) (noStruct : Bool) (t : String) (l : Toks) : PR Ex :=
  let (segs, l) := parsePath 20 l
  let path := t :: segs
  match l with
  | "!" :: o :: l =>
    if t == "quote" || t == "quote_spanned" then
      let (body, rest) := if o == "(" then group "(" ")" 0 [] l else group "{" "}" 0 [] l
      (quoteOf t body).map fun e => (e, rest)
    else if o == "(" then (listOf (P.expr false 0) ")" 100 l).map fun r => (.mac (path.getLastD t) r.1, r.2)
    else none
  | "(" :: l => (listOf (P.expr false 0) ")" 100 l).map fun r => (.call path r.1, r.2)
  | "{" :: l' =>
    if !noStruct && isUpperIdent (path.getLastD "") then (listOf (fieldInit P) "}" 100 l').map fun r => (.struct path r.1, r.2)
    else some (.path path, l)
  | l => some (.path path, l)

/-- What follows `if`. -/
def ifOf (P : Parser) (l : Toks) : PR Ex :=
  let elseOf (l : Toks) : PR Ex :=
    match l with
    | "else" :: "{" :: l => P.block l
    | l => some (.unit, l)
  match l with
  | "let" :: l =>
    match P.pat l with
    | some (p, "=" :: l) =>
      match P.expr true 0 l with
      | some (e, "{" :: l) =>
        match P.block l with
        | some (a, l) => (elseOf l).map fun r => (.cases e [(p, a), (.wild, r.1)], r.2)
        | none => none
      | _ => none
    | _ => none
  | l =>
    match P.expr true 0 l with
    | some (c, "{" :: l) =>
      match P.block l with
      | some (a, l) => (elseOf l).map fun r => (.ite c a r.1, r.2)
      | none => none
    | _ => none

def prefixOf (P : Parser) (noStruct : Bool) (l : Toks) : PR Ex :=
  match l with
  | [] => none
  | t :: l =>
    if t == "(" then
      match listOf (P.expr false 0) ")" 100 l with
      | some ([], l) => some (.unit, l)
      | some ([e], l) => some (e, l)
      | some (es, l) => some (.tuple es, l)
      | none => none
    else if t == "[" then (listOf (P.expr false 0) "]" 100 l).map fun r => (.call ["[]"] r.1, r.2)
    else if t == "{" then P.block l
    else if t == "if" then ifOf P l
    else if t == "for" then
      match P.pat l with
      | some (p, "in" :: l) =>
        match P.expr true 0 l with
        | some (e, "{" :: l) => (P.block l).map fun r => (.for p e r.1, r.2)
        | _ => none
      | _ => none
    else if t == "match" then
      match P.expr true 0 l with
      | some (e, "{" :: l) => (listOf (armOf P) "}" 100 l).map fun r => (.cases e r.1, r.2)
      | _ => none
    else if t == "return" then (P.expr noStruct 0 l).map fun r => (.ret r.1, r.2)
    else if t == "*" then P.expr noStruct 90 l
    else if t == "!" then (P.expr noStruct 90 l).map fun r => (.call ["!"] [r.1], r.2)
    else if t == "&" then
      match l with
      | "mut" :: l => P.expr noStruct 90 l
      | l => P.expr noStruct 90 l
    else if t == "|" then
      match closureParams P 20 l with
      | some (ps, l) => (P.expr noStruct 0 l).map fun r => (.lambda ps r.1, r.2)
      | none => none
    else if t == "<" then
      match group "<" ">" 0 [] l with
      | (h :: _, "::" :: m :: l) => pathOf P noStruct h ("::" :: m :: l)
      | _ => none
    else match parseNat t with
      | some n => some (.int n, l)
      | none =>
        match t.toList with
        | '"' :: s => some (.str (String.ofList s), l)
        | _ => if isIdent t then pathOf P noStruct t l else none

/-- What may follow an expression: fields, methods, `?`, `as` (dropped), `<<`, `>`, `==`, `!=`, `=`. -/
def postfixOf (P : Parser) (noStruct : Bool) (power : Nat) : Nat → Ex → Toks → PR Ex
  | 0, _, _ => none
  | n + 1, e, l =>
    match l with
    | "." :: m :: "(" :: l =>
      match listOf (P.expr false 0) ")" 100 l with
      | some (args, l) => postfixOf P noStruct power n (.method e m args) l
      | none => none
    | "." :: m :: "::" :: "<" :: l =>
      match group "<" ">" 0 [] l with
      | (_, "(" :: ")" :: l) => postfixOf P noStruct power n (.method e m []) l
      | _ => none
    | "." :: f :: l => postfixOf P noStruct power n (.field e f) l
    | "?" :: l => postfixOf P noStruct power n (.try e) l
    | "as" :: _ :: l => postfixOf P noStruct power n e l
    | "<" :: "<" :: rest => if power < 50 then (P.expr noStruct 50 rest).map fun r => (.shl e r.1, r.2) else some (e, l)
    | ">" :: rest => if power < 30 then (P.expr noStruct 30 rest).map fun r => (.gt e r.1, r.2) else some (e, l)
    | "==" :: rest => if power < 30 then (P.expr noStruct 30 rest).map fun r => (.call ["=="] [e, r.1], r.2) else some (e, l)
    | "!=" :: rest => if power < 30 then (P.expr noStruct 30 rest).map fun r => (.call ["!="] [e, r.1], r.2) else some (e, l)
    | "=" :: rest => if power == 0 then (P.expr noStruct 0 rest).map fun r => (.call ["="] [e, r.1], r.2) else some (e, l)
    | l => some (e, l)

/-- The names in a struct pattern. -/
def patFields (ts : Toks) : List String := ((commas 100 ts).filterMap (·.head?)).filter isIdent

def patOf (P : Parser) (l : Toks) : PR Pat :=
  match l with
  | "_" :: l => some (.wild, l)
  | "mut" :: x :: l => some (.bind x, l)
  | "(" :: l => (listOf P.pat ")" 20 l).map fun r => (.tuple r.1, r.2)
  | lo :: "." :: "." :: "=" :: hi :: l =>
    match parseNat lo, parseNat hi with
    | some a, some b => some (.range a b, l)
    | _, _ => none
  | t :: l =>
    if !isIdent t then none else
    let (segs, l) := parsePath 20 l
    match l with
    | "(" :: l => (listOf P.pat ")" 20 l).map fun r => (.con (t :: segs) r.1, r.2)
    | "{" :: l' =>
      if isUpperIdent t then let (fs, rest) := group "{" "}" 0 [] l'; some (.struct (t :: segs) (patFields fs), rest)
      else some (.bind t, l)
    | l => if segs.isEmpty && !isUpperIdent t then some (.bind t, l) else some (.con (t :: segs) [], l)
  | [] => none

/-- A statement that ends with a block needs no semicolon. -/
def blockLike : Toks → Bool
  | t :: _ => ["if", "match", "for", "{"].contains t
  | [] => false

/-- The rest of a block, up to and including `}`. -/
def stmtsOf (P : Parser) : Nat → Toks → PR Ex
  | 0, _ => none
  | n + 1, l =>
    match l with
    | "}" :: l => some (.unit, l)
    | "let" :: l =>
      match P.pat l with
      | some (p, "=" :: l) =>
        match P.expr false 0 l with
        | some (e, ";" :: l) => (stmtsOf P n l).map fun r => (.letIn p e r.1, r.2)
        | _ => none
      | _ => none
    | l =>
      match P.expr false (if blockLike l then 1000 else 0) l with
      | some (e, "}" :: l) => some (e, l)
      | some (e, ";" :: l) => (stmtsOf P n l).map fun r => (.seq e r.1, r.2)
      | some (e, l') => if blockLike l then (stmtsOf P n l').map fun r => (.seq e r.1, r.2) else none
      | none => none

def Parser.step (P : Parser) : Parser where
  expr noStruct power l :=
    match prefixOf P noStruct l with
    | some (e, l) => if power == 1000 then some (e, l) else postfixOf P noStruct power 100 e l
    | none => none
  pat := patOf P
  block := stmtsOf P 200

/-- The parsers up to a nesting depth. -/
def parser : Nat → Parser
  | 0 => ⟨fun _ _ _ => none, fun _ => none, fun _ => none⟩
  | n + 1 => (parser n).step

def depth : Nat := 30

/-! ## Items -/

/-- The name of a parameter. -/
def paramName (ts : Toks) : String := ((ts.filter isIdent).filter (· != "mut")).headD ""

/-- Everything after `fn`. -/
def fnOf (ty : String) (l : Toks) : PR Fn :=
  match l with
  | name :: l =>
    let (ps, l) := splitAtTop [")"] 0 [] ((splitAtTop ["("] 0 [] l).2.drop 1)
    match (splitAtTop ["{"] 0 [] l).2 with
    | _ :: l => ((parser depth).block l).map fun r => (⟨ty, name, (commas 100 ps).map paramName, r.1⟩, r.2)
    | [] => none
  | [] => none

/-- `pub(crate) name: Head<…>` -/
def fieldType (ts : Toks) : String × String :=
  let (a, b) := splitAtTop [":"] 0 [] ts
  (a.getLastD "", (b.drop 1).headD "")

/-- The name of a type without lifetimes and arguments. -/
def headName (ts : Toks) : String := ((splitAtTop ["<"] 0 [] ts).1.getLast?).getD ""

/-- Skip an item: to the end of its braces, or to `;`. -/
def skipItem (l : Toks) : Toks :=
  match (splitAtTop ["{", ";"] 0 [] l).2 with
  | "{" :: l => (group "{" "}" 0 [] l).2
  | l => l.drop 1

/-- Reads items; `ty`: of the surrounding `impl`. -/
def itemsOf : Nat → String → File → Toks → Option File
  | 0, _, _, _ => none
  | n + 1, ty, p, l =>
    match l with
    | [] => if ty == "" then some p else none
    | t :: l =>
      if t == "#" then itemsOf n ty p (group "[" "]" 0 [] (l.drop 1)).2
      else if t == "use" || t == "type" then itemsOf n ty p ((splitAtTop [";"] 0 [] l).2.drop 1)
      else if t == "enum" then itemsOf n ty p (skipItem l)
      else if t == "const" then
        match l with
        | x :: l =>
          match (parser depth).expr false 0 ((splitAtTop ["="] 0 [] l).2.drop 1) with
          | some (e, _ :: l) => itemsOf n ty { p with consts := p.consts ++ [(x, e)] } l
          | _ => none
        | [] => none
      else if t == "struct" then
        match l with
        | x :: l =>
          let fs := (group "{" "}" 0 [] ((splitAtTop ["{"] 0 [] l).2.drop 1)).1
          itemsOf n ty { p with structs := p.structs ++ [(x, (commas 100 fs).map fieldType)] } (skipItem l)
        | [] => none
      else if t == "impl" then
        let (h, l) := splitAtTop ["{"] 0 [] (match l with | "<" :: l => (group "<" ">" 0 [] l).2 | l => l)
        match splitAtTop ["for"] 0 [] h with
        | (_, _ :: b) => itemsOf n (headName b) p (l.drop 1)
        | (a, []) => itemsOf n (headName a) p (l.drop 1)
      else if t == "}" then if ty == "" then none else itemsOf n "" p l
      else if t == "fn" then
        match fnOf ty l with
        | some (f, l) => itemsOf n ty { p with fns := p.fns ++ [f] } l
        | none => none
      else if t == "pub" then
        match l with
        | "(" :: l => itemsOf n ty p (group "(" ")" 0 [] l).2
        | l => itemsOf n ty p l
      else none

/-- The contents of a piece of a file. -/
def parsePiece (l : Toks) : Option File := itemsOf (l.length + 1) "" ⟨[], [], []⟩ l

def File.and (a b : File) : File := ⟨a.fns ++ b.fns, a.structs ++ b.structs, a.consts ++ b.consts⟩

/-- The contents of a file that is cut into pieces between items. -/
def parseFile : List Toks → Option File
  | [] => some ⟨[], [], []⟩
  | l :: ls =>
    match parsePiece l, parseFile ls with
    | some a, some b => some (a.and b)
    | _, _ => none

/-- `name = [core::a::b]` -/
def pathEntry (ts : Toks) : String × List String :=
  match ts with
  | name :: "=" :: "[" :: l => (name, (splitAtTop ["]"] 0 [] l).1.filter (· != "::"))
  | _ => ("", [])

/-- The paths defined by `toks! { … struct Toks<'a> { … } }`. -/
def parsePaths (l : Toks) : List (String × List String) :=
  (commas 100 (group "{" "}" 0 [] ((splitAtTop ["{"] 0 [] ((splitAtTop ["{"] 0 [] l).2.drop 1)).2.drop 1)).1).map pathEntry

open Lean Elab Tactic in
/-- `a = b` by `Eq.refl a`; that this is a proof is found out by the kernel, which computes faster than the elaborator. -/
elab "derive_rfl" : tactic => do
  let g ← getMainGoal
  let t ← instantiateMVars (← g.getType)
  let some (_, a, _) := t.eq? | throwError "derive_rfl: not an equation"
  g.assign (mkApp2 (mkConst ``id [.zero]) t (← Meta.mkEqRefl a))
  replaceMainGoal []

end FixedMap.DeriveText
