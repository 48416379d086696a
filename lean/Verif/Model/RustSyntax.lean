import Lean

/-!
# Rust source text

A lexer and a parser for the part of Rust in which src/ is written. `rust! "…"` is the list of the tokens of a text; `parseFile` turns the tokens of a
file into its functions. Types, visibilities, generics and where clauses are skipped: none of them has an effect when the program runs, except that types select trait
methods, which the semantics (RustSem.lean) does by looking at the values.
-/

set_option autoImplicit false

namespace FixedMap.Rust

/-! ## Tokens -/

abbrev Toks := List String

def puncts : List String := ["::", "->", "=>", "==", "!=", "&&", "||", "|=", "&=", "<=", ">=", "+=", ".."]

def identChar (c : Char) : Bool := c.isAlphanum || c == '_'

/-- Split into tokens; the first argument bounds the number of steps. Comments and white space are dropped. -/
def lex : Nat → List Char → List String
  | n + 1, '/' :: '/' :: l => lex n (l.dropWhile (· != '\n'))
  | n + 1, '"' :: l => String.ofList ('"' :: l.takeWhile (· != '"')) :: lex n ((l.dropWhile (· != '"')).drop 1)
  | n + 1, c :: l =>
    if c.isWhitespace then lex n l
    else if identChar c || c == '\'' then String.ofList (c :: l.takeWhile identChar) :: lex n (l.dropWhile identChar)
    else match l with
      | d :: l' => if puncts.contains (String.ofList [c, d]) then String.ofList [c, d] :: lex n l' else String.singleton c :: lex n l
      | [] => [String.singleton c]
  | _, _ => []

open Lean Elab Term in
/-- The tokens of a text, split when the Lean file is elaborated. -/
elab "rust! " s:str : term <= expected => do
  let t := s.getString
  let ts := lex t.length t.toList
  let elems : Array Term := (ts.map fun t => (Syntax.mkStrLit t : Term)).toArray
  elabTerm (← `(([$elems,*] : List String))) expected

/-! ## Syntax -/

inductive Pat where
  | wild
  | bind (x : String)
  | con (path : List String) (args : List Pat)
  | tuple (ps : List Pat)
  | deref (p : Pat)
deriving Repr, Inhabited

/-- Expressions. Blocks are made of `letIn` and `seq`; `if let P = e { a } else { b }` is `cases e [(P, a), (_, b)]`;
`for P in e { b }` is `let it = IntoIterator::into_iter(e); while let Some(P) = it.next() { b }`, as in the Rust reference. -/
inductive Expr where
  | unit
  | bool (b : Bool)
  | int (n : Nat)
  | str
  | path (l : List String)
  | call (f : Expr) (args : List Expr)
  | method (e : Expr) (m : String) (args : List Expr)
  | field (e : Expr) (f : String)
  | struct (path : List String) (fs : List (String × Expr))
  | structBase (path : List String) (fs : List (String × Expr)) (base : Expr)
  | tuple (es : List Expr)
  | un (op : String) (e : Expr)
  | bin (op : String) (a b : Expr)
  | cast (e : Expr) (ty : String)
  | assign (op : String) (l r : Expr)
  | ite (c t e : Expr)
  | cases (e : Expr) (arms : List (Pat × Expr))
  | letIn (p : Pat) (e body : Expr)
  | seq (a b : Expr)
  | lambda (ps : List Pat) (body : Expr)
  | ret (e : Expr)
  | try (e : Expr)
  | loop (body : Expr)
  | whileLet (p : Pat) (e body : Expr)
  | mac (name : String) (args : List Expr)
deriving Repr, Inhabited

/-- How a function takes `self`. -/
inductive Recv where
  | none
  | value
  | ref
deriving Repr, DecidableEq, Inhabited

/-- A function: the type and the trait of its `impl` (`""` if there is none). -/
structure Fn where
  ty : String
  tr : String
  name : String
  recv : Recv
  params : List Pat
  body : Expr
deriving Repr, Inhabited

/-- A program: functions, constants, and the traits derived by attribute for its types. -/
structure Prog where
  fns : List Fn
  consts : List (String × Expr)
  derives : List (String × List String)
deriving Repr, Inhabited

/-! ## Parser -/

abbrev PR (α : Type) := Option (α × Toks)

/-- The parsers of one nesting depth. The flag says that a struct literal may not start here (conditions, scrutinees); the number is the binding power. -/
structure Parser where
  expr : Bool → Nat → Toks → PR Expr
  pat : Toks → PR Pat
  block : Toks → PR Expr

def isIdent (t : String) : Bool :=
  match t.toList with
  | c :: _ => c.isAlpha || c == '_'
  | [] => false

def isUpperIdent (t : String) : Bool :=
  match t.toList with
  | c :: _ => c.isUpper
  | [] => false

def digit (c : Char) : Nat := c.toNat - '0'.toNat

/-- Decimal and binary literals without suffix. -/
def parseNat (t : String) : Option Nat :=
  match t.toList with
  | '0' :: 'b' :: l => some (l.foldl (fun a c => 2 * a + digit c) 0)
  | c :: l => if c.isDigit then some ((c :: l).foldl (fun a c => 10 * a + digit c) 0) else none
  | [] => none

/-- Skip to the token after the bracket that closes; `d` brackets are open. -/
def skipGroup (o c : String) : Nat → Toks → Toks
  | _, [] => []
  | d, t :: l =>
    if t == o then skipGroup o c (d + 1) l
    else if t == c then (match d with | 0 => l | 1 => l | d + 2 => skipGroup o c (d + 1) l)
    else skipGroup o c d l

/-- The tokens before the one that is equal to one of `stop` outside of all brackets, and the rest from that token on. -/
def splitAtTop (stop : List String) : Nat → Toks → Toks → Toks × Toks
  | _, acc, [] => (acc.reverse, [])
  | d, acc, t :: l =>
    if d == 0 && stop.contains t then (acc.reverse, t :: l)
    else if ["(", "[", "<", "{"].contains t then splitAtTop stop (d + 1) (t :: acc) l
    else if [")", "]", ">", "}"].contains t then splitAtTop stop (d - 1) (t :: acc) l
    else splitAtTop stop d (t :: acc) l

/-- Split at the commas outside of all brackets. -/
def commas : Nat → Toks → List Toks
  | 0, _ => []
  | n + 1, l =>
    match splitAtTop [","] 0 [] l with
    | (a, _ :: rest) => a :: commas n rest
    | ([], []) => []
    | (a, []) => [a]

/-- `a::b::c`, with `::<…>` skipped. -/
def parsePath : Nat → Toks → List String × Toks
  | n + 1, "::" :: "<" :: l => parsePath n (skipGroup "<" ">" 1 l)
  | n + 1, "::" :: t :: l => let r := parsePath n l; (t :: r.1, r.2)
  | _, l => ([], l)

def listOf {α : Type} (p : Toks → PR α) (close : String) : Nat → Toks → PR (List α)
  | 0, _ => none
  | n + 1, l =>
    match l with
    | [] => none
    | t :: rest =>
      if t == close then some ([], rest)
      else match p l with
        | none => none
        | some (a, "," :: l') => (listOf p close n l').map fun r => (a :: r.1, r.2)
        | some (a, t' :: l') => if t' == close then some ([a], l') else none
        | some (_, []) => none

/-- `field: e`, or `field` for `field: field`, or `..e`. -/
def fieldInit (P : Parser) : Toks → PR (String × Expr)
  | ".." :: l => (P.expr false 0 l).map fun r => (("..", r.1), r.2)
  | f :: ":" :: l => (P.expr false 0 l).map fun r => ((f, r.1), r.2)
  | f :: l => some ((f, .path [f]), l)
  | [] => none

/-- `P => e`; a block as `e` need not be followed by a comma. -/
def armOf (P : Parser) (l : Toks) : PR (Pat × Expr) :=
  match P.pat l with
  | some (p, "=>" :: "{" :: l') =>
    match P.block l' with
    | some (e, "," :: l'') => some ((p, e), "," :: l'')
    | some (e, l'') => some ((p, e), "," :: l'')
    | none => none
  | some (p, "=>" :: l') => (P.expr false 0 l').map fun r => ((p, r.1), r.2)
  | _ => none

/-- A parameter of a closure: a pattern with an optional type. -/
def closureParams (P : Parser) : Nat → Toks → PR (List Pat)
  | 0, _ => none
  | _, "|" :: l => some ([], l)
  | n + 1, l =>
    match P.pat l with
    | none => none
    | some (p, l') =>
      let rest := match l' with
        | ":" :: ty => (splitAtTop [",", "|"] 0 [] ty).2
        | l' => l'
      match rest with
      | "," :: l'' => (closureParams P n l'').map fun r => (p :: r.1, r.2)
      | "|" :: l'' => some ([p], l'')
      | _ => none

/-- `else { … }`, `else if …`, or nothing. -/
def elseOf (P : Parser) (l : Toks) : PR Expr :=
  match l with
  | "else" :: "{" :: l' => P.block l'
  | "else" :: l' => P.expr false 100 l'
  | l => some (.unit, l)

def ifOf (P : Parser) (l : Toks) : PR Expr :=
  match l with
  | "let" :: l =>
    match P.pat l with
    | some (p, "=" :: l) =>
      match P.expr true 0 l with
      | some (e, "{" :: l) =>
        match P.block l with
        | some (a, l) => (elseOf P l).map fun r => (.cases e [(p, a), (.wild, r.1)], r.2)
        | none => none
      | _ => none
    | _ => none
  | l =>
    match P.expr true 0 l with
    | some (c, "{" :: l) =>
      match P.block l with
      | some (a, l) => (elseOf P l).map fun r => (.ite c a r.1, r.2)
      | none => none
    | _ => none

/-- A struct literal, given its fields. -/
def structOf (path : List String) (fs : List (String × Expr)) : Expr :=
  match fs.getLast? with
  | some ("..", base) => .structBase path fs.dropLast base
  | _ => .struct path fs

/-- What follows `while let`, or `for`, with `in` for `=`. -/
def whileOf (P : Parser) (eq : String) (l : Toks) : PR (Pat × Expr × Expr) :=
  match P.pat l with
  | some (p, t :: l) =>
    if t != eq then none else
    match P.expr true 0 l with
    | some (e, "{" :: l) => (P.block l).map fun r => ((p, e, r.1), r.2)
    | _ => none
  | _ => none

def forLoop (p : Pat) (e body : Expr) : Expr :=
  .letIn (.bind "for") (.call (.path ["IntoIterator", "into_iter"]) [e]) (.whileLet (.con ["Some"] [p]) (.method (.path ["for"]) "next" []) body)

/-- An expression that starts with a name. -/
def pathOf (P : Parser) (noStruct : Bool) (t : String) (l : Toks) : PR Expr :=
  let (segs, l) := parsePath 20 l
  let path := t :: segs
  match l with
  | "!" :: "(" :: l => (listOf (P.expr false 0) ")" 100 l).map fun r => (.mac t r.1, r.2)
  | "{" :: l' =>
    if !noStruct && isUpperIdent (path.getLastD "") then (listOf (fieldInit P) "}" 100 l').map fun r => (structOf path r.1, r.2)
    else some (.path path, l)
  | l => some (.path path, l)

def prefixOf (P : Parser) (noStruct : Bool) (l : Toks) : PR Expr :=
  match l with
  | [] => none
  | t :: l =>
    if t == "(" then
      match listOf (P.expr false 0) ")" 100 l with
      | some ([], l) => some (.unit, l)
      | some ([e], l') => if (splitAtTop [",", ")"] 0 [] l).2.head? == some "," then some (.tuple [e], l') else some (e, l')
      | some (es, l) => some (.tuple es, l)
      | none => none
    else if t == "{" then P.block l
    else if t == "unsafe" then (match l with | "{" :: l => P.block l | _ => none)
    else if t == "if" then ifOf P l
    else if t == "loop" then (match l with | "{" :: l => (P.block l).map fun r => (.loop r.1, r.2) | _ => none)
    else if t == "for" then (whileOf P "in" l).map fun r => (forLoop r.1.1 r.1.2.1 r.1.2.2, r.2)
    else if t == "while" then (match l with | "let" :: l => (whileOf P "=" l).map fun r => (.whileLet r.1.1 r.1.2.1 r.1.2.2, r.2) | _ => none)
    else if t == "match" then
      match P.expr true 0 l with
      | some (e, "{" :: l) => (listOf (armOf P) "}" 100 l).map fun r => (.cases e r.1, r.2)
      | _ => none
    else if t == "return" then (P.expr noStruct 0 l).map fun r => (.ret r.1, r.2)
    else if t == "true" then some (.bool true, l)
    else if t == "false" then some (.bool false, l)
    else if t == "!" || t == "*" then (P.expr noStruct 90 l).map fun r => (.un t r.1, r.2)
    else if t == "&" then
      match l with
      | "mut" :: l => (P.expr noStruct 90 l).map fun r => (.un "&" r.1, r.2)
      | l => (P.expr noStruct 90 l).map fun r => (.un "&" r.1, r.2)
    else if t == "|" then
      match closureParams P 20 l with
      | some (ps, l) => (P.expr noStruct 0 l).map fun r => (.lambda ps r.1, r.2)
      | none => none
    else if t == "::" then (match l with | t :: l => pathOf P noStruct t l | [] => none)
    else if t == "<" then
      let (ty, l) := splitAtTop ["as", ">"] 0 [] l
      match ty, (splitAtTop [">"] 0 [] l).2 with
      | h :: ty, _ :: l => pathOf P noStruct h ((parsePath 20 ty).1.flatMap (["::", ·]) ++ l)
      | _, _ => none
    else match parseNat t with
      | some n => some (.int n, l)
      | none => if t.toList.head? == some '"' then some (.str, l) else if isIdent t then pathOf P noStruct t l else none

/-- Binary operators with their binding powers. -/
def binPower (t : String) : Option Nat :=
  if t == "||" then some 10 else if t == "&&" then some 20
  else if ["==", "!=", "<", "<=", ">", ">="].contains t then some 30
  else if t == "|" then some 40 else if t == "&" then some 50 else if t == "+" then some 60 else none

/-- What may follow an expression: fields, methods, calls, `?`, `as`, operators, assignments. -/
def postfixOf (P : Parser) (noStruct : Bool) (power : Nat) : Nat → Expr → Toks → PR Expr
  | 0, _, _ => none
  | n + 1, e, l =>
    match l with
    | [] => some (e, [])
    | t :: rest =>
      if t == "." then
        match rest with
        | m :: "(" :: l => match listOf (P.expr false 0) ")" 100 l with
          | some (args, l) => postfixOf P noStruct power n (.method e m args) l
          | none => none
        | f :: l => postfixOf P noStruct power n (.field e f) l
        | [] => none
      else if t == "(" then
        match listOf (P.expr false 0) ")" 100 rest with
        | some (args, l) => postfixOf P noStruct power n (.call e args) l
        | none => none
      else if t == "?" then postfixOf P noStruct power n (.try e) rest
      else if t == "as" && power < 80 then
        match rest with
        | ty :: l => postfixOf P noStruct power n (.cast e ty) l
        | [] => none
      else if ["=", "|=", "&=", "+="].contains t && power == 0 then
        (P.expr noStruct 0 rest).map fun r => (.assign t e r.1, r.2)
      else match binPower t with
        | some p =>
          if power < p then
            match P.expr noStruct p rest with
            | some (b, l) => postfixOf P noStruct power n (.bin t e b) l
            | none => none
          else some (e, l)
        | none => some (e, l)

def patOf (P : Parser) (l : Toks) : PR Pat :=
  match l with
  | "_" :: l => some (.wild, l)
  | "mut" :: x :: l => some (.bind x, l)
  | "&" :: l => (P.pat l).map fun r => (.deref r.1, r.2)
  | "(" :: l => (listOf P.pat ")" 20 l).map fun r => (.tuple r.1, r.2)
  | t :: l =>
    if !isIdent t then none else
    let (segs, l) := parsePath 20 l
    match l with
    | "(" :: l => (listOf P.pat ")" 20 l).map fun r => (.con (t :: segs) r.1, r.2)
    | l => if segs.isEmpty && !isUpperIdent t then some (.bind t, l) else some (.con (t :: segs) [], l)
  | [] => none

/-- A statement that ends with a block needs no semicolon. -/
def blockLike : Toks → Bool
  | t :: _ => ["if", "match", "unsafe", "loop", "for", "while", "{"].contains t
  | [] => false

/-- Skip an item after its keyword: to the end of its braces, or to `;`. -/
def skipItem (l : Toks) : Toks :=
  match (splitAtTop ["{", ";"] 0 [] l).2 with
  | ";" :: l => l
  | l => skipGroup "{" "}" 0 l

/-- The rest of a block, up to and including `}`. Items in it are left out (see `nested`). -/
def stmtsOf (P : Parser) : Nat → Toks → PR Expr
  | 0, _ => none
  | n + 1, l =>
    match l with
    | "}" :: l => some (.unit, l)
    | "use" :: l => stmtsOf P n (skipItem l)
    | "struct" :: l => stmtsOf P n (skipItem l)
    | "impl" :: l => stmtsOf P n (skipItem l)
    | "#" :: l => stmtsOf P n (skipGroup "[" "]" 0 l)
    | "let" :: l =>
      match P.pat l with
      | some (p, l) =>
        match (splitAtTop ["="] 0 [] l).2 with
        | _ :: l =>
          match P.expr false 0 l with
          | some (e, ";" :: l) => (stmtsOf P n l).map fun r => (.letIn p e r.1, r.2)
          | _ => none
        | [] => none
      | none => none
    | l =>
      if blockLike l then
        match P.expr false 1000 l with
        | some (e, "}" :: l) => some (e, l)
        | some (e, ";" :: l) => (stmtsOf P n l).map fun r => (.seq e r.1, r.2)
        | some (e, l) => (stmtsOf P n l).map fun r => (.seq e r.1, r.2)
        | none => none
      else
        match P.expr false 0 l with
        | some (e, ";" :: l) => (stmtsOf P n l).map fun r => (.seq e r.1, r.2)
        | some (e, "}" :: l) => some (e, l)
        | _ => none

def Parser.step (P : Parser) : Parser where
  expr noStruct power l :=
    match prefixOf P noStruct l with
    | some (e, l) => if power == 1000 || power == 100 then some (e, l) else postfixOf P noStruct power 100 e l
    | none => none
  pat := patOf P
  block := stmtsOf P 100

/-- The parsers up to a nesting depth. -/
def parser : Nat → Parser
  | 0 => ⟨fun _ _ _ => none, fun _ => none, fun _ => none⟩
  | n + 1 => (parser n).step

def depth : Nat := 30

/-! ## Items -/

/-- A parameter. -/
def paramOf (ts : Toks) : Option Pat := ((parser depth).pat ts).map (·.1)

/-- The receiver and the patterns of the other parameters. -/
def paramsOf (ts : Toks) : Option (Recv × List Pat) :=
  match commas 100 ts with
  | [] => some (.none, [])
  | p :: ps =>
    let p := p.filter fun t => t.toList.head? != some '\''
    if p == ["self"] || p == ["mut", "self"] then (ps.mapM paramOf).map (.value, ·)
    else if p == ["&", "self"] || p == ["&", "mut", "self"] then (ps.mapM paramOf).map (.ref, ·)
    else ((p :: ps).mapM paramOf).map (.none, ·)

/-- Everything after `fn`. -/
def fnOf (ty tr : String) (l : Toks) : PR Fn :=
  match l with
  | name :: l =>
    let (ps, l) := splitAtTop [")"] 0 [] ((splitAtTop ["("] 0 [] l).2.drop 1)
    match paramsOf ps, (splitAtTop ["{"] 0 [] l).2 with
    | some (recv, ps), _ :: l => ((parser depth).block l).map fun r => (⟨ty, tr, name, recv, ps, r.1⟩, r.2)
    | _, _ => none
  | [] => none

/-- The traits in `#[derive(…)]`, given what follows `#`. -/
def derivesOf (l : Toks) : List String :=
  match l with
  | "[" :: "derive" :: "(" :: l => (splitAtTop [")"] 0 [] l).1.filter isIdent
  | _ => []

/-- The name of a type or trait without path, lifetimes and arguments, `&` and `&mut` in front of it. -/
def headName (ts : Toks) : String :=
  let n := ((splitAtTop ["<"] 0 [] ts).1.getLast?).getD ""
  if ts.head? == some "&" then (if ts.contains "mut" then "&mut " ++ n else "&" ++ n) else n

/-- Reads items; `ty`, `tr`: of the surrounding `impl`; `ds`: the traits of the `#[derive]` before. -/
def itemsOf : Nat → String → String → List String → Prog → Toks → Option Prog
  | 0, _, _, _, _, _ => none
  | n + 1, ty, tr, ds, p, l =>
    match l with
    | [] => if ty == "" then some p else none
    | t :: l =>
      if t == "#" then
        match l with
        | "!" :: l => itemsOf n ty tr ds p (skipGroup "[" "]" 0 l)
        | l => itemsOf n ty tr (ds ++ derivesOf l) p (skipGroup "[" "]" 0 l)
      else if t == "use" || t == "type" || t == "mod" then itemsOf n ty tr [] p ((splitAtTop [";"] 0 [] l).2.drop 1)
      else if t == "const" then
        match l with
        | "fn" :: _ => itemsOf n ty tr ds p l
        | x :: l =>
          match (parser depth).expr false 0 ((splitAtTop ["="] 0 [] l).2.drop 1) with
          | some (e, _ :: l) => itemsOf n ty tr [] { p with consts := p.consts ++ [(x, e)] } l
          | _ => none
        | [] => none
      else if t == "struct" || t == "enum" then
        match l with
        | x :: l => itemsOf n ty tr [] { p with derives := if ds.isEmpty then p.derives else p.derives ++ [(x, ds)] } (skipItem l)
        | [] => none
      else if t == "impl" then
        let (h, l) := splitAtTop ["{"] 0 [] (match l with | "<" :: _ => skipGroup "<" ">" 0 l | l => l)
        let h := (splitAtTop ["where"] 0 [] h).1
        match splitAtTop ["for"] 0 [] h with
        | (a, _ :: b) => itemsOf n (headName b) (headName a) [] p (l.drop 1)
        | (a, []) => itemsOf n (headName a) "" [] p (l.drop 1)
      else if t == "}" then if ty == "" then none else itemsOf n "" "" [] p l
      else if t == "fn" then
        match fnOf ty tr l with
        | some (f, l) => itemsOf n ty tr [] { p with fns := p.fns ++ [f] } l
        | none => none
      else if t == "pub" then
        match l with
        | "(" :: l => itemsOf n ty tr ds p (skipGroup "(" ")" 1 l)
        | l => itemsOf n ty tr ds p l
      else if t == "unsafe" then itemsOf n ty tr ds p l
      else none

/-- The structs and impls inside of functions; the number counts the braces that are open. -/
def nested : Nat → Nat → Toks → Toks
  | 0, _, _ => []
  | _, _, [] => []
  | n + 1, d, t :: l =>
    if t == "{" then nested n (d + 1) l
    else if t == "}" then nested n (d - 1) l
    else if 2 ≤ d && (t == "impl" || t == "struct") then
      let rest := skipItem l
      (t :: l).take (l.length + 1 - rest.length) ++ nested n d rest
    else nested n d l

/-- The functions of a file. -/
def parseFile (l : Toks) : Option Prog :=
  let l := l ++ nested (l.length + 1) 0 l
  itemsOf (l.length + 1) "" "" [] ⟨[], [], []⟩ l

open Lean Elab Tactic in
/-- `a = b` by `Eq.refl a`; that this is a proof is found out by the kernel, which computes faster than the elaborator. -/
elab "kernel_rfl" : tactic => do
  let g ← getMainGoal
  let t ← instantiateMVars (← g.getType)
  let some (_, a, _) := t.eq? | throwError "kernel_rfl: not an equation"
  g.assign (mkApp2 (mkConst ``id [.zero]) t (← Meta.mkEqRefl a))
  replaceMainGoal []

end FixedMap.Rust
