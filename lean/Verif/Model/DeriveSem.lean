import Verif.Model.Macro
import Verif.Model.DeriveProgs

/-!
# Running the derive

A semantics for the Rust of DeriveSyntax.lean: running a function of the derive on an enum gives the tokens that it writes.

* Values are tokens (identifiers, types, paths and token streams alike), numbers, strings, and the data structures of the derive. Vectors, token streams and `where` clauses that the
  program builds are cells of a heap, lists of what was pushed to them. A value that owns a cell holds its number. As no vector is copied, `&`, `&mut` and `*` need not be told
  apart from the value.
* The functions are in continuation passing style: what is done with a result is an argument. If the program inspects an unknown variant (`match kind`), the rest of the program is
  run in each case.
* `for` over the fields and over the variants are parameters, `Loops` (`forLoop` and `forVariants` are those that are meant), so that a proof can stop the computation there.
* A run that ends without result says how, `Stop`. `continue` and `return` are such ends too, which the loop or the call around them catches. An `Err` ends the run, as each call that
  can give one is followed by `?` or is the result. The messages of `cx.span_error` are collected in the heap.
* The functions of other files that lib.rs calls are parameters, `Externals`.

What is assumed of libraries: `syn::parse2` returns what prints as the tokens it was given; `cx.fallible` passes on the result of its closure (context.rs 158-172); a `where` clause
without predicates prints as nothing; `Ok` and `?` do nothing to a result that is not an `Err`; `usize` prints as a literal with suffix. (`<<` is only used with `u128`.)
-/

set_option autoImplicit false

namespace FixedMap.DeriveText

open Emit (Toks Cx Complex Field)
open Emit.Macro (Variant)
open Emit.Quote (Tpl)

/-- The cells: what was pushed to a vector, the parts of a token stream, the predicates of a `where` clause; the `Fields` that `implement` collects; the errors in `cx`. -/
structure Heap where
  cells : List (List Toks)
  flds : Emit.Fields
  errs : List String

inductive Val where
  | unit
  | str (s : String)
  | nat (n : Nat)
  | toks (t : Toks)
  /-- An iterator or vector of tokens that is not changed any more. -/
  | list (l : List Toks)
  | con (path : List String) (args : List Val)
  | struct (name : String) (fs : List (String × Val))
  | tuple (l : List Val)
  /-- `Vec`, `TokenStream`, `Option<syn::WhereClause>` -/
  | vec (i : Nat)
  | stream (i : Nat)
  | clause (i : Nat)
  | cx (c : Cx) (data : Emit.Macro.Data)
  /-- `cx.ast`, `cx.ast.data` -/
  | ast (c : Cx) (data : Emit.Macro.Data)
  | data (d : Emit.Macro.Data)
  /-- `cx.toks` -/
  | table
  | kind (k : Option Complex)
  | complex (c : Complex)
  | field (f : Field)
  | fields (fs : Emit.Fields)
  | fieldIter (l : List Field)
  | complexIter (l : List Complex)
  /-- The `Fields` of the heap, and its two vectors. -/
  | fieldsRef
  | fieldsVec
  | patternsVec
  | bool (b : Bool)
  /-- `en`, `variant.fields`, and what is in `syn::Fields::Unnamed` -/
  | en (l : List Variant)
  | payload (p : Emit.Macro.Fields)
  | unnamed (l : List Toks)
  /-- `en.variants`, and iterators over them -/
  | variants (l : List Variant)
  | enumerated (l : List Variant)
  | variant (v : Variant)
  /-- The same if there are no payloads. -/
  | unitEnum (l : List String)
  | units (l : List String)
  | unitsEnumerated (l : List String)
  /-- `opts`, `opts.bitset` -/
  | opts (bitset : Bool)
  | optsBitset (b : Bool)

/-- How a run can end without result: the program is wrong, panics, or returns `Err` (with the errors that are reported); or it is at a `continue` or `return`. -/
inductive Stop where
  | wrong
  | panic
  | err (errs : List String)
  | cont (h : Heap)
  | ret (v : Val) (h : Heap)

abbrev Env := List (String × Val)

def lookup {α : Type} (x : String) : List (String × α) → Option α
  | [] => none
  | (y, v) :: l => if x == y then some v else lookup x l

def pushAt : Nat → Toks → List (List Toks) → List (List Toks)
  | _, _, [] => []
  | 0, t, l :: h => (l ++ [t]) :: h
  | i + 1, t, l :: h => l :: pushAt i t h

namespace Heap

/-- `push`, `extend` -/
def push : Heap → Nat → Toks → Heap
  | ⟨c, F, e⟩, i, t => ⟨pushAt i t c, F, e⟩

def size (h : Heap) : Nat := h.cells.length

/-- A new cell, `h.size`. -/
def new : Heap → Heap
  | ⟨c, F, e⟩ => ⟨c ++ [[]], F, e⟩

def get (h : Heap) (i : Nat) : List Toks := h.cells.getD i []

/-- Forget the cells from `n` on. -/
def cut : Heap → Nat → Heap
  | ⟨c, F, e⟩, n => ⟨c.take n, F, e⟩

/-- Compute the list of the cells before going on. This is without effect, but makes the proofs faster. -/
def forceCells {R : Type} : List (List Toks) → (List (List Toks) → R) → R
  | [], k => k []
  | x :: l, k => forceCells l fun l => k (x :: l)

def force {R : Type} : Heap → (Heap → R) → R
  | ⟨c, F, e⟩, k => forceCells c fun c => k ⟨c, F, e⟩

end Heap

/-- The tokens of a token stream. -/
def joinToks : List Toks → Toks
  | [] => []
  | [t] => t
  | t :: s :: l => t ++ joinToks (s :: l)

/-! ## Templates -/

/-- `quote!`: `one` says what `#x` prints, `many` what it is in a repetition (`none`: the same each time). -/
def fill : Nat → (String → Toks) → (String → Option (List Toks)) → List Tpl → Toks
  | 0, _, _, _ => []
  | _, _, _, [] => []
  | n + 1, one, many, .tok t :: l => t :: fill n one many l
  | _ + 1, one, _, [.var x] => one x
  | n + 1, one, many, .var x :: l => one x ++ fill n one many l
  | n + 1, one, many, .rep body sep :: l =>
    let items : List Toks :=
      match ((Emit.Quote.vars 1000 body).eraseDups).filterMap fun x => (many x).map (x, ·) with
      | [(x, xs)] => xs.map fun t => fill n (fun z => if z == x then t else one z) (fun _ => none) body
      | [(x, xs), (y, ys)] => List.zipWith (fun t s => fill n (fun z => if z == x then t else if z == y then s else one z) (fun _ => none) body) xs ys
      | _ => []
    let out := match sep with
      | none => items.flatten
      | some s => Emit.sepBy [s] items
    match l with
    | [] => out
    | l => out ++ fill n one many l

/-! ## Values -/

/-- A path of `cx.toks`, context.rs 88-122. -/
def pathToks : List String → Toks
  | "core" :: l => Emit.core l
  | "crate" :: l => Emit.crate l
  | _ => ["?"]

def fieldOf : Val → String → Val
  | .struct _ fs, x => (lookup x fs).getD .unit
  | .cx c d, x => if x == "toks" then .table else if x == "ast" then .ast c d else if x == "lt" then .toks c.lt else .unit
  | .ast c d, x => if x == "ident" then .toks c.ident else if x == "vis" then .toks c.vis else if x == "data" then .data d else .unit
  | .clause i, x => if x == "predicates" then .clause i else .unit
  | .field f, x =>
    if x == "index" then .nat f.index else if x == "name" then .toks f.name else if x == "var" then .toks f.var else if x == "kind" then .kind f.kind else .unit
  | .complex c, x =>
    if x == "element" then .toks c.element else if x == "map_storage" then .toks c.map_storage else if x == "as_map_storage" then .toks c.as_map_storage
    else if x == "set_storage" then .toks c.set_storage else if x == "as_set_storage" then .toks c.as_set_storage else .unit
  | .fields fs, x => if x == "fields" then .fieldIter fs.fields else if x == "patterns" then .list fs.patterns else .unit
  | .variant v, x => if x == "ident" then .toks [v.ident] else if x == "fields" then .payload v.fields else .unit
  | .unitEnum l, x => if x == "variants" then .units l else .unit
  | .opts b, x => if x == "bitset" then .optsBitset b else .unit
  | .en l, x => if x == "variants" then .variants l else .unit
  | .unnamed l, x => if x == "unnamed" then .list l else .unit
  | .fieldsRef, x => if x == "fields" then .fieldsVec else if x == "patterns" then .patternsVec else .unit
  | _, _ => .unit

/-- The cell of a vector, token stream or `where` clause. -/
def cellOf : Val → Option Nat
  | .vec i => some i
  | .stream i => some i
  | .clause i => some i
  | _ => none

/-- What a value is in a repetition. -/
def manyOf (h : Heap) : Val → Option (List Toks)
  | .list l => some l
  | .vec i => some (h.get i)
  | _ => none

/-- The value by its constructor; `k` is what is done with it. -/
def view {R : Type} (v : Val) (k : Val → R) : R :=
  match v with
  | .kind c =>
    match c with
    | none => k (.con ["Kind", "Simple"] [])
    | some c => k (.con ["Kind", "Complex"] [.complex c])
  | .payload p =>
    match p with
    | .unit => k (.con ["syn", "Fields", "Unit"] [])
    | .unnamed l => k (.con ["syn", "Fields", "Unnamed"] [.unnamed l])
    | .named _ => k (.con ["syn", "Fields", "Named"] [.unit])
  | .data d =>
    match d with
    | .enum l => k (.con ["Data", "Enum"] [.en l])
    | .struct => k (.con ["Data", "Struct"] [.unit])
    | .union => k (.con ["Data", "Union"] [.unit])
  | v => k v

/-- Match a value that is given by its constructor; `ok` continues with the variables of the pattern, `no` if it does not match. -/
def matchPat {R : Type} : Nat → Pat → Val → Env → (Env → R) → R → R
  | 0, _, _, _, _, no => no
  | n + 1, p, v, env, ok, no =>
    match p with
    | .wild => ok env
    | .bind x => ok ((x, v) :: env)
    | .con path ps =>
      match v with
      | .con path' vs => if path == path' then matchAll n ps vs env ok no else no
      | _ => no
    | .struct _ fs => ok (fs.map (fun x => (x, fieldOf v x)) ++ env)
    | .tuple ps =>
      match v with
      | .tuple vs => matchAll n ps vs env ok no
      | _ => no
    | .range lo hi =>
      match v with
      | .nat n =>
        match Nat.ble lo n, Nat.ble n hi with
        | true, true => ok env
        | _, _ => no
      | _ => no
where
  matchAll {R : Type} : Nat → List Pat → List Val → Env → (Env → R) → R → R
    | 0, _, _, _, _, no => no
    | n + 1, p :: ps, v :: vs, env, ok, no => matchPat n p v env (fun env => matchAll n ps vs env ok no) no
    | _, [], [], env, ok, _ => ok env
    | _, _, _, _, _, no => no

/-! ## Format strings -/

/-- The text before, between and after the holes, and the names in the holes. -/
def formatParts : Nat → List Char → List (Bool × String)
  | n + 1, '{' :: l => (true, String.ofList (l.takeWhile (· != '}'))) :: formatParts n ((l.dropWhile (· != '}')).drop 1)
  | n + 1, c :: l => (false, String.ofList (c :: l.takeWhile (· != '{'))) :: formatParts n (l.dropWhile (· != '{'))
  | _, _ => []

def display : Val → String
  | .str s => s
  | .nat n => Nat.repr n
  | _ => "?"

/-- Fill the holes: `{x}` with a variable, `{}` with the next argument. -/
def fillFormat (var : String → Val) : List (Bool × String) → List Val → List String
  | (false, s) :: l, vs => s :: fillFormat var l vs
  | (true, "") :: l, v :: vs => display v :: fillFormat var l vs
  | (true, x) :: l, vs => display (var x) :: fillFormat var l vs
  | [], _ => []

def joinStrings : List String → String
  | [] => ""
  | [s] => s
  | s :: t :: l => s ++ joinStrings (t :: l)

/-! ## Programs -/

/-- The body of a loop over the fields: the answer if the program is wrong, the field, the cells, the continuation. -/
abbrev Body := (R : Type) → (Stop → R) → Field → Heap → (Heap → R) → R

/-- `for`: how to go through the fields. -/
abbrev Loop := (R : Type) → (Stop → R) → Body → List Field → Heap → (Heap → R) → R

/-- One after the other. -/
def forLoop : Loop
  | _, _, _, [], h, k => k h
  | R, err, body, f :: fs, h, k => body R err f h fun h => forLoop R err body fs h k

/-- The same for the variants, with their numbers. -/
abbrev VariantBody := (R : Type) → (Stop → R) → Nat → Variant → Heap → (Heap → R) → R

abbrev VariantLoop := (R : Type) → (Stop → R) → VariantBody → List Variant → Heap → (Heap → R) → R

def forVariantsFrom (R : Type) (err : Stop → R) (body : VariantBody) (k : Heap → R) : Nat → List Variant → Heap → R
  | _, [], h => k h
  | i, v :: vs, h => body R err i v h fun h => forVariantsFrom R err body k (i + 1) vs h

def forVariants : VariantLoop := fun R err body vs h k => forVariantsFrom R err body k 0 vs h

/-- The two kinds of loops. -/
structure Loops where
  fields : Loop
  variants : VariantLoop

/-- How to evaluate: the type of the answer, the answer if the program is wrong, the variables, the expression, the cells, and the continuation. -/
abbrev Eval := (R : Type) → (Stop → R) → Env → Ex → Heap → (Val → Heap → R) → R

/-- A function of another file. -/
abbrev External := (R : Type) → (Stop → R) → List Val → Heap → (Val → Heap → R) → R

/-- `attrs::parse`, `unit_variants::implement`, `any_variants::implement`. -/
structure Externals where
  attrs : External
  units : External
  any : External

/-- None is known. -/
def Externals.none : Externals := ⟨fun _ err _ _ _ => err .wrong, fun _ err _ _ _ => err .wrong, fun _ err _ _ _ => err .wrong⟩

structure Program where
  file : File
  paths : List (String × List String)
  ext : Externals := .none

def Program.fn (P : Program) (ty name : String) : Option Fn := P.file.fns.find? fun f => f.ty == ty && f.name == name

def evalList (ev : Eval) (R : Type) (err : Stop → R) (env : Env) : List Ex → Heap → (List Val → Heap → R) → R
  | [], h, k => k [] h
  | e :: es, h, k => ev R err env e h fun v h => evalList ev R err env es h fun vs h => k (v :: vs) h

def evalArms (ev : Eval) (R : Type) (err : Stop → R) (env : Env) (v : Val) (h : Heap) (k : Val → Heap → R) : List (Pat × Ex) → R
  | [] => err .wrong
  | (p, e) :: arms => matchPat 20 p v env (fun env => ev R err env e h k) (evalArms ev R err env v h k arms)

/-- `syn::Path` without leading `::` -/
def printPath (h : Heap) : Val → Toks
  | .struct _ fs =>
    match lookup "leading_colon" fs, lookup "segments" fs with
    | some (.con ["None"] []), some (.vec i) => Emit.sepBy ["::"] (h.get i)
    | _, _ => ["?"]
  | _ => ["?"]

/-- How syn prints its structs. -/
def printSyn (h : Heap) (name : String) (fs : List (String × Val)) : Toks :=
  if name == "PathSegment" then
    match lookup "ident" fs, lookup "arguments" fs with
    | some (.toks t), some (.con ["syn", "PathArguments", "None"] []) => t
    | _, _ => ["?"]
  else if name == "PatIdent" then
    match lookup "by_ref" fs, lookup "mutability" fs, lookup "ident" fs, lookup "subpat" fs with
    | some (.con ["None"] []), some (.con ["None"] []), some (.toks t), some (.con ["None"] []) => t
    | _, _, _, _ => ["?"]
  else if name == "PatPath" then
    match lookup "qself" fs, lookup "path" fs with
    | some (.con ["None"] []), some p => printPath h p
    | _, _ => ["?"]
  else if name == "PatTupleStruct" then
    match lookup "qself" fs, lookup "path" fs, lookup "elems" fs with
    | some (.con ["None"] []), some p, some (.vec i) => printPath h p ++ ["("] ++ Emit.sepBy [","] (h.get i) ++ [")"]
    | _, _, _ => ["?"]
  else ["?"]

/-- What `#x` prints. -/
def print (P : Program) (ev : Eval) (h : Heap) : Val → Toks
  | .toks t => t
  | .nat n => Emit.usizeLit n
  | .stream i => joinToks (h.get i)
  | .clause i => Emit.whereClause (h.get i)
  | .struct name fs =>
    match P.fn name "to_tokens" with
    | some f => ev Toks (fun _ => ["?"]) [("self", .struct name fs), ("tokens", .stream h.size)] f.body h.new fun _ h' => joinToks (h'.get h.size)
    | none => printSyn h name fs
  | _ => ["?"]

/-- `Default::default()` for the fields of a struct. -/
def defaults : List (String × String) → Heap → List (String × Val) × Heap
  | [], h => ([], h)
  | (x, ty) :: l, h =>
    if ty == "Vec" then let r := defaults l h.new; ((x, .vec h.size) :: r.1, r.2)
    else if ty == "TokenStream" then let r := defaults l h.new; ((x, .stream h.size) :: r.1, r.2)
    else if ty == "Option" then let r := defaults l h.new; ((x, .clause h.size) :: r.1, r.2)
    else let r := defaults l h; ((x, .unit) :: r.1, r.2)

/-- `&fields`: as nothing is pushed to a vector that is borrowed, what is in it now. -/
def freeze (h : Heap) : Val → Val
  | .fieldsRef => .fields h.flds
  | v => v

/-- The fields of a struct literal as the data of the model. -/
def asComplex : Val → Option Complex
  | .struct _ fs =>
    match lookup "element" fs, lookup "map_storage" fs, lookup "as_map_storage" fs, lookup "set_storage" fs, lookup "as_set_storage" fs with
    | some (.toks a), some (.toks b), some (.toks c), some (.toks d), some (.toks e) => some ⟨a, b, c, d, e⟩
    | _, _, _, _, _ => none
  | _ => none

def asField : Val → Option Field
  | .struct _ fs =>
    match lookup "index" fs, lookup "name" fs, lookup "var" fs, lookup "kind" fs with
    | some (.nat i), some (.toks n), some (.toks v), some (.kind c) => some ⟨i, n, v, c⟩
    | _, _, _, _ => none
  | _ => none

/-- A call catches `return`, a loop `continue`. -/
def catchRet {R : Type} (err : Stop → R) (k : Val → Heap → R) : Stop → R
  | .ret v h => k v h
  | s => err s

def catchCont {R : Type} (err : Stop → R) (k : Heap → R) : Stop → R
  | .cont h => k h
  | s => err s

/-- Call a function; its cells are gone afterwards. -/
def callFn (ev : Eval) (R : Type) (err : Stop → R) (f : Fn) (vs : List Val) (h : Heap) (k : Val → Heap → R) : R :=
  ev R (catchRet err fun v h' => (h'.cut h.size).force (k v)) (f.params.zip (vs.map (freeze h))) f.body h fun v h' => (h'.cut h.size).force (k v)

/-- Call `path(args)`. -/
def evalCall (P : Program) (ev : Eval) (R : Type) (err : Stop → R) (path : List String) (vs : List Val) (h : Heap) (k : Val → Heap → R) : R :=
  match path, vs with
  | ["Ok"], [v] => k v h
  | ["Err"], [_] => err (.err h.errs)
  | ["!"], [.bool b] => k (.bool (!b)) h
  | ["syn", "parse2"], [v] => k v h
  | ["Some"], [v] => k (.con ["Some"] [v]) h
  | ["syn", "Ident", "new"], .str s :: _ => k (.toks [s]) h
  | ["Ident", "new"], .str s :: _ => k (.toks [s]) h
  | ["Span", "call_site"], [] => k .unit h
  | ["LitInt", "new"], .str s :: _ => k (.toks [s]) h
  | ["Vec", "new"], [] => k (.vec h.size) h.new
  | ["Vec", "with_capacity"], [_] => k (.vec h.size) h.new
  | ["Vec", "default"], [] => k .unit h
  | ["Punctuated", "default"], [] => k (.vec h.size) h.new
  | ["syn", "token", "Paren", "default"], [] => k .unit h
  | ["syn", "Pat", "Ident"], [v] => k (.toks (print P ev h v)) h
  | ["syn", "Pat", "Path"], [v] => k (.toks (print P ev h v)) h
  | ["syn", "Pat", "TupleStruct"], [v] => k (.toks (print P ev h v)) h
  | ["Kind", "Complex"], [v] =>
    match asComplex v with
    | some c => k (.kind (some c)) h
    | none => err .wrong
  | ["Fields", "default"], [] => k .fieldsRef ⟨h.cells, ⟨[], []⟩, h.errs⟩
  | [ty, "default"], [] =>
    match lookup ty P.file.structs with
    | some fs => let r := defaults fs h; k (.struct ty r.1) r.2
    | none => err .wrong
  | [f], vs =>
    match P.fn "" f with
    | some f => callFn ev R err f vs h k
    | none => err .wrong
  | ["attrs", "parse"], vs => P.ext.attrs R err vs h k
  | ["unit_variants", "implement"], vs => P.ext.units R err vs h k
  | ["any_variants", "implement"], vs => P.ext.any R err vs h k
  | _, _ => err .wrong

/-- Methods whose arguments are values. -/
def evalMethod (P : Program) (ev : Eval) (R : Type) (err : Stop → R) (v : Val) (m : String) (vs : List Val) (h : Heap) (k : Val → Heap → R) : R :=
  match cellOf v, vs with
  | some i, [x] => if m == "push" || m == "extend" then k .unit (h.push i (print P ev h x)) else if m == "get_or_insert_with" then k v h else err .wrong
  | _, _ =>
    match v with
    | .table =>
      match lookup m P.paths with
      | some p => k (.toks (pathToks p)) h
      | none => err .wrong
    | .list l =>
      if m == "collect" then k v h else if m == "len" then k (.nat l.length) h
      else if m == "first" then
        match l with
        | [] => k (.con ["None"] []) h
        | t :: _ => k (.con ["Some"] [.toks t]) h
      else err .wrong
    | .con path args =>
      if m == "expect" then
        match path, args with
        | ["Some"], [v] => k v h
        | ["None"], [] => err .panic
        | _, _ => err .wrong
      else err .wrong
    | .toks _ => if m == "clone" || m == "span" then k v h else err .wrong
    | .cx _ _ =>
      match vs with
      | [_, .str s] => if m == "span_error" then k .unit ⟨h.cells, h.flds, h.errs ++ [s]⟩ else err .wrong
      | _ => err .wrong
    | .ast _ _ => if m == "span" then k .unit h else err .wrong
    | .payload _ => if m == "span" then k .unit h else err .wrong
    | .optsBitset b => if m == "is_some" then k (.bool b) h else err .wrong
    | .variant _ => if m == "span" then k .unit h else err .wrong
    | .unnamed _ => if m == "span" then k .unit h else err .wrong
    | .fieldsVec =>
      match vs with
      | [x] =>
        match asField x with
        | some f => if m == "push" then k .unit ⟨h.cells, ⟨h.flds.fields ++ [f], h.flds.patterns⟩, h.errs⟩ else err .wrong
        | none => err .wrong
      | _ => err .wrong
    | .patternsVec =>
      match vs with
      | [x] => if m == "push" then k .unit ⟨h.cells, ⟨h.flds.fields, h.flds.patterns ++ [print P ev h x]⟩, h.errs⟩ else err .wrong
      | _ => err .wrong
    | .fieldIter l => if m == "iter" then k v h else if m == "len" then k (.nat l.length) h else err .wrong
    | .fields fs =>
      if m == "complex" then k (.complexIter fs.complex) h
      else match P.fn "Fields" m with
        | some f => callFn ev R err f (v :: vs) h k
        | none => err .wrong
    | .struct name _ =>
      match P.fn name m with
      | some f => callFn ev R err f (v :: vs) h k
      | none => err .wrong
    | .units l =>
      if m == "iter" then k v h else if m == "len" then k (.nat l.length) h else if m == "enumerate" then k (.unitsEnumerated l) h else err .wrong
    | .variants l => if m == "iter" then k v h else if m == "len" then k (.nat l.length) h else if m == "enumerate" then k (.enumerated l) h else err .wrong
    | _ => err .wrong

/-- `v.map(|p| body)`; the closures give tokens. -/
def evalMap (P : Program) (ev : Eval) (R : Type) (err : Stop → R) (env : Env) (v : Val) (p : Pat) (body : Ex) (h : Heap) (k : Val → Heap → R) : R :=
  let apply (v : Val) : Toks := matchPat 20 p v env (fun env => ev Toks (fun _ => ["?"]) env body h fun v h => print P ev h v) ["?"]
  match v with
  | .fieldIter l => k (.list (l.map fun f => apply (.field f))) h
  | .complexIter l => k (.list (l.map fun c => apply (.complex c))) h
  | .variants l => k (.list (l.map fun v => apply (.variant v))) h
  | .units l => k (.list (l.map fun s => apply (.variant ⟨s, .unit⟩))) h
  | .unitsEnumerated l => k (.list (l.zipIdx.map fun (s, i) => apply (.tuple [.nat i, .variant ⟨s, .unit⟩]))) h
  | .enumerated l => k (.list (l.zipIdx.map fun (v, i) => apply (.tuple [.nat i, .variant v]))) h
  | _ => err .wrong

/-- `v.filter_map(|p| body)` over the fields; the closure gives a payload or `None`. -/
def evalFilterMap (ev : Eval) (R : Type) (err : Stop → R) (env : Env) (v : Val) (p : Pat) (body : Ex) (h : Heap) (k : Val → Heap → R) : R :=
  let apply (v : Val) : Option Complex :=
    matchPat 20 p v env (fun env => ev (Option Complex) (fun _ => none) env body h fun v _ => match v with | .con ["Some"] [.complex c] => some c | _ => none) none
  match v with
  | .fieldIter l => k (.complexIter (l.filterMap fun f => apply (.field f))) h
  | _ => err .wrong

/-- One step; `ev` evaluates the parts. -/
def step (P : Program) (loops : Loops) (ev : Eval) : Eval := fun R err env e h k =>
  match e with
  | .unit => k .unit h
  | .str s => k (.str s) h
  | .int n => k (.nat n) h
  | .path [x] =>
    match lookup x env with
    | some v => k v h
    | none => if x == "None" then k (.con ["None"] []) h else if x == "true" then k (.bool true) h else if x == "false" then k (.bool false) h
      else if x == "continue" then err (.cont h) else
      match lookup x P.file.consts with
      | some e => ev R err [] e h k
      | none => err .wrong
  | .path ["Kind", "Simple"] => k (.kind none) h
  | .path l => k (.con l []) h
  | .call f args => evalList ev R err env args h fun vs h => evalCall P ev R err f vs h k
  | .method e m args =>
    ev R err env e h fun v h =>
      match args with
      | [.lambda ps body] =>
        if m == "map" then
          match ps with
          | [p] => evalMap P ev R err env v p body h k
          | _ => err .wrong
        else if m == "filter_map" then
          match ps with
          | [p] => evalFilterMap ev R err env v p body h k
          | _ => err .wrong
        else if m == "fallible" then ev R err env body h k
        else evalMethod P ev R err v m [.unit] h k
      | args => evalList ev R err env args h fun vs h => evalMethod P ev R err v m vs h k
  | .field e f => ev R err env e h fun v h => k (fieldOf v f) h
  | .struct path fs => evalList ev R err env (fs.map (·.2)) h fun vs h => k (.struct (path.getLast?.getD "") ((fs.map (·.1)).zip vs)) h
  | .tuple es => evalList ev R err env es h fun vs h => k (.tuple vs) h
  | .shl a b => ev R err env a h fun a h => ev R err env b h fun b h =>
    match a, b with
    | .nat a, .nat b =>
      match Nat.blt b 128 with
      | true => k (.nat (a <<< b)) h
      | false => err .wrong
    | _, _ => err .wrong
  | .gt a b => ev R err env a h fun a h => ev R err env b h fun b h =>
    match a, b with
    | .nat a, .nat b => k (.bool (Nat.blt b a)) h
    | _, _ => err .wrong
  | .ite c a b => ev R err env c h fun c h =>
    match c with
    | .bool true => ev R err env a h k
    | .bool false => ev R err env b h k
    | _ => err .wrong
  | .cases e arms => ev R err env e h fun v h => view v fun v => evalArms ev R err env v h k arms
  | .letIn p e body => ev R err env e h fun v h => matchPat 20 p v env (fun env => ev R err env body h k) (err .wrong)
  | .seq a b => ev R err env a h fun _ h => ev R err env b h k
  | .lambda _ _ => err .wrong
  | .try e => ev R err env e h k
  | .ret e =>
    match e with
    | .call ["Err"] _ => err (.err h.errs)
    | e => ev R err env e h fun v h => err (.ret v h)
  | .for p e body => ev R err env e h fun v h =>
    match v with
    | .unitsEnumerated l =>
      h.force fun h => loops.variants R err (fun R err i v h k => matchPat 20 p (.tuple [.nat i, .variant v]) env (fun env => ev R (catchCont err k) env body h fun _ h => k h) (err .wrong))
        (l.map fun s => ⟨s, .unit⟩) h fun h => k .unit h
    | .enumerated l =>
      h.force fun h => loops.variants R err (fun R err i v h k => matchPat 20 p (.tuple [.nat i, .variant v]) env (fun env => ev R (catchCont err k) env body h fun _ h => k h) (err .wrong)) l h fun h => k .unit h
    | .variants l =>
      h.force fun h => loops.variants R err (fun R err _ v h k => matchPat 20 p (.variant v) env (fun env => ev R (catchCont err k) env body h fun _ h => k h) (err .wrong)) l h fun h => k .unit h
    | .fields fs => h.force fun h => loops.fields R err (fun R err f h k => matchPat 20 p (.field f) env (fun env => ev R (catchCont err k) env body h fun _ h => k h) (err .wrong)) fs.fields h fun h => k .unit h
    | _ => err .wrong
  | .mac m args =>
    match args with
    | .str s :: args => evalList ev R err env args h fun vs h =>
      let var (x : String) : Val :=
        match lookup x env with
        | some v => v
        | none => match lookup x P.file.consts with
          | some (.str s) => .str s
          | _ => .unit
      let s := joinStrings (fillFormat var (formatParts 100 s.toList) vs)
      if m == "format_ident" then k (.toks [s]) h else if m == "format" || m == "format_args" then k (.str s) h else err .wrong
    | [e, .path p] => ev R err env e h fun v h => view v fun v =>
      match v with
      | .con p' _ => if m == "matches" then k (.bool (p' == p || p' == "syn" :: p)) h else err .wrong
      | _ => err .wrong
    | _ => err .wrong
  | .quote t =>
    k (.toks (fill 10000 (fun x => match lookup x env with | some v => print P ev h v | none => ["?"])
      (fun x => match lookup x env with | some v => manyOf h v | none => none) t)) h

def eval (P : Program) (loops : Loops) : Nat → Eval
  | 0 => fun _ err _ _ _ _ => err .wrong
  | n + 1 => step P loops (eval P loops n)

/-- Run a function. -/
def runFn (P : Program) (loops : Loops) (n : Nat) (R : Type) (err : Stop → R) (f : String) (vs : List Val) (h : Heap) (k : Val → Heap → R) : R :=
  evalCall P (eval P loops n) R err [f] vs h k

/-- The derive for enums with payloads. -/
def anyProgram : Program := ⟨Progs.anyVariants, Progs.paths, .none⟩

/-- The derive for enums without. -/
def unitProgram : Program := ⟨Progs.unitVariants, Progs.paths, .none⟩

/-- lib.rs. -/
def libProgram (X : Externals) : Program := ⟨Progs.lib, Progs.paths, X⟩

end FixedMap.DeriveText
