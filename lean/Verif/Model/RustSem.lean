import Verif.Model.RustSyntax
import Verif.Model.SetStorage

/-!
# What a Rust program does

An interpreter for the programs of RustSyntax.lean. Memory is a list of cells; a place is a cell and a path into its content; references are places. Results are passed
on to a continuation, so that a panic or undefined behaviour simply does not call it.

Types that the program does not define (type parameters, their storages, hashbrown) are opaque: their values are `Val.ext x` with `x : X`, and a structure `Foreign` says
what their methods do.

Simplifications:
* `usize` is `Nat` (no overflow), and integer literals are `u8` (all are below 256);
* `&T` as returned by `as_ref`, `iter` and foreign functions carries the value it refers to (`shared`): nobody can change it while it is borrowed;
* foreign values are dropped by assignments, as results of statements, and as parameters of functions and closures that have not been moved when these return; other
  values and local variables are not dropped, and unwinding drops nothing;
* the cells of a call or of a round of a loop are gone when it is over;
* a failing `debug_assert!` and overwriting a value without dropping it count as `ub`, as in Bucket.lean;
* methods are selected by the value of the receiver after all references are followed, those of an `impl` without trait first.
-/

set_option autoImplicit false

namespace FixedMap.Rust

/-! ## Values and memory -/

/-- A step from a value to a part of it: a field of a struct, an argument of a variant, or an address inside of a foreign value. -/
inductive Proj (X : Type) where
  | field (f : String)
  | arg (i : Nat)
  | at (x : X)

structure Place (X : Type) where
  cell : Nat
  path : List (Proj X)

def Place.add {X : Type} (p : Place X) (j : Proj X) : Place X := ⟨p.cell, p.path ++ [j]⟩

/-- The type for which `Self` stands, and the cells of the local variables. -/
structure Env where
  self : String
  vars : List (String × Nat)

/-- * `con ty v args`: variant `v` of an enum; tuples are `con "" ""`, `Option`s `con "Option" "Some"/"None"`, the iterators of `core` `con "iter" …`;
* `handle p x`: a foreign value that borrows from `p` (entries and iterators of foreign storages);
* `user`: the closure that the caller of the program passed. -/
inductive Val (X : Type) where
  | unit
  | bool (b : Bool)
  | u8 (b : BitVec 8)
  | nat (n : Nat)
  | ext (x : X)
  | con (ty v : String) (args : List (Val X))
  | struct (ty : String) (fs : List (String × Val X))
  | ref (p : Place X)
  | shared (v : Val X)
  | handle (p : Place X) (x : X)
  | closure (ps : List Pat) (body : Expr) (env : Env)
  | fn (path : List String)
  | user

/-- Memory, the state of the caller's closure, and the foreign values dropped so far. -/
structure St (X σ : Type) where
  mem : List (Val X)
  user : σ
  dropped : List X

/-- How a run ends. `stuck` is a type error, a missing rule of this interpreter, or that it ran out of fuel. -/
inductive Ans (X σ : Type) where
  | ok (v : Val X) (st : St X σ)
  | panic (st : St X σ)
  | ub
  | stuck

abbrev Cont (X σ : Type) := Val X → St X σ → Ans X σ

variable {X σ : Type}

/-- `Some(v)` or `None`. -/
def optV {α : Type} (f : α → Val X) : Option α → Val X
  | some a => .con "Option" "Some" [f a]
  | none => .con "Option" "None" []

def pair (a b : Val X) : Val X := .con "" "" [a, b]

/-- What foreign types do. -/
structure Foreign (X σ : Type) where
  /-- Functions without receiver, like `K::default()`. -/
  assoc : List String → List (Val X) → Option (St X σ → Cont X σ → Ans X σ)
  /-- The method `m` of `x`, which is (or borrows from) the content of a place. The last argument but two runs a closure. -/
  call : (m : String) → (x : X) → Place X → List (Val X) → (Val X → List (Val X) → St X σ → Cont X σ → Ans X σ) → St X σ → Cont X σ → Ans X σ
  /-- `next` of a foreign iterator that borrows from a place: the item and the iterator afterwards. -/
  step : Place X → X → Option (Val X × X)
  /-- Whether a value is moved when it is used, and dropped in the end. -/
  owned : X → Bool
  /-- A value at an address inside of a foreign value. -/
  readAt : X → X → Option (Val X)
  writeAt : X → X → Val X → Option X
  /-- `==`. -/
  eq : X → X → Bool
  /-- The caller's closure. -/
  user : List (Val X) → St X σ → Cont X σ → Ans X σ

def lookup {α : Type} (x : String) : List (String × α) → Option α
  | [] => none
  | (y, a) :: l => if x == y then some a else lookup x l

def update (x : String) (v : Val X) : List (String × Val X) → List (String × Val X)
  | [] => []
  | (y, a) :: l => if x == y then (y, v) :: l else (y, a) :: update x v l

/-- Follow one step. -/
def getProj (F : Foreign X σ) (v : Val X) : Proj X → Option (Val X)
  | .field f => match v with
    | .struct _ fs => lookup f fs
    | _ => none
  | .arg i => match v with
    | .con _ _ args => args[i]?
    | _ => none
  | .at a => match v with
    | .ext x => F.readAt x a
    | _ => none

def getPath (F : Foreign X σ) (v : Val X) : List (Proj X) → Option (Val X)
  | [] => some v
  | j :: l => (getProj F v j).bind fun w => getPath F w l

/-- Replace the part that a step leads to. -/
def setProj (F : Foreign X σ) (v : Val X) (j : Proj X) (w : Val X) : Option (Val X) :=
  match j with
  | .field f => match v with
    | .struct ty fs => some (.struct ty (update f w fs))
    | _ => none
  | .arg i => match v with
    | .con ty c args => some (.con ty c (args.set i w))
    | _ => none
  | .at a => match v with
    | .ext x => (F.writeAt x a w).map .ext
    | _ => none

def setPath (F : Foreign X σ) (v : Val X) : List (Proj X) → Val X → Option (Val X)
  | [], w => some w
  | j :: l, w => (getProj F v j).bind fun u => (setPath F u l w).bind fun u' => setProj F v j u'

def read (F : Foreign X σ) (st : St X σ) (p : Place X) : Option (Val X) := (st.mem[p.cell]?).bind fun v => getPath F v p.path

def write (F : Foreign X σ) (st : St X σ) (p : Place X) (w : Val X) : Option (St X σ) :=
  (st.mem[p.cell]?).bind fun v => (setPath F v p.path w).map fun v' => { st with mem := st.mem.set p.cell v' }

def alloc (st : St X σ) (v : Val X) : St X σ := { st with mem := st.mem ++ [v] }

/-- Go on with a value that should be there. -/
def orStuck {α : Type} (o : Option α) (k : α → Ans X σ) : Ans X σ :=
  match o with
  | some a => k a
  | none => .stuck

/-- The foreign values dropped with a value. -/
def dropVal (F : Foreign X σ) : Val X → List X
  | .ext x => if F.owned x then [x] else []
  | .con "Option" "Some" [.ext x] => if F.owned x then [x] else []
  | _ => []

def addDropped (st : St X σ) (l : List X) : St X σ :=
  match l with
  | [] => st
  | x :: l => { st with dropped := st.dropped ++ x :: l }

/-- The state after the variable in cell `c` has been used. -/
def moveOut (F : Foreign X σ) (st : St X σ) (c : Nat) (v : Val X) : St X σ :=
  match v with
  | .ext x => if F.owned x then { st with mem := st.mem.set c .unit } else st
  | _ => st

/-- Drop what is left in the cells of variables, the last one first. -/
def dropVars (F : Foreign X σ) (st : St X σ) : List (String × Nat) → St X σ
  | [] => st
  | (_, c) :: l =>
    match st.mem[c]? with
    | some (.ext x) => if F.owned x then dropVars F { st with dropped := st.dropped ++ [x] } l else dropVars F st l
    | _ => dropVars F st l

/-- Forget the cells that have been added. -/
def cut (n : Nat) (st : St X σ) : St X σ := { st with mem := st.mem.take n }

/-- Follow references; `&` of a temporary is a new cell. -/
def autoderef (F : Foreign X σ) : Nat → Place X → St X σ → (Place X → Val X → St X σ → Ans X σ) → Ans X σ
  | 0, _, _, _ => .stuck
  | n + 1, p, st, k =>
    orStuck (read F st p) fun v =>
      match v with
      | .ref q => autoderef F n q st k
      | .shared w => autoderef F n ⟨st.mem.length, []⟩ (alloc st w) k
      | v => k p v st

/-- The value of an argument that may be passed by reference. -/
def argVal (F : Foreign X σ) (st : St X σ) (v : Val X) : Option (Val X) :=
  match v with
  | .ref p => read F st p
  | .shared w => some w
  | v => some v

/-! ## Patterns -/

/-- What is matched: a value that is moved, or one behind a reference. -/
inductive Subj (X : Type) where
  | move (v : Val X)
  | at (p : Place X)
  | shared (v : Val X)

def Subj.content (F : Foreign X σ) (st : St X σ) : Subj X → Option (Val X)
  | .move v => some v
  | .at p => read F st p
  | .shared v => some v

/-- What a variable is bound to. -/
def Subj.bound : Subj X → Val X
  | .move v => v
  | .at p => .ref p
  | .shared v => .shared v

/-- Look through references ("default binding modes"). -/
def Subj.through (F : Foreign X σ) (st : St X σ) : Nat → Subj X → Subj X
  | 0, s => s
  | n + 1, s =>
    match s.content F st with
    | some (.ref q) => Subj.through F st n (.at q)
    | some (.shared w) => Subj.through F st n (.shared w)
    | _ => s

/-- The parts of a variant. -/
def Subj.parts (F : Foreign X σ) (st : St X σ) (s : Subj X) : List (Subj X) :=
  match s.content F st with
  | some (.con _ _ args) =>
    match s with
    | .move _ => args.map .move
    | .at p => (List.range args.length).map fun i => .at (p.add (.arg i))
    | .shared _ => args.map .shared
  | _ => []

/-- The type and the variant that a path names. -/
def conOf (env : Env) (path : List String) : String × String :=
  match path with
  | [c] => if c == "Some" || c == "None" then ("Option", c) else if c == "Ok" || c == "Err" then ("Result", c) else ("", c)
  | [t, c] => if t == "Self" then (env.self, c) else (t, c)
  | l => ("", l.getLastD "")

def isCon (F : Foreign X σ) (st : St X σ) (s : Subj X) (c : String × String) : Bool :=
  match s.content F st with
  | some (.con t v _) => t == c.1 && v == c.2
  | _ => false

/-- Match patterns against subjects: the bindings, if they match. The first argument bounds the depth. -/
def bindings (F : Foreign X σ) (env : Env) (st : St X σ) : Nat → List (Pat × Subj X) → Option (List (String × Val X))
  | 0, _ => none
  | _, [] => some []
  | n + 1, (p, s) :: l =>
    match p with
    | .wild => bindings F env st n l
    | .bind x => (bindings F env st n l).map fun r => (x, s.bound) :: r
    | .con path ps =>
      let s := s.through F st 3
      if isCon F st s (conOf env path) then bindings F env st n (ps.zip (s.parts F st) ++ l) else none
    | .tuple ps =>
      let s := s.through F st 3
      if isCon F st s ("", "") then bindings F env st n (ps.zip (s.parts F st) ++ l) else none
    | .deref p =>
      match s.content F st with
      | some (.ref q) => match read F st q with
        | some v => bindings F env st n ((p, .move v) :: l)
        | none => none
      | some (.shared v) => bindings F env st n ((p, .move v) :: l)
      | _ => none

/-- New cells for the bound variables. -/
def bindAll (env : Env) (st : St X σ) : List (String × Val X) → Env × St X σ
  | [] => (env, st)
  | (x, v) :: l => bindAll { env with vars := (x, st.mem.length) :: env.vars } (alloc st v) l

/-! ## Functions of `core` -/

/-- Binary operators. -/
def binOp (F : Foreign X σ) (op : String) (a b : Val X) : Option (Val X) :=
  match op, a, b with
  | "&", .u8 a, .u8 b => some (.u8 (a &&& b))
  | "|", .u8 a, .u8 b => some (.u8 (a ||| b))
  | "==", .u8 a, .u8 b => some (.bool (a == b))
  | "!=", .u8 a, .u8 b => some (.bool (a != b))
  | "==", .bool a, .bool b => some (.bool (a == b))
  | "!=", .bool a, .bool b => some (.bool (a != b))
  | "|", .bool a, .bool b => some (.bool (a || b))
  | "&", .bool a, .bool b => some (.bool (a && b))
  | "+", .nat a, .nat b => some (.nat (a + b))
  | "<=", .nat a, .nat b => some (.bool (decide (a ≤ b)))
  | "==", .ext a, .ext b => some (.bool (F.eq a b))
  | "==", .con "Option" "Some" [.ext a], .con "Option" "Some" [.ext b] => some (.bool (F.eq a b))
  | "==", .con "Option" "None" [], .con "Option" "None" [] => some (.bool true)
  | "==", .con "Option" "None" [], .con "Option" "Some" [_] => some (.bool false)
  | "==", .con "Option" "Some" [_], .con "Option" "None" [] => some (.bool false)
  | _, _, _ => none

/-- Methods of `Option<T>`; `p` is where the option is. -/
def optMethod (F : Foreign X σ) (call : Val X → List (Val X) → St X σ → Cont X σ → Ans X σ) (m : String) (p : Place X) (o : Option (Val X)) (args : List (Val X))
    (st : St X σ) (k : Cont X σ) : Ans X σ :=
  match m, args with
  | "is_some", [] => k (.bool o.isSome) st
  | "is_none", [] => k (.bool o.isNone) st
  | "as_ref", [] => k (optV .shared o) st
  | "as_mut", [] => k (optV (fun _ => .ref (p.add (.arg 0))) o) st
  | "take", [] => orStuck (write F st p (optV id none)) fun st => k (optV id o) st
  | "replace", [v] => orStuck (write F st p (optV id (some v))) fun st => k (optV id o) st
  | "write", [v] => if o.isSome then .ub else orStuck (write F st p v) fun st => k .unit st
  | "unwrap_unchecked", [] => match o with
    | some v => k v st
    | none => .ub
  | "map", [f] => match o with
    | some v => call f [v] st fun w st => k (optV id (some w)) st
    | none => k (optV id none) st
  | "clone", [] => match o with
    | some (.ext x) => F.call "clone" x (p.add (.arg 0)) [] call st fun w st => k (optV id (some w)) st
    | some _ => .stuck
    | none => k (optV id none) st
  | "into_iter", [] => k (.con "iter" "option" [optV id o]) st
  | "iter", [] => k (.con "iter" "option" [optV id (o.map .shared)]) st
  | "iter_mut", [] => k (.con "iter" "option" [optV id (o.map fun _ => .ref (p.add (.arg 0)))]) st
  | _, _ => .stuck

/-- `IntoIterator` for the argument of `chain`. -/
def intoIter : Val X → Val X
  | .con "Option" c args => .con "iter" "option" [.con "Option" c args]
  | v => v

/-- The methods of `core`'s iterators, of integers and of `bool` that build values. -/
def baseMethod (m : String) (v : Val X) (args : List (Val X)) : Option (Val X) :=
  match m, v, args with
  | "then_some", .bool b, [w] => some (optV id (if b then some w else none))
  | "count_ones", .u8 b, [] => some (.nat (countOnes b))
  | "saturating_add", .nat a, [.nat b] => some (.nat (a + b))
  | "map", .con "iter" c l, [f] => some (.con "iter" "map" [f, .con "iter" c l])
  | "chain", .con "iter" c l, [w] => some (.con "iter" "chain" [.con "iter" c l, intoIter w])
  | "copied", .con "iter" c l, [] => some (.con "iter" "copied" [.con "iter" c l])
  | "map", .handle p x, [f] => some (.con "iter" "map" [f, .handle p x])
  | "chain", .handle p x, [w] => some (.con "iter" "chain" [.handle p x, intoIter w])
  | "copied", .handle p x, [] => some (.con "iter" "copied" [.handle p x])
  | _, _, _ => none

/-! ## The interpreter -/

/-- The interpreter at one depth: of expressions, of places (expressions before `.`, `&` and `=`), and of calls. `ret` is the continuation of `return`. -/
structure Sem (X σ : Type) where
  val : Env → Cont X σ → Expr → St X σ → Cont X σ → Ans X σ
  place : Env → Cont X σ → Expr → St X σ → (Place X → St X σ → Ans X σ) → Ans X σ
  call : Val X → List (Val X) → St X σ → Cont X σ → Ans X σ

variable (F : Foreign X σ) (P : Prog)

def Sem.vals (S : Sem X σ) (env : Env) (ret : Cont X σ) : List Expr → St X σ → (List (Val X) → St X σ → Ans X σ) → Ans X σ
  | [], st, k => k [] st
  | e :: l, st, k => S.val env ret e st fun v st => Sem.vals S env ret l st fun vs st => k (v :: vs) st

/-- The function of a type; those of an `impl` without trait come first. -/
def findFn (ty m : String) : Option Fn :=
  match P.fns.find? fun f => f.name == m && f.ty == ty && f.tr == "" with
  | some f => some f
  | none => P.fns.find? fun f => f.name == m && f.ty == ty

/-- Run a function of the program. -/
def runFn (S : Sem X σ) (f : Fn) (args : List (Val X)) (st : St X σ) (k : Cont X σ) : Ans X σ :=
  let ps := match f.recv with
    | .none => f.params
    | _ => .bind "self" :: f.params
  orStuck (bindings F ⟨f.ty, []⟩ st 50 (ps.zip (args.map .move))) fun bs =>
    let r := bindAll ⟨f.ty, []⟩ st bs
    let k' : Cont X σ := fun v st' => k v (cut st.mem.length (dropVars F st' r.1.vars))
    S.val r.1 k' f.body r.2 k'

/-- The type name of a value. -/
def tyOf : Val X → String
  | .struct ty _ => ty
  | .con ty _ _ => ty
  | _ => ""

/-- A type as it is written, `Self` replaced. -/
def tyName (env : Env) (t : String) : String := if t == "Self" then env.self else t

def hasDerive (ty tr : String) : Bool := ((lookup ty P.derives).getD []).contains tr

/-- `#[derive(Clone)]`, and `clone` of foreign values and options in its fields. -/
def cloneVal (S : Sem X σ) (p : Place X) (v : Val X) (st : St X σ) (k : Cont X σ) : Ans X σ :=
  match v with
  | .bool b => k (.bool b) st
  | .u8 b => k (.u8 b) st
  | .con "Option" "Some" [w] => optMethod F S.call "clone" p (some w) [] st k
  | .con "Option" "None" [] => optMethod F S.call "clone" p none [] st k
  | .ext x => F.call "clone" x p [] S.call st k
  | _ => .stuck

def cloneFields (S : Sem X σ) (p : Place X) : List (String × Val X) → St X σ → (List (String × Val X) → St X σ → Ans X σ) → Ans X σ
  | [], st, k => k [] st
  | (f, v) :: l, st, k => cloneVal F S (p.add (.field f)) v st fun w st => cloneFields S p l st fun r st => k ((f, w) :: r) st

/-- `#[derive(PartialEq)]`. -/
def eqFields : List (String × Val X) → List (String × Val X) → St X σ → Cont X σ → Ans X σ
  | [], _, st, k => k (.bool true) st
  | (_, a) :: l, l', st, k =>
    match l' with
    | [] => .stuck
    | (_, b) :: l' => orStuck (binOp F "==" a b) fun r =>
      match r with
      | .bool c => if c then eqFields l l' st k else k (.bool false) st
      | _ => .stuck

/-- A method of what is at `p` (no reference any more). -/
def methodAt (S : Sem X σ) (m : String) (p : Place X) (v : Val X) (args : List (Val X)) (st : St X σ) (k : Cont X σ) : Ans X σ :=
  match v with
  | .ext x => F.call m x p args S.call st k
  | .con "Option" "Some" [w] => optMethod F S.call m p (some w) args st k
  | .con "Option" "None" [] => optMethod F S.call m p none args st k
  | v =>
    match baseMethod m v args with
    | some w => k w st
    | none =>
      match v with
      | .handle q x =>
        if m == "next" then orStuck (F.step q x) fun r => orStuck (write F st p (.handle q r.2)) fun st => k r.1 st
        else F.call m x q args S.call st k
      | v =>
        match findFn P (tyOf v) m with
        | some f => match f.recv with
          | .value => runFn F S f (v :: args) st k
          | _ => runFn F S f (.ref p :: args) st k
        | none =>
          match m, v, args with
          | "clone", .struct ty fs, [] => if hasDerive P ty "Clone" then cloneFields F S p fs st fun r st => k (.struct ty r) st else .stuck
          | "eq", .struct ty fs, [w] =>
            if hasDerive P ty "PartialEq" then orStuck (argVal F st w) fun w =>
              match w with
              | .struct _ fs' => eqFields F fs fs' st k
              | _ => .stuck
            else .stuck
          | _, _, _ => .stuck

/-- `IntoIterator::into_iter(v)`; references are shared. -/
def intoIterCall (S : Sem X σ) (v : Val X) (st : St X σ) (k : Cont X σ) : Ans X σ :=
  match v with
  | .ref p => autoderef F 4 p st fun p v st =>
    match findFn P ("&" ++ tyOf v) "into_iter" with
    | some f => runFn F S f [.ref p] st k
    | none => .stuck
  | v => methodAt F P S "into_iter" ⟨st.mem.length, []⟩ v [] (alloc st v) k

/-- A function given by a path. -/
def callPath (S : Sem X σ) (env : Env) (path : List String) (args : List (Val X)) (st : St X σ) (k : Cont X σ) : Ans X σ :=
  let found := match path with
    | [f] => findFn P "" f
    | [t, f] => findFn P (tyName env t) f
    | _ => none
  match found with
  | some f => runFn F S f args st k
  | none =>
    match path, args with
    | ["mem", "replace"], [.ref p, v] => orStuck (read F st p) fun old => orStuck (write F st p v) fun st => k old st
    | ["usize", "from"], [.bool b] => k (.nat b.toNat) st
    | ["Option", "default"], [] => k (optV id none) st
    | ["IntoIterator", "into_iter"], [v] => intoIterCall F P S v st k
    | path, args =>
      if isUpperIdent (path.getLastD "") then k (.con (conOf env path).1 (conOf env path).2 args) st
      else match F.assoc path args with
        | some r => r st k
        | none => match args with
          | .ref p :: args => orStuck (read F st p) fun v => methodAt F P S (path.getLastD "") p v args st k
          | _ => .stuck

/-- The arms of a `match`. -/
def arms (S : Sem X σ) (env : Env) (ret : Cont X σ) (s : Subj X) : List (Pat × Expr) → St X σ → Cont X σ → Ans X σ
  | [], _, _ => .stuck
  | (p, e) :: l, st, k =>
    match bindings F env st 50 [(p, s)] with
    | some bs => let r := bindAll env st bs; S.val r.1 ret e r.2 k
    | none => arms S env ret s l st k

def Sem.fields (S : Sem X σ) (env : Env) (ret : Cont X σ) : List (String × Expr) → St X σ → (List (String × Val X) → St X σ → Ans X σ) → Ans X σ
  | [], st, k => k [] st
  | (f, e) :: l, st, k => S.val env ret e st fun v st => Sem.fields S env ret l st fun vs st => k ((f, v) :: vs) st

def stepVal (S : Sem X σ) (env : Env) (ret : Cont X σ) (e : Expr) (st : St X σ) (k : Cont X σ) : Ans X σ :=
  match e with
  | .unit => k .unit st
  | .bool b => k (.bool b) st
  | .int n => k (.u8 (BitVec.ofNat 8 n)) st
  | .str => k .unit st
  | .path path =>
    match path with
    | [x] =>
      match lookup x env.vars with
      | some c => orStuck (read F st ⟨c, []⟩) fun v => k v (moveOut F st c v)
      | none =>
        match lookup x P.consts with
        | some e => S.val env ret e st k
        | none => if x == "None" then k (optV id none) st else k (.fn [x]) st
    | path => k (.fn path) st
  | .call f args =>
    S.vals env ret args st fun vs st =>
      match f with
      | .path [x] =>
        match lookup x env.vars with
        | some c => orStuck (read F st ⟨c, []⟩) fun v => S.call v vs st k
        | none => callPath F P S env [x] vs st k
      | .path path => callPath F P S env path vs st k
      | f => S.val env ret f st fun v st => S.call v vs st k
  | .method e m args =>
    S.place env ret e st fun p st =>
      autoderef F 4 p st fun p _ st =>
        S.vals env ret args st fun vs st => orStuck (read F st p) fun v => methodAt F P S m p v vs st k
  | .field _ _ => S.place env ret e st fun p st => orStuck (read F st p) fun v => k v st
  | .struct path fs => S.fields env ret fs st fun vs st => k (.struct (tyName env (path.getLastD "")) vs) st
  | .structBase path fs base => S.fields env ret fs st fun vs st => S.val env ret base st fun b st =>
    match b with
    | .struct _ bs => k (.struct (tyName env (path.getLastD "")) (vs ++ bs.filter fun f => !(vs.any fun g => g.1 == f.1))) st
    | _ => .stuck
  | .tuple es => S.vals env ret es st fun vs st => k (.con "" "" vs) st
  | .un op e =>
    if op == "&" then S.place env ret e st fun p st => k (.ref p) st
    else S.val env ret e st fun v st =>
      match op, v with
      | "!", .bool b => k (.bool !b) st
      | "!", .u8 b => k (.u8 (~~~b)) st
      | "*", .ref p => orStuck (read F st p) fun v => k v st
      | "*", .shared v => k v st
      | _, _ => .stuck
  | .bin op a b =>
    S.val env ret a st fun v st =>
      match op, v with
      | "&&", .bool x => if x then S.val env ret b st k else k (.bool false) st
      | "||", .bool x => if x then k (.bool true) st else S.val env ret b st k
      | op, v => S.val env ret b st fun w st => orStuck (binOp F op v w) fun r => k r st
  | .cast e ty => S.val env ret e st fun v st =>
    match ty, v with
    | "usize", .nat n => k (.nat n) st
    | _, _ => .stuck
  | .assign op l r =>
    S.val env ret r st fun v st => S.place env ret l st fun p st => orStuck (read F st p) fun old =>
      match op with
      | "=" => orStuck (write F st p v) fun st => k .unit (addDropped st (dropVal F old))
      | "&=" => orStuck (binOp F "&" old v) fun w => orStuck (write F st p w) fun st => k .unit st
      | "|=" => orStuck (binOp F "|" old v) fun w => orStuck (write F st p w) fun st => k .unit st
      | _ => .stuck
  | .ite c t e => S.val env ret c st fun v st =>
    match v with
    | .bool b => if b then S.val env ret t st k else S.val env ret e st k
    | _ => .stuck
  | .cases e as => S.val env ret e st fun v st => arms F S env ret (.move v) as st k
  | .letIn p e body => S.val env ret e st fun v st =>
    orStuck (bindings F env st 50 [(p, .move v)]) fun bs => let r := bindAll env st bs; S.val r.1 ret body r.2 k
  | .seq a b => S.val env ret a st fun v st => S.val env ret b (addDropped st (dropVal F v)) k
  | .lambda ps body => k (.closure ps body env) st
  | .ret e => S.val env ret e st ret
  | .try e => S.val env ret e st fun v st =>
    match v with
    | .con "Option" "Some" [w] => k w st
    | .con "Option" "None" [] => ret (optV id none) st
    | .con "Result" "Ok" [w] => k w st
    | .con "Result" "Err" [w] => ret (.con "Result" "Err" [w]) st
    | _ => .stuck
  | .loop body => S.val env ret body st fun _ st' => S.val env ret (.loop body) (cut st.mem.length st') k
  | .whileLet p e body => S.val env ret e st fun v st' =>
    match bindings F env st' 50 [(p, .move v)] with
    | some bs =>
      let r := bindAll env st' bs
      S.val r.1 ret body r.2 fun _ st' => S.val env ret (.whileLet p e body) (cut st.mem.length st') k
    | none => k .unit (cut st.mem.length st')
  | .mac name args =>
    match name, args with
    | "debug_assert", c :: _ => S.val env ret c st fun v st =>
      match v with
      | .bool b => if b then k .unit st else .ub
      | _ => .stuck
    | _, _ => .stuck

def stepPlace (S : Sem X σ) (env : Env) (ret : Cont X σ) (e : Expr) (st : St X σ) (k : Place X → St X σ → Ans X σ) : Ans X σ :=
  match e with
  | .path [x] =>
    match lookup x env.vars with
    | some c => k ⟨c, []⟩ st
    | none => S.val env ret (.path [x]) st fun v st => k ⟨st.mem.length, []⟩ (alloc st v)
  | .field e f => S.place env ret e st fun p st => autoderef F 4 p st fun p _ st => k (p.add (.field f)) st
  | .un "*" e => S.val env ret e st fun v st =>
    match v with
    | .ref p => k p st
    | .shared v => k ⟨st.mem.length, []⟩ (alloc st v)
    | _ => .stuck
  | e => S.val env ret e st fun v st => k ⟨st.mem.length, []⟩ (alloc st v)

def stepCall (S : Sem X σ) (f : Val X) (args : List (Val X)) (st : St X σ) (k : Cont X σ) : Ans X σ :=
  match f with
  | .user => F.user args st k
  | .fn path => callPath F P S ⟨"", []⟩ path args st k
  | .closure ps body env =>
    orStuck (bindings F env st 50 (ps.zip (args.map .move))) fun bs =>
      let r := bindAll env st bs
      let k' : Cont X σ := fun v st' => k v (cut st.mem.length (dropVars F st' (r.1.vars.take bs.length)))
      S.val r.1 k' body r.2 k'
  | _ => .stuck

/-- The interpreter with a bound on the depth. -/
def sem : Nat → Sem X σ
  | 0 => ⟨fun _ _ _ _ _ => .stuck, fun _ _ _ _ _ => .stuck, fun _ _ _ _ => .stuck⟩
  | n + 1 => ⟨stepVal F P (sem n), stepPlace F (sem n), stepCall F P (sem n)⟩

/-- Run the function `name` of the trait `tr` (`""`: of an `impl` without trait) for the type `ty`. -/
def run (fuel : Nat) (ty tr name : String) (args : List (Val X)) (st : St X σ) : Ans X σ :=
  orStuck (P.fns.find? fun f => f.name == name && f.ty == ty && f.tr == tr) fun f => runFn F (sem F P fuel) f args st .ok

end FixedMap.Rust
