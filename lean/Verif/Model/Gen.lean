import Verif.Model.Key

/-!
# The code emitted by `any_variants.rs`, as data, and its meaning

`Model/MapEnum.lean` and `Model/SetStorage.lean` describe what the generated storages do, variant by
variant. Here the generator itself is transcribed: for a list of variants it emits structs with *named*
fields `_0, _1, …`, `match` arms with patterns that name variants and bind variables, and bodies that
refer to fields and variables by name. An interpreter gives meaning to that code; it is stuck (`none`)
when a name is not bound, an arm is missing, or a value has the wrong type, i.e. when rustc would reject
the code. Line numbers refer to any_variants.rs.

Left out: paths (`::core::option::Option`), visibility, attributes, lifetimes and `where` clauses (for the latter see
`Model/GenHeader.lean`).
-/

set_option autoImplicit false

namespace FixedMap

deriving instance DecidableEq for KeyTy, Fields

namespace Gen

/-- An accepted variant: its name, and the element type of a tuple variant. -/
structure Variant where
  ident : String
  elem : Option KeyTy
deriving DecidableEq

/-- The variants as a key type. -/
def fieldsOf : List Variant → Fields
  | [] => .nil
  | ⟨_, none⟩ :: vs => .simple (fieldsOf vs)
  | ⟨_, some κ⟩ :: vs => .complex κ (fieldsOf vs)

/-! ## `struct Fields` -/

/-- `struct Field`, 2099-2107; `kind = none` is `Kind::Simple`, `some κ` is `Kind::Complex` with element
type `κ` (its four token streams are all built from the element type, 43-46). -/
structure Field where
  index : Nat
  name : String
  var : String
  kind : Option KeyTy
deriving DecidableEq

/-- Patterns built by `build_tuple_struct_pat`, 92-139: `Ident::var` or `Ident::var(arg)`. -/
inductive Pat where
  | path (var : String)
  | tuple (var arg : String)
deriving DecidableEq

/-- `struct Fields`, 2131-2135. -/
structure FieldSet where
  fields : List Field
  patterns : List Pat

/-- `Fields::names`, 2139-2141. -/
def FieldSet.names (F : FieldSet) : List String := F.fields.map (·.name)

/-- `format_ident!("_{}", index)`, 23. -/
def fieldName (index : Nat) : String := "_" ++ Nat.repr index

/-- The loop of `implement`, 21-73, for accepted variants: push a pattern, then a field. -/
def collectGo : Nat → List Variant → FieldSet → FieldSet
  | _, [], F => F
  | index, v :: vs, F =>
    let name := fieldName index
    match v.elem with
    | none =>
      -- 26-31
      let F : FieldSet := { F with patterns := F.patterns ++ [Pat.path v.ident] }
      collectGo (index + 1) vs { F with fields := F.fields ++ [⟨index, name, v.ident, none⟩] }
    | some κ =>
      -- 41-59
      let F : FieldSet := { F with patterns := F.patterns ++ [Pat.tuple v.ident "v"] }
      collectGo (index + 1) vs { F with fields := F.fields ++ [⟨index, name, v.ident, some κ⟩] }

def collect (vs : List Variant) : FieldSet := collectGo 0 vs ⟨[], []⟩

/-! ## Emitted code -/

/-- Functions of `Option`, called as `Option::f(&mut self.name, ..)`. -/
inductive OptFn where
  | replace | take | isSome | isNone | asRef | asMut
deriving DecidableEq

/-- Methods of the `MapStorage` trait called on a field. -/
inductive MapFn where
  | insert | containsKey | get | getMut | remove | len | isEmpty
deriving DecidableEq

/-- Methods of the `SetStorage` trait called on a field. -/
inductive SetFn where
  | insert | contains | remove | len | isEmpty
deriving DecidableEq

/-- Function paths. `map κ f` is `<<E as Key>::MapStorage::<V> as MapStorage<E, V>>::f` with `E = κ`. -/
inductive Fn where
  | option (f : OptFn)
  | memReplace
  | map (κ : KeyTy) (f : MapFn)
  | set (κ : KeyTy) (f : SetFn)
deriving DecidableEq

inductive Arg where
  | var (x : String)
  | lit (b : Bool)
deriving DecidableEq

/-- Expressions: `call f n args` is `f(&mut self.n, args..)` (or `&self.n`), `place n` is `self.n`. -/
inductive Expr where
  | zero
  | tt
  | place (name : String)
  | call (fn : Fn) (recv : String) (args : List Arg)
  | usizeFrom (e : Expr)
  | not (e : Expr)
  | add (a b : Expr)
  | and (a b : Expr)
deriving DecidableEq

/-- `fn f(&mut self, params..) { match scrutinee { arms } }`. -/
structure MatchFn where
  params : List String
  scrutinee : String
  arms : List (Pat × Expr)

/-- Types of struct fields. -/
inductive FieldTy where
  | slot
  | map (κ : KeyTy)
  | flag
  | set (κ : KeyTy)
deriving DecidableEq

/-- Initializers in `empty`: `Option::None`, `false`, `<..>::empty()`. -/
inductive Init where
  | none
  | false
  | mapEmpty (κ : KeyTy)
  | setEmpty (κ : KeyTy)
deriving DecidableEq

/-- Statements of `retain` and `clear`. -/
inductive Stmt where
  /-- `<..>::retain(&mut self.name, |k, v| func(Ident::var(k), v));` -/
  | mapRetain (κ : KeyTy) (name var : String)
  /-- `if let Some(val) = Option::as_mut(&mut self.name) { if !func(Ident::var, val) { self.name = None; } }` -/
  | slotRetain (name var : String)
  /-- `<..>::retain(&mut self.name, |k| func(Ident::var(k)));` -/
  | setRetain (κ : KeyTy) (name var : String)
  /-- `if self.name { self.name = func(Ident::var); }` -/
  | flagRetain (name var : String)
  /-- `<..>::clear(&mut self.name)` -/
  | mapClear (κ : KeyTy) (name : String)
  | setClear (κ : KeyTy) (name : String)
  /-- `self.name = Option::None` -/
  | assignNone (name : String)
  /-- `self.name = false` -/
  | assignFalse (name : String)
deriving DecidableEq

/-- The generated `__MapStorage<V>`, without iterators and entries. -/
structure MapCode where
  decls : List (String × FieldTy)
  /-- `if PartialEq::ne(&self.n, &other.n) { return false; }` for these names, then `true`. -/
  eq : List String
  /-- `Self { n: Clone::clone(&self.m), .. }` for these pairs. -/
  clone : List (String × String)
  empty : List (String × Init)
  insert : MatchFn
  len : Expr
  isEmpty : Expr
  containsKey : MatchFn
  get : MatchFn
  getMut : MatchFn
  remove : MatchFn
  retain : List Stmt
  clear : List Stmt

/-- The generated `__SetStorage`, without iterators. -/
structure SetCode where
  decls : List (String × FieldTy)
  eq : List String
  clone : List (String × String)
  empty : List (String × Init)
  insert : MatchFn
  len : Expr
  isEmpty : Expr
  contains : MatchFn
  remove : MatchFn
  retain : List Stmt
  clear : List Stmt

/-- `impl_map_storage`, 142-426. `quote!(#(#patterns => #bodies,)*)` zips the two sequences. -/
def genMap (F : FieldSet) : MapCode where
  -- 405-408
  decls := F.fields.map fun f =>
    match f.kind with
    | some κ => (f.name, .map κ)
    | none => (f.name, .slot)
  -- 164-182
  eq := F.names
  -- 184-206
  clone := F.names.map fun n => (n, n)
  -- 208-224
  empty := F.names.zip (F.fields.map fun f =>
    match f.kind with
    | some κ => .mapEmpty κ
    | none => .none)
  -- 226-244
  insert := ⟨["key", "value"], "key", F.patterns.zip (F.fields.map fun f =>
    match f.kind with
    | some κ => .call (.map κ .insert) f.name [.var "v", .var "value"]
    | none => .call (.option .replace) f.name [.var "value"])⟩
  -- 246-260
  len := (F.fields.map fun f =>
    match f.kind with
    | some κ => Expr.call (.map κ .len) f.name []
    | none => .usizeFrom (.call (.option .isSome) f.name [])).foldl .add .zero
  -- 262-276
  isEmpty := (F.fields.map fun f =>
    match f.kind with
    | some κ => Expr.call (.map κ .isEmpty) f.name []
    | none => .call (.option .isNone) f.name []).foldl .and .tt
  -- 278-296
  containsKey := ⟨["value"], "value", F.patterns.zip (F.fields.map fun f =>
    match f.kind with
    | some κ => .call (.map κ .containsKey) f.name [.var "v"]
    | none => .call (.option .isSome) f.name [])⟩
  -- 298-316
  get := ⟨["value"], "value", F.patterns.zip (F.fields.map fun f =>
    match f.kind with
    | some κ => .call (.map κ .get) f.name [.var "v"]
    | none => .call (.option .asRef) f.name [])⟩
  -- 318-336
  getMut := ⟨["value"], "value", F.patterns.zip (F.fields.map fun f =>
    match f.kind with
    | some κ => .call (.map κ .getMut) f.name [.var "v"]
    | none => .call (.option .asMut) f.name [])⟩
  -- 338-356
  remove := ⟨["value"], "value", F.patterns.zip (F.fields.map fun f =>
    match f.kind with
    | some κ => .call (.map κ .remove) f.name [.var "v"]
    | none => .call (.option .take) f.name [])⟩
  -- 358-385
  retain := F.fields.map fun f =>
    match f.kind with
    | some κ => .mapRetain κ f.name f.var
    | none => .slotRetain f.name f.var
  -- 387-403
  clear := F.fields.map fun f =>
    match f.kind with
    | some κ => .mapClear κ f.name
    | none => .assignNone f.name

/-- `impl_set_storage`, 429-668. -/
def genSet (F : FieldSet) : SetCode where
  -- 646-649
  decls := F.fields.map fun f =>
    match f.kind with
    | some κ => (f.name, .set κ)
    | none => (f.name, .flag)
  -- 445-463
  eq := F.names
  -- 465-489
  clone := F.names.map fun n => (n, n)
  -- 491-507
  empty := F.names.zip (F.fields.map fun f =>
    match f.kind with
    | some κ => .setEmpty κ
    | none => .false)
  -- 509-527
  insert := ⟨["key"], "key", F.patterns.zip (F.fields.map fun f =>
    match f.kind with
    | some κ => .call (.set κ .insert) f.name [.var "v"]
    | none => .not (.call .memReplace f.name [.lit true]))⟩
  -- 529-543
  len := (F.fields.map fun f =>
    match f.kind with
    | some κ => Expr.call (.set κ .len) f.name []
    | none => .usizeFrom (.place f.name)).foldl .add .zero
  -- 545-559
  isEmpty := (F.fields.map fun f =>
    match f.kind with
    | some κ => Expr.call (.set κ .isEmpty) f.name []
    | none => .not (.place f.name)).foldl .and .tt
  -- 561-579
  contains := ⟨["value"], "value", F.patterns.zip (F.fields.map fun f =>
    match f.kind with
    | some κ => .call (.set κ .contains) f.name [.var "v"]
    | none => .place f.name)⟩
  -- 581-599
  remove := ⟨["value"], "value", F.patterns.zip (F.fields.map fun f =>
    match f.kind with
    | some κ => .call (.set κ .remove) f.name [.var "v"]
    | none => .call .memReplace f.name [.lit false])⟩
  -- 601-626
  retain := F.fields.map fun f =>
    match f.kind with
    | some κ => .setRetain κ f.name f.var
    | none => .flagRetain f.name f.var
  -- 628-644
  clear := F.fields.map fun f =>
    match f.kind with
    | some κ => .setClear κ f.name
    | none => .assignFalse f.name

/-! ## Values -/

/-- A value of the enum: the variant's name and its payload. -/
structure DynKey where
  var : String
  arg : Option ((κ : KeyTy) × κ.Key)
deriving DecidableEq

section
variable (H : HashbrownApi) (V : Type)

/-- The value of a struct field. -/
inductive Cell where
  | slot (o : Option V)
  | map (κ : KeyTy) (s : (mapStorage H V κ).S)
  | flag (b : Bool)
  | set (κ : KeyTy) (s : (setStorage H κ).S)

/-- A `&mut V` that points into a field. -/
inductive DynAddr where
  | slot (name : String)
  | map (name : String) (κ : KeyTy) (a : (mapStorage H V κ).Addr)

/-- Values of variables and results. -/
inductive Val where
  | bool (b : Bool)
  | nat (n : Nat)
  | val (v : V)
  | optVal (o : Option V)
  | optAddr (o : Option (DynAddr H V))
  | elem (κ : KeyTy) (k : κ.Key)
  | key (k : DynKey)

/-- A struct value: its fields by name. -/
abbrev Struct := List (String × Cell H V)

/-- Local variables; the innermost binding comes first. -/
abbrev Env := List (String × Val H V)
end

variable {H : HashbrownApi} {V : Type}

def Struct.get (S : Struct H V) (name : String) : Option (Cell H V) := S.lookup name

def Struct.set (S : Struct H V) (name : String) (c : Cell H V) : Struct H V :=
  S.map fun p => if p.1 = name then (p.1, c) else p

def Cell.ty : Cell H V → FieldTy
  | .slot _ => .slot
  | .map κ _ => .map κ
  | .flag _ => .flag
  | .set κ _ => .set κ

def Cell.asMap (κ : KeyTy) : Cell H V → Option (mapStorage H V κ).S
  | .map κ' s => if h : κ' = κ then some (h ▸ s) else none
  | _ => none

def Cell.asSet (κ : KeyTy) : Cell H V → Option (setStorage H κ).S
  | .set κ' s => if h : κ' = κ then some (h ▸ s) else none
  | _ => none

def Val.asElem (κ : KeyTy) : Val H V → Option κ.Key
  | .elem κ' k => if h : κ' = κ then some (h ▸ k) else none
  | _ => none

/-! ## Meaning of expressions -/

/-- `Option::f(&mut self.name, args)`. -/
def callOption (name : String) : OptFn → Option V → List (Val H V) → Option (Val H V × Cell H V)
  | .replace, o, [.val v] => some (.optVal o, .slot (some v))
  | .take, o, [] => some (.optVal o, .slot none)
  | .isSome, o, [] => some (.bool o.isSome, .slot o)
  | .isNone, o, [] => some (.bool o.isNone, .slot o)
  | .asRef, o, [] => some (.optVal o, .slot o)
  | .asMut, o, [] => some (.optAddr (o.map fun _ => .slot name), .slot o)
  | _, _, _ => none

/-- A `MapStorage` method of the element storage. -/
def callMap (name : String) (κ : KeyTy) :
    MapFn → (mapStorage H V κ).S → List (Val H V) → Option (Val H V × Cell H V)
  | .insert, s, [k, .val v] => (k.asElem κ).map fun k =>
    (.optVal ((mapStorage H V κ).insert s k v).1, .map κ ((mapStorage H V κ).insert s k v).2)
  | .containsKey, s, [k] => (k.asElem κ).map fun k => (.bool ((mapStorage H V κ).containsKey s k), .map κ s)
  | .get, s, [k] => (k.asElem κ).map fun k => (.optVal ((mapStorage H V κ).get s k), .map κ s)
  | .getMut, s, [k] => (k.asElem κ).map fun k =>
    (.optAddr (((mapStorage H V κ).getMut s k).map (.map name κ)), .map κ s)
  | .remove, s, [k] => (k.asElem κ).map fun k =>
    (.optVal ((mapStorage H V κ).remove s k).1, .map κ ((mapStorage H V κ).remove s k).2)
  | .len, s, [] => some (.nat ((mapStorage H V κ).len s), .map κ s)
  | .isEmpty, s, [] => some (.bool ((mapStorage H V κ).isEmpty s), .map κ s)
  | _, _, _ => none

/-- A `SetStorage` method of the element storage. -/
def callSet (κ : KeyTy) : SetFn → (setStorage H κ).S → List (Val H V) → Option (Val H V × Cell H V)
  | .insert, s, [k] => (k.asElem κ).map fun k =>
    (.bool ((setStorage H κ).insert s k).1, .set κ ((setStorage H κ).insert s k).2)
  | .contains, s, [k] => (k.asElem κ).map fun k => (.bool ((setStorage H κ).contains s k), .set κ s)
  | .remove, s, [k] => (k.asElem κ).map fun k =>
    (.bool ((setStorage H κ).remove s k).1, .set κ ((setStorage H κ).remove s k).2)
  | .len, s, [] => some (.nat ((setStorage H κ).len s), .set κ s)
  | .isEmpty, s, [] => some (.bool ((setStorage H κ).isEmpty s), .set κ s)
  | _, _, _ => none

/-- A call on a field: the result and the new value of the field. -/
def callFn (name : String) : Fn → Cell H V → List (Val H V) → Option (Val H V × Cell H V)
  | .option f, .slot o, args => callOption name f o args
  | .memReplace, .flag b, [.bool b'] => some (.bool b, .flag b')
  | .map κ f, c, args => (c.asMap κ).bind fun s => callMap name κ f s args
  | .set κ f, c, args => (c.asSet κ).bind fun s => callSet κ f s args
  | _, _, _ => none

def evalArg (env : Env H V) : Arg → Option (Val H V)
  | .var x => env.lookup x
  | .lit b => some (.bool b)

def evalArgs (env : Env H V) : List Arg → Option (List (Val H V))
  | [] => some []
  | a :: l => (evalArg env a).bind fun v => (evalArgs env l).map (v :: ·)

/-- Expressions may change the struct. `a && b` does not evaluate `b` when `a` is false. -/
def eval (env : Env H V) : Expr → Struct H V → Option (Val H V × Struct H V)
  | .zero, S => some (.nat 0, S)
  | .tt, S => some (.bool true, S)
  | .place n, S =>
    match S.get n with
    | some (.flag b) => some (.bool b, S)
    | _ => none
  | .call f n args, S =>
    (S.get n).bind fun c => (evalArgs env args).bind fun vs =>
      (callFn n f c vs).map fun p => (p.1, S.set n p.2)
  | .usizeFrom e, S =>
    match eval env e S with
    | some (.bool b, S) => some (.nat b.toNat, S)
    | _ => none
  | .not e, S =>
    match eval env e S with
    | some (.bool b, S) => some (.bool !b, S)
    | _ => none
  | .add a b, S =>
    match eval env a S with
    | some (.nat m, S) =>
      match eval env b S with
      | some (.nat n, S) => some (.nat (m + n), S)
      | _ => none
    | _ => none
  | .and a b, S =>
    match eval env a S with
    | some (.bool false, S) => some (.bool false, S)
    | some (.bool true, S) =>
      match eval env b S with
      | some (.bool b, S) => some (.bool b, S)
      | _ => none
    | _ => none

def Pat.variant : Pat → String
  | .path v => v
  | .tuple v _ => v

/-- Variables bound by a pattern that names the variant of the key; `none` is a type error. -/
def Pat.bind : Pat → DynKey → Option (Env H V)
  | .path _, ⟨_, none⟩ => some []
  | .tuple _ x, ⟨_, some ⟨κ, k⟩⟩ => some [(x, .elem κ k)]
  | _, _ => none

/-- `match key { arms }`: the first arm that names the variant. -/
def evalMatch (env : Env H V) (key : DynKey) :
    List (Pat × Expr) → Struct H V → Option (Val H V × Struct H V)
  | [], _ => none
  | (p, e) :: arms, S =>
    if p.variant = key.var then (p.bind key).bind fun b => eval (b ++ env) e S
    else evalMatch env key arms S

/-- Call a generated method. -/
def MatchFn.run (m : MatchFn) (args : List (Val H V)) (S : Struct H V) : Option (Val H V × Struct H V) :=
  match (m.params.zip args).lookup m.scrutinee with
  | some (.key k) => if m.params.length = args.length then evalMatch (m.params.zip args) k m.arms S else none
  | _ => none

/-! ## Meaning of the other methods -/

def Init.run : Init → Cell H V
  | .none => .slot .none
  | .false => .flag .false
  | .mapEmpty κ => .map κ (mapStorage H V κ).empty
  | .setEmpty κ => .set κ (setStorage H κ).empty

/-- The struct literal must list the declared fields with the declared types. -/
def checkLit (decls : List (String × FieldTy)) (S : Struct H V) : Option (Struct H V) :=
  if S.map (fun p => (p.1, p.2.ty)) = decls then some S else none

/-- `Self { name: init, .. }`. -/
def runEmpty (decls : List (String × FieldTy)) (l : List (String × Init)) : Option (Struct H V) :=
  checkLit decls (l.map fun p => (p.1, p.2.run))

/-- `Clone::clone(&cell)`. -/
def Cell.clone (c : V → V) : Cell H V → Cell H V
  | .slot o => .slot (o.map c)
  | .map κ s => .map κ ((mapStorage H V κ).clone c s)
  | .flag b => .flag b
  | .set κ s => .set κ ((setStorage H κ).clone s)

def cloneFields (c : V → V) (S : Struct H V) : List (String × String) → Option (Struct H V)
  | [] => some []
  | (n, m) :: l => (S.get m).bind fun x => (cloneFields c S l).map ((n, x.clone c) :: ·)

def runClone (decls : List (String × FieldTy)) (c : V → V) (l : List (String × String)) (S : Struct H V) :
    Option (Struct H V) :=
  (cloneFields c S l).bind (checkLit decls)

/-- `PartialEq::ne(&a, &b)` of two fields. -/
def Cell.ne (veq : V → V → Bool) : Cell H V → Cell H V → Option Bool
  | .slot a, .slot b => some !(optBeq veq a b)
  | .map κ s, c => (c.asMap κ).map fun t => !((mapStorage H V κ).eq veq s t)
  | .flag a, .flag b => some (a != b)
  | .set κ s, c => (c.asSet κ).map fun t => !((setStorage H κ).eq s t)
  | _, _ => none

def runEq (veq : V → V → Bool) (S T : Struct H V) : List String → Option Bool
  | [] => some true
  | n :: l =>
    match S.get n, T.get n with
    | some a, some b =>
      match a.ne veq b with
      | some true => some false
      | some false => runEq veq S T l
      | none => none
    | _, _ => none

/-- One statement of a map's `retain`. -/
def stmtRetain {σ : Type} (func : σ → DynKey → V → σ × V × Option Bool) (S : Struct H V) (st : σ) :
    Stmt → Option (RetainOut (Struct H V) σ V)
  | .mapRetain κ n var => (S.get n).bind fun c => (c.asMap κ).map fun s =>
    ((mapStorage H V κ).retain (fun st k v => func st ⟨var, some ⟨κ, k⟩⟩ v) s st).mapS fun s => S.set n (.map κ s)
  | .slotRetain n var =>
    match S.get n with
    | some (.slot o) => some ((retainSlot (fun st (_ : Unit) v => func st ⟨var, none⟩ v) () o st).mapS
        fun o => S.set n (.slot o))
    | _ => none
  | _ => none

/-- Statements in sequence; unwinding skips the rest. -/
def runRetain {σ : Type} (func : σ → DynKey → V → σ × V × Option Bool) :
    List Stmt → Struct H V → σ → Option (RetainOut (Struct H V) σ V)
  | [], S, st => some ⟨S, st, false, []⟩
  | s :: l, S, st => (stmtRetain func S st s).bind fun r =>
    if r.panicked then some r
    else (runRetain func l r.s r.st).map fun r' => ⟨r'.s, r'.st, r'.panicked, r.dropped ++ r'.dropped⟩

/-- One statement of a set's `retain`. -/
def stmtSetRetain {σ : Type} (func : σ → DynKey → σ × Option Bool) (S : Struct H V) (st : σ) :
    Stmt → Option (SetRetainOut (Struct H V) σ)
  | .setRetain κ n var => (S.get n).bind fun c => (c.asSet κ).map fun s =>
    ((setStorage H κ).retain (fun st k => func st ⟨var, some ⟨κ, k⟩⟩) s st).mapS fun s => S.set n (.set κ s)
  | .flagRetain n var =>
    match S.get n with
    | some (.flag b) => some ((retainFlag (fun st (_ : Unit) => func st ⟨var, none⟩) () b st).mapS
        fun b => S.set n (.flag b))
    | _ => none
  | _ => none

def runSetRetain {σ : Type} (func : σ → DynKey → σ × Option Bool) :
    List Stmt → Struct H V → σ → Option (SetRetainOut (Struct H V) σ)
  | [], S, st => some ⟨S, st, false⟩
  | s :: l, S, st => (stmtSetRetain func S st s).bind fun r =>
    if r.panicked then some r else runSetRetain func l r.s r.st

/-- One statement of `clear`: the new struct and the dropped values. -/
def stmtClear (S : Struct H V) : Stmt → Option (Struct H V × List V)
  | .mapClear κ n => (S.get n).bind fun c => (c.asMap κ).map fun s =>
    (S.set n (.map κ ((mapStorage H V κ).clear s).1), ((mapStorage H V κ).clear s).2)
  | .setClear κ n => (S.get n).bind fun c => (c.asSet κ).map fun s =>
    (S.set n (.set κ ((setStorage H κ).clear s)), [])
  | .assignNone n =>
    match S.get n with
    | some (.slot o) => some (S.set n (.slot none), dropSlot o)
    | _ => none
  | .assignFalse n =>
    match S.get n with
    | some (.flag _) => some (S.set n (.flag false), [])
    | _ => none
  | _ => none

def runClear : List Stmt → Struct H V → Option (Struct H V × List V)
  | [], S => some (S, [])
  | s :: l, S => (stmtClear S s).bind fun r => (runClear l r.1).map fun r' => (r'.1, r.2 ++ r'.2)

end Gen
end FixedMap
