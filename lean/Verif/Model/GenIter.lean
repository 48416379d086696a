import Verif.Model.Gen

/-!
# The iterators emitted by `any_variants.rs`, as data, and their meaning

Each iterator is a struct `{ start, end, _0, _1, .. }`; `next` and `next_back` are loops around a `match`
on an index literal. Line numbers refer to any_variants.rs.
-/

set_option autoImplicit false

namespace FixedMap.Gen

/-! ## Emitted code -/

/-- The iterators of `MapStorage`. -/
inductive MapIt where
  | iter | keys | values | iterMut | valuesMut | intoIter
deriving DecidableEq, Repr

/-- The iterators of `SetStorage`. -/
inductive SetIt where
  | iter | intoIter
deriving DecidableEq, Repr

/-- Types of the iterator fields: `bool`, `Option<V>` (or `Option<&V>`, `Option<&mut V>`), the iterator of
an element storage. -/
inductive IterTy where
  | flag
  | opt
  | map (κ : KeyTy) (q : MapIt)
  | set (κ : KeyTy) (q : SetIt)
deriving DecidableEq

/-- Initializers of iterator fields. -/
inductive IterInit where
  /-- `Option::is_some(&self.name)` -/
  | isSome (name : String)
  /-- `Option::as_ref(&self.name)` -/
  | asRef (name : String)
  /-- `Option::as_mut(&mut self.name)` -/
  | asMut (name : String)
  /-- `self.name` -/
  | move (name : String)
  /-- `<..>::iter(&self.name)`, `<..>::keys(&self.name)`, … -/
  | map (κ : KeyTy) (q : MapIt) (name : String)
  | set (κ : KeyTy) (q : SetIt) (name : String)
deriving DecidableEq

/-- What an arm calls on `&mut self.name`. -/
inductive StepFn where
  | memTake | optTake | next | nextBack
deriving DecidableEq

/-- `if f(..)`, `if let Some(x) = f(..)`, `if let Some((x, y)) = f(..)`. -/
inductive ItemPat where
  | flag
  | one (x : String)
  | pair (x y : String)
deriving DecidableEq

/-- `Ident::var` or `Ident::var(x)`. -/
inductive KeyExpr where
  | unit (var : String)
  | of (var x : String)
deriving DecidableEq

/-- The operand of `return Some(..)`. -/
inductive RetExpr where
  | key (k : KeyExpr)
  | value (x : String)
  | entry (k : KeyExpr) (x : String)
deriving DecidableEq

/-- `index => { if let Some(pat) = fn(&mut self.recv) { return Some(ret); } }`. -/
structure IterArm where
  index : Nat
  fn : StepFn
  recv : String
  pat : ItemPat
  ret : RetExpr
deriving DecidableEq

/-- A generated iterator struct with its constructor and impls. -/
structure IterCode where
  decls : List (String × IterTy)
  init : List (String × IterInit)
  /-- The literal for `end`. -/
  stop : Nat
  next : List IterArm
  nextBack : List IterArm
  /-- The `where` clause of `DoubleEndedIterator`: these types are double ended. -/
  bounds : List IterTy

/-- `quote!(#name: ..)` of the field declarations of the iterators of a map. -/
def mapIterDecl (q : MapIt) (f : Field) : String × IterTy :=
  match f.kind with
  | some κ => (f.name, .map κ q)
  | none => match q with
    -- 895
    | .keys => (f.name, .flag)
    -- 783, 1041, 1188, 1285, 1419
    | _ => (f.name, .opt)

/-- `quote!(#name: ..)` of the initializers. -/
def mapIterInit (q : MapIt) (f : Field) : String × IterInit :=
  match f.kind with
  -- 789, 915, 1061, 1197, 1305, 1428
  | some κ => (f.name, .map κ q f.name)
  | none => match q with
    -- 784, 1042
    | .iter | .values => (f.name, .asRef f.name)
    -- 896
    | .keys => (f.name, .isSome f.name)
    -- 1189, 1286
    | .iterMut | .valuesMut => (f.name, .asMut f.name)
    -- 1420
    | .intoIter => (f.name, .move f.name)

/-- The arms of `next` and `next_back` of the iterators of a map: `build_iter_next` 670-744 for `iter`,
`iter_mut` and `into_iter`; 897-931; 1043-1077 and 1287-1321. `step` is what is called on an element
iterator. -/
def mapIterArm (step : StepFn) (q : MapIt) (f : Field) : IterArm :=
  match q with
  | .iter | .iterMut | .intoIter => match f.kind with
    | none => ⟨f.index, .optTake, f.name, .one "value", .entry (.unit f.var) "value"⟩
    | some _ => ⟨f.index, step, f.name, .pair "key" "value", .entry (.of f.var "key") "value"⟩
  | .keys => match f.kind with
    | none => ⟨f.index, .memTake, f.name, .flag, .key (.unit f.var)⟩
    | some _ => ⟨f.index, step, f.name, .one "key", .key (.of f.var "key")⟩
  | .values | .valuesMut => match f.kind with
    | none => ⟨f.index, .optTake, f.name, .one "value", .value "value"⟩
    | some _ => ⟨f.index, step, f.name, .one "value", .value "value"⟩

/-- The bound of a complex field, 727-741, 932-940, 1078-1086, 1322-1330. -/
def mapIterBound (q : MapIt) (f : Field) : Option IterTy := f.kind.map fun κ => .map κ q

/-- `map_storage_iter` 747-855, `map_storage_keys` 858-1005, `map_storage_values` 1008-1151,
`map_storage_iter_mut` 1154-1249, `map_storage_values_mut` 1252-1385, `map_storage_into_iter` 1388-1491. -/
def genMapIter (F : FieldSet) (q : MapIt) : IterCode where
  decls := F.fields.map (mapIterDecl q)
  init := F.fields.map (mapIterInit q)
  stop := F.fields.length
  next := F.fields.map (mapIterArm .next q)
  nextBack := F.fields.map (mapIterArm .nextBack q)
  bounds := F.fields.filterMap (mapIterBound q)

def setIterDecl (q : SetIt) (f : Field) : String × IterTy :=
  match f.kind with
  -- 1551, 1695
  | some κ => (f.name, .set κ q)
  -- 1531, 1675
  | none => (f.name, .flag)

def setIterInit (q : SetIt) (f : Field) : String × IterInit :=
  match f.kind with
  -- 1552, 1696
  | some κ => (f.name, .set κ q f.name)
  -- 1532, 1676
  | none => (f.name, .move f.name)

/-- 1534-1568, 1678-1712. -/
def setIterArm (step : StepFn) (f : Field) : IterArm :=
  match f.kind with
  | none => ⟨f.index, .memTake, f.name, .flag, .key (.unit f.var)⟩
  | some _ => ⟨f.index, step, f.name, .one "key", .key (.of f.var "key")⟩

def setIterBound (q : SetIt) (f : Field) : Option IterTy := f.kind.map fun κ => .set κ q

/-- `set_storage_iter` 1494-1641, `set_storage_into_iter` 1644-1793. -/
def genSetIter (F : FieldSet) (q : SetIt) : IterCode where
  decls := F.fields.map (setIterDecl q)
  init := F.fields.map (setIterInit q)
  stop := F.fields.length
  next := F.fields.map (setIterArm .next)
  nextBack := F.fields.map (setIterArm .nextBack)
  bounds := F.fields.filterMap (setIterBound q)

/-! ## Values -/

section
variable (H : HashbrownApi) (V : Type)

/-- A value (by move or by `&`) or a `&mut`. -/
inductive Ref where
  | val (v : V)
  | addr (a : DynAddr H V)

/-- What an iterator field yields. -/
inductive Item where
  | unit
  | elem (κ : KeyTy) (k : κ.Key)
  | ref (r : Ref H V)
  | pair (κ : KeyTy) (k : κ.Key) (r : Ref H V)

/-- What a generated iterator yields: a key, a reference or value, or a pair. -/
inductive Out where
  | key (k : DynKey)
  | value (r : Ref H V)
  | entry (k : DynKey) (r : Ref H V)

/-- The iterators of an element storage; `src` is the field of the storage they point into. -/
def elemIter (κ : KeyTy) (src : String) : MapIt → IterOf (mapStorage H V κ).S (Item H V)
  | .iter => (mapStorage H V κ).iter.map fun p => .pair κ p.1 (.val p.2)
  | .keys => (mapStorage H V κ).keys.map fun k => .elem κ k
  | .values => (mapStorage H V κ).values.map fun v => .ref (.val v)
  | .iterMut => (mapStorage H V κ).iterMut.map fun p => .pair κ p.1 (.addr (.map src κ p.2))
  | .valuesMut => (mapStorage H V κ).valuesMut.map fun a => .ref (.addr (.map src κ a))
  | .intoIter => (mapStorage H V κ).intoIter.map fun p => .pair κ p.1 (.val p.2)

def elemSetIter (κ : KeyTy) : SetIt → IterOf (setStorage H κ).S (Item H V)
  | .iter => (setStorage H κ).iter.map fun k => .elem κ k
  | .intoIter => (setStorage H κ).intoIter.map fun k => .elem κ k

/-- The value of an iterator field. -/
inductive ICell where
  | flag (b : Bool)
  | opt (o : Option (Ref H V))
  | map (κ : KeyTy) (q : MapIt) (src : String) (st : (elemIter H V κ src q).I.St)
  | set (κ : KeyTy) (q : SetIt) (st : (elemSetIter H V κ q).I.St)

abbrev IStruct := List (String × ICell H V)

/-- `{ start, end, fields.. }`. -/
structure IterVal where
  start : Nat
  stop : Nat
  fields : IStruct H V

/-- Variables bound by an arm. -/
inductive IVal where
  | elem (κ : KeyTy) (k : κ.Key)
  | ref (r : Ref H V)
end

variable {H : HashbrownApi} {V : Type}

def ICell.ty : ICell H V → IterTy
  | .flag _ => .flag
  | .opt _ => .opt
  | .map κ q _ _ => .map κ q
  | .set κ q _ => .set κ q

def IStruct.get (S : IStruct H V) (name : String) : Option (ICell H V) := S.lookup name

def IStruct.set (S : IStruct H V) (name : String) (c : ICell H V) : IStruct H V :=
  S.map fun p => if p.1 = name then (p.1, c) else p

/-! ## Meaning -/

def IterInit.run (S : Struct H V) : IterInit → Option (ICell H V)
  | .isSome n =>
    match S.get n with
    | some (.slot o) => some (.flag o.isSome)
    | _ => none
  | .asRef n =>
    match S.get n with
    | some (.slot o) => some (.opt (o.map .val))
    | _ => none
  | .asMut n =>
    match S.get n with
    | some (.slot o) => some (.opt (o.map fun _ => .addr (.slot n)))
    | _ => none
  | .move n =>
    match S.get n with
    | some (.slot o) => some (.opt (o.map .val))
    | some (.flag b) => some (.flag b)
    | _ => none
  | .map κ q n => (S.get n).bind fun c => (c.asMap κ).map fun s => .map κ q n ((elemIter H V κ n q).init s)
  | .set κ q n => (S.get n).bind fun c => (c.asSet κ).map fun s => .set κ q ((elemSetIter H V κ q).init s)

def runInits (S : Struct H V) : List (String × IterInit) → Option (IStruct H V)
  | [] => some []
  | (n, e) :: l => (e.run S).bind fun c => (runInits S l).map ((n, c) :: ·)

/-- `Name { start: 0, end: #end, #(#init,)* }`; the initialized fields must be the declared ones. -/
def IterCode.make (C : IterCode) (S : Struct H V) : Option (IterVal H V) :=
  (runInits S C.init).bind fun fs =>
    if fs.map (fun p => (p.1, p.2.ty)) = C.decls then some ⟨0, C.stop, fs⟩ else none

/-- `mem::take`, `Option::take`, `Iterator::next`, `DoubleEndedIterator::next_back` on a field; `none` is a
type error. -/
def StepFn.run : StepFn → ICell H V → Option (Option (Item H V) × ICell H V)
  | .memTake, .flag b => some (if b then some .unit else none, .flag false)
  | .optTake, .opt o => some (o.map .ref, .opt none)
  | .next, .map κ q src st =>
    some (((elemIter H V κ src q).I.next st).1, .map κ q src ((elemIter H V κ src q).I.next st).2)
  | .nextBack, .map κ q src st =>
    (elemIter H V κ src q).I.nextBack?.map fun nb => ((nb st).1, .map κ q src (nb st).2)
  | .next, .set κ q st => some (((elemSetIter H V κ q).I.next st).1, .set κ q ((elemSetIter H V κ q).I.next st).2)
  | .nextBack, .set κ q st =>
    (elemSetIter H V κ q).I.nextBack?.map fun nb => ((nb st).1, .set κ q (nb st).2)
  | _, _ => none

def ItemPat.bind : ItemPat → Item H V → Option (List (String × IVal H V))
  | .flag, .unit => some []
  | .one x, .elem κ k => some [(x, .elem κ k)]
  | .one x, .ref r => some [(x, .ref r)]
  | .pair x y, .pair κ k r => some [(x, .elem κ k), (y, .ref r)]
  | _, _ => none

def KeyExpr.eval (env : List (String × IVal H V)) : KeyExpr → Option DynKey
  | .unit var => some ⟨var, none⟩
  | .of var x =>
    match env.lookup x with
    | some (.elem κ k) => some ⟨var, some ⟨κ, k⟩⟩
    | _ => none

def RetExpr.eval (env : List (String × IVal H V)) : RetExpr → Option (Out H V)
  | .key k => (k.eval env).map .key
  | .value x =>
    match env.lookup x with
    | some (.ref r) => some (.value r)
    | _ => none
  | .entry k x =>
    match env.lookup x with
    | some (.ref r) => (k.eval env).map fun k => .entry k r
    | _ => none

/-- One arm on its field: `some x` returns `x`, `none` falls through. -/
def IterArm.on (a : IterArm) (c : ICell H V) : Option (Option (Out H V) × ICell H V) :=
  (a.fn.run c).bind fun p =>
    match p.1 with
    | none => some (none, p.2)
    | some x => (a.pat.bind x).bind fun env => (a.ret.eval env).map fun o => (some o, p.2)

/-- The meaning of a `match` with an index: `break` is the `_ => break` arm. -/
inductive ArmOut (H : HashbrownApi) (V : Type) where
  | brk
  | done (o : Option (Out H V)) (S : IStruct H V)

/-- `match index { arms, _ => break }`. -/
def runArms (index : Nat) (S : IStruct H V) : List IterArm → Option (ArmOut H V)
  | [] => some .brk
  | a :: l =>
    if a.index = index then
      (S.get a.recv).bind fun c => (a.on c).map fun p => .done p.1 (S.set a.recv p.2)
    else runArms index S l

/-- `IteratorNext::to_tokens`, 1800-1815, then `None`. `none`: stuck, or the loop did not end in `fuel` tests
of its condition. -/
def runNext (arms : List IterArm) : Nat → IterVal H V → Option (Option (Out H V) × IterVal H V)
  | 0, _ => none
  | fuel + 1, it =>
    if it.start < it.stop then
      (runArms it.start it.fields arms).bind fun
        | .brk => some (none, it)
        | .done (some x) S => some (some x, { it with fields := S })
        | .done none S => runNext arms fuel ⟨min (it.start + 1) it.stop, it.stop, S⟩
    else some (none, it)

/-- `IteratorNextBack::to_tokens`, 1833-1850, then `None`. -/
def runNextBack (arms : List IterArm) : Nat → IterVal H V → Option (Option (Out H V) × IterVal H V)
  | 0, _ => none
  | fuel + 1, it =>
    if it.start < it.stop then
      (runArms (it.stop - 1) it.fields arms).bind fun
        | .brk => some (none, it)
        | .done (some x) S => some (some x, { it with fields := S })
        | .done none S => runNextBack arms fuel ⟨it.start, max (it.stop - 1) it.start, S⟩
    else some (none, it)

/-- Whether a type in the `where` clause is double ended. -/
def IterTy.doubleEnded (H : HashbrownApi) (V : Type) : IterTy → Bool
  | .flag | .opt => true
  | .map κ q => (elemIter H V κ "" q).I.nextBack?.isSome
  | .set κ q => (elemSetIter H V κ q).I.nextBack?.isSome

end FixedMap.Gen
