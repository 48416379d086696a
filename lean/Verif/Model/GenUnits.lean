import Verif.Model.Gen

/-!
# The code emitted by `unit_variants.rs`, as data, and its meaning

For an enum with only unit variants the storage is an array `data`. The emitted methods destructure it,
`let [_0, _1, ..] = &mut self.data;`, and `match` on the key with arms that name a variant and one of the
variables `_i`. As in `Model/Gen.lean`, the interpreter is stuck (`none`) where rustc would reject the code.
Line numbers refer to unit_variants.rs.

Left out: paths, lifetimes, visibility and attributes.
-/

set_option autoImplicit false

namespace FixedMap.GenUnits

/-! ## Emitted code -/

/-- Functions called on an array element. -/
inductive SlotFn where
  | isSome | isNone | replace | asRef | asMut | take
  /-- `option_to_entry(_i, key)` -/
  | optionToEntry
deriving DecidableEq

inductive Expr where
  | zero
  | tt
  /-- `f(_i, args..)` -/
  | call (f : SlotFn) (recv : String) (args : List String)
  /-- `*_i` -/
  | deref (name : String)
  /-- `mem::replace(_i, b)` -/
  | memReplace (name : String) (b : Bool)
  | usizeFrom (e : Expr)
  | not (e : Expr)
  | add (a b : Expr)
  | and (a b : Expr)
deriving DecidableEq

/-- `fn f(&mut self, params..) { let [binds..] = &mut self.data; body }`. -/
structure ExprFn where
  binds : List String
  body : Expr

/-- `fn f(&mut self, params..) { let [binds..] = &mut self.data; match scrutinee { Ident::var => expr, .. } }`. -/
structure MatchFn where
  params : List String
  binds : List String
  scrutinee : String
  arms : List (String × Expr)

/-- `let [binds..] = &mut self.data;`, then for each pair `(name, var)` in order:
for maps `if let Some(val) = Option::as_mut(name) { if !func(Ident::var, val) { *name = None; } }`,
for sets `if *name { *name = f(Ident::var); }`. -/
structure RetainFn where
  binds : List String
  stmts : List (String × String)

/-- The closures passed to `flat_map`. -/
inductive Closure where
  /-- `|(k, v)| Some((k, Option::as_ref(v)?))` -/
  | asRef
  /-- `|(k, v)| Some((k, Option::as_mut(v)?))` -/
  | asMut
  /-- `|(k, v)| Some((k, v?))` -/
  | move
deriving DecidableEq

/-- Bodies of methods that return iterators. -/
inductive IterBody where
  /-- `let [binds..] = ..; flat_map(into_iter([(Ident::var, name), ..]), closure)` -/
  | flatMap (binds : List String) (items : List (String × String)) (f : Closure)
  /-- `let [binds..] = ..; flatten(into_iter([if name.is_some() { Some(Ident::var) } else { None }, ..]))`;
  for sets the condition is `*name` -/
  | flattenIf (binds : List String) (items : List (String × String))
  /-- `flatten(into_iter(&self.data))` -/
  | flattenRef
  /-- `flatten(into_iter(&mut self.data))` -/
  | flattenMut
deriving DecidableEq

/-- The generated `__MapStorage<V>`. -/
structure MapCode where
  /-- length of the array type -/
  count : Nat
  /-- number of elements `Option::None` of the array expression -/
  empty : Nat
  len : ExprFn
  isEmpty : ExprFn
  insert : MatchFn
  containsKey : MatchFn
  get : MatchFn
  getMut : MatchFn
  remove : MatchFn
  retain : RetainFn
  /-- number of elements `Option::None` of the array expression -/
  clear : Nat
  iter : IterBody
  keys : IterBody
  values : IterBody
  iterMut : IterBody
  valuesMut : IterBody
  intoIter : IterBody
  entry : MatchFn

/-- The generated `__SetStorage` on an array. -/
structure SetCode where
  count : Nat
  empty : Nat
  len : ExprFn
  isEmpty : ExprFn
  insert : MatchFn
  contains : MatchFn
  remove : MatchFn
  retain : RetainFn
  clear : Nat
  iter : IterBody
  intoIter : IterBody

/-- The generated `__SetStorage` on an integer. Literals are numbers. -/
structure BitsetCode where
  /-- width of the integer type -/
  width : Nat
  /-- arms of `to_bits` -/
  toBits : List (String × Nat)
  /-- `if self.data & number != 0 { if f(Ident::var) { update |= number'; } }` -/
  retain : List (Nat × String × Nat)
  /-- `if self.data & number != 0 { Some(Ident::var) } else { None }` -/
  iter : List (Nat × String)
  intoIter : List (Nat × String)

/-- `names`, 13-18. -/
def names (variants : List String) : List String := (List.range variants.length).map Gen.fieldName

/-- `impl_map`, 128-376. -/
def genMap (variants : List String) : MapCode :=
  let ns := names variants
  let init := variants.map fun _ => ()
  { count := variants.length
    -- 250-254
    empty := init.length
    -- 257-260
    len := ⟨ns, ns.foldl (fun e n => .add e (.usizeFrom (.call .isSome n []))) .zero⟩
    -- 263-266
    isEmpty := ⟨ns, ns.foldl (fun e n => .and e (.call .isNone n [])) .tt⟩
    -- 269-275
    insert := ⟨["key", "value"], ns, "key", variants.zip (ns.map fun n => .call .replace n ["value"])⟩
    -- 278-284
    containsKey := ⟨["value"], ns, "value", variants.zip (ns.map fun n => .call .isSome n [])⟩
    -- 287-293
    get := ⟨["value"], ns, "value", variants.zip (ns.map fun n => .call .asRef n [])⟩
    -- 296-302
    getMut := ⟨["value"], ns, "value", variants.zip (ns.map fun n => .call .asMut n [])⟩
    -- 305-311
    remove := ⟨["value"], ns, "value", variants.zip (ns.map fun n => .call .take n [])⟩
    -- 314-325
    retain := ⟨ns, ns.zip variants⟩
    -- 328-330
    clear := init.length
    -- 333-336
    iter := .flatMap ns (variants.zip ns) .asRef
    -- 339-342
    keys := .flattenIf ns (ns.zip variants)
    -- 345-347
    values := .flattenRef
    -- 350-353
    iterMut := .flatMap ns (variants.zip ns) .asMut
    -- 356-358
    valuesMut := .flattenMut
    -- 361-364
    intoIter := .flatMap ns (variants.zip ns) .move
    -- 367-373
    entry := ⟨["key"], ns, "key", variants.zip (ns.map fun n => .call .optionToEntry n ["key"])⟩ }

/-- `impl_set`, 551-691. -/
def genSet (variants : List String) : SetCode :=
  let ns := names variants
  let init := variants.map fun _ => ()
  { count := variants.length
    -- 616-620
    empty := init.length
    -- 623-626
    len := ⟨ns, ns.foldl (fun e n => .add e (.usizeFrom (.deref n))) .zero⟩
    -- 629-632
    isEmpty := ⟨ns, ns.foldl (fun e n => .and e (.not (.deref n))) .tt⟩
    -- 635-641
    insert := ⟨["value"], ns, "value", variants.zip (ns.map fun n => .not (.memReplace n true))⟩
    -- 644-650
    contains := ⟨["value"], ns, "value", variants.zip (ns.map fun n => .deref n)⟩
    -- 653-659
    remove := ⟨["value"], ns, "value", variants.zip (ns.map fun n => .memReplace n false)⟩
    -- 662-671
    retain := ⟨ns, ns.zip variants⟩
    -- 674-676
    clear := init.length
    -- 679-682
    iter := .flattenIf ns (ns.zip variants)
    -- 685-688
    intoIter := .flattenIf ns (ns.zip variants) }

/-- `numbers`, 406-411: the literals `1u128 << n`; a shift by 128 or more overflows (panic of the macro when built
with overflow checks, here `none`). -/
def number (n : Nat) : Option Nat := if n < 128 then some (1 <<< n) else none

def numbers (variants : List String) : Option (List Nat) := (List.range variants.length).mapM number

/-- `impl_bitset`, 379-531; `none` for the error of `determine_bits` (380). -/
def genBitset (variants : List String) : Option BitsetCode :=
  (determineBits variants.length).bind fun w => (numbers variants).map fun ns =>
    { width := w
      -- 415-419
      toBits := variants.zip ns
      -- 485-498
      retain := ns.zip (variants.zip ns)
      -- 506-508
      iter := ns.zip variants
      -- 511-513
      intoIter := ns.zip variants }

/-! ## Values -/

/-- `OccupiedEntry { key, inner }` and `VacantEntry { key, inner }`, 58-82: the bucket is the place of the slot. -/
structure DynEntry where
  key : String
  inner : Nat
deriving DecidableEq

/-- Values of variables and results. A place is an index into `data`; a key is the name of a variant. -/
inductive Val (V : Type) where
  | place (i : Nat)
  | bool (b : Bool)
  | nat (n : Nat)
  | val (v : V)
  | optVal (o : Option V)
  | optAddr (o : Option Nat)
  | key (k : String)
  | occupied (e : DynEntry)
  | vacant (e : DynEntry)

/-- Local variables; the innermost binding comes first. -/
abbrev Env (V : Type) := List (String × Val V)

/-- Array elements: `Option<V>` or `bool`. -/
inductive Elem (V : Type) where
  | slot (o : Option V)
  | flag (b : Bool)

abbrev Data (V : Type) := List (Elem V)

variable {V : Type}

/-! ## Meaning -/

/-- `let [binds..] = &mut self.data;`: as many distinct names as elements. -/
def bindPlaces (binds : List String) (data : Data V) : Option (Env V) :=
  if binds.length = data.length ∧ binds.Nodup then some (binds.zip ((List.range data.length).map .place)) else none

/-- The place a variable stands for, and the element there. -/
def elemOf (env : Env V) (data : Data V) (name : String) : Option (Nat × Elem V) :=
  match env.lookup name with
  | some (.place i) => (data[i]?).map fun e => (i, e)
  | _ => none

def evalArgs (env : Env V) : List String → Option (List (Val V))
  | [] => some []
  | x :: l => (env.lookup x).bind fun v => (evalArgs env l).map (v :: ·)

/-- A call on a slot: the result and the new value of the slot. `option_to_entry` (118-123) is written with
`OptionBucket::new`; its two arms build the entries. -/
def callSlot (i : Nat) : SlotFn → Option V → List (Val V) → Option (Res (Val V × Option V))
  | .replace, o, [.val v] => some (.ok (.optVal o, some v))
  | .take, o, [] => some (.ok (.optVal o, none))
  | .isSome, o, [] => some (.ok (.bool o.isSome, o))
  | .isNone, o, [] => some (.ok (.bool o.isNone, o))
  | .asRef, o, [] => some (.ok (.optVal o, o))
  | .asMut, o, [] => some (.ok (.optAddr (o.map fun _ => i), o))
  | .optionToEntry, o, [.key k] => some ((OptionBucket.new o).map fun
    | .some => (.occupied ⟨k, i⟩, o)
    | .none => (.vacant ⟨k, i⟩, o))
  | _, _, _ => none

def eval (env : Env V) : Expr → Data V → Option (Res (Val V × Data V))
  | .zero, D => some (.ok (.nat 0, D))
  | .tt, D => some (.ok (.bool true, D))
  | .call f n args, D =>
    match elemOf env D n with
    | some (i, .slot o) => (evalArgs env args).bind fun vs =>
      (callSlot i f o vs).map fun r => r.map fun p => (p.1, D.set i (.slot p.2))
    | _ => none
  | .deref n, D =>
    match elemOf env D n with
    | some (_, .flag b) => some (.ok (.bool b, D))
    | _ => none
  | .memReplace n b', D =>
    match elemOf env D n with
    | some (i, .flag b) => some (.ok (.bool b, D.set i (.flag b')))
    | _ => none
  | .usizeFrom e, D =>
    match eval env e D with
    | some (.ok (.bool b, D)) => some (.ok (.nat b.toNat, D))
    | _ => none
  | .not e, D =>
    match eval env e D with
    | some (.ok (.bool b, D)) => some (.ok (.bool !b, D))
    | _ => none
  | .add a b, D =>
    match eval env a D with
    | some (.ok (.nat m, D)) =>
      match eval env b D with
      | some (.ok (.nat n, D)) => some (.ok (.nat (m + n), D))
      | _ => none
    | _ => none
  | .and a b, D =>
    match eval env a D with
    | some (.ok (.bool false, D)) => some (.ok (.bool false, D))
    | some (.ok (.bool true, D)) =>
      match eval env b D with
      | some (.ok (.bool b, D)) => some (.ok (.bool b, D))
      | _ => none
    | _ => none

def ExprFn.run (m : ExprFn) (D : Data V) : Option (Res (Val V × Data V)) :=
  (bindPlaces m.binds D).bind fun env => eval env m.body D

/-- Call a generated method: bind the parameters, destructure, and take the first arm that names the variant. -/
def MatchFn.run (m : MatchFn) (args : List (Val V)) (D : Data V) : Option (Res (Val V × Data V)) :=
  if m.params.length = args.length then
    (bindPlaces m.binds D).bind fun places =>
      let env := places ++ m.params.zip args
      match env.lookup m.scrutinee with
      | some (.key k) => (m.arms.lookup k).bind fun e => eval env e D
      | _ => none
  else none

/-- `data: [init, ..]` of a struct literal or an assignment to `self.data`: the length is part of the type. -/
def arrayLit (count n : Nat) (e : Elem V) : Option (Data V) := if n = count then some (List.replicate n e) else none

def Elem.dropped : Elem V → List V
  | .slot o => dropSlot o
  | .flag _ => []

/-- Statements of a map's `retain`; unwinding skips the rest. -/
def runRetain {σ : Type} (func : σ → String → V → σ × V × Option Bool) (env : Env V) :
    List (String × String) → Data V → σ → Option (RetainOut (Data V) σ V)
  | [], D, st => some ⟨D, st, false, []⟩
  | (n, var) :: l, D, st =>
    match elemOf env D n with
    | some (i, .slot o) =>
      let r := retainSlot func var o st
      let D := D.set i (.slot r.s)
      if r.panicked then some ⟨D, r.st, true, r.dropped⟩
      else (runRetain func env l D r.st).map fun r' => ⟨r'.s, r'.st, r'.panicked, r.dropped ++ r'.dropped⟩
    | _ => none

def RetainFn.run {σ : Type} (m : RetainFn) (func : σ → String → V → σ × V × Option Bool) (D : Data V) (st : σ) :
    Option (RetainOut (Data V) σ V) :=
  (bindPlaces m.binds D).bind fun env => runRetain func env m.stmts D st

/-- Statements of a set's `retain`. -/
def runSetRetain {σ : Type} (func : σ → String → σ × Option Bool) (env : Env V) :
    List (String × String) → Data V → σ → Option (SetRetainOut (Data V) σ)
  | [], D, st => some ⟨D, st, false⟩
  | (n, var) :: l, D, st =>
    match elemOf env D n with
    | some (i, .flag b) =>
      let r := retainFlag func var b st
      let D := D.set i (.flag r.s)
      if r.panicked then some ⟨D, r.st, true⟩ else runSetRetain func env l D r.st
    | _ => none

def RetainFn.runSet {σ : Type} (m : RetainFn) (func : σ → String → σ × Option Bool) (D : Data V) (st : σ) :
    Option (SetRetainOut (Data V) σ) :=
  (bindPlaces m.binds D).bind fun env => runSetRetain func env m.stmts D st

/-! ### Entries (58-115; the text does not depend on the variants) -/

/-- The slot a bucket refers to. -/
def slotAt (D : Data V) (i : Nat) : Option (Option V) :=
  match D[i]? with
  | some (.slot o) => some o
  | _ => none

/-- `key`, 69-71 and 87-89. -/
def DynEntry.keyFn (e : DynEntry) : String := e.key

/-- `OccupiedEntry::get`, 92-94. -/
def DynEntry.get (e : DynEntry) (D : Data V) : Option (Res V) := (slotAt D e.inner).map fun o => SomeBucket.asRef o

/-- `OccupiedEntry::get_mut`, 97-99. -/
def DynEntry.getMut (e : DynEntry) (D : Data V) : Option (Res Nat) :=
  (slotAt D e.inner).map fun o => (SomeBucket.asMut o).map fun _ => e.inner

/-- `OccupiedEntry::into_mut`, 102-104. -/
def DynEntry.intoMut (e : DynEntry) (D : Data V) : Option (Res Nat) :=
  (slotAt D e.inner).map fun o => (SomeBucket.intoMut o).map fun _ => e.inner

/-- `OccupiedEntry::insert`, 107-109. -/
def DynEntry.insert (e : DynEntry) (D : Data V) (v : V) : Option (Res (V × Data V)) :=
  (slotAt D e.inner).map fun o => (SomeBucket.replace o v).map fun p => (p.1, D.set e.inner (.slot p.2))

/-- `OccupiedEntry::remove`, 112-114. -/
def DynEntry.remove (e : DynEntry) (D : Data V) : Option (Res (V × Data V)) :=
  (slotAt D e.inner).map fun o => (SomeBucket.take o).map fun p => (p.1, D.set e.inner (.slot p.2))

/-- `VacantEntry::insert`, 74-76. -/
def DynEntry.vacInsert (e : DynEntry) (D : Data V) (v : V) : Option (Res (Nat × Data V)) :=
  (slotAt D e.inner).map fun o => (NoneBucket.insert o v).map fun o => (e.inner, D.set e.inner (.slot o))

/-! ### Iterators -/

/-- What the iterators yield. A `&mut V` is a place. -/
inductive Out (V : Type) where
  | entry (k : String) (v : V)
  | entryMut (k : String) (i : Nat)
  | key (k : String)
  | value (v : V)
  | valueMut (i : Nat)

/-- The closure applied to `(Ident::var, place)`. -/
def Closure.run (D : Data V) : Closure → String × Nat → Option (Out V)
  | .asRef, (k, i) | .move, (k, i) =>
    match D[i]? with
    | some (.slot (some v)) => some (.entry k v)
    | _ => none
  | .asMut, (k, i) =>
    match D[i]? with
    | some (.slot (some _)) => some (.entryMut k i)
    | _ => none

/-- `[(Ident::var, name), ..]`: every name must stand for a slot. -/
def pairItems (env : Env V) (D : Data V) : List (String × String) → Option (List (String × Nat))
  | [] => some []
  | (var, n) :: l =>
    match elemOf env D n with
    | some (i, .slot _) => (pairItems env D l).map ((var, i) :: ·)
    | _ => none

/-- `[if .. { Some(Ident::var) } else { None }, ..]`. -/
def condItems (env : Env V) (D : Data V) : List (String × String) → Option (List (Option (Out V)))
  | [] => some []
  | (n, var) :: l =>
    match elemOf env D n with
    | some (_, .slot o) => (condItems env D l).map ((if o.isSome then some (.key var) else none) :: ·)
    | some (_, .flag b) => (condItems env D l).map ((if b then some (.key var) else none) :: ·)
    | none => none

/-- The items of the array or slice that `flatten` runs over. -/
def refItems (f : Nat → V → Out V) : Nat → Data V → Option (List (Option (Out V)))
  | _, [] => some []
  | i, .slot o :: D => (refItems f (i + 1) D).map ((o.map (f i)) :: ·)
  | _, .flag _ :: _ => none

/-- The iterator a method returns: `flat_map` and `flatten` over arrays are the state machine of `Model/Std.lean`. -/
def IterBody.make (b : IterBody) (D : Data V) : Option ((I : IterImpl (Out V)) × I.St) :=
  match b with
  | .flatMap binds items f =>
    (bindPlaces binds D).bind fun env => (pairItems env D items).map fun l =>
      ⟨flatIter (f.run D), (⟨none, l, none⟩ : FlatSt _ _)⟩
  | .flattenIf binds items =>
    (bindPlaces binds D).bind fun env => (condItems env D items).map fun l =>
      ⟨flatIter id, (⟨none, l, none⟩ : FlatSt _ _)⟩
  | .flattenRef => (refItems (fun _ v => .value v) 0 D).map fun l => ⟨flatIter id, (⟨none, l, none⟩ : FlatSt _ _)⟩
  | .flattenMut => (refItems (fun i _ => .valueMut i) 0 D).map fun l => ⟨flatIter id, (⟨none, l, none⟩ : FlatSt _ _)⟩

/-! ### Bitsets -/

/-- An integer literal at a type of width `w` (`#[deny(overflowing_literals)]`). -/
def intLit (w n : Nat) : Option (BitVec w) := if n < 2 ^ w then some (BitVec.ofNat w n) else none

/-- `empty`, 449-453, and the value assigned by `clear`, 501-503. -/
def BitsetCode.empty (C : BitsetCode) : BitVec C.width := 0

/-- `len`, 456-458. -/
def BitsetCode.len (C : BitsetCode) (data : BitVec C.width) : Nat := countOnes data

/-- `is_empty`, 461-463. -/
def BitsetCode.isEmpty (C : BitsetCode) (data : BitVec C.width) : Bool := data == 0

/-- `to_bits(value)`. -/
def BitsetCode.mask (C : BitsetCode) (k : String) : Option (BitVec C.width) := (C.toBits.lookup k).bind (intLit C.width)

/-- `insert`, 466-470. -/
def BitsetCode.insert (C : BitsetCode) (data : BitVec C.width) (k : String) : Option (Bool × BitVec C.width) :=
  (C.mask k).map fun mask =>
    let update := data ||| mask
    (data &&& mask == 0, update)

/-- `contains`, 473-475. -/
def BitsetCode.contains (C : BitsetCode) (data : BitVec C.width) (k : String) : Option Bool :=
  (C.mask k).map fun mask => data &&& mask != 0

/-- `remove`, 478-482. -/
def BitsetCode.remove (C : BitsetCode) (data : BitVec C.width) (k : String) : Option (Bool × BitVec C.width) :=
  (C.mask k).map fun mask =>
    let update := data &&& ~~~mask
    (data &&& mask != 0, update)

/-- The statements of `retain`, 491-495; `self.data` is assigned after the last one. -/
def runBitsetRetain {σ : Type} {w : Nat} (f : σ → String → σ × Option Bool) (data : BitVec w) :
    List (Nat × String × Nat) → BitVec w → σ → Option (SetRetainOut (BitVec w) σ)
  | [], update, st => some ⟨update, st, false⟩
  | (n, var, n') :: l, update, st =>
    match intLit w n, intLit w n' with
    | some m, some m' =>
      if data &&& m != 0 then
        match f st var with
        | (st', none) => some ⟨data, st', true⟩
        | (st', some true) => runBitsetRetain f data l (update ||| m') st'
        | (st', some false) => runBitsetRetain f data l update st'
      else runBitsetRetain f data l update st
    | _, _ => none

/-- `[if self.data & number != 0 { Some(Ident::var) } else { None }, ..]`. -/
def bitsetItems {w : Nat} (data : BitVec w) : List (Nat × String) → Option (List (Option String))
  | [] => some []
  | (n, var) :: l => (intLit w n).bind fun m => (bitsetItems data l).map ((if data &&& m != 0 then some var else none) :: ·)

end FixedMap.GenUnits
