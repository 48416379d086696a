import Verif.Model.RustIter

/-!
# "The program does what the model's storage does"

`MapText` relates the functions of a Rust program, run by the interpreter, to a storage of the model, for every state of the storage and all arguments: results, the storage
afterwards, the values dropped, the final state of the caller's closure, panics and undefined behaviour. `SetText` is the same for sets.
-/

set_option autoImplicit false

namespace FixedMap.Rust

variable {X σ : Type}

/-- What can be observed after a run: the result, the first cell (where `self` is), the closure's state, the dropped values. -/
inductive Obs (X σ : Type) where
  | ok (v : Val X) (self : Option (Val X)) (user : σ) (dropped : List X)
  | panic (self : Option (Val X)) (user : σ) (dropped : List X)
  | ub
  | stuck

def obs : Ans X σ → Obs X σ
  | .ok v st => .ok v st.mem[0]? st.user st.dropped
  | .panic st => .panic st.mem[0]? st.user st.dropped
  | .ub => .ub
  | .stuck => .stuck

/-- The place of `self`. -/
def self0 : Place X := ⟨0, []⟩

/-- `self.m(args)`, where `self` is in the first cell and `extra` are the other cells. -/
def meth (F : Foreign X σ) (P : Prog) (fuel : Nat) (m : String) (self : Val X) (extra args : List (Val X)) (u : σ) : Obs X σ :=
  obs (methodAt F P (sem F P fuel) m self0 self args ⟨self :: extra, u, []⟩ .ok)

/-- A function of a trait, on an entry: `byRef` says whether it takes `&self`. The storage is in the first cell, the entry in the second. -/
def entryMeth (F : Foreign X σ) (P : Prog) (fuel : Nat) (ty tr m : String) (byRef : Bool) (store entry : Val X) (args : List (Val X)) (u : σ) : Obs X σ :=
  obs (run F P fuel ty tr m ((if byRef then .ref ⟨1, []⟩ else entry) :: args) ⟨[store, entry], u, []⟩)

/-- What a function of the model that may contain `unsafe` should look like from outside. -/
def ofRes {α : Type} (r : Res α) (self : Val X) (u : σ) (k : α → Obs X σ) : Obs X σ :=
  match r with
  | .ok a => k a
  | .panic => .panic (some self) u []
  | .ub => .ub

/-! ## Iterators -/

/-- The results of `next` (or `next_back`) are the same up to `enc`. -/
def StepEq {A B α : Type} (enc : α → Val X) (R : A → B → Prop) (x : Option (Val X) × A) (y : Option α × B) : Prop :=
  x.1 = y.1.map enc ∧ R x.2 y.2

/-- `next_back`: both have it and it does the same, or neither does. -/
def BackEq {A B α : Type} (enc : α → Val X) (R : A → B → Prop) (x : Option (A → Option (Val X) × A)) (y : Option (B → Option α × B)) (a : A) (b : B) : Prop :=
  match x, y with
  | some f, some g => StepEq enc R (f a) (g b)
  | none, none => True
  | _, _ => False

/-- The iterators can be used in the same ways with the same results, up to the encoding of the items: a bisimulation. -/
def SameIter {α : Type} (enc : α → Val X) (i : AnyIter (Val X)) (J : IterImpl α) (t : J.St) : Prop :=
  ∃ R : i.I.St → J.St → Prop, R i.st t ∧ ∀ a b, R a b →
    StepEq enc R (i.I.next a) (J.next b) ∧ i.I.sizeHint a = J.sizeHint b ∧
    BackEq enc R i.I.nextBack? J.nextBack? a b

/-! ## Maps -/

/-- How the interpreter represents what belongs to a map storage `N`. Places are relative to the storage; entries are those of the storage in the first cell. `occ`, `vac` with
their types. -/
structure MapRep {K V : Type} (X : Type) (N : MapStorage K V) where
  ty : String
  occTy : String
  vacTy : String
  key : K → Val X
  val : V → Val X
  store : N.S → Val X
  addr : N.Addr → List (Proj X)
  occ : N.Occ → Val X
  vac : N.Vac → Val X
  dropped : V → X

/-- The program `P`, run with `F` from outside, does what `N` does (what storages and `Map` have in common). `c`, `veq`: `clone` and `==` of the value type; `f`: the caller's closure. -/
structure MapFns {K V : Type} (P : Prog) (fuel : Nat) (N : MapStorage K V) (R : MapRep X N) (F : Foreign X σ) (iters : Place X → X → AnyIter (Val X))
    (c : V → V) (veq : V → V → Bool) (f : σ → K → V → σ × V × Option Bool) : Prop where
  len : ∀ (u : σ) (s : N.S),
    meth F P fuel "len" (R.store s) [] [] u = .ok (.nat (N.len s)) (some (R.store s)) u []
  is_empty : ∀ (u : σ) (s : N.S),
    meth F P fuel "is_empty" (R.store s) [] [] u = .ok (.bool (N.isEmpty s)) (some (R.store s)) u []
  insert : ∀ (u : σ) (s : N.S) (k : K) (v : V),
    meth F P fuel "insert" (R.store s) [] [R.key k, R.val v] u =
      .ok (optV R.val (N.insert s k v).1) (some (R.store (N.insert s k v).2)) u []
  contains_key : ∀ (u : σ) (s : N.S) (k : K),
    meth F P fuel "contains_key" (R.store s) [] [R.key k] u = .ok (.bool (N.containsKey s k)) (some (R.store s)) u []
  /-- A shared reference carries its value. -/
  get : ∀ (u : σ) (s : N.S) (k : K),
    meth F P fuel "get" (R.store s) [] [R.key k] u = .ok (optV (fun v => .shared (R.val v)) (N.get s k)) (some (R.store s)) u []
  get_mut : ∀ (u : σ) (s : N.S) (k : K),
    meth F P fuel "get_mut" (R.store s) [] [R.key k] u =
      .ok (optV (fun a => .ref ⟨0, R.addr a⟩) (N.getMut s k)) (some (R.store s)) u []
  /-- A mutable reference can be read … -/
  read : ∀ (s : N.S) (a : N.Addr),
    getPath F (R.store s) (R.addr a) = (N.read s a).map R.val
  /-- … and written. -/
  write : ∀ (s : N.S) (a : N.Addr) (v w : V), N.read s a = some w →
    setPath F (R.store s) (R.addr a) (R.val v) = some (R.store (N.write s a v))
  remove : ∀ (u : σ) (s : N.S) (k : K),
    meth F P fuel "remove" (R.store s) [] [R.key k] u =
      .ok (optV R.val (N.remove s k).1) (some (R.store (N.remove s k).2)) u []
  retain : ∀ (u : σ) (s : N.S),
    meth F P fuel "retain" (R.store s) [] [.user] u =
      (let r := N.retain f s u
       if r.panicked then .panic (some (R.store r.s)) r.st (r.dropped.map R.dropped) else .ok .unit (some (R.store r.s)) r.st (r.dropped.map R.dropped))
  clear : ∀ (u : σ) (s : N.S),
    meth F P fuel "clear" (R.store s) [] [] u = .ok .unit (some (R.store (N.clear s).1)) u ((N.clear s).2.map R.dropped)
  entry : ∀ (u : σ) (s : N.S) (k : K),
    meth F P fuel "entry" (R.store s) [] [R.key k] u =
      ofRes (N.entry s k) (R.store s) u fun r =>
        .ok (match r.1 with | .inl e => .con "Entry" "Occupied" [R.occ e] | .inr e => .con "Entry" "Vacant" [R.vac e]) (some (R.store r.2)) u []
  /-- `self.eq(&other)`; `other` is in the second cell. -/
  eq : ∀ (u : σ) (s t : N.S),
    meth F P fuel "eq" (R.store s) [R.store t] [.ref ⟨1, []⟩] u = .ok (.bool (N.eq veq s t)) (some (R.store s)) u []
  clone : ∀ (u : σ) (s : N.S),
    meth F P fuel "clone" (R.store s) [] [] u = .ok (R.store (N.clone c s)) (some (R.store s)) u []
  iter : ∀ (u : σ) (s : N.S),
    ∃ w, meth F P fuel "iter" (R.store s) [] [] u = .ok w (some (R.store s)) u [] ∧
      SameIter (fun p => pair (R.key p.1) (.shared (R.val p.2))) (den F P fuel u iters 9 w) N.iter.I (N.iter.init s)
  keys : ∀ (u : σ) (s : N.S),
    ∃ w, meth F P fuel "keys" (R.store s) [] [] u = .ok w (some (R.store s)) u [] ∧
      SameIter R.key (den F P fuel u iters 9 w) N.keys.I (N.keys.init s)
  values : ∀ (u : σ) (s : N.S),
    ∃ w, meth F P fuel "values" (R.store s) [] [] u = .ok w (some (R.store s)) u [] ∧
      SameIter (fun v => .shared (R.val v)) (den F P fuel u iters 9 w) N.values.I (N.values.init s)
  iter_mut : ∀ (u : σ) (s : N.S),
    ∃ w, meth F P fuel "iter_mut" (R.store s) [] [] u = .ok w (some (R.store s)) u [] ∧
      SameIter (fun p => pair (R.key p.1) (.ref ⟨0, R.addr p.2⟩)) (den F P fuel u iters 9 w) N.iterMut.I (N.iterMut.init s)
  values_mut : ∀ (u : σ) (s : N.S),
    ∃ w, meth F P fuel "values_mut" (R.store s) [] [] u = .ok w (some (R.store s)) u [] ∧
      SameIter (fun a => .ref ⟨0, R.addr a⟩) (den F P fuel u iters 9 w) N.valuesMut.I (N.valuesMut.init s)
  into_iter : ∀ (u : σ) (s : N.S),
    ∃ w, meth F P fuel "into_iter" (R.store s) [] [] u = .ok w (some (R.store s)) u [] ∧
      SameIter (fun p => pair (R.key p.1) (R.val p.2)) (den F P fuel u iters 9 w) N.intoIter.I (N.intoIter.init s)

/-- … with the functions that only storages and their entries have. -/
structure MapText {K V : Type} (P : Prog) (fuel : Nat) (N : MapStorage K V) (R : MapRep X N) (F : Foreign X σ) (iters : Place X → X → AnyIter (Val X))
    (c : V → V) (veq : V → V → Bool) (f : σ → K → V → σ × V × Option Bool) : Prop extends MapFns P fuel N R F iters c veq f where
  /-- `Ty::empty()` -/
  empty : ∀ (u : σ),
    obs (run F P fuel R.ty "MapStorage" "empty" [] ⟨[], u, []⟩) = .ok (R.store N.empty) none u []
  occ_key : ∀ (u : σ) (s : N.S) (e : N.Occ),
    entryMeth F P fuel R.occTy "OccupiedEntry" "key" true (R.store s) (R.occ e) [] u = .ok (R.key (N.occKey e)) (some (R.store s)) u []
  occ_get : ∀ (u : σ) (s : N.S) (e : N.Occ),
    entryMeth F P fuel R.occTy "OccupiedEntry" "get" true (R.store s) (R.occ e) [] u =
      ofRes (N.occGet e s) (R.store s) u fun v => .ok (.shared (R.val v)) (some (R.store s)) u []
  occ_get_mut : ∀ (u : σ) (s : N.S) (e : N.Occ),
    entryMeth F P fuel R.occTy "OccupiedEntry" "get_mut" true (R.store s) (R.occ e) [] u =
      ofRes (N.occGetMut e s) (R.store s) u fun a => .ok (.ref ⟨0, R.addr a⟩) (some (R.store s)) u []
  occ_into_mut : ∀ (u : σ) (s : N.S) (e : N.Occ),
    entryMeth F P fuel R.occTy "OccupiedEntry" "into_mut" false (R.store s) (R.occ e) [] u =
      ofRes (N.occIntoMut e s) (R.store s) u fun a => .ok (.ref ⟨0, R.addr a⟩) (some (R.store s)) u []
  occ_insert : ∀ (u : σ) (s : N.S) (e : N.Occ) (v : V),
    entryMeth F P fuel R.occTy "OccupiedEntry" "insert" true (R.store s) (R.occ e) [R.val v] u =
      ofRes (N.occInsert e s v) (R.store s) u fun r => .ok (R.val r.1) (some (R.store r.2)) u []
  occ_remove : ∀ (u : σ) (s : N.S) (e : N.Occ),
    entryMeth F P fuel R.occTy "OccupiedEntry" "remove" false (R.store s) (R.occ e) [] u =
      ofRes (N.occRemove e s) (R.store s) u fun r => .ok (R.val r.1) (some (R.store r.2)) u []
  vac_key : ∀ (u : σ) (s : N.S) (e : N.Vac),
    entryMeth F P fuel R.vacTy "VacantEntry" "key" true (R.store s) (R.vac e) [] u = .ok (R.key (N.vacKey e)) (some (R.store s)) u []
  vac_insert : ∀ (u : σ) (s : N.S) (e : N.Vac) (v : V),
    entryMeth F P fuel R.vacTy "VacantEntry" "insert" false (R.store s) (R.vac e) [R.val v] u =
      ofRes (N.vacInsert e s v) (R.store s) u fun r => .ok (.ref ⟨0, R.addr r.1⟩) (some (R.store r.2)) u []

/-! ## Buckets -/

/-- A bucket on the slot at a path from the first cell. -/
def bucket (ty : String) (path : List (Proj X)) : Val X := .struct ty [("outer", .ref ⟨0, path⟩)]

/-- The slot that a bucket borrows. -/
def slot (o : Option X) : Val X := optV .ext o

/-- The functions of the buckets (with the slot in the first cell) and those of the model. -/
structure BucketText (P : Prog) (fuel : Nat) (F : Foreign X σ) : Prop where
  some_new_unchecked : ∀ (u : σ) (o : Option X),
    obs (run F P fuel "SomeBucket" "" "new_unchecked" [.ref ⟨0, []⟩] ⟨[slot o], u, []⟩) =
      ofRes (SomeBucket.newUnchecked o) (slot o) u fun _ => .ok (bucket "SomeBucket" []) (some (slot o)) u []
  some_new : ∀ (u : σ) (o : Option X),
    obs (run F P fuel "SomeBucket" "" "new" [.ref ⟨0, []⟩] ⟨[slot o], u, []⟩) =
      ofRes (SomeBucket.new o) (slot o) u fun r => .ok (optV (fun _ => bucket "SomeBucket" []) r) (some (slot o)) u []
  as_ref : ∀ (u : σ) (o : Option X),
    entryMeth F P fuel "SomeBucket" "" "as_ref" true (slot o) (bucket "SomeBucket" []) [] u =
      ofRes (SomeBucket.asRef o) (slot o) u fun x => .ok (.shared (.ext x)) (some (slot o)) u []
  as_mut : ∀ (u : σ) (o : Option X),
    entryMeth F P fuel "SomeBucket" "" "as_mut" true (slot o) (bucket "SomeBucket" []) [] u =
      ofRes (SomeBucket.asMut o) (slot o) u fun _ => .ok (.ref ⟨0, [.arg 0]⟩) (some (slot o)) u []
  into_mut : ∀ (u : σ) (o : Option X),
    entryMeth F P fuel "SomeBucket" "" "into_mut" false (slot o) (bucket "SomeBucket" []) [] u =
      ofRes (SomeBucket.intoMut o) (slot o) u fun _ => .ok (.ref ⟨0, [.arg 0]⟩) (some (slot o)) u []
  replace : ∀ (u : σ) (o : Option X) (x : X),
    entryMeth F P fuel "SomeBucket" "" "replace" true (slot o) (bucket "SomeBucket" []) [.ext x] u =
      ofRes (SomeBucket.replace o x) (slot o) u fun r => .ok (.ext r.1) (some (slot r.2)) u []
  take : ∀ (u : σ) (o : Option X),
    entryMeth F P fuel "SomeBucket" "" "take" false (slot o) (bucket "SomeBucket" []) [] u =
      ofRes (SomeBucket.take o) (slot o) u fun r => .ok (.ext r.1) (some (slot r.2)) u []
  none_new_unchecked : ∀ (u : σ) (o : Option X),
    obs (run F P fuel "NoneBucket" "" "new_unchecked" [.ref ⟨0, []⟩] ⟨[slot o], u, []⟩) =
      ofRes (NoneBucket.newUnchecked o) (slot o) u fun _ => .ok (bucket "NoneBucket" []) (some (slot o)) u []
  none_new : ∀ (u : σ) (o : Option X),
    obs (run F P fuel "NoneBucket" "" "new" [.ref ⟨0, []⟩] ⟨[slot o], u, []⟩) =
      ofRes (NoneBucket.new o) (slot o) u fun r => .ok (optV (fun _ => bucket "NoneBucket" []) r) (some (slot o)) u []
  none_insert : ∀ (u : σ) (o : Option X) (x : X),
    entryMeth F P fuel "NoneBucket" "" "insert" false (slot o) (bucket "NoneBucket" []) [.ext x] u =
      ofRes (NoneBucket.insert o x) (slot o) u fun o' => .ok (.ref ⟨0, [.arg 0]⟩) (some (slot o')) u []
  option_new : ∀ (u : σ) (o : Option X),
    obs (run F P fuel "OptionBucket" "" "new" [.ref ⟨0, []⟩] ⟨[slot o], u, []⟩) =
      ofRes (OptionBucket.new o) (slot o) u fun k => .ok (match k with
        | .some => .con "OptionBucket" "Some" [bucket "SomeBucket" []]
        | .none => .con "OptionBucket" "None" [bucket "NoneBucket" []]) (some (slot o)) u []

/-! ## The iterators over the bits of a `u8` -/

/-- `clone` and `ExactSizeIterator::len` of the iterator type `ty`. -/
structure BitsText (P : Prog) (fuel : Nat) (F : Foreign X σ) (ty : String) : Prop where
  clone : ∀ (u : σ) (b : BitVec 8), meth F P fuel "clone" (.struct ty [("bits", .u8 b)]) [] [] u = .ok (.struct ty [("bits", .u8 b)]) (some (.struct ty [("bits", .u8 b)])) u []
  len : ∀ (u : σ) (b : BitVec 8),
    obs (iterRun F P fuel u ty "ExactSizeIterator" "len" (.struct ty [("bits", .u8 b)])) = .ok (.nat (boolBitsLen b)) (some (.struct ty [("bits", .u8 b)])) u []

/-! ## Sets -/

/-- How the interpreter represents what belongs to a set storage `N`. -/
structure SetRep {T : Type} (X : Type) (N : SetStorage T) where
  ty : String
  key : T → Val X
  store : N.S → Val X

/-- What set storages and `Set` have in common. -/
structure SetFns {T : Type} (P : Prog) (fuel : Nat) (N : SetStorage T) (R : SetRep X N) (F : Foreign X σ) (iters : Place X → X → AnyIter (Val X))
    (f : σ → T → σ × Option Bool) : Prop where
  len : ∀ (u : σ) (s : N.S), meth F P fuel "len" (R.store s) [] [] u = .ok (.nat (N.len s)) (some (R.store s)) u []
  is_empty : ∀ (u : σ) (s : N.S), meth F P fuel "is_empty" (R.store s) [] [] u = .ok (.bool (N.isEmpty s)) (some (R.store s)) u []
  insert : ∀ (u : σ) (s : N.S) (k : T), meth F P fuel "insert" (R.store s) [] [R.key k] u = .ok (.bool (N.insert s k).1) (some (R.store (N.insert s k).2)) u []
  contains : ∀ (u : σ) (s : N.S) (k : T), meth F P fuel "contains" (R.store s) [] [R.key k] u = .ok (.bool (N.contains s k)) (some (R.store s)) u []
  remove : ∀ (u : σ) (s : N.S) (k : T), meth F P fuel "remove" (R.store s) [] [R.key k] u = .ok (.bool (N.remove s k).1) (some (R.store (N.remove s k).2)) u []
  retain : ∀ (u : σ) (s : N.S),
    meth F P fuel "retain" (R.store s) [] [.user] u =
      (let r := N.retain f s u
       if r.panicked then .panic (some (R.store r.s)) r.st [] else .ok .unit (some (R.store r.s)) r.st [])
  clear : ∀ (u : σ) (s : N.S), meth F P fuel "clear" (R.store s) [] [] u = .ok .unit (some (R.store (N.clear s))) u []
  eq : ∀ (u : σ) (s t : N.S), meth F P fuel "eq" (R.store s) [R.store t] [.ref ⟨1, []⟩] u = .ok (.bool (N.eq s t)) (some (R.store s)) u []
  clone : ∀ (u : σ) (s : N.S), meth F P fuel "clone" (R.store s) [] [] u = .ok (R.store (N.clone s)) (some (R.store s)) u []
  iter : ∀ (u : σ) (s : N.S),
    ∃ w, meth F P fuel "iter" (R.store s) [] [] u = .ok w (some (R.store s)) u [] ∧ SameIter R.key (den F P fuel u iters 9 w) N.iter.I (N.iter.init s)
  into_iter : ∀ (u : σ) (s : N.S),
    ∃ w, meth F P fuel "into_iter" (R.store s) [] [] u = .ok w (some (R.store s)) u [] ∧ SameIter R.key (den F P fuel u iters 9 w) N.intoIter.I (N.intoIter.init s)

structure SetText {T : Type} (P : Prog) (fuel : Nat) (N : SetStorage T) (R : SetRep X N) (F : Foreign X σ) (iters : Place X → X → AnyIter (Val X))
    (f : σ → T → σ × Option Bool) : Prop extends SetFns P fuel N R F iters f where
  empty : ∀ (u : σ), obs (run F P fuel R.ty "SetStorage" "empty" [] ⟨[], u, []⟩) = .ok (R.store N.empty) none u []

/-! ## The representations -/

section
variable {K V : Type} (M : MapStorage K V)

/-- `BooleanMapStorage`. -/
def boolRep : MapRep (MX M) (boolMap V) where
  ty := "BooleanMapStorage"
  occTy := "Occupied"
  vacTy := "Vacant"
  key := .bool
  val := vl
  store s := .struct "BooleanMapStorage" [("t", optV vl s.t), ("f", optV vl s.f)]
  addr a := [.field (if a then "t" else "f"), .arg 0]
  occ e := .struct "Occupied" [("key", .bool e.key), ("inner", bucket "SomeBucket" [.field (if e.inner then "t" else "f")])]
  vac e := .struct "Vacant" [("key", .bool e.key), ("inner", bucket "NoneBucket" [.field (if e.inner then "t" else "f")])]
  dropped := .val

def decBool : Val X → Option Bool
  | .bool b => some b
  | _ => none

/-- `SingletonMapStorage` for the key type `()`. -/
def unitRep : MapRep (MX M) (unitMap V) where
  ty := "SingletonMapStorage"
  occTy := "SomeBucket"
  vacTy := "NoneBucket"
  key _ := .unit
  val := vl
  store s := .struct "SingletonMapStorage" [("inner", optV vl s)]
  addr _ := [.field "inner", .arg 0]
  occ _ := bucket "SomeBucket" [.field "inner"]
  vac _ := bucket "NoneBucket" [.field "inner"]
  dropped := .val

def decUnit : Val X → Option Unit
  | .unit => some ()
  | _ => none

/-- `OptionMapStorage`, over the storage `M` of the key type. -/
def optRep : MapRep (MX M) (optMap M) where
  ty := "OptionMapStorage"
  occTy := "Occupied"
  vacTy := "Vacant"
  key := optV ky
  val := vl
  store s := .struct "OptionMapStorage" [("some", .ext (.store s.some)), ("none", optV vl s.none)]
  addr
    | none => [.field "none", .arg 0]
    | some a => [.field "some", .at (.addr a)]
  occ
    | .none => .con "Occupied" "None" [bucket "SomeBucket" [.field "none"]]
    | .some e => .con "Occupied" "Some" [.handle ⟨0, [.field "some"]⟩ (.occ e)]
  vac
    | .none => .con "Vacant" "None" [bucket "NoneBucket" [.field "none"]]
    | .some e => .con "Vacant" "Some" [.handle ⟨0, [.field "some"]⟩ (.vac e)]
  dropped := .val

def decOpt : Val (MX M) → Option (Option K)
  | .con "Option" "Some" [.ext (.key k)] => some (some k)
  | .con "Option" "None" [] => some none
  | _ => none

end

/-- `HashbrownMapStorage`. -/
def hashRep {K V : Type} (A : HashMapApi K V) : MapRep (HX A) (hashMap A) where
  ty := "HashbrownMapStorage"
  occTy := "Occupied"
  vacTy := "Vacant"
  key k := .ext (.key k)
  val v := .ext (.val v)
  store s := .struct "HashbrownMapStorage" [("inner", .ext (.table s))]
  addr a := [.field "inner", .at (.addr a)]
  occ e := .handle ⟨0, [.field "inner"]⟩ (.occ e)
  vac e := .handle ⟨0, [.field "inner"]⟩ (.vac e)
  dropped := .val

section
variable {T : Type} (M : SetStorage T)

/-- `BooleanSetStorage`. -/
def boolSetRep : SetRep (SX M) boolSet where
  ty := "BooleanSetStorage"
  key := .bool
  store s := .struct "BooleanSetStorage" [("bits", .u8 s)]

/-- `SingletonSetStorage` for the element type `()`. -/
def unitSetRep : SetRep (SX M) unitSet where
  ty := "SingletonSetStorage"
  key _ := .unit
  store s := .struct "SingletonSetStorage" [("is_set", .bool s)]

/-- `OptionSetStorage`, over the storage `M` of the element type. -/
def optSetRep : SetRep (SX M) (optSet M) where
  ty := "OptionSetStorage"
  key := optV fun k => .ext (.key k)
  store s := .struct "OptionSetStorage" [("some", .ext (.store s.some)), ("none", .bool s.none)]

def decOptSet : Val (SX M) → Option (Option T)
  | .con "Option" "Some" [.ext (.key k)] => some (some k)
  | .con "Option" "None" [] => some none
  | _ => none

end

/-- `HashbrownSetStorage`. -/
def hashSetRep {T : Type} (A : HashMapApi T Unit) : SetRep (HX A) (hashSet A) where
  ty := "HashbrownSetStorage"
  key k := .ext (.key k)
  store s := .struct "HashbrownSetStorage" [("inner", .ext (.table s))]

/-! ## The programs -/

/-- Two files as one program. -/
def Prog.and (a b : Prog) : Prog := ⟨a.fns ++ b.fns, a.consts ++ b.consts, a.derives ++ b.derives⟩

end FixedMap.Rust
