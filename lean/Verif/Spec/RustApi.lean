import Verif.Spec.RustSource
import Verif.Model.RustApi

/-!
# "src/map.rs, src/map/entry.rs, src/set.rs and src/set/intersection.rs do what the model says"
-/

set_option autoImplicit false

namespace FixedMap.Rust

/-! ## `Map` -/

/-- `Map { storage }` -/
def mapV {X : Type} (s : Val X) : Val X := .struct "Map" [("storage", s)]

/-- `Set { storage }` -/
def setV {X : Type} (s : Val X) : Val X := .struct "Set" [("storage", s)]

section
variable {K V σ : Type} (M : MapStorage K V)

/-- How a map is represented: a struct with the key's storage. -/
def apiRep : MapRep (MX M) M where
  ty := "Map"
  occTy := ""
  vacTy := ""
  key := ky
  val := vl
  store s := mapV (.ext (.store s))
  addr a := [.field "storage", .at (.addr a)]
  occ e := .handle ⟨0, [.field "storage"]⟩ (.occ e)
  vac e := .handle ⟨0, [.field "storage"]⟩ (.vac e)
  dropped := .val

def decKey : Val (MX M) → Option K
  | .ext (.key k) => some k
  | _ => none

/-- An entry of the map in the first cell. -/
def entryV (e : Entry.T M) : Val (MX M) :=
  match e with
  | .inl e => .con "Entry" "Occupied" [(apiRep M).occ e]
  | .inr e => .con "Entry" "Vacant" [(apiRep M).vac e]

/-- `Map`: what it has in common with storages (`MapFns`), and construction. -/
structure MapApiText (P : Prog) (fuel : Nat) (F : Foreign (MX M) σ) (c : V → V) (veq : V → V → Bool) (f : σ → K → V → σ × V × Option Bool) : Prop
    extends MapFns P fuel M (apiRep M) F (mapIters M) c veq f where
  new : ∀ (u : σ), obs (run F P fuel "Map" "" "new" [] ⟨[], u, []⟩) = .ok ((apiRep M).store (Map.new M)) none u []
  default : ∀ (u : σ), obs (run F P fuel "Map" "Default" "default" [] ⟨[], u, []⟩) = .ok ((apiRep M).store (Map.default M)) none u []
  /-- `(&map).into_iter()` -/
  ref_into_iter : ∀ (u : σ) (s : M.S),
    ∃ w, obs (run F P fuel "&Map" "IntoIterator" "into_iter" [.ref self0] ⟨[(apiRep M).store s], u, []⟩) = .ok w (some ((apiRep M).store s)) u [] ∧
      SameIter (fun p => pair (ky p.1) (.shared (vl p.2))) (den F P fuel u (mapIters M) 9 w) (Map.refIntoIter M).I ((Map.refIntoIter M).init s)
  /-- `(&mut map).into_iter()` -/
  mut_into_iter : ∀ (u : σ) (s : M.S),
    ∃ w, obs (run F P fuel "&mut Map" "IntoIterator" "into_iter" [.ref self0] ⟨[(apiRep M).store s], u, []⟩) = .ok w (some ((apiRep M).store s)) u [] ∧
      SameIter (fun p => pair (ky p.1) (.ref ⟨0, (apiRep M).addr p.2⟩)) (den F P fuel u (mapIters M) 9 w) (Map.mutIntoIter M).I ((Map.mutIntoIter M).init s)
  /-- From any iterator; `l` are the pairs that it yields. -/
  from_iter : ∀ (u : σ) (l : List (K × V)),
    obs (run F P (fuel + l.length) "Map" "FromIterator" "from_iter" [.handle ⟨0, []⟩ (.pairs l)] ⟨[], u, []⟩) =
      .ok ((apiRep M).store (Map.fromIter M l).1) none u ((Map.fromIter M l).2.map .val)

/-! ## `Entry` -/

/-- What a function of the model that may contain `unsafe` should look like from outside, if it calls functions of the caller. -/
def Meets {X α : Type} (o : Obs X σ) (r : Res α) (k : α → Obs X σ) : Prop :=
  match r with
  | .ok a => o = k a
  | .panic => ∃ w u d, o = .panic w u d
  | .ub => o = .ub

/-- A function of `Entry`; the map is in the first cell. -/
def entryFn (P : Prog) (fuel : Nat) (F : Foreign (MX M) σ) (m : String) (s : M.S) (e : Entry.T M) (args : List (Val (MX M))) (u : σ) : Obs (MX M) σ :=
  obs (run F P fuel "Entry" "" m (entryV M e :: args) ⟨[(apiRep M).store s], u, []⟩)

/-- A reference into the map, or a panic of the caller's function. -/
def refOrPanic (r : Option M.Addr × M.S × σ) : Obs (MX M) σ :=
  match r.1 with
  | some a => .ok (.ref ⟨0, (apiRep M).addr a⟩) (some ((apiRep M).store r.2.1)) r.2.2 []
  | none => .panic (some ((apiRep M).store r.2.1)) r.2.2 []

structure EntryText (P : Prog) (fuel : Nat) (σ : Type) : Prop where
  /-- An unused `default` is dropped. -/
  or_insert : ∀ (u : σ) (s : M.S) (e : Entry.T M) (v : V),
    Meets (entryFn M P fuel (entryForeign M) "or_insert" s e [vl v] u) (Entry.orInsert M e s v) fun r =>
      .ok (.ref ⟨0, (apiRep M).addr r.1⟩) (some ((apiRep M).store r.2.1)) u (r.2.2.map .val)
  or_insert_with : ∀ (u : σ) (s : M.S) (e : Entry.T M) (g : σ → σ × Option V),
    Meets (entryFn M P fuel (withForeign M g) "or_insert_with" s e [.user] u) (Entry.orInsertWith M e s g u) (refOrPanic M)
  or_insert_with_key : ∀ (u : σ) (s : M.S) (e : Entry.T M) (g : σ → K → σ × Option V),
    Meets (entryFn M P fuel (withKeyForeign M g) "or_insert_with_key" s e [.user] u) (Entry.orInsertWithKey M e s g u) (refOrPanic M)
  key : ∀ (u : σ) (s : M.S) (e : Entry.T M),
    obs (run (entryForeign M) P fuel "Entry" "" "key" [.ref ⟨1, []⟩] ⟨[(apiRep M).store s, entryV M e], u, []⟩) = .ok (ky (Entry.key M e)) (some ((apiRep M).store s)) u []
  and_modify : ∀ (u : σ) (s : M.S) (e : Entry.T M) (g : σ → V → σ × V × Bool),
    Meets (entryFn M P fuel (modifyForeign M g) "and_modify" s e [.user] u) (Entry.andModify M e s g u) fun r =>
      match r.1 with
      | some e => .ok (entryV M e) (some ((apiRep M).store r.2.1)) r.2.2 []
      | none => .panic (some ((apiRep M).store r.2.1)) r.2.2 []
  or_default : ∀ (u : σ) (s : M.S) (e : Entry.T M) (g : σ → σ × Option V),
    Meets (entryFn M P fuel (dfltForeign M g) "or_default" s e [] u) (Entry.orDefault M e s g u) (refOrPanic M)

end

/-! ## serde, for maps -/

section
variable {K V E Out σ : Type} (M : MapStorage K V)

/-- The serializer writes what `Map.serialize` says, whenever the iterator of the storage ends. -/
def SerializeText (P : Prog) (fuel : Nat) (Z : MapSerializer K V E Out) (σ : Type) : Prop :=
  ∀ (u : σ) (s : M.S) (n : Nat) (r : Except E Out), Map.serialize M Z n s = some r →
    obs (run (serForeign M Z) P (fuel + n) "Map" "Serialize" "serialize" [.ref self0, .ext .serializer] ⟨[mapV (.ext (.store s))], u, []⟩) =
      .ok (resultV (fun o => .ext (.out o)) (fun e => .ext (.err e)) r) (some (mapV (.ext (.store s)))) u []

/-- `visit_map` builds the map of `Map.visitMap` and drops the values that it says. -/
def VisitMapText (P : Prog) (fuel : Nat) (E σ : Type) : Prop :=
  ∀ (u : σ) (l : List (Except E (K × V))),
    match Map.visitMap M l with
    | .ok r => obs (run (deForeign E M) P (fuel + l.length) "MapVisitor" "Visitor" "visit_map" [.unit, .ext (.calls l)] ⟨[], u, []⟩) =
        .ok (.con "Result" "Ok" [mapV (.ext (.store r.1))]) none u (r.2.map .val)
    | .error e => ∃ d, obs (run (deForeign E M) P (fuel + l.length) "MapVisitor" "Visitor" "visit_map" [.unit, .ext (.calls l)] ⟨[], u, []⟩) =
        .ok (.con "Result" "Err" [.ext (.err e)]) none u d

end

/-! ## `Set` -/

section
variable {T σ : Type} (M : SetStorage T)

def setRep : SetRep (SX M) M where
  ty := "Set"
  key k := .ext (.key k)
  store s := setV (.ext (.store s))

def decElem : Val (SX M) → Option T
  | .ext (.key k) => some k
  | _ => none

/-- `Intersection { iter, other }`; the set `other` is in cell `c`. -/
def interV {X : Type} (it : Place X) (x : X) (c : Nat) : Val X := .struct "Intersection" [("iter", .handle it x), ("other", .ref ⟨c, []⟩)]

structure SetApiText (P : Prog) (fuel : Nat) (F : Foreign (SX M) σ) (f : σ → T → σ × Option Bool) : Prop extends SetFns P fuel M (setRep M) F (setIters M) f where
  new : ∀ (u : σ), obs (run F P fuel "Set" "" "new" [] ⟨[], u, []⟩) = .ok ((setRep M).store (FSet.new M)) none u []
  default : ∀ (u : σ), obs (run F P fuel "Set" "Default" "default" [] ⟨[], u, []⟩) = .ok ((setRep M).store (FSet.default M)) none u []
  ref_into_iter : ∀ (u : σ) (s : M.S),
    ∃ w, obs (run F P fuel "&Set" "IntoIterator" "into_iter" [.ref self0] ⟨[(setRep M).store s], u, []⟩) = .ok w (some ((setRep M).store s)) u [] ∧
      SameIter (setRep M).key (den F P fuel u (setIters M) 9 w) (FSet.refIntoIter M).I ((FSet.refIntoIter M).init s)
  from_iter : ∀ (u : σ) (l : List T),
    obs (run F P (fuel + l.length) "Set" "FromIterator" "from_iter" [.handle ⟨0, []⟩ (.elems l)] ⟨[], u, []⟩) = .ok ((setRep M).store (FSet.fromIter M l)) none u []
  /-- `Set::from([..])` -/
  «from» : ∀ (u : σ) {n : Nat} (a : Vector T n),
    obs (run F P (fuel + n) "Set" "From" "from" [.handle ⟨0, []⟩ (.elems a.toList)] ⟨[], u, []⟩) = .ok ((setRep M).store (FSet.fromArray M a)) none u []
  /-- `a.intersection(&b)`: which of the sets is iterated over, and which one is asked. -/
  intersection : ∀ (u : σ) (a b : M.S),
    meth F P fuel "intersection" ((setRep M).store a) [(setRep M).store b] [.ref ⟨1, []⟩] u =
      .ok (if FSet.len M a ≤ FSet.len M b then interV ⟨0, [.field "storage"]⟩ (.iter (M.iter.init a)) 1 else interV ⟨1, [.field "storage"]⟩ (.iter (M.iter.init b)) 0)
        (some ((setRep M).store a)) u []

def SetSerializeText {E Out : Type} (P : Prog) (fuel : Nat) (Z : SeqSerializer T E Out) (σ : Type) : Prop :=
  ∀ (u : σ) (s : M.S) (n : Nat) (r : Except E Out), FSet.serialize M Z n s = some r →
    obs (run (setSerForeign M Z) P (fuel + n) "Set" "Serialize" "serialize" [.ref self0, .ext .serializer] ⟨[setV (.ext (.store s))], u, []⟩) =
      .ok (resultV (fun o => .ext (.out o)) (fun e => .ext (.err e)) r) (some (setV (.ext (.store s)))) u []

def VisitSeqText (P : Prog) (fuel : Nat) (E σ : Type) : Prop :=
  ∀ (u : σ) (l : List (Except E T)),
    obs (run (setDeForeign E M) P (fuel + l.length) "SeqVisitor" "Visitor" "visit_seq" [.unit, .ext (.calls l)] ⟨[], u, []⟩) =
      .ok (resultV (fun s => setV (.ext (.store s))) (fun e => .ext (.err e)) (FSet.visitSeq M l)) none u []

/-! ## `Intersection` -/

variable {B : Type}

/-- An intersection whose `other` is in the second cell. -/
def isectV (st : Intersection M) : Val (IX B M) := interV ⟨2, []⟩ (.iter st.iter) 1

/-- A function of a trait for `Intersection`; it is in the first cell, the set `other` in the second. -/
def isectFn (P : Prog) (fuel : Nat) (F : Foreign (IX B M) σ) (tr m : String) (byRef : Bool) (st : Intersection M) (args : List (Val (IX B M))) (u : σ) : Obs (IX B M) σ :=
  obs (run F P fuel "Intersection" tr m ((if byRef then .ref ⟨0, []⟩ else isectV M st) :: args) ⟨[isectV M st, setV (.ext (.store st.other))], u, []⟩)

structure IntersectionText (P : Prog) (fuel : Nat) (items : M.iter.I.St → List T) (f : B → T → B) (σ : Type) : Prop where
  clone : ∀ (u : σ) (st : Intersection M),
    isectFn M P fuel (interForeign M items f) "Clone" "clone" true st [] u = .ok (isectV M st) (some (isectV M st)) u []
  /-- Whenever the loop of the model ends, so does that of the program, with the same result. -/
  next : ∀ (u : σ) (st : Intersection M) (n : Nat) (r : Option T × Intersection M), Intersection.next M n st = some r →
    isectFn M P (fuel + n) (interForeign M items f) "Iterator" "next" true st [] u = .ok (optV (fun x => .ext (.key x)) r.1) (some (isectV M r.2)) u [] ∧ r.2.other = st.other
  /-- The program writes its `0` as a literal, see `natOf`. -/
  size_hint : ∀ (u : σ) (st : Intersection M),
    ∃ w, isectFn M P fuel (interForeign M items f) "Iterator" "size_hint" true st [] u = .ok w (some (isectV M st)) u [] ∧ hintOf w = Intersection.sizeHint M st
  /-- If `items` is what the iterator yields. -/
  fold : ∀ (u : σ) (st : Intersection M) (b : B) (n : Nat) (l : List T), M.iter.I.drain n st.iter = some l → items st.iter = l →
    ∃ b', Intersection.fold M n st b f = some b' ∧
      isectFn M P fuel (interForeign M items f) "Iterator" "fold" false st [.ext (.acc b), .user] u = .ok (.ext (.acc b')) (some (isectV M st)) u []

end

/-! ## Operators, `Debug`, raw values

Any functions may be the storage's: those of the wrapper are the same. -/

section
variable {S σ : Type}

/-- `wrap` is `mapV` or `setV`, `ty` the name of the type, `how` the builder for `Debug`. -/
structure OpText (P : Prog) (fuel : Nat) (wrap : Val (OX S) → Val (OX S)) (ty how : String) (cmp : String → S → S → Val (OX S)) (own : String → List S → Option S) (hash : S → σ → σ) :
    Prop where
  /-- `a.m(&b)`: `partial_cmp` and the operators. -/
  partial_ord : ∀ (u : σ) (a b : S), ∀ m ∈ ["partial_cmp", "lt", "le", "gt", "ge"],
    obs (run (opForeign cmp own hash) P fuel ty "PartialOrd" m [.ref ⟨0, []⟩, .ref ⟨1, []⟩] ⟨[wrap (.ext (.store a)), wrap (.ext (.store b))], u, []⟩) =
      .ok (cmp m a b) (some (wrap (.ext (.store a)))) u []
  ord : ∀ (u : σ) (a b : S),
    obs (run (opForeign cmp own hash) P fuel ty "Ord" "cmp" [.ref ⟨0, []⟩, .ref ⟨1, []⟩] ⟨[wrap (.ext (.store a)), wrap (.ext (.store b))], u, []⟩) =
      .ok (cmp "cmp" a b) (some (wrap (.ext (.store a)))) u []
  /-- `a.max(b)` and `a.min(b)`. -/
  max_min : ∀ (u : σ) (a b : S), ∀ m ∈ ["max", "min"],
    obs (run (opForeign cmp own hash) P fuel ty "Ord" m [wrap (.ext (.store a)), wrap (.ext (.store b))] ⟨[.unit], u, []⟩) =
      match own m [a, b] with
      | some r => .ok (wrap (.ext (.store r))) (some .unit) u []
      | none => .panic (some .unit) u []
  clamp : ∀ (u : σ) (a lo hi : S),
    obs (run (opForeign cmp own hash) P fuel ty "Ord" "clamp" [wrap (.ext (.store a)), wrap (.ext (.store lo)), wrap (.ext (.store hi))] ⟨[.unit], u, []⟩) =
      match own "clamp" [a, lo, hi] with
      | some r => .ok (wrap (.ext (.store r))) (some .unit) u []
      | none => .panic (some .unit) u []
  hashed : ∀ (u : σ) (a : S),
    obs (run (opForeign cmp own hash) P fuel ty "Hash" "hash" [.ref ⟨0, []⟩, .user] ⟨[wrap (.ext (.store a))], u, []⟩) = .ok .unit (some (wrap (.ext (.store a)))) (hash a u) []
  /-- `f.debug_…().entries(iter).finish()` with the storage's `iter`. -/
  fmt : ∀ (u : σ) (a : S),
    obs (run (opForeign cmp own hash) P fuel ty "Debug" "fmt" [.ref ⟨0, []⟩, .ext .fmt] ⟨[wrap (.ext (.store a))], u, []⟩) =
      .ok (.con "written" how [.handle ⟨0, [.field "storage"]⟩ (.iter a)]) (some (wrap (.ext (.store a)))) u []

/-- `Debug for Intersection`: a list of what a clone yields. -/
def IsectDebugText (P : Prog) (fuel : Nat) (cmp : String → S → S → Val (OX S)) (own : String → List S → Option S) (hash : S → σ → σ) : Prop :=
  ∀ (u : σ) (a b : S) (c : Nat),
    obs (run (opForeign cmp own hash) P fuel "Intersection" "Debug" "fmt" [.ref ⟨0, []⟩, .ext .fmt] ⟨[interV ⟨c, []⟩ (.iter a) 1, setV (.ext (.store b))], u, []⟩) =
      .ok (.con "written" "debug_list" [interV ⟨c, []⟩ (.iter a) 1]) (some (interV ⟨c, []⟩ (.iter a) 1)) u []

/-- `as_raw` and `from_raw` are those of the storage. -/
structure RawText {R : Type} (P : Prog) (fuel : Nat) (asRaw : S → R) (fromRaw : R → S) (σ : Type) : Prop where
  as_raw : ∀ (u : σ) (s : S),
    obs (run (rawForeign asRaw fromRaw) P fuel "Set" "" "as_raw" [.ref ⟨0, []⟩] ⟨[setV (.ext (.store s))], u, []⟩) = .ok (.ext (.raw (asRaw s))) (some (setV (.ext (.store s)))) u []
  from_raw : ∀ (u : σ) (r : R),
    obs (run (rawForeign asRaw fromRaw) P fuel "Set" "" "from_raw" [.ext (.raw r)] ⟨[], u, []⟩) = .ok (setV (.ext (.store (fromRaw r)))) none u []

end

end FixedMap.Rust
