import Verif.Model.RustIter
import Verif.Model.SetApi
import Verif.Model.Text

/-!
# What src/map.rs, src/map/entry.rs, src/set.rs and src/set/intersection.rs take from outside

`mapForeign` and `setForeign` of RustMap.lean, with other closures of the caller, and worlds for operators, `Debug` and serde.
-/

set_option autoImplicit false

namespace FixedMap.Rust

/-! ## Closures -/

section
variable {K V σ : Type} (M : MapStorage K V)

/-- Go on with the result of the caller's function, which may panic. -/
def afterUser {X α : Type} (r : σ × Option α) (enc : α → Val X) (st : St X σ) (k : Cont X σ) : Ans X σ :=
  match r.2 with
  | some a => k (enc a) { st with user := r.1 }
  | none => .panic { st with user := r.1 }

/-- The world of entry.rs: the key's storage and no functions of the caller. -/
def entryForeign : Foreign (MX M) σ := mapForeign (K' := K) M id (fun _ _ => false) .unit (fun _ => none) fun st _ v => (st, v, none)

/-- `FnOnce() -> V` -/
def withForeign (g : σ → σ × Option V) : Foreign (MX M) σ :=
  { entryForeign M with user := fun args st k => match args with
    | [] => afterUser (g st.user) vl st k
    | _ => .stuck }

/-- `FnOnce(K) -> V` -/
def withKeyForeign (g : σ → K → σ × Option V) : Foreign (MX M) σ :=
  { entryForeign M with user := fun args st k => match args with
    | [.ext (.key key)] => afterUser (g st.user key) vl st k
    | _ => .stuck }

/-- `FnOnce(&mut V)`: the new value is written before a panic (`false`) unwinds. To read through a reference that leads nowhere is undefined behaviour. -/
def modifyForeign (g : σ → V → σ × V × Bool) : Foreign (MX M) σ :=
  { entryForeign M with user := fun args st k => match args with
    | [.ref q] =>
      match read (mapMem (σ := σ) M) st q with
      | none => .ub
      | some (.ext (.val v)) =>
        orStuck (write (mapMem M) { st with user := (g st.user v).1 } q (vl (g st.user v).2.1)) fun st' =>
          match (g st.user v).2.2 with
          | true => k .unit st'
          | false => .panic st'
      | some _ => .stuck
    | _ => .stuck }

/-- `V::default` -/
def dfltForeign (g : σ → σ × Option V) : Foreign (MX M) σ :=
  { entryForeign M with assoc := fun path args => match path, args with
    | ["Default", "default"], [] => some fun st k => afterUser (g st.user) vl st k
    | _, _ => none }

end

/-! ## Operators and `Debug` -/

/-- The foreign values of the operators: storages, a formatter, and a `Debug` builder with what has been given to it. -/
inductive OX (S : Type) where
  | store (s : S)
  | iter (s : S)
  | fmt
  | builder (how : String) (of : Option (Val (OX S)))

/-- Storages whose comparisons (`cmp`, by reference), `max`, `min`, `clamp` (`own`, by value) and `hash` are arbitrary functions. -/
def opForeign {S σ : Type} (cmp : String → S → S → Val (OX S)) (own : String → List S → Option S) (hash : S → σ → σ) : Foreign (OX S) σ where
  assoc _ _ := none
  call m x p args _ st k :=
    match x with
    | .store s =>
      match m, args with
      | "hash", [.user] => k .unit { st with user := hash s st.user }
      | "iter", [] => k (.handle p (.iter s)) st
      | m, [.ref q] =>
        match st.mem[q.cell]?, q.path with
        | some (.struct _ [(f, .ext (.store t))]), [.field g] => if f == g then k (cmp m s t) st else .stuck
        | _, _ => .stuck
      | m, [.ext (.store t)] => match own m [s, t] with
        | some r => k (.ext (.store r)) st
        | none => .panic st
      | m, [.ext (.store t), .ext (.store r)] => match own m [s, t, r] with
        | some r => k (.ext (.store r)) st
        | none => .panic st
      | _, _ => .stuck
    | .iter s => match m, args with
      | "clone", [] => k (.handle p (.iter s)) st
      | _, _ => .stuck
    | .fmt => match args with
      | [] => k (.ext (.builder m none)) st
      | _ => .stuck
    | .builder how none => match m, args with
      | "entries", [v] => k (.ext (.builder how (some v))) st
      | _, _ => .stuck
    | .builder how (some v) => match m, args with
      | "finish", [] => k (.con "written" how [v]) st
      | _, _ => .stuck
  step _ _ := none
  owned _ := false
  readAt _ _ := none
  writeAt _ _ _ := none
  eq _ _ := false
  user _ _ _ := .stuck

/-! ## serde -/

section
variable {K V E Out σ : Type}

/-- The foreign values of `Serialize`. -/
inductive ZX (M : MapStorage K V) (Z : MapSerializer K V E Out) where
  | key (k : K)
  | val (v : V)
  | store (s : M.S)
  | iter (st : M.iter.I.St)
  | serializer
  | entries (st : Z.St)
  | out (o : Out)
  | err (e : E)

/-- `Result<T, E>` -/
def resultV {X α : Type} (enc : α → Val X) (err : E → Val X) : Except E α → Val X
  | .ok a => .con "Result" "Ok" [enc a]
  | .error e => .con "Result" "Err" [err e]

/-- No places inside of foreign values. -/
def noMem {X : Type} : Foreign X σ where
  assoc _ _ := none
  call _ _ _ _ _ _ _ := .stuck
  step _ _ := none
  owned _ := false
  readAt _ _ := none
  writeAt _ _ _ := none
  eq _ _ := false
  user _ _ _ := .stuck

/-- What `Serialize for Map` takes from outside: `K::MapStorage<V>` and a serializer. An error leaves the serializer as it is: nobody can use it any more. -/
def serForeign (M : MapStorage K V) (Z : MapSerializer K V E Out) : Foreign (ZX M Z) σ where
  assoc _ _ := none
  call m x p args _ st k :=
    match x, m, args with
    | .store s, "len", [] => k (.nat (M.len s)) st
    | .store s, "iter", [] => k (.handle p (.iter (M.iter.init s))) st
    | .serializer, "serialize_map", [.con "Option" "Some" [.nat n]] => k (resultV (fun z => .ext (.entries z)) (fun e => .ext (.err e)) (Z.serialize_map (some n))) st
    | .serializer, "serialize_map", [.con "Option" "None" []] => k (resultV (fun z => .ext (.entries z)) (fun e => .ext (.err e)) (Z.serialize_map none)) st
    | .entries z, "serialize_entry", [a, b] => orStuck (argVal noMem st a) fun a => orStuck (argVal noMem st b) fun b =>
      match a, b with
      | .ext (.key key), .ext (.val v) => match Z.serialize_entry z key v with
        | .ok z' => orStuck (write noMem st p (.ext (.entries z'))) fun st => k (.con "Result" "Ok" [.unit]) st
        | .error e => k (.con "Result" "Err" [.ext (.err e)]) st
      | _, _ => .stuck
    | .entries z, "end", [] => k (resultV (fun o => .ext (.out o)) (fun e => .ext (.err e)) (Z.finish z)) st
    | _, _, _ => .stuck
  step _ x := match x with
    | .iter st => some (optV (fun q => pair (.ext (.key q.1)) (.shared (.ext (.val q.2)))) (M.iter.I.next st).1, .iter (M.iter.I.next st).2)
    | _ => none
  owned _ := false
  readAt _ _ := none
  writeAt _ _ _ := none
  eq _ _ := false
  user _ _ _ := .stuck

/-- The foreign values of `visit_map`; `calls`: what the calls of `next_entry` will return (then `Ok(None)`). -/
inductive DX (E : Type) (M : MapStorage K V) where
  | key (k : K)
  | val (v : V)
  | store (s : M.S)
  | calls (l : List (Except E (K × V)))
  | err (e : E)

def deForeign (E : Type) (M : MapStorage K V) : Foreign (DX E M) σ where
  assoc path args := match path, args with
    | ["K", "MapStorage", "empty"], [] => some fun st k => k (.ext (.store M.empty)) st
    | _, _ => none
  call m x p args _ st k :=
    match x, m, args with
    | .store s, "insert", [.ext (.key key), .ext (.val v)] =>
      orStuck (write noMem st p (.ext (.store (M.insert s key v).2))) fun st => k (optV (fun v => .ext (.val v)) (M.insert s key v).1) st
    | .calls [], "next_entry", [] => k (.con "Result" "Ok" [optV id none]) st
    | .calls (.ok q :: l), "next_entry", [] =>
      orStuck (write noMem st p (.ext (.calls l))) fun st => k (.con "Result" "Ok" [optV id (some (pair (.ext (.key q.1)) (.ext (.val q.2))))]) st
    | .calls (.error e :: l), "next_entry", [] =>
      orStuck (write noMem st p (.ext (.calls l))) fun st => k (.con "Result" "Err" [.ext (.err e)]) st
    | _, _, _ => .stuck
  step _ _ := none
  owned x := match x with
    | .val _ => true
    | _ => false
  readAt _ _ := none
  writeAt _ _ _ := none
  eq _ _ := false
  user _ _ _ := .stuck

end

section
variable {T E Out σ : Type}

/-- The foreign values of `Serialize for Set`. -/
inductive SZX (M : SetStorage T) (Z : SeqSerializer T E Out) where
  | key (k : T)
  | store (s : M.S)
  | iter (st : M.iter.I.St)
  | serializer
  | elems (st : Z.St)
  | out (o : Out)
  | err (e : E)

def setSerForeign (M : SetStorage T) (Z : SeqSerializer T E Out) : Foreign (SZX M Z) σ where
  assoc _ _ := none
  call m x p args _ st k :=
    match x, m, args with
    | .store s, "len", [] => k (.nat (M.len s)) st
    | .store s, "iter", [] => k (.handle p (.iter (M.iter.init s))) st
    | .serializer, "serialize_seq", [.con "Option" "Some" [.nat n]] => k (resultV (fun z => .ext (.elems z)) (fun e => .ext (.err e)) (Z.serialize_seq (some n))) st
    | .serializer, "serialize_seq", [.con "Option" "None" []] => k (resultV (fun z => .ext (.elems z)) (fun e => .ext (.err e)) (Z.serialize_seq none)) st
    | .elems z, "serialize_element", [a] => orStuck (argVal noMem st a) fun a =>
      match a with
      | .ext (.key key) => match Z.serialize_element z key with
        | .ok z' => orStuck (write noMem st p (.ext (.elems z'))) fun st => k (.con "Result" "Ok" [.unit]) st
        | .error e => k (.con "Result" "Err" [.ext (.err e)]) st
      | _ => .stuck
    | .elems z, "end", [] => k (resultV (fun o => .ext (.out o)) (fun e => .ext (.err e)) (Z.finish z)) st
    | _, _, _ => .stuck
  step _ x := match x with
    | .iter st => some (optV (fun k => .ext (.key k)) (M.iter.I.next st).1, .iter (M.iter.I.next st).2)
    | _ => none
  owned _ := false
  readAt _ _ := none
  writeAt _ _ _ := none
  eq _ _ := false
  user _ _ _ := .stuck

/-- The foreign values of `visit_seq`. -/
inductive SDX (E : Type) (M : SetStorage T) where
  | key (k : T)
  | store (s : M.S)
  | calls (l : List (Except E T))
  | err (e : E)

def setDeForeign (E : Type) (M : SetStorage T) : Foreign (SDX E M) σ where
  assoc path args := match path, args with
    | ["T", "SetStorage", "empty"], [] => some fun st k => k (.ext (.store M.empty)) st
    | _, _ => none
  call m x p args _ st k :=
    match x, m, args with
    | .store s, "insert", [.ext (.key key)] => orStuck (write noMem st p (.ext (.store (M.insert s key).2))) fun st => k (.bool (M.insert s key).1) st
    | .calls [], "next_element", [] => k (.con "Result" "Ok" [optV id none]) st
    | .calls (.ok q :: l), "next_element", [] =>
      orStuck (write noMem st p (.ext (.calls l))) fun st => k (.con "Result" "Ok" [optV id (some (.ext (.key q)))]) st
    | .calls (.error e :: l), "next_element", [] =>
      orStuck (write noMem st p (.ext (.calls l))) fun st => k (.con "Result" "Err" [.ext (.err e)]) st
    | _, _, _ => .stuck
  step _ _ := none
  owned _ := false
  readAt _ _ := none
  writeAt _ _ _ := none
  eq _ _ := false
  user _ _ _ := .stuck

end

/-! ## Intersections -/

section
variable {T σ : Type} (M : SetStorage T)

/-- The foreign values of intersection.rs: elements, storages, iterators of storages, and accumulators of `fold`. -/
inductive IX (B : Type) (M : SetStorage T) where
  | key (k : T)
  | store (s : M.S)
  | iter (st : M.iter.I.St)
  | acc (b : B)

/-- A `size_hint`. -/
def hintV {X : Type} (h : Nat × Option Nat) : Val X := pair (.nat h.1) (optV .nat h.2)

/-- `Iterator::fold` of a foreign iterator over a list of items: the closure of the program is called once for each. -/
def foldCall {B : Type} (inv : Val (IX B M) → List (Val (IX B M)) → St (IX B M) σ → Cont (IX B M) σ → Ans (IX B M) σ) (clo : Val (IX B M)) (k : Cont (IX B M) σ) :
    List T → Val (IX B M) → St (IX B M) σ → Ans (IX B M) σ
  | [], acc, st => k acc st
  | x :: l, acc, st => inv clo [acc, .ext (.key x)] st fun acc st => foldCall inv clo k l acc st

/-- What intersection.rs takes from outside. `items` is what a foreign iterator yields until its end; `f` is the caller's closure. -/
def interForeign {B : Type} (items : M.iter.I.St → List T) (f : B → T → B) : Foreign (IX B M) σ where
  assoc _ _ := none
  call m x p args inv st k :=
    match x, m, args with
    | .store s, "len", [] => k (.nat (M.len s)) st
    | .store s, "iter", [] => k (.handle p (.iter (M.iter.init s))) st
    | .store s, "contains", [.ext (.key key)] => k (.bool (M.contains s key)) st
    | .iter i, "clone", [] => k (.handle p (.iter i)) st
    | .iter i, "size_hint", [] => k (hintV (M.iter.I.sizeHint i)) st
    | .iter i, "fold", [init, clo] => foldCall M inv clo k (items i) init st
    | _, _, _ => .stuck
  step _ x := match x with
    | .iter st => some (optV (fun k => .ext (.key k)) (M.iter.I.next st).1, .iter (M.iter.I.next st).2)
    | _ => none
  owned x := match x with
    | .acc _ => true
    | _ => false
  readAt _ _ := none
  writeAt _ _ _ := none
  eq _ _ := false
  user args st k := match args with
    | [.ext (.acc b), .ext (.key x)] => k (.ext (.acc (f b x))) st
    | _ => .stuck

end

/-! ## `RawStorage` -/

/-- A set storage with `as_raw` and `from_raw`; `S`: storages, `R`: raw values. -/
inductive RX (S R : Type) where
  | store (s : S)
  | raw (r : R)

def rawForeign {S R σ : Type} (asRaw : S → R) (fromRaw : R → S) : Foreign (RX S R) σ where
  assoc path args := match path, args with
    | ["T", "SetStorage", "from_raw"], [.ext (.raw r)] => some fun st k => k (.ext (.store (fromRaw r))) st
    | _, _ => none
  call m x _ args _ st k :=
    match x, m, args with
    | .store s, "as_raw", [] => k (.ext (.raw (asRaw s))) st
    | _, _, _ => .stuck
  step _ _ := none
  owned _ := false
  readAt _ _ := none
  writeAt _ _ _ := none
  eq _ _ := false
  user _ _ _ := .stuck

end FixedMap.Rust
