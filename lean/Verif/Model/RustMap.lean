import Verif.Model.RustSem
import Verif.Model.RustProgs

/-!
# What the programs of src/ take from outside

`mapForeign`: the key type `K`, its storage `M`, the value type `V` and the caller's closure, as seen by a map storage. `hashForeign`: the same with `hashbrown::HashMap`
in the place of the storage. `setForeign`, `hashSetForeign`: likewise for sets. They translate between the values of the interpreter and the arguments and results of
the model's functions.
-/

set_option autoImplicit false

namespace FixedMap.Rust

/-- The foreign values of a map storage: keys, values, storages, addresses and entries of the key's storage, its iterators (`m` is the method that returned them; `iter`: in any
state), and an iterator of the caller. -/
inductive MX {K V : Type} (M : MapStorage K V) where
  | key (k : K)
  | val (v : V)
  | store (s : M.S)
  | addr (a : M.Addr)
  | occ (e : M.Occ)
  | vac (e : M.Vac)
  | iter (st : M.iter.I.St)
  | it (m : String) (s : M.S)
  | pairs (l : List (K × V))

section
variable {K V σ : Type} (M : MapStorage K V)

/-- A value, as the interpreter sees it. -/
abbrev vl {M : MapStorage K V} (v : V) : Val (MX M) := .ext (.val v)
abbrev ky {M : MapStorage K V} (k : K) : Val (MX M) := .ext (.key k)

/-- Go on after a function that may contain `unsafe`. -/
def onRes {X α : Type} (r : Res α) (st : St X σ) (k : α → Ans X σ) : Ans X σ :=
  match r with
  | .ok a => k a
  | .panic => .panic st
  | .ub => .ub

/-- A closure of the program as the closure of the model's `retain`: its second argument is a reference to a cell of its own. -/
def closureFn (inv : Val (MX M) → List (Val (MX M)) → St (MX M) σ → Cont (MX M) σ → Ans (MX M) σ) (clo : Val (MX M)) (st : St (MX M) σ) (u : σ) (k : K) (v : V) :
    σ × V × Option Bool :=
  let back (st' : St (MX M) σ) : V := match st'.mem[st.mem.length]? with
    | some (.ext (.val w)) => w
    | _ => v
  match inv clo [ky k, .ref ⟨st.mem.length, []⟩] { mem := st.mem ++ [vl v], user := u, dropped := [] } .ok with
  | .ok w st' => (match w with | .bool b => (st'.user, back st', some b) | _ => (u, v, none))
  | .panic st' => (st'.user, back st', none)
  | .ub => (u, v, none)
  | .stuck => (u, v, none)

/-- Methods of `K::MapStorage<V>`. `c` is `V::clone`, `veq` its `==`. -/
def storeCall (F : Foreign (MX M) σ) (c : V → V) (veq : V → V → Bool) (m : String) (s : M.S) (p : Place (MX M)) (args : List (Val (MX M)))
    (inv : Val (MX M) → List (Val (MX M)) → St (MX M) σ → Cont (MX M) σ → Ans (MX M) σ) (st : St (MX M) σ) (k : Cont (MX M) σ) : Ans (MX M) σ :=
  match m, args with
  | "len", [] => k (.nat (M.len s)) st
  | "is_empty", [] => k (.bool (M.isEmpty s)) st
  | "insert", [.ext (.key key), .ext (.val v)] => orStuck (write F st p (.ext (.store (M.insert s key v).2))) fun st => k (optV vl (M.insert s key v).1) st
  | "contains_key", [.ext (.key key)] => k (.bool (M.containsKey s key)) st
  | "get", [.ext (.key key)] => k (optV (fun v => .shared (vl v)) (M.get s key)) st
  | "get_mut", [.ext (.key key)] => k (optV (fun a => .ref (p.add (.at (.addr a)))) (M.getMut s key)) st
  | "remove", [.ext (.key key)] => orStuck (write F st p (.ext (.store (M.remove s key).2))) fun st => k (optV vl (M.remove s key).1) st
  | "retain", [clo] =>
    let r := M.retain (closureFn M inv clo st) s st.user
    orStuck (write F { st with user := r.st, dropped := st.dropped ++ r.dropped.map .val } p (.ext (.store r.s))) fun st =>
      if r.panicked then .panic st else k .unit st
  | "clear", [] => orStuck (write F { st with dropped := st.dropped ++ (M.clear s).2.map .val } p (.ext (.store (M.clear s).1))) fun st => k .unit st
  | "entry", [.ext (.key key)] => onRes (M.entry s key) st fun r =>
    orStuck (write F st p (.ext (.store r.2))) fun st =>
      match r.1 with
      | .inl e => k (.con "Entry" "Occupied" [.handle p (.occ e)]) st
      | .inr e => k (.con "Entry" "Vacant" [.handle p (.vac e)]) st
  | "clone", [] => k (.ext (.store (M.clone c s))) st
  | "eq", [w] => orStuck (argVal F st w) fun w =>
    match w with
    | .ext (.store t) => k (.bool (M.eq veq s t)) st
    | _ => .stuck
  | "iter", [] => k (.handle p (.iter (M.iter.init s))) st
  | "keys", [] | "values", [] | "iter_mut", [] | "values_mut", [] | "into_iter", [] => k (.handle p (.it m s)) st
  | _, _ => .stuck

/-- Methods of the entries of `K::MapStorage<V>`; `s` is the storage they borrow, at `p`. -/
def entryCall (F : Foreign (MX M) σ) (m : String) (x : MX M) (s : M.S) (p : Place (MX M)) (args : List (Val (MX M))) (st : St (MX M) σ) (k : Cont (MX M) σ) : Ans (MX M) σ :=
  match x, m, args with
  | .occ e, "key", [] => k (ky (M.occKey e)) st
  | .occ e, "get", [] => onRes (M.occGet e s) st fun v => k (.shared (vl v)) st
  | .occ e, "get_mut", [] => onRes (M.occGetMut e s) st fun a => k (.ref (p.add (.at (.addr a)))) st
  | .occ e, "into_mut", [] => onRes (M.occIntoMut e s) st fun a => k (.ref (p.add (.at (.addr a)))) st
  | .occ e, "insert", [.ext (.val v)] => onRes (M.occInsert e s v) st fun r => orStuck (write F st p (.ext (.store r.2))) fun st => k (vl r.1) st
  | .occ e, "remove", [] => onRes (M.occRemove e s) st fun r => orStuck (write F st p (.ext (.store r.2))) fun st => k (vl r.1) st
  | .vac e, "key", [] => k (ky (M.vacKey e)) st
  | .vac e, "insert", [.ext (.val v)] =>
    onRes (M.vacInsert e s v) st fun r => orStuck (write F st p (.ext (.store r.2))) fun st => k (.ref (p.add (.at (.addr r.1)))) st
  | _, _, _ => .stuck

/-- The caller's `FnMut(K', &mut V) -> bool`; `dec` reads its first argument. -/
def userCall {K' : Type} (F : Foreign (MX M) σ) (dec : Val (MX M) → Option K') (f : σ → K' → V → σ × V × Option Bool) (args : List (Val (MX M))) (st : St (MX M) σ)
    (k : Cont (MX M) σ) : Ans (MX M) σ :=
  match args with
  | [a, .ref q] => orStuck (dec a) fun key => orStuck (read F st q) fun v =>
    match v with
    | .ext (.val v) =>
      let r := f st.user key v
      orStuck (write F { st with user := r.1 } q (vl r.2.1)) fun st =>
        match r.2.2 with
        | some b => k (.bool b) st
        | none => .panic st
    | _ => .stuck
  | _ => .stuck

/-- Reading and writing foreign values needs no calls. -/
def mapMem : Foreign (MX M) σ where
  assoc _ _ := none
  call _ _ _ _ _ _ _ := .stuck
  step _ _ := none
  owned _ := false
  readAt x a := match x, a with
    | .store s, .addr a => (M.read s a).map vl
    | _, _ => none
  writeAt x a w := match x, a, w with
    | .store s, .addr a, .ext (.val v) => some (.store (M.write s a v))
    | _, _, _ => none
  eq _ _ := false
  user _ _ _ := .stuck

/-- What a map storage takes from outside. `c`, `veq`: `clone` and `==` of `V`; `dflt`: `K::default()`; `dec`, `f`: the caller's closure. -/
def mapForeign {K' : Type} (c : V → V) (veq : V → V → Bool) (dflt : Val (MX M)) (dec : Val (MX M) → Option K') (f : σ → K' → V → σ × V × Option Bool) : Foreign (MX M) σ where
  assoc path args := match path, args with
    | ["K", "default"], [] => some fun st k => k dflt st
    | ["K", "MapStorage", "empty"], [] => some fun st k => k (.ext (.store M.empty)) st
    | _, _ => none
  call m x p args inv st k :=
    match x with
    | .store s => storeCall M (mapMem M) c veq m s p args inv st k
    | .val v => if m == "clone" then k (vl (c v)) st else .stuck
    | .pairs l => if m == "into_iter" then k (.handle p (.pairs l)) st else .stuck
    | x => orStuck (read (mapMem M) st p) fun v =>
      match v with
      | .ext (.store s) => entryCall M (mapMem M) m x s p args st k
      | _ => .stuck
  step _ x := match x with
    | .iter st => some (optV (fun q => pair (ky q.1) (.shared (vl q.2))) (M.iter.I.next st).1, .iter (M.iter.I.next st).2)
    | .pairs [] => some (optV id none, .pairs [])
    | .pairs (q :: l) => some (optV id (some (pair (ky q.1) (vl q.2))), .pairs l)
    | _ => none
  owned x := match x with
    | .val _ => true
    | _ => false
  readAt := (mapMem (σ := σ) M).readAt
  writeAt := (mapMem (σ := σ) M).writeAt
  eq x y := match x, y with
    | .val v, .val w => veq v w
    | .store s, .store t => M.eq veq s t
    | _, _ => false
  user := userCall M (mapMem M) dec f

end

/-! ## `hashbrown::HashMap` -/

/-- The foreign values of hashbrown.rs. -/
inductive HX {K V : Type} (A : HashMapApi K V) where
  | key (k : K)
  | val (v : V)
  | table (s : A.Table)
  | addr (a : A.Addr)
  | occ (e : A.OccupiedEntry)
  | vac (e : A.VacantEntry)
  | it (m : String) (s : A.Table)

section
variable {K V σ : Type} (A : HashMapApi K V)

def hashMem : Foreign (HX A) σ where
  assoc _ _ := none
  call _ _ _ _ _ _ _ := .stuck
  step _ _ := none
  owned _ := false
  readAt x a := match x, a with
    | .table s, .addr a => (A.read s a).map fun v => .ext (.val v)
    | _, _ => none
  writeAt x a w := match x, a, w with
    | .table s, .addr a, .ext (.val v) => some (.table (A.write s a v))
    | _, _, _ => none
  eq _ _ := false
  user _ _ _ := .stuck

/-- A closure of the program as a closure for `HashMap::retain`: `FnMut(&K, &mut V) -> bool`. -/
def hashClosureFn (inv : Val (HX A) → List (Val (HX A)) → St (HX A) σ → Cont (HX A) σ → Ans (HX A) σ) (clo : Val (HX A)) (st : St (HX A) σ) (u : σ) (k : K) (v : V) :
    σ × V × Option Bool :=
  let back (st' : St (HX A) σ) : V := match st'.mem[st.mem.length]? with
    | some (.ext (.val w)) => w
    | _ => v
  match inv clo [.shared (.ext (.key k)), .ref ⟨st.mem.length, []⟩] { mem := st.mem ++ [.ext (.val v)], user := u, dropped := [] } .ok with
  | .ok w st' => (match w with | .bool b => (st'.user, back st', some b) | _ => (u, v, none))
  | .panic st' => (st'.user, back st', none)
  | .ub => (u, v, none)
  | .stuck => (u, v, none)

/-- Methods of `hashbrown::HashMap`. -/
def tableCall (c : V → V) (veq : V → V → Bool) (m : String) (s : A.Table) (p : Place (HX A)) (args : List (Val (HX A)))
    (inv : Val (HX A) → List (Val (HX A)) → St (HX A) σ → Cont (HX A) σ → Ans (HX A) σ) (st : St (HX A) σ) (k : Cont (HX A) σ) : Ans (HX A) σ :=
  let F := hashMem (σ := σ) A
  match m, args with
  | "len", [] => k (.nat (A.len s)) st
  | "is_empty", [] => k (.bool (A.is_empty s)) st
  | "insert", [.ext (.key key), .ext (.val v)] =>
    orStuck (write F st p (.ext (.table (A.insert s key v).2))) fun st => k (optV (fun v => .ext (.val v)) (A.insert s key v).1) st
  | "retain", [clo] =>
    let r := A.retain (hashClosureFn A inv clo st) s st.user
    orStuck (write F { st with user := r.st, dropped := st.dropped ++ r.dropped.map .val } p (.ext (.table r.s))) fun st =>
      if r.panicked then .panic st else k .unit st
  | "clear", [] => orStuck (write F { st with dropped := st.dropped ++ (A.clear s).2.map .val } p (.ext (.table (A.clear s).1))) fun st => k .unit st
  | "entry", [.ext (.key key)] =>
    orStuck (write F st p (.ext (.table (A.entry s key).2))) fun st =>
      match (A.entry s key).1 with
      | .inl e => k (.con "HashMapEntry" "Occupied" [.handle p (.occ e)]) st
      | .inr e => k (.con "HashMapEntry" "Vacant" [.handle p (.vac e)]) st
  | "clone", [] => k (.ext (.table (A.clone c s))) st
  | "iter", [] | "keys", [] | "values", [] | "iter_mut", [] | "values_mut", [] | "into_iter", [] => k (.handle p (.it m s)) st
  | m, [w] => orStuck (argVal F st w) fun w =>
    match m, w with
    | "contains_key", .ext (.key key) => k (.bool (A.contains_key s key)) st
    | "get", .ext (.key key) => k (optV (fun v => .shared (.ext (.val v))) (A.get s key)) st
    | "get_mut", .ext (.key key) => k (optV (fun a => .ref (p.add (.at (.addr a)))) (A.get_mut s key)) st
    | "remove", .ext (.key key) => orStuck (write F st p (.ext (.table (A.remove s key).2))) fun st => k (optV (fun v => .ext (.val v)) (A.remove s key).1) st
    | "eq", .ext (.table t) => k (.bool (A.eqVia veq (A.iter.I.collect (A.len s) (A.iter.init s)) s t)) st
    | _, _ => .stuck
  | _, _ => .stuck

/-- Methods of hashbrown's entries; `key` returns a reference. -/
def hashEntryCall (m : String) (x : HX A) (s : A.Table) (p : Place (HX A)) (args : List (Val (HX A))) (st : St (HX A) σ) (k : Cont (HX A) σ) : Ans (HX A) σ :=
  let F := hashMem (σ := σ) A
  match x, m, args with
  | .occ e, "key", [] => k (.shared (.ext (.key (A.occ_key e)))) st
  | .occ e, "get", [] => onRes (A.occ_get e s) st fun v => k (.shared (.ext (.val v))) st
  | .occ e, "get_mut", [] => onRes (A.occ_get_mut e s) st fun a => k (.ref (p.add (.at (.addr a)))) st
  | .occ e, "into_mut", [] => onRes (A.occ_into_mut e s) st fun a => k (.ref (p.add (.at (.addr a)))) st
  | .occ e, "insert", [.ext (.val v)] => onRes (A.occ_insert e s v) st fun r => orStuck (write F st p (.ext (.table r.2))) fun st => k (.ext (.val r.1)) st
  | .occ e, "remove", [] => onRes (A.occ_remove e s) st fun r => orStuck (write F st p (.ext (.table r.2))) fun st => k (.ext (.val r.1)) st
  | .vac e, "key", [] => k (.shared (.ext (.key (A.vac_key e)))) st
  | .vac e, "insert", [.ext (.val v)] =>
    onRes (A.vac_insert e s v) st fun r => orStuck (write F st p (.ext (.table r.2))) fun st => k (.ref (p.add (.at (.addr r.1)))) st
  | _, _, _ => .stuck

/-- The caller's `FnMut(K, &mut V) -> bool`. -/
def hashUserCall (f : σ → K → V → σ × V × Option Bool) (args : List (Val (HX A))) (st : St (HX A) σ) (k : Cont (HX A) σ) : Ans (HX A) σ :=
  let F := hashMem (σ := σ) A
  match args with
  | [.ext (.key key), .ref q] => orStuck (read F st q) fun v =>
    match v with
    | .ext (.val v) =>
      let r := f st.user key v
      orStuck (write F { st with user := r.1 } q (.ext (.val r.2.1))) fun st =>
        match r.2.2 with
        | some b => k (.bool b) st
        | none => .panic st
    | _ => .stuck
  | _ => .stuck

/-- What hashbrown.rs takes from outside. -/
def hashForeign (c : V → V) (veq : V → V → Bool) (f : σ → K → V → σ × V × Option Bool) : Foreign (HX A) σ where
  assoc path args := match path, args with
    | ["hashbrown", "HashMap", "new"], [] => some fun st k => k (.ext (.table A.new)) st
    | _, _ => none
  call m x p args inv st k :=
    match x with
    | .table s => tableCall A c veq m s p args inv st k
    | x => orStuck (read (hashMem A) st p) fun v =>
      match v with
      | .ext (.table s) => hashEntryCall A m x s p args st k
      | _ => .stuck
  step _ _ := none
  owned x := match x with
    | .val _ => true
    | _ => false
  readAt := (hashMem (σ := σ) A).readAt
  writeAt := (hashMem (σ := σ) A).writeAt
  eq _ _ := false
  user := hashUserCall A f

end

/-! ## Sets -/

/-- The foreign values of a set storage: elements, storages of the element type, their iterators, and an iterator of the caller. -/
inductive SX {T : Type} (M : SetStorage T) where
  | key (k : T)
  | store (s : M.S)
  | iter (st : M.iter.I.St)
  | into (st : M.intoIter.I.St)
  | elems (l : List T)

section
variable {T σ : Type} (M : SetStorage T)

/-- No addresses inside of sets. -/
def setMem : Foreign (SX M) σ where
  assoc _ _ := none
  call _ _ _ _ _ _ _ := .stuck
  step _ _ := none
  owned _ := false
  readAt _ _ := none
  writeAt _ _ _ := none
  eq _ _ := false
  user _ _ _ := .stuck

def setClosureFn (inv : Val (SX M) → List (Val (SX M)) → St (SX M) σ → Cont (SX M) σ → Ans (SX M) σ) (clo : Val (SX M)) (st : St (SX M) σ) (u : σ) (k : T) : σ × Option Bool :=
  match inv clo [.ext (.key k)] { st with user := u } .ok with
  | .ok w st' => (match w with | .bool b => (st'.user, some b) | _ => (u, none))
  | .panic st' => (st'.user, none)
  | .ub => (u, none)
  | .stuck => (u, none)

/-- Methods of `T::SetStorage`. -/
def setStoreCall (m : String) (s : M.S) (p : Place (SX M)) (args : List (Val (SX M)))
    (inv : Val (SX M) → List (Val (SX M)) → St (SX M) σ → Cont (SX M) σ → Ans (SX M) σ) (st : St (SX M) σ) (k : Cont (SX M) σ) : Ans (SX M) σ :=
  let F := setMem (σ := σ) M
  match m, args with
  | "len", [] => k (.nat (M.len s)) st
  | "is_empty", [] => k (.bool (M.isEmpty s)) st
  | "insert", [.ext (.key key)] => orStuck (write F st p (.ext (.store (M.insert s key).2))) fun st => k (.bool (M.insert s key).1) st
  | "contains", [.ext (.key key)] => k (.bool (M.contains s key)) st
  | "remove", [.ext (.key key)] => orStuck (write F st p (.ext (.store (M.remove s key).2))) fun st => k (.bool (M.remove s key).1) st
  | "retain", [clo] =>
    let r := M.retain (setClosureFn M inv clo st) s st.user
    orStuck (write F { st with user := r.st } p (.ext (.store r.s))) fun st => if r.panicked then .panic st else k .unit st
  | "clear", [] => orStuck (write F st p (.ext (.store (M.clear s)))) fun st => k .unit st
  | "clone", [] => k (.ext (.store (M.clone s))) st
  | "iter", [] => k (.handle p (.iter (M.iter.init s))) st
  | "into_iter", [] => k (.handle p (.into (M.intoIter.init s))) st
  | _, _ => .stuck

/-- The caller's `FnMut(T') -> bool`. -/
def setUserCall {T' X : Type} (dec : Val X → Option T') (f : σ → T' → σ × Option Bool) (args : List (Val X)) (st : St X σ) (k : Cont X σ) : Ans X σ :=
  match args with
  | [a] => orStuck (dec a) fun key =>
    match (f st.user key).2 with
    | some b => k (.bool b) { st with user := (f st.user key).1 }
    | none => .panic { st with user := (f st.user key).1 }
  | _ => .stuck

/-- What a set storage takes from outside. -/
def setForeign {T' : Type} (dflt : Val (SX M)) (dec : Val (SX M) → Option T') (f : σ → T' → σ × Option Bool) : Foreign (SX M) σ where
  assoc path args := match path, args with
    | ["T", "default"], [] => some fun st k => k dflt st
    | ["T", "SetStorage", "empty"], [] => some fun st k => k (.ext (.store M.empty)) st
    | _, _ => none
  call m x p args inv st k :=
    match x with
    | .store s => setStoreCall M m s p args inv st k
    | .elems l => if m == "into_iter" then k (.handle p (.elems l)) st else .stuck
    | _ => .stuck
  step _ x := match x with
    | .iter st => some (optV (fun k => .ext (.key k)) (M.iter.I.next st).1, .iter (M.iter.I.next st).2)
    | .elems [] => some (optV id none, .elems [])
    | .elems (k :: l) => some (optV id (some (.ext (.key k))), .elems l)
    | _ => none
  owned _ := false
  readAt _ _ := none
  writeAt _ _ _ := none
  eq x y := match x, y with
    | .store s, .store t => M.eq s t
    | _, _ => false
  user := setUserCall dec f

end

/-! ## `hashbrown::HashSet`

A thin wrapper of `HashMap<T, ()>` (see `hashSet` in SetStorage.lean). -/

section
variable {T σ : Type} (A : HashMapApi T Unit)

/-- As the closure of the wrapped `HashMap::retain`. -/
def hashSetClosureFn (inv : Val (HX A) → List (Val (HX A)) → St (HX A) σ → Cont (HX A) σ → Ans (HX A) σ) (clo : Val (HX A)) (st : St (HX A) σ) (u : σ) (k : T) : σ × Option Bool :=
  match inv clo [.shared (.ext (.key k))] { st with user := u } .ok with
  | .ok w st' => (match w with | .bool b => (st'.user, some b) | _ => (u, none))
  | .panic st' => (st'.user, none)
  | .ub => (u, none)
  | .stuck => (u, none)

/-- The closure for `HashMap::retain`: the value is `()`. -/
def hashSetFn (inv : Val (HX A) → List (Val (HX A)) → St (HX A) σ → Cont (HX A) σ → Ans (HX A) σ) (clo : Val (HX A)) (st : St (HX A) σ) (u : σ) (k : T) (v : Unit) :
    σ × Unit × Option Bool := ((hashSetClosureFn A inv clo st u k).1, v, (hashSetClosureFn A inv clo st u k).2)

def hashSetCall (m : String) (s : A.Table) (p : Place (HX A)) (args : List (Val (HX A)))
    (inv : Val (HX A) → List (Val (HX A)) → St (HX A) σ → Cont (HX A) σ → Ans (HX A) σ) (st : St (HX A) σ) (k : Cont (HX A) σ) : Ans (HX A) σ :=
  let F := hashMem (σ := σ) A
  match m, args with
  | "len", [] => k (.nat (A.len s)) st
  | "is_empty", [] => k (.bool (A.is_empty s)) st
  | "insert", [.ext (.key key)] => orStuck (write F st p (.ext (.table (A.insert s key ()).2))) fun st => k (.bool (A.insert s key ()).1.isNone) st
  | "retain", [clo] =>
    let r := A.retain (hashSetFn A inv clo st) s st.user
    orStuck (write F { st with user := r.st } p (.ext (.table r.s))) fun st => if r.panicked then .panic st else k .unit st
  | "clear", [] => orStuck (write F st p (.ext (.table (A.clear s).1))) fun st => k .unit st
  | "clone", [] => k (.ext (.table (A.clone id s))) st
  | "iter", [] | "into_iter", [] => k (.handle p (.it m s)) st
  | m, [w] => orStuck (argVal F st w) fun w =>
    match m, w with
    | "contains", .ext (.key key) => k (.bool (A.contains_key s key)) st
    | "remove", .ext (.key key) => orStuck (write F st p (.ext (.table (A.remove s key).2))) fun st => k (.bool (A.remove s key).1.isSome) st
    | "eq", .ext (.table t) =>
      k (.bool (if A.len s ≠ A.len t then false else (A.keys.I.collect (A.len s) (A.keys.init s)).all fun k => A.contains_key t k)) st
    | _, _ => .stuck
  | _, _ => .stuck

/-- What set/storage/hashbrown.rs takes from outside. -/
def hashSetForeign (f : σ → T → σ × Option Bool) : Foreign (HX A) σ where
  assoc path args := match path, args with
    | ["hashbrown", "HashSet", "new"], [] => some fun st k => k (.ext (.table A.new)) st
    | _, _ => none
  call m x p args inv st k :=
    match x with
    | .table s => hashSetCall A m s p args inv st k
    | _ => .stuck
  step _ _ := none
  owned _ := false
  readAt _ _ := none
  writeAt _ _ _ := none
  eq _ _ := false
  user := setUserCall (fun v => match v with | .ext (.key k) => some k | _ => none) f

end

end FixedMap.Rust
