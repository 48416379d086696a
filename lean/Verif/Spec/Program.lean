import Verif.Spec.History
import Verif.Spec.Collect
import Verif.Spec.Iter
import Verif.Model.IterClonePanic

/-!
# Whole programs: what a client does with several maps and owning iterators

A client has maps and owning iterators in variables, numbered in the order of their creation, and executes statements on them. Its
closures, `V::clone`, `V::default` and the destructor of `V` act on the world `σ` and may panic; the client catches the panic and goes on.
Every movement of a value between the client and the crate is recorded, and so is every start of a destructor: closures, `V::clone` and
destructors are wrapped so that they write to the trace when they are called.
-/

set_option autoImplicit false

namespace FixedMap

/-- What happened to a value. -/
inductive Ev (V : Type) where
  /-- it moved from the client to the crate: an argument, the result of a closure, of `V::clone` or `V::default`, or written
  through `&mut V` -/
  | gave (v : V)
  /-- it moved from the crate to the client: a result, or taken out through `&mut V` -/
  | got (v : V)
  /-- the crate started its destructor -/
  | dropped (v : V)

/-- The values given, received, and dropped. -/
def gaves {V : Type} (t : List (Ev V)) : List V := t.filterMap fun | .gave v => some v | _ => none
def gots {V : Type} (t : List (Ev V)) : List V := t.filterMap fun | .got v => some v | _ => none
def drops {V : Type} (t : List (Ev V)) : List V := t.filterMap fun | .dropped v => some v | _ => none

/-- The crate owns `h`; after the events of the trace it owns `h'`. A value that it hands out or drops is one that it owns at that moment.
Values are counted: a value that occurs twice is owned twice. -/
inductive Ledger {V : Type} : List V → List (Ev V) → List V → Prop where
  | nil {h h' : List V} : h.Perm h' → Ledger h [] h'
  | gave {h h' : List V} {v : V} {t : List (Ev V)} : Ledger (v :: h) t h' → Ledger h (.gave v :: t) h'
  | got {h g h' : List V} {v : V} {t : List (Ev V)} : h.Perm (v :: g) → Ledger g t h' → Ledger h (.got v :: t) h'
  | dropped {h g h' : List V} {v : V} {t : List (Ev V)} : h.Perm (v :: g) → Ledger g t h' → Ledger h (.dropped v :: t) h'

/-- The world together with the trace. -/
abbrev Traced (σ V : Type) : Type := σ × List (Ev V)

section
variable {σ K V : Type}

/-- Add events. -/
def Traced.add (st : Traced σ V) (evs : List (Ev V)) : Traced σ V := (st.1, st.2 ++ evs)

/-- A destructor that writes to the trace. -/
def Dtor.traced (d : Dtor σ V) : Dtor (Traced σ V) V := fun st v => (((d st.1 v).1, st.2 ++ [.dropped v]), (d st.1 v).2)

/-- A `V::clone` that writes to the trace. -/
def Cloner.traced (c : Cloner σ V) : Cloner (Traced σ V) V := fun st v =>
  (((c st.1 v).1, st.2 ++ (c st.1 v).2.toList.map .gave), (c st.1 v).2)

/-- A closure of `retain` that writes to the trace: it may replace the value. -/
def tracedRetain (f : σ → K → V → σ × V × Option Bool) : Traced σ V → K → V → Traced σ V × V × Option Bool := fun st k v =>
  (((f st.1 k v).1, st.2 ++ [.got v, .gave (f st.1 k v).2.1]), (f st.1 k v).2)

/-- The world after a call, as the caller sees it. -/
def Out.world : Out σ K V → σ → σ
  | .closure st _, _ => st
  | .retained st _, _ => st
  | _, st => st
end

/-- One statement. A variable that does not exist or has been moved out of is rejected by the compiler: the statement does nothing. -/
inductive Stmt (σ K V : Type) where
  /-- `let m = Map::new();` -/
  | new
  /-- a call on map `x`; the arguments may depend on the world -/
  | call (x : Nat) (op : σ → Op σ K V)
  /-- `let m = x.clone();` -/
  | clone (x : Nat)
  /-- `x.clone_from(&y);` -/
  | cloneFrom (x y : Nat)
  /-- `let m = Map::from_iter(vec);` -/
  | collect (l : List (K × V))
  /-- `let i = x.into_iter();` -/
  | intoIter (x : Nat)
  /-- `i.next()` or `i.next_back()` -/
  | next (i : Nat) (dir : Dir)
  /-- `let j = i.clone();` -/
  | cloneIter (i : Nat)
  /-- `drop(x)` -/
  | dropMap (x : Nat)
  /-- `drop(i)` -/
  | dropIter (i : Nat)

/-- The state of a client. -/
structure World (H : HashbrownApi) (κ : KeyTy) (σ V : Type) where
  st : Traced σ V
  maps : List (Option (mapStorage H V κ).S)
  iters : List (Option ((mapStorage H V κ).intoIter.I.St))
  /-- values leaked by hashbrown after a panic -/
  leaked : List V
  aborted : Bool
  /-- a call had undefined behaviour, or panicked although no closure, clone or destructor did -/
  bad : Bool

section
variable {H : HashbrownApi} {κ : KeyTy} {σ V : Type}

/-- Before the first statement. -/
def World.start (st : σ) : World H κ σ V := ⟨(st, []), [], [], [], false, false⟩

/-- After a call that dropped values. -/
def World.after (w : World H κ σ V) (x : Drops (Traced σ V) V) : World H κ σ V :=
  { w with st := x.st, leaked := w.leaked ++ x.leaked, aborted := decide (x.fate = .aborted) }

/-- Assign variables. -/
def World.setMap (w : World H κ σ V) (x : Nat) (o : Option (mapStorage H V κ).S) : World H κ σ V := { w with maps := w.maps.set x o }
def World.setIter (w : World H κ σ V) (i : Nat) (o : Option ((mapStorage H V κ).intoIter.I.St)) : World H κ σ V :=
  { w with iters := w.iters.set i o }
/-- New variables. -/
def World.newMap (w : World H κ σ V) (m : (mapStorage H V κ).S) : World H κ σ V := { w with maps := w.maps ++ [some m] }
def World.newIter (w : World H κ σ V) (it : (mapStorage H V κ).intoIter.I.St) : World H κ σ V := { w with iters := w.iters ++ [some it] }

variable (held : HeldApi H V) (hc : TableCloneApi H V) (c : Cloner σ V) (d : Dtor σ V)

/-- After a call on the map in variable `x`: values have moved, and the call drops what it still owns. -/
def World.done (w : World H κ σ V) (x : Nat) : Res (StepOut σ κ.Key V (mapStorage H V κ).S) → World H κ σ V
  | .ok r =>
    (w.after (dropEach d.traced r.dropped
      (.start (r.out.world w.st.1, w.st.2 ++ (r.puts.map .gave ++ r.moved.map .got))))).setMap x (some r.s)
  | _ => { w with bad := true }

/-- A call on the map `m` in variable `x`. -/
def World.call (w : World H κ σ V) (x : Nat) (m : (mapStorage H V κ).S) : Op σ κ.Key V → World H κ σ V
  | .clear =>
    let r := Map.clearD H κ d.traced m w.st
    (w.after r.2).setMap x (some r.1)
  | .retain f st =>
    let r := Map.retainD H κ d.traced (tracedRetain f) m (st, w.st.2)
    { w with st := r.st, maps := w.maps.set x (some r.s) }
  | .modifyOrInsert k v u =>
    -- `map.entry(k).and_modify(|r| old = mem::replace(r, v)).or_insert(u)`; the closure owns `v` and is dropped when
    -- `and_modify` returns, before `u` is moved
    match Map.entry (mapStorage H V κ) m k with
    | .ok p =>
      match Entry.andModify (mapStorage H V κ) p.1 p.2 (fun (st : List V × List V) old => (([], st.2 ++ [old]), v, true)) ([v], []) with
      | .ok (some e, s, owned, old) =>
        let y := dropEach d.traced owned (.start (w.st.add (.gave v :: old.map .got)))
        if y.fate = .normal then
          match Entry.orInsert (mapStorage H V κ) e s u with
          | .ok r => (w.after (dropEach d.traced r.2.2 { y with st := y.st.add [.gave u] })).setMap x (some r.2.1)
          | _ => { w with bad := true }
        else (w.after y).setMap x (some s)
      | _ => { w with bad := true }
    | _ => { w with bad := true }
  | op => w.done d x (apiStep (mapStorage H V κ) m op)

/-- One statement. -/
def World.step (w : World H κ σ V) : Stmt σ κ.Key V → World H κ σ V
  | .new => w.newMap (Map.new _)
  | .call x op =>
    match w.maps[x]? with
    | some (some m) => w.call d x m (op w.st.1)
    | _ => w
  | .clone x =>
    match w.maps[x]? with
    | some (some m) =>
      match Map.cloneD H hc κ c.traced d.traced m w.st with
      | .ok st m' => { w with st := st }.newMap m'
      | .panicked x => w.after x
    | _ => w
  | .cloneFrom x y =>
    match w.maps[x]?, w.maps[y]? with
    | some (some m), some (some m') =>
      if x = y then w
      else
        let r := Map.cloneFromD H hc κ c.traced d.traced m m' w.st
        (w.after r.2).setMap x (some r.1)
    | _, _ => w
  | .collect l =>
    match Map.collectFrom H d.traced.beside κ vecNext (vecDrop d.traced) (l.length + 1) (w.st.add (l.map fun p : κ.Key × V => .gave p.2), l) with
    | some (.ok m, x) => (w.after ⟨x.st.1, x.fate, x.dropped, x.leaked⟩).newMap m
    | some (_, x) => w.after ⟨x.st.1, x.fate, x.dropped, x.leaked⟩
    | none => { w with bad := true }
  | .intoIter x =>
    match w.maps[x]? with
    | some (some m) => (w.setMap x none).newIter ((Map.intoIter (mapStorage H V κ)).init m)
    | _ => w
  | .next i dir =>
    match w.iters[i]? with
    | some (some it) =>
      match (Map.intoIter (mapStorage H V κ)).I.step dir it with
      | some (o, it') => { w with st := w.st.add (o.toList.map fun p : κ.Key × V => .got p.2) }.setIter i (some it')
      | none => w
    | _ => w
  | .cloneIter i =>
    match w.iters[i]?, κ.cloneIntoIterD H held c.traced d.traced with
    | some (some it), some f =>
      match f it w.st with
      | .ok st it' => { w with st := st }.newIter it'
      | .panicked x => w.after x
    | _, _ => w
  | .dropMap x =>
    match w.maps[x]? with
    | some (some m) => (w.after (Map.dropD H κ d.traced m w.st)).setMap x none
    | _ => w
  | .dropIter i =>
    match w.iters[i]? with
    | some (some it) => (w.after (Map.dropIntoIter H held κ d.traced it w.st)).setIter i none
    | _ => w

/-- A program; nothing is executed after an abort. -/
def World.run (w : World H κ σ V) : List (Stmt σ κ.Key V) → World H κ σ V
  | [] => w
  | s :: p => if w.aborted then w else World.run (w.step held hc c d s) p
end

/-- The values in all variables that are in use, where `P t vs` says that `vs` are the values in `t`. -/
inductive InAll {T V : Type} (P : T → List V → Prop) : List (Option T) → List V → Prop where
  | nil : InAll P [] []
  | moved {l : List (Option T)} {vs : List V} : InAll P l vs → InAll P (none :: l) vs
  | live {t : T} {us : List V} {l : List (Option T)} {vs : List V} : P t us → InAll P l vs → InAll P (some t :: l) (us ++ vs)

/-- The values an owning iterator has yet to hand out. -/
def Remaining {H : HashbrownApi} {κ : KeyTy} {V : Type} (it : (mapStorage H V κ).intoIter.I.St) (vs : List V) : Prop :=
  ∃ N, ∀ fuel, N ≤ fuel → ((mapStorage H V κ).intoIter.I.drain fuel it).map (List.map Prod.snd) = some vs

end FixedMap
