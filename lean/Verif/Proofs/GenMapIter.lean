import Verif.Proofs.GenIter
import Verif.Proofs.GenMap
import Verif.Spec.Gen

/-!
# Each generated iterator simulates the variant-by-variant iterator
-/

set_option autoImplicit false
set_option linter.unusedSimpArgs false

namespace FixedMap.Gen

variable {H : HashbrownApi} {V : Type}

/-- The token streams of the iterator `q` of a map storage. -/
def mapPiece (q : MapIt) : Piece :=
  ⟨mapIterDecl q, mapIterInit q, mapIterArm .next q, mapIterArm .nextBack q, mapIterBound q⟩

theorem mapPiece_ok (q : MapIt) : (mapPiece q).Ok := by
  constructor <;> intro f <;> rcases f with ⟨i, n, x, _ | κ⟩ <;> cases q <;> first | rfl | exact ⟨rfl, rfl⟩

/-- The token streams of the iterator `q` of a set storage. -/
def setPiece (q : SetIt) : Piece :=
  ⟨setIterDecl q, setIterInit q, setIterArm .next, setIterArm .nextBack, setIterBound q⟩

theorem setPiece_ok (q : SetIt) : (setPiece q).Ok := by
  constructor <;> intro f <;> rcases f with ⟨i, n, x, _ | κ⟩ <;> cases q <;> first | rfl | exact ⟨rfl, rfl⟩

theorem arm_aux {α β X : Type} {cell : ICell H V} {c : X → ICell H V} (o : Option α × X) (item : α → Item H V)
    (g : α → β) (out : β → Out H V) (a : IterArm) (h : a.fn.run cell = some (o.1.map item, c o.2))
    (hb : ∀ x, ((a.pat.bind (item x)).bind fun env => a.ret.eval env) = some (out (g x))) :
    a.on cell = some ((o.1.map g).map out, c o.2) := by
  rcases o with ⟨_ | x, st⟩
  · simp [IterArm.on, h]
  · have := hb x
    simp only [IterArm.on, h, Option.bind_some, Option.map_some]
    cases hp : a.pat.bind (item x) with
    | none => simp [hp] at this
    | some env => simp only [hp, Option.bind_some] at this; simp [this]

theorem map_some_of {α β : Type} {o : Option α} {a : α} (f : α → β) (h : o = some a) : o.map f = some (f a) := by
  rw [h]; rfl

theorem Head.unmap {P : Piece} {S α : Type} {i : Nat} {v : Variant} {cell : S → Cell H V} {it : IterOf S α}
    {out : α → Out H V} {hrep : it.I.St → ICell H V} (h : Head P i v cell (it.map id) out hrep) :
    Head P i v cell it out hrep where
  ty := h.ty
  init := h.init
  next st := (h.next st).trans (by show some (((it.I.next st).1.map id).map out, _) = _; rw [Option.map_id]; rfl)
  nextBack nb hnb st := (h.nextBack _ (map_some_of _ hnb) st).trans (by
    show some (((nb st).1.map id).map out, _) = _; rw [Option.map_id]; rfl)
  bound := by rw [← h.bound]; simp [IterOf.map, IterImpl.map]

/-- A unit variant in `iter`. -/
theorem head_iter_slot {α β : Type} (i : Nat) (x : String) (r : α → Ref H V) (p : Option V → Option α)
    (hp : ∀ o, o.map Ref.val = (p o).map r)
    (g : α → β) (out : β → Out H V)
    (hout : ∀ a, (mapIterArm .next .iter (fieldAt i ⟨x, none⟩)).ret.eval [("value", IVal.ref (r a))] = some (out (g a))) :
    Head (mapPiece .iter) i ⟨x, none⟩ (fun o : Option V => .slot o) ((IterOf.option p).map g) out
      (fun o => .opt (o.map r)) where
  ty _ := rfl
  init S o h := by
    have := hp o
    simp [mapPiece, mapIterInit, fieldAt, IterInit.run, h, IterOf.map, IterOf.option, this]
  next st := arm_aux (c := fun o : Option α => .opt (o.map r)) (st, none) (fun a => .ref (r a)) g out _
    (by cases st <;> rfl) hout
  nextBack nb h st := by
    cases h
    exact arm_aux (c := fun o : Option α => .opt (o.map r)) (st, none) (fun a => .ref (r a)) g out _
      (by cases st <;> rfl) hout
  bound := rfl

/-- A unit variant in `values`. -/
theorem head_values_slot {α β : Type} (i : Nat) (x : String) (r : α → Ref H V) (p : Option V → Option α)
    (hp : ∀ o, o.map Ref.val = (p o).map r)
    (g : α → β) (out : β → Out H V)
    (hout : ∀ a, (mapIterArm .next .values (fieldAt i ⟨x, none⟩)).ret.eval [("value", IVal.ref (r a))] = some (out (g a))) :
    Head (mapPiece .values) i ⟨x, none⟩ (fun o : Option V => .slot o) ((IterOf.option p).map g) out
      (fun o => .opt (o.map r)) where
  ty _ := rfl
  init S o h := by
    have := hp o
    simp [mapPiece, mapIterInit, fieldAt, IterInit.run, h, IterOf.map, IterOf.option, this]
  next st := arm_aux (c := fun o : Option α => .opt (o.map r)) (st, none) (fun a => .ref (r a)) g out _
    (by cases st <;> rfl) hout
  nextBack nb h st := by
    cases h
    exact arm_aux (c := fun o : Option α => .opt (o.map r)) (st, none) (fun a => .ref (r a)) g out _
      (by cases st <;> rfl) hout
  bound := rfl

/-- A unit variant in `iterMut`. -/
theorem head_iterMut_slot {α β : Type} (i : Nat) (x : String) (r : α → Ref H V) (p : Option V → Option α)
    (hp : ∀ o, o.map (fun _ => Ref.addr (.slot (fieldName i))) = (p o).map r)
    (g : α → β) (out : β → Out H V)
    (hout : ∀ a, (mapIterArm .next .iterMut (fieldAt i ⟨x, none⟩)).ret.eval [("value", IVal.ref (r a))] = some (out (g a))) :
    Head (mapPiece .iterMut) i ⟨x, none⟩ (fun o : Option V => .slot o) ((IterOf.option p).map g) out
      (fun o => .opt (o.map r)) where
  ty _ := rfl
  init S o h := by
    have := hp o
    simp [mapPiece, mapIterInit, fieldAt, IterInit.run, h, IterOf.map, IterOf.option, this]
  next st := arm_aux (c := fun o : Option α => .opt (o.map r)) (st, none) (fun a => .ref (r a)) g out _
    (by cases st <;> rfl) hout
  nextBack nb h st := by
    cases h
    exact arm_aux (c := fun o : Option α => .opt (o.map r)) (st, none) (fun a => .ref (r a)) g out _
      (by cases st <;> rfl) hout
  bound := rfl

/-- A unit variant in `valuesMut`. -/
theorem head_valuesMut_slot {α β : Type} (i : Nat) (x : String) (r : α → Ref H V) (p : Option V → Option α)
    (hp : ∀ o, o.map (fun _ => Ref.addr (.slot (fieldName i))) = (p o).map r)
    (g : α → β) (out : β → Out H V)
    (hout : ∀ a, (mapIterArm .next .valuesMut (fieldAt i ⟨x, none⟩)).ret.eval [("value", IVal.ref (r a))] = some (out (g a))) :
    Head (mapPiece .valuesMut) i ⟨x, none⟩ (fun o : Option V => .slot o) ((IterOf.option p).map g) out
      (fun o => .opt (o.map r)) where
  ty _ := rfl
  init S o h := by
    have := hp o
    simp [mapPiece, mapIterInit, fieldAt, IterInit.run, h, IterOf.map, IterOf.option, this]
  next st := arm_aux (c := fun o : Option α => .opt (o.map r)) (st, none) (fun a => .ref (r a)) g out _
    (by cases st <;> rfl) hout
  nextBack nb h st := by
    cases h
    exact arm_aux (c := fun o : Option α => .opt (o.map r)) (st, none) (fun a => .ref (r a)) g out _
      (by cases st <;> rfl) hout
  bound := rfl

/-- A unit variant in `intoIter`. -/
theorem head_intoIter_slot {α β : Type} (i : Nat) (x : String) (r : α → Ref H V) (p : Option V → Option α)
    (hp : ∀ o, o.map Ref.val = (p o).map r)
    (g : α → β) (out : β → Out H V)
    (hout : ∀ a, (mapIterArm .next .intoIter (fieldAt i ⟨x, none⟩)).ret.eval [("value", IVal.ref (r a))] = some (out (g a))) :
    Head (mapPiece .intoIter) i ⟨x, none⟩ (fun o : Option V => .slot o) ((IterOf.option p).map g) out
      (fun o => .opt (o.map r)) where
  ty _ := rfl
  init S o h := by
    have := hp o
    simp [mapPiece, mapIterInit, fieldAt, IterInit.run, h, IterOf.map, IterOf.option, this]
  next st := arm_aux (c := fun o : Option α => .opt (o.map r)) (st, none) (fun a => .ref (r a)) g out _
    (by cases st <;> rfl) hout
  nextBack nb h st := by
    cases h
    exact arm_aux (c := fun o : Option α => .opt (o.map r)) (st, none) (fun a => .ref (r a)) g out _
      (by cases st <;> rfl) hout
  bound := rfl

/-- A unit variant in `keys`. -/
theorem head_keys_slot {β : Type} (i : Nat) (x : String) (g : Unit → β) (out : β → Out H V)
    (hout : out (g ()) = .key ⟨x, none⟩) :
    Head (mapPiece .keys) i ⟨x, none⟩ (fun o : Option V => .slot o)
      ((⟨takeBoolIter, fun o : Option V => o.isSome⟩ : IterOf _ _).map g) out (fun b => .flag b) where
  ty _ := rfl
  init S o h := by simp [mapPiece, mapIterInit, fieldAt, IterInit.run, h, IterOf.map]
  next st := arm_aux (c := fun b : Bool => .flag b) (takeBoolIter.next st) (fun _ => .unit) g out _
    (by cases (show Bool from st) <;> rfl) (fun _ => congrArg some hout.symm)
  nextBack nb h st := by
    cases h
    exact arm_aux (c := fun b : Bool => .flag b) (takeBoolIter.next st) (fun _ => .unit) g out _
      (by cases (show Bool from st) <;> rfl) (fun _ => congrArg some hout.symm)
  bound := rfl

/-- A unit variant in `iter` of a set. -/
theorem head_set_iter_flag {β : Type} (i : Nat) (x : String) (g : Unit → β) (out : β → Out H V)
    (hout : out (g ()) = .key ⟨x, none⟩) :
    Head (setPiece .iter) i ⟨x, none⟩ (fun b : Bool => .flag b)
      ((⟨takeBoolIter, fun b : Bool => b⟩ : IterOf _ _).map g) out (fun b => .flag b) where
  ty _ := rfl
  init S o h := by simp [setPiece, setIterInit, fieldAt, IterInit.run, h, IterOf.map]
  next st := arm_aux (c := fun b : Bool => .flag b) (takeBoolIter.next st) (fun _ => .unit) g out _
    (by cases (show Bool from st) <;> rfl) (fun _ => congrArg some hout.symm)
  nextBack nb h st := by
    cases h
    exact arm_aux (c := fun b : Bool => .flag b) (takeBoolIter.next st) (fun _ => .unit) g out _
      (by cases (show Bool from st) <;> rfl) (fun _ => congrArg some hout.symm)
  bound := rfl

/-- A unit variant in `intoIter` of a set. -/
theorem head_set_intoIter_flag {β : Type} (i : Nat) (x : String) (g : Unit → β) (out : β → Out H V)
    (hout : out (g ()) = .key ⟨x, none⟩) :
    Head (setPiece .intoIter) i ⟨x, none⟩ (fun b : Bool => .flag b)
      ((⟨takeBoolIter, fun b : Bool => b⟩ : IterOf _ _).map g) out (fun b => .flag b) where
  ty _ := rfl
  init S o h := by simp [setPiece, setIterInit, fieldAt, IterInit.run, h, IterOf.map]
  next st := arm_aux (c := fun b : Bool => .flag b) (takeBoolIter.next st) (fun _ => .unit) g out _
    (by cases (show Bool from st) <;> rfl) (fun _ => congrArg some hout.symm)
  nextBack nb h st := by
    cases h
    exact arm_aux (c := fun b : Bool => .flag b) (takeBoolIter.next st) (fun _ => .unit) g out _
      (by cases (show Bool from st) <;> rfl) (fun _ => congrArg some hout.symm)
  bound := rfl

/-- A tuple variant in `iter`. -/
theorem head_iter_elem {β : Type} (i : Nat) (x : String) (κ : KeyTy) (g : κ.Key × V → β) (out : β → Out H V)
    (hout : ∀ a, (((mapIterArm .next .iter (fieldAt i ⟨x, some κ⟩)).pat.bind ((fun p => .pair κ p.1 (.val p.2) : κ.Key × V → Item H V) a)).bind
      fun env => (mapIterArm .next .iter (fieldAt i ⟨x, some κ⟩)).ret.eval env) = some (out (g a))) :
    Head (mapPiece .iter) i ⟨x, some κ⟩ (fun m => .map κ m) ((mapStorage H V κ).iter.map g) out
      (fun st => .map κ .iter (fieldName i) st) where
  ty _ := rfl
  init S m h := by simp [mapPiece, mapIterInit, fieldAt, IterInit.run, h, IterOf.map, elemIter, Cell.asMap_self]
  next st := arm_aux (c := fun st => .map κ .iter (fieldName i) st) ((mapStorage H V κ).iter.I.next st) (fun p => .pair κ p.1 (.val p.2)) g out _ rfl hout
  nextBack nb h st := by
    obtain ⟨nb', h', rfl⟩ := Option.map_eq_some_iff.1 h
    exact arm_aux (c := fun st => .map κ .iter (fieldName i) st) (nb' st) (fun p => .pair κ p.1 (.val p.2)) g out _
      (map_some_of _ (map_some_of _ h')) hout
  bound := by
    simp [mapPiece, mapIterBound, fieldAt, IterTy.doubleEnded, elemIter, IterOf.map, IterImpl.map]

/-- A tuple variant in `values`. -/
theorem head_values_elem {β : Type} (i : Nat) (x : String) (κ : KeyTy) (g : V → β) (out : β → Out H V)
    (hout : ∀ a, (((mapIterArm .next .values (fieldAt i ⟨x, some κ⟩)).pat.bind ((fun v => .ref (.val v) : V → Item H V) a)).bind
      fun env => (mapIterArm .next .values (fieldAt i ⟨x, some κ⟩)).ret.eval env) = some (out (g a))) :
    Head (mapPiece .values) i ⟨x, some κ⟩ (fun m => .map κ m) ((mapStorage H V κ).values.map g) out
      (fun st => .map κ .values (fieldName i) st) where
  ty _ := rfl
  init S m h := by simp [mapPiece, mapIterInit, fieldAt, IterInit.run, h, IterOf.map, elemIter, Cell.asMap_self]
  next st := arm_aux (c := fun st => .map κ .values (fieldName i) st) ((mapStorage H V κ).values.I.next st) (fun v => .ref (.val v)) g out _ rfl hout
  nextBack nb h st := by
    obtain ⟨nb', h', rfl⟩ := Option.map_eq_some_iff.1 h
    exact arm_aux (c := fun st => .map κ .values (fieldName i) st) (nb' st) (fun v => .ref (.val v)) g out _
      (map_some_of _ (map_some_of _ h')) hout
  bound := by
    simp [mapPiece, mapIterBound, fieldAt, IterTy.doubleEnded, elemIter, IterOf.map, IterImpl.map]

/-- A tuple variant in `iterMut`. -/
theorem head_iterMut_elem {β : Type} (i : Nat) (x : String) (κ : KeyTy) (g : κ.Key × (mapStorage H V κ).Addr → β) (out : β → Out H V)
    (hout : ∀ a, (((mapIterArm .next .iterMut (fieldAt i ⟨x, some κ⟩)).pat.bind ((fun p => .pair κ p.1 (.addr (.map (fieldName i) κ p.2)) : κ.Key × (mapStorage H V κ).Addr → Item H V) a)).bind
      fun env => (mapIterArm .next .iterMut (fieldAt i ⟨x, some κ⟩)).ret.eval env) = some (out (g a))) :
    Head (mapPiece .iterMut) i ⟨x, some κ⟩ (fun m => .map κ m) ((mapStorage H V κ).iterMut.map g) out
      (fun st => .map κ .iterMut (fieldName i) st) where
  ty _ := rfl
  init S m h := by simp [mapPiece, mapIterInit, fieldAt, IterInit.run, h, IterOf.map, elemIter, Cell.asMap_self]
  next st := arm_aux (c := fun st => .map κ .iterMut (fieldName i) st) ((mapStorage H V κ).iterMut.I.next st) (fun p => .pair κ p.1 (.addr (.map (fieldName i) κ p.2))) g out _ rfl hout
  nextBack nb h st := by
    obtain ⟨nb', h', rfl⟩ := Option.map_eq_some_iff.1 h
    exact arm_aux (c := fun st => .map κ .iterMut (fieldName i) st) (nb' st) (fun p => .pair κ p.1 (.addr (.map (fieldName i) κ p.2))) g out _
      (map_some_of _ (map_some_of _ h')) hout
  bound := by
    simp [mapPiece, mapIterBound, fieldAt, IterTy.doubleEnded, elemIter, IterOf.map, IterImpl.map]

/-- A tuple variant in `valuesMut`. -/
theorem head_valuesMut_elem {β : Type} (i : Nat) (x : String) (κ : KeyTy) (g : (mapStorage H V κ).Addr → β) (out : β → Out H V)
    (hout : ∀ a, (((mapIterArm .next .valuesMut (fieldAt i ⟨x, some κ⟩)).pat.bind ((fun a => .ref (.addr (.map (fieldName i) κ a)) : (mapStorage H V κ).Addr → Item H V) a)).bind
      fun env => (mapIterArm .next .valuesMut (fieldAt i ⟨x, some κ⟩)).ret.eval env) = some (out (g a))) :
    Head (mapPiece .valuesMut) i ⟨x, some κ⟩ (fun m => .map κ m) ((mapStorage H V κ).valuesMut.map g) out
      (fun st => .map κ .valuesMut (fieldName i) st) where
  ty _ := rfl
  init S m h := by simp [mapPiece, mapIterInit, fieldAt, IterInit.run, h, IterOf.map, elemIter, Cell.asMap_self]
  next st := arm_aux (c := fun st => .map κ .valuesMut (fieldName i) st) ((mapStorage H V κ).valuesMut.I.next st) (fun a => .ref (.addr (.map (fieldName i) κ a))) g out _ rfl hout
  nextBack nb h st := by
    obtain ⟨nb', h', rfl⟩ := Option.map_eq_some_iff.1 h
    exact arm_aux (c := fun st => .map κ .valuesMut (fieldName i) st) (nb' st) (fun a => .ref (.addr (.map (fieldName i) κ a))) g out _
      (map_some_of _ (map_some_of _ h')) hout
  bound := by
    simp [mapPiece, mapIterBound, fieldAt, IterTy.doubleEnded, elemIter, IterOf.map, IterImpl.map]

/-- A tuple variant in `keys`. -/
theorem head_keys_elem {β : Type} (i : Nat) (x : String) (κ : KeyTy) (g : κ.Key → β) (out : β → Out H V)
    (hout : ∀ a, (((mapIterArm .next .keys (fieldAt i ⟨x, some κ⟩)).pat.bind ((fun k => .elem κ k : κ.Key → Item H V) a)).bind
      fun env => (mapIterArm .next .keys (fieldAt i ⟨x, some κ⟩)).ret.eval env) = some (out (g a))) :
    Head (mapPiece .keys) i ⟨x, some κ⟩ (fun m => .map κ m) ((mapStorage H V κ).keys.map g) out
      (fun st => .map κ .keys (fieldName i) st) where
  ty _ := rfl
  init S m h := by simp [mapPiece, mapIterInit, fieldAt, IterInit.run, h, IterOf.map, elemIter, Cell.asMap_self]
  next st := arm_aux (c := fun st => .map κ .keys (fieldName i) st) ((mapStorage H V κ).keys.I.next st) (fun k => .elem κ k) g out _ rfl hout
  nextBack nb h st := by
    obtain ⟨nb', h', rfl⟩ := Option.map_eq_some_iff.1 h
    exact arm_aux (c := fun st => .map κ .keys (fieldName i) st) (nb' st) (fun k => .elem κ k) g out _
      (map_some_of _ (map_some_of _ h')) hout
  bound := by
    simp [mapPiece, mapIterBound, fieldAt, IterTy.doubleEnded, elemIter, IterOf.map, IterImpl.map]

/-- A tuple variant in `intoIter`. -/
theorem head_intoIter_elem {β : Type} (i : Nat) (x : String) (κ : KeyTy) (g : κ.Key × V → β) (out : β → Out H V)
    (hout : ∀ a, (((mapIterArm .next .intoIter (fieldAt i ⟨x, some κ⟩)).pat.bind ((fun p => .pair κ p.1 (.val p.2) : κ.Key × V → Item H V) a)).bind
      fun env => (mapIterArm .next .intoIter (fieldAt i ⟨x, some κ⟩)).ret.eval env) = some (out (g a))) :
    Head (mapPiece .intoIter) i ⟨x, some κ⟩ (fun m => .map κ m) ((mapStorage H V κ).intoIter.map g) out
      (fun st => .map κ .intoIter (fieldName i) st) where
  ty _ := rfl
  init S m h := by simp [mapPiece, mapIterInit, fieldAt, IterInit.run, h, IterOf.map, elemIter, Cell.asMap_self]
  next st := arm_aux (c := fun st => .map κ .intoIter (fieldName i) st) ((mapStorage H V κ).intoIter.I.next st) (fun p => .pair κ p.1 (.val p.2)) g out _ rfl hout
  nextBack nb h st := by
    obtain ⟨nb', h', rfl⟩ := Option.map_eq_some_iff.1 h
    exact arm_aux (c := fun st => .map κ .intoIter (fieldName i) st) (nb' st) (fun p => .pair κ p.1 (.val p.2)) g out _
      (map_some_of _ (map_some_of _ h')) hout
  bound := by
    simp [mapPiece, mapIterBound, fieldAt, IterTy.doubleEnded, elemIter, IterOf.map, IterImpl.map]

/-- A tuple variant in `iter` of a set. -/
theorem head_set_iter_elem {β : Type} (i : Nat) (x : String) (κ : KeyTy) (g : κ.Key → β) (out : β → Out H V)
    (hout : ∀ a, (((setIterArm .next (fieldAt i ⟨x, some κ⟩)).pat.bind ((fun k => .elem κ k : κ.Key → Item H V) a)).bind
      fun env => (setIterArm .next (fieldAt i ⟨x, some κ⟩)).ret.eval env) = some (out (g a))) :
    Head (setPiece .iter) i ⟨x, some κ⟩ (fun m => .set κ m) ((setStorage H κ).iter.map g) out
      (fun st => .set κ .iter st) where
  ty _ := rfl
  init S m h := by simp [setPiece, setIterInit, fieldAt, IterInit.run, h, IterOf.map, elemSetIter, Cell.asSet_self]
  next st := arm_aux (c := fun st => .set κ .iter st) ((setStorage H κ).iter.I.next st) (fun k => .elem κ k) g out _ rfl hout
  nextBack nb h st := by
    obtain ⟨nb', h', rfl⟩ := Option.map_eq_some_iff.1 h
    exact arm_aux (c := fun st => .set κ .iter st) (nb' st) (fun k => .elem κ k) g out _
      (map_some_of _ (map_some_of _ h')) hout
  bound := by
    simp [setPiece, setIterBound, fieldAt, IterTy.doubleEnded, elemSetIter, IterOf.map, IterImpl.map]

/-- A tuple variant in `intoIter` of a set. -/
theorem head_set_intoIter_elem {β : Type} (i : Nat) (x : String) (κ : KeyTy) (g : κ.Key → β) (out : β → Out H V)
    (hout : ∀ a, (((setIterArm .next (fieldAt i ⟨x, some κ⟩)).pat.bind ((fun k => .elem κ k : κ.Key → Item H V) a)).bind
      fun env => (setIterArm .next (fieldAt i ⟨x, some κ⟩)).ret.eval env) = some (out (g a))) :
    Head (setPiece .intoIter) i ⟨x, some κ⟩ (fun m => .set κ m) ((setStorage H κ).intoIter.map g) out
      (fun st => .set κ .intoIter st) where
  ty _ := rfl
  init S m h := by simp [setPiece, setIterInit, fieldAt, IterInit.run, h, IterOf.map, elemSetIter, Cell.asSet_self]
  next st := arm_aux (c := fun st => .set κ .intoIter st) ((setStorage H κ).intoIter.I.next st) (fun k => .elem κ k) g out _ rfl hout
  nextBack nb h st := by
    obtain ⟨nb', h', rfl⟩ := Option.map_eq_some_iff.1 h
    exact arm_aux (c := fun st => .set κ .intoIter st) (nb' st) (fun k => .elem κ k) g out _
      (map_some_of _ (map_some_of _ h')) hout
  bound := by
    simp [setPiece, setIterBound, fieldAt, IterTy.doubleEnded, elemSetIter, IterOf.map, IterImpl.map]

theorem sim_iter : ∀ (vs : List Variant) (i : Nat), ∃ rep, Sim (mapPiece .iter) i vs
    (mapCells (H := H) (V := V) (fieldsOf vs)) (mapFields H V (fieldsOf vs)).iter (fun p => .entry (dynKey vs p.1) (.val p.2)) rep
  | [], i => ⟨_, Sim.nil _ i _ _⟩
  | ⟨x, none⟩ :: vs, i => by
    obtain ⟨rep, h⟩ := sim_iter vs (i + 1)
    exact ⟨_, Sim.cons (mapPiece_ok .iter)
      (head_iter_slot i x .val id (fun o => by cases o <;> rfl) (fun v : V => ((.inl () : (fieldsOf (⟨x, none⟩ :: vs)).Key), v)) _ (fun _ => rfl))
      (Sim.map (fun p : (fieldsOf vs).Key × V => ((.inr p.1 : (fieldsOf (⟨x, none⟩ :: vs)).Key), p.2)) h)⟩
  | ⟨x, some κ⟩ :: vs, i => by
    obtain ⟨rep, h⟩ := sim_iter vs (i + 1)
    exact ⟨_, Sim.cons (mapPiece_ok .iter)
      (head_iter_elem i x κ (fun p : κ.Key × V => ((.inl p.1 : (fieldsOf (⟨x, some κ⟩ :: vs)).Key), p.2)) _ (fun _ => rfl))
      (Sim.map (fun p : (fieldsOf vs).Key × V => ((.inr p.1 : (fieldsOf (⟨x, some κ⟩ :: vs)).Key), p.2)) h)⟩

theorem sim_values : ∀ (vs : List Variant) (i : Nat), ∃ rep, Sim (mapPiece .values) i vs
    (mapCells (H := H) (V := V) (fieldsOf vs)) (mapFields H V (fieldsOf vs)).values (fun v => .value (.val v)) rep
  | [], i => ⟨_, Sim.nil _ i _ _⟩
  | ⟨x, none⟩ :: vs, i => by
    obtain ⟨rep, h⟩ := sim_values vs (i + 1)
    exact ⟨_, Sim.cons (mapPiece_ok .values)
      (Head.unmap (head_values_slot i x .val id (fun o => by cases o <;> rfl) (id) _ (fun _ => rfl)))
      h⟩
  | ⟨x, some κ⟩ :: vs, i => by
    obtain ⟨rep, h⟩ := sim_values vs (i + 1)
    exact ⟨_, Sim.cons (mapPiece_ok .values)
      (Head.unmap (head_values_elem i x κ (id) _ (fun _ => rfl)))
      h⟩

theorem sim_iterMut : ∀ (vs : List Variant) (i : Nat), ∃ rep, Sim (mapPiece .iterMut) i vs
    (mapCells (H := H) (V := V) (fieldsOf vs)) (mapFields H V (fieldsOf vs)).iterMut (fun p => .entry (dynKey vs p.1) (.addr (dynAddr i (fieldsOf vs) p.2))) rep
  | [], i => ⟨_, Sim.nil _ i _ _⟩
  | ⟨x, none⟩ :: vs, i => by
    obtain ⟨rep, h⟩ := sim_iterMut vs (i + 1)
    exact ⟨_, Sim.cons (mapPiece_ok .iterMut)
      (head_iterMut_slot i x (fun a => .addr (dynAddr i (fieldsOf (⟨x, none⟩ :: vs)) a)) (fun o => o.map fun _ => (.inl () : (mapFields H V (fieldsOf (⟨x, none⟩ :: vs))).Addr)) (fun o => by cases o <;> rfl) (fun a => ((.inl () : (fieldsOf (⟨x, none⟩ :: vs)).Key), a)) _ (fun _ => rfl))
      (Sim.map (fun p : (fieldsOf vs).Key × (mapFields H V (fieldsOf vs)).Addr => ((.inr p.1 : (fieldsOf (⟨x, none⟩ :: vs)).Key), (.inr p.2 : (mapFields H V (fieldsOf (⟨x, none⟩ :: vs))).Addr))) h)⟩
  | ⟨x, some κ⟩ :: vs, i => by
    obtain ⟨rep, h⟩ := sim_iterMut vs (i + 1)
    exact ⟨_, Sim.cons (mapPiece_ok .iterMut)
      (head_iterMut_elem i x κ (fun p : κ.Key × (mapStorage H V κ).Addr => ((.inl p.1 : (fieldsOf (⟨x, some κ⟩ :: vs)).Key), (.inl p.2 : (mapFields H V (fieldsOf (⟨x, some κ⟩ :: vs))).Addr))) _ (fun _ => rfl))
      (Sim.map (fun p : (fieldsOf vs).Key × (mapFields H V (fieldsOf vs)).Addr => ((.inr p.1 : (fieldsOf (⟨x, some κ⟩ :: vs)).Key), (.inr p.2 : (mapFields H V (fieldsOf (⟨x, some κ⟩ :: vs))).Addr))) h)⟩

theorem sim_valuesMut : ∀ (vs : List Variant) (i : Nat), ∃ rep, Sim (mapPiece .valuesMut) i vs
    (mapCells (H := H) (V := V) (fieldsOf vs)) (mapFields H V (fieldsOf vs)).valuesMut (fun a => .value (.addr (dynAddr i (fieldsOf vs) a))) rep
  | [], i => ⟨_, Sim.nil _ i _ _⟩
  | ⟨x, none⟩ :: vs, i => by
    obtain ⟨rep, h⟩ := sim_valuesMut vs (i + 1)
    exact ⟨_, Sim.cons (mapPiece_ok .valuesMut)
      (Head.unmap (head_valuesMut_slot i x (fun a => .addr (dynAddr i (fieldsOf (⟨x, none⟩ :: vs)) a)) (fun o => o.map fun _ => (.inl () : (mapFields H V (fieldsOf (⟨x, none⟩ :: vs))).Addr)) (fun o => by cases o <;> rfl) (id) _ (fun _ => rfl)))
      (Sim.map (fun a => (.inr a : (mapFields H V (fieldsOf (⟨x, none⟩ :: vs))).Addr)) h)⟩
  | ⟨x, some κ⟩ :: vs, i => by
    obtain ⟨rep, h⟩ := sim_valuesMut vs (i + 1)
    exact ⟨_, Sim.cons (mapPiece_ok .valuesMut)
      (head_valuesMut_elem i x κ (fun a => (.inl a : (mapFields H V (fieldsOf (⟨x, some κ⟩ :: vs))).Addr)) _ (fun _ => rfl))
      (Sim.map (fun a => (.inr a : (mapFields H V (fieldsOf (⟨x, some κ⟩ :: vs))).Addr)) h)⟩

theorem sim_keys : ∀ (vs : List Variant) (i : Nat), ∃ rep, Sim (mapPiece .keys) i vs
    (mapCells (H := H) (V := V) (fieldsOf vs)) (mapFields H V (fieldsOf vs)).keys (fun k => .key (dynKey vs k)) rep
  | [], i => ⟨_, Sim.nil _ i _ _⟩
  | ⟨x, none⟩ :: vs, i => by
    obtain ⟨rep, h⟩ := sim_keys vs (i + 1)
    exact ⟨_, Sim.cons (mapPiece_ok .keys)
      (head_keys_slot i x (fun _ => (.inl () : (fieldsOf (⟨x, none⟩ :: vs)).Key)) _ rfl)
      (Sim.map (fun k => (.inr k : (fieldsOf (⟨x, none⟩ :: vs)).Key)) h)⟩
  | ⟨x, some κ⟩ :: vs, i => by
    obtain ⟨rep, h⟩ := sim_keys vs (i + 1)
    exact ⟨_, Sim.cons (mapPiece_ok .keys)
      (head_keys_elem i x κ (fun k => (.inl k : (fieldsOf (⟨x, some κ⟩ :: vs)).Key)) _ (fun _ => rfl))
      (Sim.map (fun k => (.inr k : (fieldsOf (⟨x, some κ⟩ :: vs)).Key)) h)⟩

theorem sim_intoIter : ∀ (vs : List Variant) (i : Nat), ∃ rep, Sim (mapPiece .intoIter) i vs
    (mapCells (H := H) (V := V) (fieldsOf vs)) (mapFields H V (fieldsOf vs)).intoIter (fun p => .entry (dynKey vs p.1) (.val p.2)) rep
  | [], i => ⟨_, Sim.nil _ i _ _⟩
  | ⟨x, none⟩ :: vs, i => by
    obtain ⟨rep, h⟩ := sim_intoIter vs (i + 1)
    exact ⟨_, Sim.cons (mapPiece_ok .intoIter)
      (head_intoIter_slot i x .val id (fun o => by cases o <;> rfl) (fun v : V => ((.inl () : (fieldsOf (⟨x, none⟩ :: vs)).Key), v)) _ (fun _ => rfl))
      (Sim.map (fun p : (fieldsOf vs).Key × V => ((.inr p.1 : (fieldsOf (⟨x, none⟩ :: vs)).Key), p.2)) h)⟩
  | ⟨x, some κ⟩ :: vs, i => by
    obtain ⟨rep, h⟩ := sim_intoIter vs (i + 1)
    exact ⟨_, Sim.cons (mapPiece_ok .intoIter)
      (head_intoIter_elem i x κ (fun p : κ.Key × V => ((.inl p.1 : (fieldsOf (⟨x, some κ⟩ :: vs)).Key), p.2)) _ (fun _ => rfl))
      (Sim.map (fun p : (fieldsOf vs).Key × V => ((.inr p.1 : (fieldsOf (⟨x, some κ⟩ :: vs)).Key), p.2)) h)⟩

theorem sim_set_iter : ∀ (vs : List Variant) (i : Nat), ∃ rep, Sim (setPiece .iter) i vs
    (setCells (H := H) V (fieldsOf vs)) (setFields H (fieldsOf vs)).iter (fun k => .key (dynKey vs k)) rep
  | [], i => ⟨_, Sim.nil _ i _ _⟩
  | ⟨x, none⟩ :: vs, i => by
    obtain ⟨rep, h⟩ := sim_set_iter vs (i + 1)
    exact ⟨_, Sim.cons (setPiece_ok .iter)
      (head_set_iter_flag i x (fun _ => (.inl () : (fieldsOf (⟨x, none⟩ :: vs)).Key)) _ rfl)
      (Sim.map (fun k => (.inr k : (fieldsOf (⟨x, none⟩ :: vs)).Key)) h)⟩
  | ⟨x, some κ⟩ :: vs, i => by
    obtain ⟨rep, h⟩ := sim_set_iter vs (i + 1)
    exact ⟨_, Sim.cons (setPiece_ok .iter)
      (head_set_iter_elem i x κ (fun k => (.inl k : (fieldsOf (⟨x, some κ⟩ :: vs)).Key)) _ (fun _ => rfl))
      (Sim.map (fun k => (.inr k : (fieldsOf (⟨x, some κ⟩ :: vs)).Key)) h)⟩

theorem sim_set_intoIter : ∀ (vs : List Variant) (i : Nat), ∃ rep, Sim (setPiece .intoIter) i vs
    (setCells (H := H) V (fieldsOf vs)) (setFields H (fieldsOf vs)).intoIter (fun k => .key (dynKey vs k)) rep
  | [], i => ⟨_, Sim.nil _ i _ _⟩
  | ⟨x, none⟩ :: vs, i => by
    obtain ⟨rep, h⟩ := sim_set_intoIter vs (i + 1)
    exact ⟨_, Sim.cons (setPiece_ok .intoIter)
      (head_set_intoIter_flag i x (fun _ => (.inl () : (fieldsOf (⟨x, none⟩ :: vs)).Key)) _ rfl)
      (Sim.map (fun k => (.inr k : (fieldsOf (⟨x, none⟩ :: vs)).Key)) h)⟩
  | ⟨x, some κ⟩ :: vs, i => by
    obtain ⟨rep, h⟩ := sim_set_intoIter vs (i + 1)
    exact ⟨_, Sim.cons (setPiece_ok .intoIter)
      (head_set_intoIter_elem i x κ (fun k => (.inl k : (fieldsOf (⟨x, some κ⟩ :: vs)).Key)) _ (fun _ => rfl))
      (Sim.map (fun k => (.inr k : (fieldsOf (⟨x, some κ⟩ :: vs)).Key)) h)⟩

end FixedMap.Gen
