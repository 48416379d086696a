import Verif.Model.Compare
import Verif.Model.IterClonePanic
import Verif.Model.GenUnits

/-!
# The emitted code with destructors, `clone` and `==` that have effects or panic

The methods of `Model/Gen.lean`, `Model/GenUnits.lean` and `Model/IterClone.lean` that drop, clone or compare values are run
again, statement by statement, with a world `σ`. The calls into the element storages are those of `Model/DropPanic.lean`,
`Model/ClonePanic.lean`, `Model/Compare.lean`, `Model/IterDrop.lean` and `Model/IterClonePanic.lean`.

Rules of Rust used: statements run in order and a panic skips the rest; `place = value` drops the old value and stores the new one
also if that panics; the fields of a struct are dropped in the order of declaration; the operands of a struct literal are
evaluated in the order written, and if one panics those already evaluated are dropped, the last one first.
As before, `none` means that rustc rejects the code.
-/

set_option autoImplicit false

namespace FixedMap.Gen

variable {H : HashbrownApi} {σ V : Type}

/-! ## Map storages (any_variants.rs) -/

/-- Drop the value of a field. -/
def Cell.drop (d : Dtor σ V) : Cell H V → Drops σ V → Drops σ V
  | .slot o, x => x.slot d o
  | .map κ s, x => κ.dropD H d s x
  | .flag _, x => x
  | .set _ _, x => x

/-- Drop a struct. -/
def Struct.drop (d : Dtor σ V) (S : Struct H V) (x : Drops σ V) : Drops σ V := S.foldl (fun x p => p.2.drop d x) x

/-- One statement of `clear`. -/
def stmtClearD (d : Dtor σ V) (S : Struct H V) (x : Drops σ V) : Stmt → Option (Struct H V × Drops σ V)
  | .mapClear κ n => (S.get n).bind fun c => (c.asMap κ).map fun s =>
    (S.set n (.map κ (κ.clearD H d s x).1), (κ.clearD H d s x).2)
  | .setClear κ n => (S.get n).bind fun c => (c.asSet κ).map fun s =>
    (S.set n (.set κ ((setStorage H κ).clear s)), x)
  | .assignNone n =>
    match S.get n with
    | some (.slot o) => some (S.set n (.slot none), x.slot d o)
    | _ => none
  | .assignFalse n =>
    match S.get n with
    | some (.flag _) => some (S.set n (.flag false), x)
    | _ => none
  | _ => none

/-- `clear`, 387-402. -/
def runClearD (d : Dtor σ V) : List Stmt → Struct H V → Drops σ V → Option (Struct H V × Drops σ V)
  | [], S, x => some (S, x)
  | s :: l, S, x => (stmtClearD d S x s).bind fun r => if r.2.fate = .normal then runClearD d l r.1 r.2 else some r

/-- One statement of `retain`. -/
def stmtRetainD (d : Dtor σ V) (func : σ → DynKey → V → σ × V × Option Bool) (S : Struct H V) (st : σ) :
    Stmt → Option (RetainOut (Struct H V) σ V)
  | .mapRetain κ n var => (S.get n).bind fun c => (c.asMap κ).map fun s =>
    (κ.retainD H d (fun st k v => func st ⟨var, some ⟨κ, k⟩⟩ v) s st).mapS fun s => S.set n (.map κ s)
  | .slotRetain n var =>
    match S.get n with
    | some (.slot o) => some ((retainSlotD d (fun st (_ : Unit) v => func st ⟨var, none⟩ v) () o st).mapS
        fun o => S.set n (.slot o))
    | _ => none
  | _ => none

/-- `retain`, 358-385. -/
def runRetainD (d : Dtor σ V) (func : σ → DynKey → V → σ × V × Option Bool) :
    List Stmt → Struct H V → σ → Option (RetainOut (Struct H V) σ V)
  | [], S, st => some ⟨S, st, false, []⟩
  | s :: l, S, st => (stmtRetainD d func S st s).bind fun r =>
    if r.panicked then some r
    else (runRetainD d func l r.s r.st).map fun r' => ⟨r'.s, r'.st, r'.panicked, r.dropped ++ r'.dropped⟩

/-- `Clone::clone(&cell)`. -/
def Cell.cloneD (hc : TableCloneApi H V) (c : Cloner σ V) (d : Dtor σ V) : Cell H V → σ → Cloned σ V (Cell H V)
  | .slot o, st => (cloneSlot c o st).map .slot
  | .map κ s, st => (κ.cloneD H hc c d s st).map (.map κ)
  | .flag b, st => .ok st (.flag b)
  | .set κ s, st => .ok st (.set κ ((setStorage H κ).clone s))

/-- The operands of `Self { name: Clone::clone(&self.name), .. }`; `done` holds those already evaluated, the last one first. -/
def cloneFieldsD (hc : TableCloneApi H V) (c : Cloner σ V) (d : Dtor σ V) (S : Struct H V) :
    List (String × String) → Struct H V → σ → Option (Cloned σ V (Struct H V))
  | [], done, st => some (.ok st done.reverse)
  | (n, m) :: l, done, st => (S.get m).bind fun x =>
    match x.cloneD hc c d st with
    | .panicked y => some (.panicked (done.drop d y))
    | .ok st' z => cloneFieldsD hc c d S l ((n, z) :: done) st'

/-- The literal must list the declared fields with the declared types. -/
def checkLitD (decls : List (String × FieldTy)) : Cloned σ V (Struct H V) → Option (Cloned σ V (Struct H V))
  | .panicked x => some (.panicked x)
  | .ok st S => (checkLit decls S).map (.ok st)

/-- `clone`, 194-202. -/
def runCloneD (hc : TableCloneApi H V) (c : Cloner σ V) (d : Dtor σ V) (decls : List (String × FieldTy))
    (l : List (String × String)) (S : Struct H V) (st : σ) : Option (Cloned σ V (Struct H V)) :=
  (cloneFieldsD hc c d S l [] st).bind (checkLitD decls)

/-- `PartialEq::ne(&a, &b)` of two fields: the negation of `eq`, which no storage overrides. -/
def Cell.neD (e : EqFn σ V) (st : σ) : Cell H V → Cell H V → Option (σ × Option Bool)
  | .slot a, .slot b => some ((slotEqD e a b st).1, (slotEqD e a b st).2.map (!·))
  | .map κ s, c => (c.asMap κ).map fun t => ((κ.eqD H e s t st).1, (κ.eqD H e s t st).2.map (!·))
  | .flag a, .flag b => some (st, some (a != b))
  | .set κ s, c => (c.asSet κ).map fun t => (st, some !((setStorage H κ).eq s t))
  | _, _ => none

/-- `eq`, 170-176: `if PartialEq::ne(&self.name, &other.name) { return false; }` per field, then `true`. -/
def runEqD (e : EqFn σ V) (S T : Struct H V) : List String → σ → Option (σ × Option Bool)
  | [], st => some (st, some true)
  | n :: l, st =>
    match S.get n, T.get n with
    | some a, some b =>
      match a.neD e st b with
      | some (st', some true) => some (st', some false)
      | some (st', some false) => runEqD e S T l st'
      | some (st', none) => some (st', none)
      | none => none
    | _, _ => none

/-! ## Owning iterators of map storages (any_variants.rs) -/

/-- Drop a field of an owning iterator. Iterators that borrow own no values. -/
def ICell.drop (held : HeldApi H V) (d : Dtor σ V) : ICell H V → Drops σ V → Drops σ V
  | .opt (some (.val v)), x => x.value d v
  | .map κ .intoIter _ s, x => κ.dropIntoIter H held d s x
  | _, x => x

/-- Drop an owning iterator: `start`, `end`, then the fields. -/
def IterVal.drop (held : HeldApi H V) (d : Dtor σ V) (it : IterVal H V) (x : Drops σ V) : Drops σ V :=
  it.fields.foldl (fun x p => p.2.drop held d x) x

/-- `Clone::clone(&self.name)` of a field of an owning iterator of a map, or of an iterator of a set; `none` if the type is not `Clone`
or does not occur there. -/
def ICell.cloneD (held : HeldApi H V) (c : Cloner σ V) (d : Dtor σ V) : ICell H V → σ → Option (Cloned σ V (ICell H V))
  | .flag b, st => some (.ok st (.flag b))
  | .opt none, st => some (.ok st (.opt none))
  | .opt (some (.val v)), st => some ((cloneSlot c (some v) st).map fun o => .opt (o.map .val))
  | .opt (some (.addr _)), _ => none
  | .map κ .intoIter src s, st => (KeyTy.cloneIntoIterD H held c d κ).map fun f => (f s st).map (.map κ .intoIter src)
  | .map _ _ _ _, _ => none
  | .set κ .intoIter s, st => if κ.setIntoIterClone then some (.ok st (.set κ .intoIter s)) else none
  | .set κ .iter s, st => some (.ok st (.set κ .iter s))

/-- The operands `name: Clone::clone(&self.name)`; `start` and `end` before them own nothing. -/
def cloneIterFieldsD (held : HeldApi H V) (c : Cloner σ V) (d : Dtor σ V) (S : IStruct H V) :
    List (String × String) → IStruct H V → σ → Option (Cloned σ V (IStruct H V))
  | [], done, st => some (.ok st done.reverse)
  | (n, m) :: l, done, st => (S.get m).bind fun x => (x.cloneD held c d st).bind fun
    | .panicked y => some (.panicked (done.foldl (fun y p => p.2.drop held d y) y))
    | .ok st' z => cloneIterFieldsD held c d S l ((n, z) :: done) st'

/-- `Clone::clone(&it)`, 1447-1456. -/
def CloneCode.runD (held : HeldApi H V) (c : Cloner σ V) (d : Dtor σ V) (K : CloneCode) (decls : List (String × IterTy))
    (it : IterVal H V) (st : σ) : Option (Cloned σ V (IterVal H V)) :=
  if K.bounds.all (IterTy.isClone H V) then
    (cloneIterFieldsD held c d it.fields K.fields [] st).bind fun
      | .panicked x => some (.panicked x)
      | .ok st' fs => if fs.map (fun p => (p.1, p.2.ty)) = decls then some (.ok st' ⟨K.start.of it, K.stop.of it, fs⟩) else none
  else none

end FixedMap.Gen

namespace FixedMap.GenUnits

variable {σ V : Type}

/-! ## Map storages of unit enums (unit_variants.rs) -/

/-- Drop an element of the array. -/
def Elem.drop (d : Dtor σ V) : Elem V → Drops σ V → Drops σ V
  | .slot o, x => x.slot d o
  | .flag _, x => x

/-- Drop the array. -/
def Data.drop (d : Dtor σ V) (D : Data V) (x : Drops σ V) : Drops σ V := D.foldl (fun x e => e.drop d x) x

/-- `clear`, 328-330: `self.data = [Option::None, ..];`. -/
def runClearD (d : Dtor σ V) (count n : Nat) (D : Data V) (x : Drops σ V) : Option (Data V × Drops σ V) :=
  (arrayLit count n (.slot none)).map fun D' => (D', Data.drop d D x)

/-- The statements of `retain`, 314-325. -/
def runRetainD (d : Dtor σ V) (func : σ → String → V → σ × V × Option Bool) (env : Env V) :
    List (String × String) → Data V → σ → Option (RetainOut (Data V) σ V)
  | [], D, st => some ⟨D, st, false, []⟩
  | (n, var) :: l, D, st =>
    match elemOf env D n with
    | some (i, .slot o) =>
      let r := retainSlotD d func var o st
      let D := D.set i (.slot r.s)
      if r.panicked then some ⟨D, r.st, true, r.dropped⟩
      else (runRetainD d func env l D r.st).map fun r' => ⟨r'.s, r'.st, r'.panicked, r.dropped ++ r'.dropped⟩
    | _ => none

def RetainFn.runD (d : Dtor σ V) (m : RetainFn) (func : σ → String → V → σ × V × Option Bool) (D : Data V) (st : σ) :
    Option (RetainOut (Data V) σ V) :=
  (bindPlaces m.binds D).bind fun env => runRetainD d func env m.stmts D st

end FixedMap.GenUnits
