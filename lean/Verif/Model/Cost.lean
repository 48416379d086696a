import Verif.Model.Key

/-!
# How many calls a call of `next` makes

`Ticks I` counts, for one call of `next` (`front`) or `next_back` (`back`) in a given state, that call and the calls of `next`, `next_back` and
`mem::take` on iterators and iterator fields that it leads to, plus one for each round of a generated loop. A call on an iterator of a
hash table counts as one. The counts follow the control flow of `Std.lean` and `MapEnum.lean`; they are part of the model, not of the repository.
-/

set_option autoImplicit false

namespace FixedMap

/-- The number of calls made by one call of `next` or `next_back`. `back` means nothing for an iterator without `next_back`. -/
structure Ticks {α : Type} (I : IterImpl α) where
  front : I.St → Nat
  back : I.St → Nat

/-- Iterators that call no other: `option::IntoIter`, `Keys` of boolean.rs, a `bool` field, the iterators of hash tables. -/
def Ticks.one {α : Type} (I : IterImpl α) : Ticks I := ⟨fun _ => 1, fun _ => 1⟩

/-- `iter::Map`, `iter::Copied`. -/
def Ticks.map {α β : Type} {I : IterImpl α} (f : α → β) (t : Ticks I) : Ticks (I.map f) :=
  ⟨fun st => 1 + t.front st, fun st => 1 + t.back st⟩

/-- `return Some(Ident::Variant(x))` in an arm of a generated `match`: no call. -/
def Ticks.tag {α β : Type} {I : IterImpl α} (f : α → β) (t : Ticks I) : Ticks (I.map f) := ⟨t.front, t.back⟩

/-- `and_then_or_clear`: a call if the inner iterator is still there. -/
def clearTicks {St : Type} (c : St → Nat) : Option St → Nat
  | none => 0
  | some st => c st

/-- `iter::Chain`: the second iterator is called if the first has nothing. -/
def Ticks.chain {α : Type} {I J : IterImpl α} (a : Ticks I) (b : Ticks J) : Ticks (I.chain J) where
  front st := 1 + clearTicks a.front st.1 + if (andThenOrClear I.next st.1).1.isSome then 0 else clearTicks b.front st.2
  back st := 1 + clearTicks b.back st.2 +
    match J.nextBack? with
    | none => 0
    | some nb => if (andThenOrClear nb st.2).1.isSome then 0 else clearTicks a.back st.1

/-- `FlattenCompat::next` and `next_back` (`near` is the inner iterator at the end that is asked, `far` the other): each round asks the near
inner iterator, if there is one, and then the array for its next item; at the end the far inner iterator is asked. -/
def flatTicks {β α : Type} (f : β → Option α) (near far : Option (Option α)) : List β → Nat
  | [] =>
    match andThenOrClear optNext near with
    | (some _, _) => clearTicks (fun _ => 1) near
    | (none, _) => clearTicks (fun _ => 1) near + 1 + clearTicks (fun _ => 1) far
  | b :: bs =>
    match andThenOrClear optNext near with
    | (some _, _) => clearTicks (fun _ => 1) near
    | (none, _) => clearTicks (fun _ => 1) near + 1 + flatTicks f (some (f b)) far bs

/-- `iter::Flatten`, `iter::FlatMap` over arrays. -/
def Ticks.flat {β α : Type} (f : β → Option α) : Ticks (flatIter f) where
  front st := 1 + flatTicks f st.front st.back st.iter
  back st := 1 + flatTicks f st.back st.front st.iter.reverse

/-- The arms of a generated `match`. -/
structure StepTicks {S α : Type} (F : StepOf S α) where
  front : Nat → F.St → Nat
  back : Nat → F.St → Nat

def StepTicks.nil (S α : Type) : StepTicks (StepOf.nil S α) := ⟨fun _ _ => 0, fun _ _ => 0⟩

def StepTicks.cons {S α : Type} {it : IterOf S α} {F : StepOf S α} (a : Ticks it.I) (b : StepTicks F) : StepTicks (StepOf.cons it F) where
  front
    | 0, st => a.front st.1
    | i + 1, st => b.front i st.2
  back
    | 0, st => a.back st.1
    | i + 1, st => b.back i st.2

/-- The fields inside a bigger struct, with the constructor of the variant. -/
def StepTicks.inside {S T α β : Type} {F : StepOf S α} (p : T → S) (g : α → β) (b : StepTicks F) : StepTicks ((F.comap p).map g) :=
  ⟨b.front, b.back⟩

/-- The loop of `next`, any_variants.rs 1800-1815: one for each round and the calls of the arm. -/
def StepTicks.loop {S α : Type} {F : StepOf S α} (t : StepTicks F) : Nat → LoopSt F.St → Nat
  | 0, _ => 0
  | fuel + 1, st =>
    if st.start < st.stop then
      1 + t.front st.start st.fields +
        match F.next st.start st.fields with
        | some (none, fs) => StepTicks.loop t fuel ⟨min (st.start + 1) st.stop, st.stop, fs⟩
        | _ => 0
    else 0

/-- The loop of `next_back`, any_variants.rs 1833-1850. -/
def loopBackTicks {St α : Type} (nb : Nat → St → Option (Option α × St)) (c : Nat → St → Nat) : Nat → LoopSt St → Nat
  | 0, _ => 0
  | fuel + 1, st =>
    if st.start < st.stop then
      1 + c (st.stop - 1) st.fields +
        match nb (st.stop - 1) st.fields with
        | some (none, fs) => loopBackTicks nb c fuel ⟨st.start, max (st.stop - 1) st.start, fs⟩
        | _ => 0
    else 0

/-- A generated iterator. -/
def StepTicks.toIter {S α : Type} {F : StepOf S α} (t : StepTicks F) : Ticks F.toIter.I where
  front st := 1 + t.loop (st.stop - st.start) st
  back st := 1 + match F.nextBack? with
    | none => 0
    | some nb => loopBackTicks nb t.back (st.stop - st.start) st

/-! ## The iterators of maps -/

structure MapTicks {K V : Type} (M : MapStorage K V) where
  iter : Ticks M.iter.I
  keys : Ticks M.keys.I
  values : Ticks M.values.I
  iterMut : Ticks M.iterMut.I
  valuesMut : Ticks M.valuesMut.I
  intoIter : Ticks M.intoIter.I

structure MapFieldTicks {K V : Type} (F : MapFields K V) where
  iter : StepTicks F.iter
  keys : StepTicks F.keys
  values : StepTicks F.values
  iterMut : StepTicks F.iterMut
  valuesMut : StepTicks F.valuesMut
  intoIter : StepTicks F.intoIter

/-- boolean.rs 312-354 -/
def boolMapTicks (V : Type) : MapTicks (boolMap V) where
  iter := .chain (.map _ (.one (optionIter _))) (.map _ (.one (optionIter _)))
  keys := .one _
  values := .chain (.one (optionIter _)) (.one (optionIter _))
  iterMut := .chain (.map _ (.one (optionIter _))) (.map _ (.one (optionIter _)))
  valuesMut := .chain (.one (optionIter _)) (.one (optionIter _))
  intoIter := .chain (.map _ (.one (optionIter _))) (.map _ (.one (optionIter _)))

/-- singleton.rs 117-144 -/
def unitMapTicks (V : Type) : MapTicks (unitMap V) := ⟨.one _, .one _, .one _, .one _, .one _, .one _⟩

/-- option.rs 332-375 -/
def optMapTicks {K V : Type} {M : MapStorage K V} (t : MapTicks M) : MapTicks (optMap M) where
  iter := .chain (.map _ t.iter) (.map _ (.one (optionIter _)))
  keys := .chain (.map _ t.keys) (.one (optionIter _))
  values := .chain t.values (.one (optionIter _))
  iterMut := .chain (.map _ t.iterMut) (.map _ (.one (optionIter _)))
  valuesMut := .chain (.tag _ t.valuesMut) (.one (optionIter _))
  intoIter := .chain (.map _ t.intoIter) (.map _ (.one (optionIter _)))

/-- hashbrown.rs 222-251 -/
def hashMapTicks {K V : Type} (A : HashMapApi K V) : MapTicks (hashMap A) :=
  ⟨.map _ (.one _), .map _ (.one _), .one _, .map _ (.one _), .one _, .one _⟩

/-- unit_variants.rs 333-364 -/
def unitsMapTicks (n : Nat) (V : Type) : MapTicks (unitsMap n V) := ⟨.flat _, .flat _, .flat _, .flat _, .flat _, .flat _⟩

def fieldsNilTicks (V : Type) : MapFieldTicks (fieldsNil V) := ⟨.nil _ _, .nil _ _, .nil _ _, .nil _ _, .nil _ _, .nil _ _⟩

/-- any_variants.rs 693-709, 893-912, 1039-1058, 1283-1302: `self.name.take()` or `mem::take(&mut self.name)` -/
def fieldsSimpleTicks {K V : Type} {F : MapFields K V} (t : MapFieldTicks F) : MapFieldTicks (fieldsSimple F) where
  iter := .cons (.tag _ (.one (optionIter _))) (.inside _ _ t.iter)
  keys := .cons (.tag _ (.one takeBoolIter)) (.inside _ _ t.keys)
  values := .cons (.one (optionIter _)) ⟨t.values.front, t.values.back⟩
  iterMut := .cons (.tag _ (.one (optionIter _))) (.inside _ _ t.iterMut)
  valuesMut := .cons (.one (optionIter _)) (.inside _ _ t.valuesMut)
  intoIter := .cons (.tag _ (.one (optionIter _))) (.inside _ _ t.intoIter)

/-- any_variants.rs 710-740, 913-940, 1059-1086, 1303-1330: `Iterator::next(&mut self.name)` -/
def fieldsComplexTicks {E K V : Type} {M : MapStorage E V} {F : MapFields K V} (u : MapTicks M) (t : MapFieldTicks F) :
    MapFieldTicks (fieldsComplex M F) where
  iter := .cons (.tag _ u.iter) (.inside _ _ t.iter)
  keys := .cons (.tag _ u.keys) (.inside _ _ t.keys)
  values := .cons u.values ⟨t.values.front, t.values.back⟩
  iterMut := .cons (.tag _ u.iterMut) (.inside _ _ t.iterMut)
  valuesMut := .cons (.tag _ u.valuesMut) (.inside _ _ t.valuesMut)
  intoIter := .cons (.tag _ u.intoIter) (.inside _ _ t.intoIter)

def enumMapTicks {K V : Type} {F : MapFields K V} (t : MapFieldTicks F) : MapTicks (enumMap F) :=
  ⟨t.iter.toIter, t.keys.toIter, t.values.toIter, t.iterMut.toIter, t.valuesMut.toIter, t.intoIter.toIter⟩

mutual
def mapTicks (H : HashbrownApi) (V : Type) : (κ : KeyTy) → MapTicks (mapStorage H V κ)
  | .bool => boolMapTicks V
  | .unit => unitMapTicks V
  | .opt κ => optMapTicks (mapTicks H V κ)
  | .prim p => hashMapTicks (H p.Key V)
  | .units n => unitsMapTicks n V
  | .bitset n _ _ => unitsMapTicks n V
  | .enum fs => enumMapTicks (mapFieldTicks H V fs)
def mapFieldTicks (H : HashbrownApi) (V : Type) : (fs : Fields) → MapFieldTicks (mapFields H V fs)
  | .nil => fieldsNilTicks V
  | .simple fs => fieldsSimpleTicks (mapFieldTicks H V fs)
  | .complex κ fs => fieldsComplexTicks (mapTicks H V κ) (mapFieldTicks H V fs)
end

/-! ## The iterators of sets -/

structure SetTicks {T : Type} (M : SetStorage T) where
  iter : Ticks M.iter.I
  intoIter : Ticks M.intoIter.I

structure SetFieldTicks {T : Type} (F : SetFields T) where
  iter : StepTicks F.iter
  intoIter : StepTicks F.intoIter

/-- set/storage/option.rs 167-182 -/
def optSetTicks {T : Type} {M : SetStorage T} (t : SetTicks M) : SetTicks (optSet M) where
  iter := .chain (.map _ t.iter) (.one (optionIter _))
  intoIter := .chain (.map _ t.intoIter) (.one (optionIter _))

/-- set/storage/hashbrown.rs 61, 113-120: `iter::Copied` of the iterator of the table; the owning iterator as it is -/
def hashSetTicks {T : Type} (A : HashMapApi T Unit) : SetTicks (hashSet A) := ⟨.map _ (.one A.keys.I), .tag _ (.one A.into_iter.I)⟩

def setFieldsSimpleTicks {T : Type} {F : SetFields T} (t : SetFieldTicks F) : SetFieldTicks (setFieldsSimple F) where
  iter := .cons (.tag _ (.one takeBoolIter)) (.inside _ _ t.iter)
  intoIter := .cons (.tag _ (.one takeBoolIter)) (.inside _ _ t.intoIter)

def setFieldsComplexTicks {E T : Type} {M : SetStorage E} {F : SetFields T} (u : SetTicks M) (t : SetFieldTicks F) :
    SetFieldTicks (setFieldsComplex M F) where
  iter := .cons (.tag _ u.iter) (.inside _ _ t.iter)
  intoIter := .cons (.tag _ u.intoIter) (.inside _ _ t.intoIter)

mutual
def setTicks (H : HashbrownApi) : (κ : KeyTy) → SetTicks (setStorage H κ)
  | .bool => (⟨.one _, .one _⟩ : SetTicks boolSet)
  | .unit => (⟨.one _, .one _⟩ : SetTicks unitSet)
  | .opt κ => optSetTicks (setTicks H κ)
  | .prim p => hashSetTicks (H p.Key Unit)
  | .units n => (⟨.flat _, .flat _⟩ : SetTicks (unitsSet n))
  | .bitset n w _ => (⟨.flat _, .flat _⟩ : SetTicks (bitsetSet n w))
  | .enum fs => (⟨(setFieldTicks H fs).iter.toIter, (setFieldTicks H fs).intoIter.toIter⟩ : SetTicks (enumSet (setFields H fs)))
def setFieldTicks (H : HashbrownApi) : (fs : Fields) → SetFieldTicks (setFields H fs)
  | .nil => (⟨.nil _ _, .nil _ _⟩ : SetFieldTicks setFieldsNil)
  | .simple fs => setFieldsSimpleTicks (setFieldTicks H fs)
  | .complex κ fs => setFieldsComplexTicks (setTicks H κ) (setFieldTicks H fs)
end

end FixedMap
