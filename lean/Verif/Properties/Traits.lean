import Verif.Spec.Traits
import Verif.Properties.MapIter
import Verif.Properties.SetIter

/-! # C59: which traits are implemented; C60: which iterators are double-ended -/

set_option autoImplicit false
set_option linter.unusedSimpArgs false

namespace FixedMap

mutual
theorem mapImpl_eq (v : Tr → Bool) (t : Tr) : (κ : KeyTy) → κ.mapImpl v t =
    (v t && if t.basic then t != .copy || κ.hashFree else κ.unitEnum)
  | .bool => by cases t <;> simp [KeyTy.mapImpl, Tr.basic, KeyTy.hashFree, KeyTy.unitEnum]
  | .unit => by cases t <;> simp [KeyTy.mapImpl, Tr.basic, KeyTy.hashFree, KeyTy.unitEnum]
  | .opt κ => by
    have ih := mapImpl_eq v t κ
    cases t <;> simp [KeyTy.mapImpl, Tr.basic, KeyTy.hashFree, KeyTy.unitEnum] at ih ⊢ <;> rw [ih] <;> simp
  | .prim _ => by cases t <;> simp [KeyTy.mapImpl, Tr.basic, KeyTy.hashFree, KeyTy.unitEnum]
  | .units _ => by cases t <;> simp [KeyTy.mapImpl, Tr.basic, KeyTy.hashFree, KeyTy.unitEnum]
  | .bitset _ _ _ => by cases t <;> simp [KeyTy.mapImpl, Tr.basic, KeyTy.hashFree, KeyTy.unitEnum]
  | .enum fs => by
    by_cases hc : t = .copy
    · subst hc
      cases hv : v .copy with
      | false => simp [KeyTy.mapImpl, hv]
      | true => simp [KeyTy.mapImpl, Tr.basic, KeyTy.hashFree, hv, mapBounds_eq v .copy fs rfl hv]
    · have hc' : (t != .copy) = true := by simpa using hc
      rw [KeyTy.mapImpl, hc', show (KeyTy.enum fs).unitEnum = false from rfl]
      cases t.basic <;> simp
/-- The bounds of the tuple variants hold as soon as `V` has the trait (for `Copy`: and there are no hash tables). -/
theorem mapBounds_eq (v : Tr → Bool) (t : Tr) : (fs : Fields) → t.basic = true → v t = true →
    fs.mapBounds v t = (t != .copy || fs.hashFree)
  | .nil, _, _ => by simp [Fields.mapBounds, Fields.hashFree]
  | .simple fs, hb, hv => by simp [Fields.mapBounds, Fields.hashFree, mapBounds_eq v t fs hb hv]
  | .complex κ fs, hb, hv => by
    rw [Fields.mapBounds, mapImpl_eq v t κ, mapBounds_eq v t fs hb hv, Fields.hashFree, hv, hb]
    cases (t != .copy) <;> simp
end

mutual
theorem setImpl_eq (t : Tr) : (κ : KeyTy) → κ.setImpl t =
    if t.basic then t != .copy || κ.hashFree else κ.orderedSet
  | .bool => by cases t <;> simp [KeyTy.setImpl, Tr.basic, KeyTy.hashFree, KeyTy.orderedSet, KeyTy.unitEnum]
  | .unit => by cases t <;> simp [KeyTy.setImpl, Tr.basic, KeyTy.hashFree, KeyTy.orderedSet, KeyTy.unitEnum]
  | .opt κ => by
    have ih := setImpl_eq t κ
    cases t <;> simp [KeyTy.setImpl, Tr.basic, KeyTy.hashFree, KeyTy.orderedSet, KeyTy.unitEnum] at ih ⊢ <;> rw [ih]
  | .prim _ => by cases t <;> simp [KeyTy.setImpl, Tr.basic, KeyTy.hashFree, KeyTy.orderedSet, KeyTy.unitEnum]
  | .units _ => by cases t <;> simp [KeyTy.setImpl, Tr.basic, KeyTy.hashFree, KeyTy.orderedSet, KeyTy.unitEnum]
  | .bitset _ _ _ => by cases t <;> simp [KeyTy.setImpl, Tr.basic, KeyTy.hashFree, KeyTy.orderedSet, KeyTy.unitEnum]
  | .enum fs => by
    have ih := setBounds_eq t fs
    cases t <;> simp [KeyTy.setImpl, Tr.basic, KeyTy.hashFree, KeyTy.orderedSet, KeyTy.unitEnum] at ih ⊢ <;> exact ih
theorem setBounds_eq (t : Tr) : (fs : Fields) → t.basic = true → fs.setBounds t = (t != .copy || fs.hashFree)
  | .nil, _ => by simp [Fields.setBounds, Fields.hashFree]
  | .simple fs, hb => by simp [Fields.setBounds, Fields.hashFree, setBounds_eq t fs hb]
  | .complex κ fs, hb => by
    rw [Fields.setBounds, setImpl_eq t κ, setBounds_eq t fs hb, Fields.hashFree, hb]
    cases (t != .copy) <;> simp
end

/-- C59: `Map<K, V>` is `Clone`/`PartialEq`/`Eq` exactly if `V` is; `Copy` exactly if `V` is and no hash table is involved;
`Hash`/`PartialOrd`/`Ord` exactly if `V` is and `K` is a derived enum with unit variants only. -/
theorem C59_map (v : Tr → Bool) (κ : KeyTy) :
    κ.mapImpl v .clone = v .clone ∧ κ.mapImpl v .partialEq = v .partialEq ∧ κ.mapImpl v .eq = v .eq ∧
    κ.mapImpl v .copy = (v .copy && κ.hashFree) ∧ κ.mapImpl v .hash = (v .hash && κ.unitEnum) ∧
    κ.mapImpl v .partialOrd = (v .partialOrd && κ.unitEnum) ∧ κ.mapImpl v .ord = (v .ord && κ.unitEnum) := by
  simp [mapImpl_eq, Tr.basic]

/-- C59: `Set<T>` is always `Clone`, `PartialEq` and `Eq`; `Copy` exactly without hash tables; `Hash`, `PartialOrd` and `Ord`
exactly for `()` and derived enums with unit variants only. -/
theorem C59_set (κ : KeyTy) :
    κ.setImpl .clone = true ∧ κ.setImpl .partialEq = true ∧ κ.setImpl .eq = true ∧ κ.setImpl .copy = κ.hashFree ∧
    κ.setImpl .hash = κ.orderedSet ∧ κ.setImpl .partialOrd = κ.orderedSet ∧ κ.setImpl .ord = κ.orderedSet := by
  simp [setImpl_eq, Tr.basic]

/-- C59: every `impl` comes with those of its supertraits. -/
theorem C59_supertraits (v : Tr → Bool) (hv : Lawful v) (κ : KeyTy) :
    Lawful (fun t => κ.mapImpl v t) ∧ Lawful (fun t => κ.setImpl t) := by
  constructor
  · intro t u hu ht
    have h1 := hv t u hu
    simp only [mapImpl_eq, Bool.and_eq_true] at ht ⊢
    refine ⟨h1 ht.1, ?_⟩
    have h2 := ht.2
    cases t <;> simp [Tr.supers] at hu <;> (try subst hu) <;> (try rcases hu with rfl | rfl) <;>
      simp_all [Tr.basic]
  · intro t u hu ht
    simp only [setImpl_eq] at ht ⊢
    cases t <;> simp [Tr.supers] at hu <;> (try subst hu) <;> (try rcases hu with rfl | rfl) <;>
      simp_all [Tr.basic]

mutual
theorem mapIterClone_true : (κ : KeyTy) → κ.mapIterClone = true
  | .bool | .unit | .prim _ | .units _ | .bitset _ _ _ | .enum _ => rfl
  | .opt κ => mapIterClone_true κ
theorem mapIterCloneNeeds_true : (fs : Fields) → fs.mapIterCloneNeeds = true
  | .nil => rfl
  | .simple fs => mapIterCloneNeeds_true fs
  | .complex κ fs => by rw [Fields.mapIterCloneNeeds, mapIterClone_true κ, mapIterCloneNeeds_true fs]; rfl
end

mutual
theorem setIterClone_true : (κ : KeyTy) → κ.setIterClone = true
  | .bool | .unit | .prim _ | .units _ | .bitset _ _ _ | .enum _ => rfl
  | .opt κ => setIterClone_true κ
theorem setIterCloneNeeds_true : (fs : Fields) → fs.setIterCloneNeeds = true
  | .nil => rfl
  | .simple fs => setIterCloneNeeds_true fs
  | .complex κ fs => by rw [Fields.setIterCloneNeeds, setIterClone_true κ, setIterCloneNeeds_true fs]; rfl
end

mutual
theorem mapIntoIterClone_eq (v : Tr → Bool) : (κ : KeyTy) → κ.mapIntoIterClone v = (v .clone && κ.hashFree)
  | .bool | .unit | .units _ | .bitset _ _ _ => by simp [KeyTy.mapIntoIterClone, KeyTy.hashFree]
  | .prim _ => by simp [KeyTy.mapIntoIterClone, KeyTy.hashFree]
  | .opt κ => by
    rw [KeyTy.mapIntoIterClone, mapIntoIterClone_eq v κ, KeyTy.hashFree]
    cases v .clone <;> simp
  | .enum fs => by
    rw [KeyTy.mapIntoIterClone, KeyTy.hashFree]
    cases h : v .clone with
    | false => simp
    | true => simp [fieldsIntoIterClone_eq v h fs]
theorem fieldsIntoIterClone_eq (v : Tr → Bool) (h : v .clone = true) : (fs : Fields) → fs.mapIntoIterClone v = fs.hashFree
  | .nil => rfl
  | .simple fs => fieldsIntoIterClone_eq v h fs
  | .complex κ fs => by
    rw [Fields.mapIntoIterClone, mapIntoIterClone_eq v κ, fieldsIntoIterClone_eq v h fs, h, Fields.hashFree, Bool.true_and]
end

mutual
theorem setIntoIterClone_eq : (κ : KeyTy) → κ.setIntoIterClone = κ.hashFree
  | .bool | .unit | .units _ | .bitset _ _ _ | .prim _ => rfl
  | .opt κ => setIntoIterClone_eq κ
  | .enum fs => setFieldsIntoIterClone_eq fs
theorem setFieldsIntoIterClone_eq : (fs : Fields) → fs.setIntoIterClone = fs.hashFree
  | .nil => rfl
  | .simple fs => setFieldsIntoIterClone_eq fs
  | .complex κ fs => by
    rw [Fields.setIntoIterClone, setIntoIterClone_eq κ, setFieldsIntoIterClone_eq fs, Fields.hashFree]
end

/-- C59: borrowing iterators can always be cloned, consuming ones exactly without hash tables (and if `V` can). -/
theorem C59_iterators (v : Tr → Bool) (κ : KeyTy) :
    κ.mapIterClone = true ∧ κ.setIterClone = true ∧ κ.mapIntoIterClone v = (v .clone && κ.hashFree) ∧
    κ.setIntoIterClone = κ.hashFree :=
  ⟨mapIterClone_true κ, setIterClone_true κ, mapIntoIterClone_eq v κ, setIntoIterClone_eq κ⟩

/-- C59: the bodies of the generated `clone` and `eq` functions find the `impl`s for the fields that they call, although the
generated `where` clauses do not ask for them: for storages whenever `V` has the trait, for borrowing iterators always. -/
theorem C59_bodies (v : Tr → Bool) (fs : Fields) :
    (v .clone = true → fs.mapBounds v .clone = true) ∧ (v .partialEq = true → fs.mapBounds v .partialEq = true) ∧
    fs.setBounds .partialEq = true ∧ fs.mapIterCloneNeeds = true ∧ fs.setIterCloneNeeds = true := by
  refine ⟨fun h => ?_, fun h => ?_, ?_, mapIterCloneNeeds_true fs, setIterCloneNeeds_true fs⟩
  · rw [mapBounds_eq v .clone fs rfl h]; rfl
  · rw [mapBounds_eq v .partialEq fs rfl h]; rfl
  · rw [setBounds_eq .partialEq fs rfl]; rfl

/-- Case: `Map<ExKey, u32>` is `Clone` but not `Copy` (`Byte(u8)`), and neither is ordered; without `Byte` it is `Copy`. -/
example : Ex.key.mapImpl (fun _ => true) .clone = true ∧ Ex.key.mapImpl (fun _ => true) .copy = false ∧
    Ex.key.mapImpl (fun _ => true) .ord = false ∧ (KeyTy.units 3).mapImpl (fun _ => true) .ord = true ∧
    (KeyTy.enum (.simple (.complex .bool .nil))).mapImpl (fun _ => true) .copy = true ∧
    KeyTy.unit.setImpl .ord = true ∧ KeyTy.bool.setImpl .ord = false := by decide

/-- Case: a lawful set of traits: those of `f64`. -/
example : Lawful (fun t => t = .clone || t = .copy || t = .partialEq || t = .partialOrd) := by
  intro t u
  cases t <;> cases u <;> decide

/-! ## C60 -/

theorem chain_isSome {S α : Type} (a b : IterOf S α) :
    (a.chain b).I.nextBack?.isSome = (a.I.nextBack?.isSome && b.I.nextBack?.isSome) := by
  rcases ha : a.I.nextBack? with _ | x <;> rcases hb : b.I.nextBack? with _ | y <;>
    simp [IterOf.chain, IterImpl.chain, ha, hb]

theorem map_isSome {S α β : Type} (f : α → β) (it : IterOf S α) :
    (it.map f).I.nextBack?.isSome = it.I.nextBack?.isSome := by
  simp only [IterOf.map, IterImpl.map, Option.isSome_map]

theorem cons_isSome {S α : Type} (it : IterOf S α) (F : StepOf S α) :
    (StepOf.cons it F).nextBack?.isSome = (it.I.nextBack?.isSome && F.nextBack?.isSome) := by
  rcases ha : it.I.nextBack? with _ | x <;> rcases hb : F.nextBack? with _ | y <;> simp [StepOf.cons, ha, hb]

theorem stepMap_isSome {S α β : Type} (f : α → β) (F : StepOf S α) : (F.map f).nextBack?.isSome = F.nextBack?.isSome := by
  simp only [StepOf.map, Option.isSome_map]

theorem toIter_isSome {S α : Type} (F : StepOf S α) : F.toIter.I.nextBack?.isSome = F.nextBack?.isSome := by
  simp only [StepOf.toIter, Option.isSome_map]

/-- The six iterators of a map have `next_back` exactly if `b`. -/
structure BackIs {K V : Type} (M : MapStorage K V) (b : Bool) : Prop where
  iter : M.iter.I.nextBack?.isSome = b
  keys : M.keys.I.nextBack?.isSome = b
  values : M.values.I.nextBack?.isSome = b
  iterMut : M.iterMut.I.nextBack?.isSome = b
  valuesMut : M.valuesMut.I.nextBack?.isSome = b
  intoIter : M.intoIter.I.nextBack?.isSome = b

structure StepBackIs {K V : Type} (M : MapFields K V) (b : Bool) : Prop where
  iter : M.iter.nextBack?.isSome = b
  keys : M.keys.nextBack?.isSome = b
  values : M.values.nextBack?.isSome = b
  iterMut : M.iterMut.nextBack?.isSome = b
  valuesMut : M.valuesMut.nextBack?.isSome = b
  intoIter : M.intoIter.nextBack?.isSome = b

theorem chainMap_is {S α β : Type} {f : α → β} {it : IterOf S α} {b : IterOf S β} {x : Bool} (h : it.I.nextBack?.isSome = x)
    (hb : b.I.nextBack?.isSome = true) : ((it.map f).chain b).I.nextBack?.isSome = x := by
  rw [chain_isSome, map_isSome, h, hb, Bool.and_true]

theorem chain_is {S α : Type} {it b : IterOf S α} {x : Bool} (h : it.I.nextBack?.isSome = x)
    (hb : b.I.nextBack?.isSome = true) : (it.chain b).I.nextBack?.isSome = x := by
  rw [chain_isSome, h, hb, Bool.and_true]

theorem consMap_is {S α β γ : Type} {f : α → γ} {g : β → γ} {it : IterOf S α} {F : StepOf S β} {x y : Bool}
    (h : it.I.nextBack?.isSome = x) (hb : F.nextBack?.isSome = y) :
    (StepOf.cons (it.map f) (F.map g)).nextBack?.isSome = (x && y) := by
  rw [cons_isSome, map_isSome, stepMap_isSome, h, hb]

theorem cons_is {S α : Type} {it : IterOf S α} {F : StepOf S α} {x y : Bool}
    (h : it.I.nextBack?.isSome = x) (hb : F.nextBack?.isSome = y) :
    (StepOf.cons it F).nextBack?.isSome = (x && y) := by
  rw [cons_isSome, h, hb]

theorem consSimple_is {S α β : Type} {it : IterOf S α} {g : β → α} {F : StepOf S β} {y : Bool}
    (h : it.I.nextBack?.isSome = true) (hb : F.nextBack?.isSome = y) :
    (StepOf.cons it (F.map g)).nextBack?.isSome = y := by
  rw [cons_isSome, stepMap_isSome, h, hb, Bool.true_and]

theorem consSimple'_is {S α : Type} {it : IterOf S α} {F : StepOf S α} {y : Bool}
    (h : it.I.nextBack?.isSome = true) (hb : F.nextBack?.isSome = y) :
    (StepOf.cons it F).nextBack?.isSome = y := by
  rw [cons_isSome, h, hb, Bool.true_and]

mutual
theorem backIs (H : HashbrownApi) (hH : H.oneWay) (V : Type) : (κ : KeyTy) → BackIs (mapStorage H V κ) κ.hashFree
  | .bool => ⟨rfl, rfl, rfl, rfl, rfl, rfl⟩
  | .unit => ⟨rfl, rfl, rfl, rfl, rfl, rfl⟩
  | .opt κ => by
    obtain ⟨h1, h2, h3, h4, h5, h6⟩ := backIs H hH V κ
    exact ⟨chainMap_is h1 rfl, chainMap_is h2 rfl, chain_is h3 rfl, chainMap_is h4 rfl, chainMap_is h5 rfl, chainMap_is h6 rfl⟩
  | .prim p => by
    obtain ⟨h1, h2, h3, h4, h5, h6⟩ := hH p.Key V
    have e : ∀ {S α : Type} {it : IterOf S α}, it.I.nextBack? = none → it.I.nextBack?.isSome = false := fun h => by rw [h]; rfl
    exact ⟨(map_isSome _ _).trans (e h1), (map_isSome _ _).trans (e h2), e h3, (map_isSome _ _).trans (e h4), e h5, e h6⟩
  | .units n => ⟨rfl, rfl, rfl, rfl, rfl, rfl⟩
  | .bitset n _ _ => ⟨rfl, rfl, rfl, rfl, rfl, rfl⟩
  | .enum fs => by
    obtain ⟨h1, h2, h3, h4, h5, h6⟩ := stepBackIs H hH V fs
    exact ⟨(toIter_isSome _).trans h1, (toIter_isSome _).trans h2, (toIter_isSome _).trans h3, (toIter_isSome _).trans h4,
      (toIter_isSome _).trans h5, (toIter_isSome _).trans h6⟩
theorem stepBackIs (H : HashbrownApi) (hH : H.oneWay) (V : Type) : (fs : Fields) → StepBackIs (mapFields H V fs) fs.hashFree
  | .nil => ⟨rfl, rfl, rfl, rfl, rfl, rfl⟩
  | .simple fs => by
    obtain ⟨h1, h2, h3, h4, h5, h6⟩ := stepBackIs H hH V fs
    exact ⟨consSimple_is rfl h1, consSimple_is rfl h2, consSimple'_is rfl h3, consSimple_is rfl h4, consSimple_is rfl h5,
      consSimple_is rfl h6⟩
  | .complex κ fs => by
    obtain ⟨g1, g2, g3, g4, g5, g6⟩ := backIs H hH V κ
    obtain ⟨h1, h2, h3, h4, h5, h6⟩ := stepBackIs H hH V fs
    exact ⟨consMap_is g1 h1, consMap_is g2 h2, cons_is g3 h3, consMap_is g4 h4, consMap_is g5 h5, consMap_is g6 h6⟩
end

mutual
theorem setBackIs (H : HashbrownApi) (hH : H.oneWay) : (κ : KeyTy) →
    (setStorage H κ).iter.I.nextBack?.isSome = κ.hashFree ∧ (setStorage H κ).intoIter.I.nextBack?.isSome = κ.hashFree
  | .bool => ⟨rfl, rfl⟩
  | .unit => ⟨rfl, rfl⟩
  | .opt κ => ⟨chainMap_is (setBackIs H hH κ).1 rfl, chainMap_is (setBackIs H hH κ).2 rfl⟩
  | .prim p => by
    obtain ⟨h1, h2, h3, h4, h5, h6⟩ := hH p.Key Unit
    have e : ∀ {S α : Type} {it : IterOf S α}, it.I.nextBack? = none → it.I.nextBack?.isSome = false := fun h => by rw [h]; rfl
    exact ⟨(map_isSome _ _).trans (e h2), (map_isSome _ _).trans (e h6)⟩
  | .units _ => ⟨rfl, rfl⟩
  | .bitset _ _ _ => ⟨rfl, rfl⟩
  | .enum fs => ⟨(toIter_isSome _).trans (setStepBackIs H hH fs).1, (toIter_isSome _).trans (setStepBackIs H hH fs).2⟩
theorem setStepBackIs (H : HashbrownApi) (hH : H.oneWay) : (fs : Fields) →
    (setFields H fs).iter.nextBack?.isSome = fs.hashFree ∧ (setFields H fs).intoIter.nextBack?.isSome = fs.hashFree
  | .nil => ⟨rfl, rfl⟩
  | .simple fs => ⟨consSimple_is rfl (setStepBackIs H hH fs).1, consSimple_is rfl (setStepBackIs H hH fs).2⟩
  | .complex κ fs =>
    ⟨consMap_is (setBackIs H hH κ).1 (setStepBackIs H hH fs).1, consMap_is (setBackIs H hH κ).2 (setStepBackIs H hH fs).2⟩
end

theorem doubleEnded_iff {S α : Type} (it : IterOf S α) [Nonempty it.I.St] : it.doubleEnded ↔ it.I.nextBack?.isSome = true := by
  constructor
  · intro h
    obtain ⟨st⟩ := ‹Nonempty it.I.St›
    have := h [.back] st
    rcases hb : it.I.nextBack? with _ | nb
    · simp [IterImpl.run, IterImpl.step, hb] at this
    · rfl
  · intro h ds st
    exact IterImpl.run_isSome h ds st

/-- C60: the iterators of a map are double-ended exactly if no hash table is involved. -/
theorem C60_map (H : HashbrownApi) (hH : H.oneWay) (V : Type) (κ : KeyTy) :
    let M := mapStorage H V κ
    ((Map.iter M).doubleEnded ↔ κ.hashFree = true) ∧ ((Map.keys M).doubleEnded ↔ κ.hashFree = true) ∧
    ((Map.values M).doubleEnded ↔ κ.hashFree = true) ∧ ((Map.iterMut M).doubleEnded ↔ κ.hashFree = true) ∧
    ((Map.valuesMut M).doubleEnded ↔ κ.hashFree = true) ∧ ((Map.intoIter M).doubleEnded ↔ κ.hashFree = true) := by
  intro M
  obtain ⟨h1, h2, h3, h4, h5, h6⟩ := backIs H hH V κ
  have e : ∀ {S α : Type} (it : IterOf S α) (s : S), it.I.nextBack?.isSome = κ.hashFree →
      (it.doubleEnded ↔ κ.hashFree = true) := by
    intro S α it s h
    have : Nonempty it.I.St := ⟨it.init s⟩
    rw [doubleEnded_iff, h]
  exact ⟨e _ M.empty h1, e _ M.empty h2, e _ M.empty h3, e _ M.empty h4, e _ M.empty h5, e _ M.empty h6⟩

/-- C60: the same for sets. -/
theorem C60_set (H : HashbrownApi) (hH : H.oneWay) (κ : KeyTy) :
    let N := setStorage H κ
    ((FSet.iter N).doubleEnded ↔ κ.hashFree = true) ∧ ((FSet.intoIter N).doubleEnded ↔ κ.hashFree = true) := by
  intro N
  obtain ⟨h1, h2⟩ := setBackIs H hH κ
  have e : ∀ {S α : Type} (it : IterOf S α) (s : S), it.I.nextBack?.isSome = κ.hashFree →
      (it.doubleEnded ↔ κ.hashFree = true) := by
    intro S α it s h
    have : Nonempty it.I.St := ⟨it.init s⟩
    rw [doubleEnded_iff, h]
  exact ⟨e _ N.empty h1, e _ N.empty h2⟩

/-- Case: the reference hash table is one-way; `ExKey` contains one (`Byte(u8)`). -/
example : Ex.H.api.oneWay ∧ Ex.key.hashFree = false ∧ (KeyTy.opt (.units 3)).hashFree = true :=
  ⟨fun _ _ _ => ⟨rfl, rfl, rfl, rfl, rfl, rfl⟩, rfl, rfl⟩

end FixedMap
