import Verif.Proofs.SetLeaf

/-! # Laws of the set storages for `Option` and derived enums, and for every key type -/

set_option autoImplicit false
set_option linter.unusedSimpArgs false

namespace FixedMap

/-- `[v]` or nothing. -/
def flagList {T : Type} (v : T) (b : Bool) : List T := if b then [v] else []

theorem mem_flagList {T : Type} (v x : T) (b : Bool) : x ∈ flagList v b ↔ x = v ∧ b = true := by
  cases b <;> simp [flagList]

theorem flagList_map {T : Type} (v : T) (b : Bool) : (if b then [()] else []).map (fun _ => v) = flagList v b := by
  cases b <;> rfl

theorem nodup_map_of_inj {A B : Type} {l : List A} (g : A → B) (hg : ∀ a b, g a = g b → a = b) (h : l.Nodup) :
    (l.map g).Nodup := List.Pairwise.map _ (fun _ _ hne e => hne (hg _ _ e)) h

theorem nodup_append_of {A : Type} {l l' : List A} (h : l.Nodup) (h' : l'.Nodup) (hd : ∀ x ∈ l, x ∉ l') :
    (l ++ l').Nodup := by
  rw [List.nodup_append]
  exact ⟨h, h', fun a ha b hb e => hd a ha (e ▸ hb)⟩

theorem nodup_flagList {T : Type} (v : T) (b : Bool) : (flagList v b).Nodup := by
  cases b <;> simp [flagList]

def optSetLaws {T : Type} {M : SetStorage T} (L : SetLaws M.toSetCore) : SetLaws (optSet M).toSetCore where
  valid s := L.valid s.some
  elems s := (L.elems s.some).map some ++ flagList none s.none
  visits s := (L.visits s.some).map some ++ flagList none s.none
  mem_elems s x := by
    rw [List.mem_append, List.mem_map, mem_flagList]
    cases x with
    | none => simp
    | some x => simp [L.mem_elems]
  nodup s := by
    refine nodup_append_of (nodup_map_of_inj _ (fun _ _ h => Option.some.inj h) (L.nodup _)) (nodup_flagList _ _) ?_
    intro x hx
    obtain ⟨y, _, rfl⟩ := List.mem_map.mp hx
    simp [mem_flagList]
  valid_empty := L.valid_empty
  contains_empty x := by cases x <;> simp [L.contains_empty]
  len_eq s h := by
    rw [List.length_append, List.length_map, ← L.len_eq _ h]
    show _ + s.none.toNat = _
    cases s.none <;> rfl
  valid_insert s x h := by cases x <;> first | exact L.valid_insert _ _ h | exact h
  contains_insert s x y := by cases x <;> cases y <;> simp [L.contains_insert]
  valid_remove s x h := by cases x <;> first | exact L.valid_remove _ _ h | exact h
  contains_remove s x y := by cases x <;> cases y <;> simp [L.contains_remove]
  valid_clear s := L.valid_clear _
  contains_clear s x := by cases x <;> simp [L.contains_clear]
  eq_iff s t hs ht := by
    show (s.none == t.none && M.eq s.some t.some) = true ↔ _
    rw [Bool.and_eq_true, L.eq_iff _ _ hs ht, beq_iff_eq]
    constructor
    · rintro ⟨h1, h2⟩ (_ | x)
      · exact h1
      · exact h2 x
    · exact fun h => ⟨h none, fun x => h (some x)⟩
  valid_clone s h := L.valid_clone _ h
  contains_clone s x := by cases x <;> simp [L.contains_clone]
  valid_retain f s st h := by
    show L.valid ((M.retain (fun st v => f st (.some v)) s.some st).andThen s.none
      fun st => retainFlag f .none s.none st).s.1
    simp only [SetRetainOut.andThen]
    split <;> exact L.valid_retain _ _ _ h
  retain_ok f s st := by
    have := RetainOk.seq (f := f) (st := st) (some : T → Option T) (fun _ : Unit => (none : Option T))
      (fun x => by cases x with
        | none => exact .inr ⟨(), rfl⟩
        | some a => exact .inl ⟨a, rfl⟩)
      (cA := M.contains) (cB := fun b _ => b) (sa := s.some) (sb := s.none) (lb := if s.none then [()] else [])
      (L.retain_ok (fun st v => f st (some v)) s.some st) (rb := fun st => retainFlag f .none s.none st)
      (fun st => RetainOk.flag f none s.none st)
      (old := (optSet M).contains s) (new := (optSet M).contains ((optSet M).retain f s st).s)
      (fun _ => rfl) (fun _ => rfl) (fun _ => rfl) (fun _ => rfl)
    rw [flagList_map] at this
    exact this

theorem optSetIters {T : Type} {M : SetStorage T} {L : SetLaws M.toSetCore} (I : SetIterLaws M L) :
    SetIterLaws (optSet M) (optSetLaws L) where
  iter s h := ((I.iter s.some h).comap.map.chain (yieldsAt_option _ s)).congr (by
    show _ = (L.elems s.some).map some ++ flagList none s.none
    congr 1; cases s.none <;> rfl)
  intoIter s h := ((I.intoIter s.some h).comap.map.chain (yieldsAt_option _ s)).congr (by
    show _ = (L.elems s.some).map some ++ flagList none s.none
    congr 1; cases s.none <;> rfl)

def nilSetLaws : SetLaws setFieldsNil.toSetCore where
  valid _ := True
  elems _ := []
  visits _ := []
  mem_elems _ x := x.elim
  nodup _ := List.nodup_nil
  valid_empty := trivial
  contains_empty x := x.elim
  len_eq _ _ := rfl
  valid_insert _ x := x.elim
  contains_insert _ x := x.elim
  valid_remove _ x := x.elim
  contains_remove _ x := x.elim
  valid_clear _ := trivial
  contains_clear _ x := x.elim
  eq_iff _ _ _ _ := ⟨fun _ x => x.elim, fun _ => rfl⟩
  valid_clone _ _ := trivial
  contains_clone _ x := x.elim
  valid_retain _ _ _ _ := trivial
  retain_ok _ _ _ := ⟨rfl, rfl, fun x => x.elim, fun x => x.elim, fun x => x.elim⟩

theorem nilSetFields : SetFieldLaws setFieldsNil nilSetLaws :=
  ⟨fun s _ => stepYieldsAt_nil s, fun s _ => stepYieldsAt_nil s⟩

def simpleSetLaws {T : Type} {F : SetFields T} (L : SetLaws F.toSetCore) :
    SetLaws (setFieldsSimple F).toSetCore where
  valid s := L.valid s.2
  elems s := flagList (.inl ()) s.1 ++ (L.elems s.2).map .inr
  visits s := flagList (.inl ()) s.1 ++ (L.visits s.2).map .inr
  mem_elems s x := by
    rw [List.mem_append, List.mem_map, mem_flagList]
    cases x with
    | inl => simp
    | inr x => simp [L.mem_elems]
  nodup s := by
    refine nodup_append_of (nodup_flagList _ _) (nodup_map_of_inj _ (fun _ _ h => Sum.inr.inj h) (L.nodup _)) ?_
    intro x hx
    rw [mem_flagList] at hx
    simp [hx.1]
  valid_empty := L.valid_empty
  contains_empty x := by cases x <;> simp [L.contains_empty]
  len_eq s h := by
    rw [List.length_append, List.length_map, ← L.len_eq _ h]
    show s.1.toNat + _ = _
    cases s.1 <;> rfl
  valid_insert s x h := by cases x <;> first | exact L.valid_insert _ _ h | exact h
  contains_insert s x y := by cases x <;> cases y <;> simp [L.contains_insert]
  valid_remove s x h := by cases x <;> first | exact L.valid_remove _ _ h | exact h
  contains_remove s x y := by cases x <;> cases y <;> simp [L.contains_remove]
  valid_clear s := L.valid_clear _
  contains_clear s x := by cases x <;> simp [L.contains_clear]
  eq_iff s t hs ht := by
    show (if s.1 != t.1 then false else F.eq s.2 t.2) = true ↔ _
    have e : (if s.1 != t.1 then false else F.eq s.2 t.2) = (s.1 == t.1 && F.eq s.2 t.2) := by
      cases s.1 <;> cases t.1 <;> rfl
    rw [e, Bool.and_eq_true, L.eq_iff _ _ hs ht, beq_iff_eq]
    constructor
    · rintro ⟨h1, h2⟩ (_ | x)
      · exact h1
      · exact h2 x
    · exact fun h => ⟨h (.inl ()), fun x => h (.inr x)⟩
  valid_clone s h := L.valid_clone _ h
  contains_clone s x := by cases x <;> simp [L.contains_clone]
  valid_retain f s st h := by
    show L.valid ((retainFlag f (Sum.inl ()) s.1 st).andThen s.2 fun st =>
      F.retain (fun st k => f st (.inr k)) s.2 st).s.2
    simp only [SetRetainOut.andThen]
    split
    · exact h
    · exact L.valid_retain _ _ _ h
  retain_ok f s st := by
    have := RetainOk.seq (f := f) (st := st) (fun _ : Unit => (Sum.inl () : Unit ⊕ T)) Sum.inr
      (fun x => by cases x with
        | inl => exact .inl ⟨(), rfl⟩
        | inr a => exact .inr ⟨a, rfl⟩)
      (cA := fun b _ => b) (cB := F.contains) (sa := s.1) (sb := s.2) (la := if s.1 then [()] else [])
      (RetainOk.flag f (.inl ()) s.1 st) (rb := fun st => F.retain (fun st k => f st (.inr k)) s.2 st)
      (fun st => L.retain_ok (fun st v => f st (.inr v)) s.2 st)
      (old := (setFieldsSimple F).contains s) (new := (setFieldsSimple F).contains ((setFieldsSimple F).retain f s st).s)
      (fun _ => rfl) (fun _ => rfl) (fun _ => rfl) (fun _ => rfl)
    rw [flagList_map] at this
    exact this

theorem simpleSetFields {T : Type} {F : SetFields T} {L : SetLaws F.toSetCore} (I : SetFieldLaws F L) :
    SetFieldLaws (setFieldsSimple F) (simpleSetLaws L) where
  iter s h := (StepYieldsAt.cons
    (YieldsAt.map (show YieldsAt ⟨takeBoolIter, fun s : Bool × F.S => s.1⟩ s _ from yields_takeBool s.1))
    (I.iter s.2 h).comap.map).congr (by
      show _ = flagList (Sum.inl ()) s.1 ++ (L.elems s.2).map Sum.inr
      congr 1; cases s.1 <;> rfl)
  intoIter s h := (StepYieldsAt.cons
    (YieldsAt.map (show YieldsAt ⟨takeBoolIter, fun s : Bool × F.S => s.1⟩ s _ from yields_takeBool s.1))
    (I.intoIter s.2 h).comap.map).congr (by
      show _ = flagList (Sum.inl ()) s.1 ++ (L.elems s.2).map Sum.inr
      congr 1; cases s.1 <;> rfl)

def complexSetLaws {E T : Type} {M : SetStorage E} {F : SetFields T} (LA : SetLaws M.toSetCore)
    (L : SetLaws F.toSetCore) : SetLaws (setFieldsComplex M F).toSetCore where
  valid s := LA.valid s.1 ∧ L.valid s.2
  elems s := (LA.elems s.1).map .inl ++ (L.elems s.2).map .inr
  visits s := (LA.visits s.1).map .inl ++ (L.visits s.2).map .inr
  mem_elems s x := by
    rw [List.mem_append, List.mem_map, List.mem_map]
    cases x with
    | inl => simp [LA.mem_elems]
    | inr x => simp [L.mem_elems]
  nodup s := nodup_sumKeys (LA.nodup _) (L.nodup _)
  valid_empty := ⟨LA.valid_empty, L.valid_empty⟩
  contains_empty x := by cases x <;> simp [L.contains_empty, LA.contains_empty]
  len_eq s h := by
    rw [List.length_append, List.length_map, List.length_map, ← L.len_eq _ h.2, ← LA.len_eq _ h.1]
  valid_insert s x h := by
    cases x with
    | inl x => exact ⟨LA.valid_insert _ _ h.1, h.2⟩
    | inr x => exact ⟨h.1, L.valid_insert _ _ h.2⟩
  contains_insert s x y := by cases x <;> cases y <;> simp [L.contains_insert, LA.contains_insert]
  valid_remove s x h := by
    cases x with
    | inl x => exact ⟨LA.valid_remove _ _ h.1, h.2⟩
    | inr x => exact ⟨h.1, L.valid_remove _ _ h.2⟩
  contains_remove s x y := by cases x <;> cases y <;> simp [L.contains_remove, LA.contains_remove]
  valid_clear s := ⟨LA.valid_clear _, L.valid_clear _⟩
  contains_clear s x := by cases x <;> simp [L.contains_clear, LA.contains_clear]
  eq_iff s t hs ht := by
    show (if !(M.eq s.1 t.1) then false else F.eq s.2 t.2) = true ↔ _
    have e : (if !(M.eq s.1 t.1) then false else F.eq s.2 t.2) = (M.eq s.1 t.1 && F.eq s.2 t.2) := by
      cases M.eq s.1 t.1 <;> rfl
    rw [e, Bool.and_eq_true, L.eq_iff _ _ hs.2 ht.2, LA.eq_iff _ _ hs.1 ht.1]
    constructor
    · rintro ⟨h1, h2⟩ (x | x)
      · exact h1 x
      · exact h2 x
    · exact fun h => ⟨fun x => h (.inl x), fun x => h (.inr x)⟩
  valid_clone s h := ⟨LA.valid_clone _ h.1, L.valid_clone _ h.2⟩
  contains_clone s x := by cases x <;> simp [L.contains_clone, LA.contains_clone]
  valid_retain f s st h := by
    let r := (M.retain (fun st k => f st (.inl k)) s.1 st).andThen s.2 fun st =>
      F.retain (fun st k => f st (.inr k)) s.2 st
    show LA.valid r.s.1 ∧ L.valid r.s.2
    simp only [r, SetRetainOut.andThen]
    split
    · exact ⟨LA.valid_retain _ _ _ h.1, h.2⟩
    · exact ⟨LA.valid_retain _ _ _ h.1, L.valid_retain _ _ _ h.2⟩
  retain_ok f s st :=
    RetainOk.seq (f := f) (st := st) (Sum.inl (β := T)) (Sum.inr (α := E))
      (fun x => by cases x with
        | inl a => exact .inl ⟨a, rfl⟩
        | inr a => exact .inr ⟨a, rfl⟩)
      (cA := M.contains) (cB := F.contains) (sa := s.1) (sb := s.2)
      (LA.retain_ok (fun st v => f st (.inl v)) s.1 st) (rb := fun st => F.retain (fun st k => f st (.inr k)) s.2 st)
      (fun st => L.retain_ok (fun st v => f st (.inr v)) s.2 st)
      (old := (setFieldsComplex M F).contains s)
      (new := (setFieldsComplex M F).contains ((setFieldsComplex M F).retain f s st).s)
      (fun _ => rfl) (fun _ => rfl) (fun _ => rfl) (fun _ => rfl)

theorem complexSetFields {E T : Type} {M : SetStorage E} {F : SetFields T} {LA : SetLaws M.toSetCore}
    {L : SetLaws F.toSetCore} (IA : SetIterLaws M LA) (I : SetFieldLaws F L) :
    SetFieldLaws (setFieldsComplex M F) (complexSetLaws LA L) where
  iter s h := StepYieldsAt.cons (IA.iter s.1 h.1).comap.map (I.iter s.2 h.2).comap.map
  intoIter s h := StepYieldsAt.cons (IA.intoIter s.1 h.1).comap.map (I.intoIter s.2 h.2).comap.map

theorem enumSetIters {T : Type} {F : SetFields T} {L : SetLaws F.toSetCore} (I : SetFieldLaws F L) :
    SetIterLaws (enumSet F) L where
  iter s h := (I.iter s h).toIter
  intoIter s h := (I.intoIter s h).toIter

/-! ## all key types -/

mutual
/-- The set storage of every key type satisfies the set laws. -/
def setLaws (H : Hashbrown) : (κ : KeyTy) → SetLaws (setStorage H.api κ).toSetCore
  | .bool => boolSetLaws
  | .unit => unitSetLaws
  | .opt κ => optSetLaws (setLaws H κ)
  | .prim p => hashSetLaws (H.laws p.Key Unit)
  | .units n => unitsSetLaws n
  | .bitset _ _ h => bitsetSetLaws (determineBits_le h)
  | .enum fs => setFieldsLaws H fs
def setFieldsLaws (H : Hashbrown) : (fs : Fields) → SetLaws (setFields H.api fs).toSetCore
  | .nil => nilSetLaws
  | .simple fs => simpleSetLaws (setFieldsLaws H fs)
  | .complex κ fs => complexSetLaws (setLaws H κ) (setFieldsLaws H fs)
end

mutual
theorem setIters (H : Hashbrown) : (κ : KeyTy) → SetIterLaws (setStorage H.api κ) (setLaws H κ)
  | .bool => boolSetIters
  | .unit => unitSetIters
  | .opt κ => optSetIters (setIters H κ)
  | .prim p => hashSetIters (H.laws p.Key Unit)
  | .units n => unitsSetIters n
  | .bitset _ _ h => bitsetSetIters (determineBits_le h)
  | .enum fs => enumSetIters (setFieldsIters H fs)
theorem setFieldsIters (H : Hashbrown) : (fs : Fields) → SetFieldLaws (setFields H.api fs) (setFieldsLaws H fs)
  | .nil => nilSetFields
  | .simple fs => simpleSetFields (setFieldsIters H fs)
  | .complex κ fs => complexSetFields (setIters H κ) (setFieldsIters H fs)
end

/-- Reachable sets have no stray bits. -/
theorem Reachable.valid {T : Type} {M : SetStorage T} (L : SetLaws M.toSetCore) {s : M.S} (h : Reachable M s) :
    L.valid s := by
  induction h with
  | new => exact L.valid_empty
  | default => exact L.valid_empty
  | insert x _ ih => exact L.valid_insert _ _ ih
  | remove x _ ih => exact L.valid_remove _ _ ih
  | retain f st _ ih => exact L.valid_retain f _ st ih
  | clear _ _ => exact L.valid_clear _
  | clone _ ih => exact L.valid_clone _ ih

/-! ## order of the elements -/

/-- The elements are listed along a list of keys. -/
def ElemsBy {S T : Type} (elems : S → List T) (contains : S → T → Bool) (ks : List T) : Prop :=
  ∀ s, elems s = ks.filter (contains s)

theorem filter_map_eq {A B : Type} (g : A → B) (l : List A) (p : A → Bool) (q : B → Bool) (h : ∀ a, q (g a) = p a) :
    (l.filter p).map g = (l.map g).filter q := by
  rw [List.filter_map]
  congr 1
  apply List.filter_congr
  intro a _
  exact (h a).symm

theorem elemsBy_opt {T : Type} {M : SetStorage T} (L : SetLaws M.toSetCore) {ks : List T}
    (h : ElemsBy L.elems M.contains ks) : ElemsBy (optSetLaws L).elems (optSet M).contains (ks.map some ++ [none]) := by
  intro s
  show (L.elems s.some).map some ++ flagList none s.none = _
  rw [h s.some, List.filter_append]
  congr 1
  · exact filter_map_eq some _ _ _ fun _ => rfl
  · obtain ⟨s1, s2⟩ := s; cases s2 <;> rfl

theorem elemsBy_simple {T : Type} {M : SetFields T} (L : SetLaws M.toSetCore) {ks : List T}
    (h : ElemsBy L.elems M.contains ks) :
    ElemsBy (simpleSetLaws L).elems (setFieldsSimple M).contains (Sum.inl () :: ks.map Sum.inr) := by
  intro s
  show flagList (Sum.inl ()) s.1 ++ (L.elems s.2).map Sum.inr = _
  rw [h s.2, show Sum.inl () :: ks.map Sum.inr = [Sum.inl ()] ++ ks.map Sum.inr from rfl, List.filter_append]
  congr 1
  · obtain ⟨s1, s2⟩ := s; cases s1 <;> rfl
  · exact filter_map_eq Sum.inr _ _ _ fun _ => rfl

theorem elemsBy_complex {E T : Type} {N : SetStorage E} {M : SetFields T} (LA : SetLaws N.toSetCore)
    (L : SetLaws M.toSetCore) {as : List E} {ks : List T} (ha : ElemsBy LA.elems N.contains as)
    (h : ElemsBy L.elems M.contains ks) :
    ElemsBy (complexSetLaws LA L).elems (setFieldsComplex N M).contains (as.map Sum.inl ++ ks.map Sum.inr) := by
  intro s
  show (LA.elems s.1).map Sum.inl ++ (L.elems s.2).map Sum.inr = _
  rw [ha s.1, h s.2, List.filter_append]
  congr 1
  · exact filter_map_eq Sum.inl _ _ _ fun _ => rfl
  · exact filter_map_eq Sum.inr _ _ _ fun _ => rfl

mutual
theorem elems_allKeys (H : Hashbrown) : (κ : KeyTy) → κ.hashFree = true →
    ElemsBy (setLaws H κ).elems (setStorage H.api κ).contains κ.allKeys
  | .bool, _ => boolBitsList_eq
  | .unit, _ => fun s => by cases s <;> rfl
  | .opt κ, h => elemsBy_opt _ (elems_allKeys H κ h)
  | .units _, _ => fun _ => rfl
  | .bitset n w h, _ => fun s => by
    refine List.filter_congr fun i _ => ?_
    exact (bitset_test (determineBits_le h) s i).symm
  | .enum fs, h => fieldsElems_allKeys H fs h
theorem fieldsElems_allKeys (H : Hashbrown) : (fs : Fields) → fs.hashFree = true →
    ElemsBy (setFieldsLaws H fs).elems (setFields H.api fs).contains fs.allKeys
  | .nil, _ => fun _ => rfl
  | .simple fs, h => elemsBy_simple _ (fieldsElems_allKeys H fs h)
  | .complex κ fs, h => by
    simp only [Fields.hashFree, Bool.and_eq_true] at h
    exact elemsBy_complex _ _ (elems_allKeys H κ h.1) (fieldsElems_allKeys H fs h.2)
end

theorem sorted_opt {T : Type} {R : T → T → Prop} {l : List T} (b : Bool) (h : l.Pairwise R) :
    (l.map some ++ flagList none b).Pairwise (optBefore R) := by
  rw [List.pairwise_append]
  refine ⟨List.Pairwise.map _ (fun _ _ h => h) h, by cases b <;> simp [flagList], ?_⟩
  intro a ha c hc
  obtain ⟨x, _, rfl⟩ := List.mem_map.mp ha
  rw [mem_flagList] at hc
  rw [hc.1]
  trivial

theorem sorted_sum {A B : Type} {R : A → A → Prop} {Q : B → B → Prop} {l : List A} {l' : List B}
    (h : l.Pairwise R) (h' : l'.Pairwise Q) :
    (l.map Sum.inl ++ l'.map Sum.inr).Pairwise (sumBefore R Q) := by
  rw [List.pairwise_append]
  refine ⟨List.Pairwise.map _ (fun _ _ h => h) h, List.Pairwise.map _ (fun _ _ h => h) h', ?_⟩
  intro a ha c hc
  obtain ⟨x, _, rfl⟩ := List.mem_map.mp ha
  obtain ⟨y, _, rfl⟩ := List.mem_map.mp hc
  trivial

theorem boolBitsList_sorted (s : BitVec 8) : (boolBitsList s).Pairwise (fun a b => a = true ∧ b = false) := by
  rw [boolBitsList_eq]
  exact List.Pairwise.sublist List.filter_sublist (by decide)

mutual
theorem elems_sorted (H : Hashbrown) : (κ : KeyTy) → ∀ s, ((setLaws H κ).elems s).Pairwise κ.mayPrecede
  | .bool => fun s => boolBitsList_sorted s
  | .unit => fun s => by
    cases s
    · exact .nil
    · exact List.pairwise_singleton _ _
  | .opt κ => fun s => sorted_opt _ (elems_sorted H κ s.some)
  | .prim p => fun s => (H.laws p.Key Unit).nodup_keys s
  | .units n => fun _ => List.Pairwise.sublist List.filter_sublist (finRange_pairwise n)
  | .bitset n _ _ => fun _ => List.Pairwise.sublist List.filter_sublist (finRange_pairwise n)
  | .enum fs => fieldsElems_sorted H fs
theorem fieldsElems_sorted (H : Hashbrown) : (fs : Fields) → ∀ s, ((setFieldsLaws H fs).elems s).Pairwise fs.mayPrecede
  | .nil => fun _ => .nil
  | .simple fs => fun s => by
    have : flagList (Sum.inl () : Unit ⊕ fs.Key) s.1 = (flagList () s.1).map Sum.inl := by cases s.1 <;> rfl
    show (flagList (Sum.inl ()) s.1 ++ ((setFieldsLaws H fs).elems s.2).map Sum.inr).Pairwise _
    rw [this]
    refine sorted_sum ?_ (fieldsElems_sorted H fs s.2)
    cases s.1
    · exact .nil
    · exact List.pairwise_singleton _ _
  | .complex κ fs => fun s => sorted_sum (elems_sorted H κ s.1) (fieldsElems_sorted H fs s.2)
end

mutual
theorem visits_eq (H : Hashbrown) : (κ : KeyTy) → κ.noUnit = true → ∀ s, (setLaws H κ).visits s = (setLaws H κ).elems s
  | .bool, _, _ => rfl
  | .opt κ, h, s => by
    show ((setLaws H κ).visits s.some).map some ++ _ = ((setLaws H κ).elems s.some).map some ++ _
    rw [visits_eq H κ h s.some]
  | .prim _, _, _ => rfl
  | .units _, _, _ => rfl
  | .bitset _ _ _, _, _ => rfl
  | .enum fs, h, s => fieldsVisits_eq H fs h s
theorem fieldsVisits_eq (H : Hashbrown) : (fs : Fields) → fs.noUnit = true →
    ∀ s, (setFieldsLaws H fs).visits s = (setFieldsLaws H fs).elems s
  | .nil, _, _ => rfl
  | .simple fs, h, s => by
    show _ ++ ((setFieldsLaws H fs).visits s.2).map Sum.inr = _ ++ ((setFieldsLaws H fs).elems s.2).map Sum.inr
    rw [fieldsVisits_eq H fs h s.2]
  | .complex κ fs, h, s => by
    simp only [Fields.noUnit, Bool.and_eq_true] at h
    show ((setLaws H κ).visits s.1).map Sum.inl ++ ((setFieldsLaws H fs).visits s.2).map Sum.inr = 
      ((setLaws H κ).elems s.1).map Sum.inl ++ ((setFieldsLaws H fs).elems s.2).map Sum.inr
    rw [visits_eq H κ h.1 s.1, fieldsVisits_eq H fs h.2 s.2]
end

/-! ## double-endedness -/

mutual
theorem setAllBack (H : HashbrownApi) : (κ : KeyTy) → κ.hashFree = true →
    (setStorage H κ).iter.I.nextBack?.isSome ∧ (setStorage H κ).intoIter.I.nextBack?.isSome
  | .bool, _ => ⟨rfl, rfl⟩
  | .unit, _ => ⟨rfl, rfl⟩
  | .opt κ, h =>
    ⟨IterOf.chain_back _ _ (IterOf.map_back _ _ (setAllBack H κ h).1) rfl,
      IterOf.chain_back _ _ (IterOf.map_back _ _ (setAllBack H κ h).2) rfl⟩
  | .units _, _ => ⟨rfl, rfl⟩
  | .bitset _ _ _, _ => ⟨rfl, rfl⟩
  | .enum fs, h => ⟨StepOf.toIter_back _ (setAllStepBack H fs h).1, StepOf.toIter_back _ (setAllStepBack H fs h).2⟩
theorem setAllStepBack (H : HashbrownApi) : (fs : Fields) → fs.hashFree = true →
    (setFields H fs).iter.nextBack?.isSome ∧ (setFields H fs).intoIter.nextBack?.isSome
  | .nil, _ => ⟨rfl, rfl⟩
  | .simple fs, h =>
    ⟨StepOf.cons_back _ _ rfl (StepOf.map_back _ _ (setAllStepBack H fs h).1),
      StepOf.cons_back _ _ rfl (StepOf.map_back _ _ (setAllStepBack H fs h).2)⟩
  | .complex κ fs, h => by
    simp only [Fields.hashFree, Bool.and_eq_true] at h
    exact ⟨StepOf.cons_back _ _ (IterOf.map_back _ _ (setAllBack H κ h.1).1)
        (StepOf.map_back _ _ (setAllStepBack H fs h.2).1),
      StepOf.cons_back _ _ (IterOf.map_back _ _ (setAllBack H κ h.1).2)
        (StepOf.map_back _ _ (setAllStepBack H fs h.2).2)⟩
end

end FixedMap
