import Verif.Proofs.GenClone
import Verif.Properties.Gen

/-! # C64: clones of iterators -/

set_option autoImplicit false

namespace FixedMap

/-- C64: for any `V::clone`, the owning iterator of a map can be cloned exactly when its type is said to be `Clone`
(C59), and then the clone yields what the original has yet to yield, with the values cloned. -/
theorem C64_map (H : HashbrownApi) (V : Type) (c : V → V) (v : Tr → Bool) (hv : v .clone = true) (κ : KeyTy) :
    (KeyTy.cloneIntoIter H V c κ).isSome = κ.mapIntoIterClone v ∧
    ∀ f, KeyTy.cloneIntoIter H V c κ = some f →
      ClonesTo (mapStorage H V κ).intoIter.I f fun p => (p.1, c p.2) :=
  ⟨by rw [cloneIntoIter_isSome, mapIntoIterClone_eq, hv, Bool.true_and],
    fun f e => (cloneIntoIter_commutes H V c κ f e).clonesTo⟩

namespace Gen

/-- C64: at any time, the emitted `Clone` of `iter`, `keys` and `values` returns the same iterator. -/
theorem C64_emitted_map (H : HashbrownApi) (V : Type) (c : V → V) (vs : List Variant) (S : Struct H V) (q : MapIt)
    (hq : q = .iter ∨ q = .keys ∨ q = .values) (it : IterVal H V) (h : (genMapIter (collect vs) q).Reaches S it) :
    ∃ K, genMapClone (collect vs) q = some K ∧ K.run (genMapIter (collect vs) q).decls false c it = some it := by
  obtain ⟨fuel, ds, outs, h⟩ := h
  have hq' : q ≠ .iterMut ∧ q ≠ .valuesMut := by rcases hq with rfl | rfl | rfl <;> simp
  have hd : ((genMapIter (collect vs) q).decls.map Prod.fst).Nodup := mapDecl_names vs q ▸ names_nodup vs
  have hi := reached_inv (mapInit_shared vs hq') hd h
  refine ⟨⟨[], .start, .stop, (collect vs).names.map fun n => (n, n)⟩, ?_, ?_⟩
  · rcases hq with rfl | rfl | rfl <;> rfl
  · refine (CloneCode.run_eq ⟨rfl, rfl⟩ (by rw [mapDecl_names]) hd rfl false c id (fun _ => rfl) hi fun p hp => ?_).trans ?_
    · obtain ⟨f, -, e⟩ := List.mem_map.mp (hi.cell hp)
      refine shared_of_ty c (hi.noAddr p hp) ?_
      have e : p.2.ty = (mapIterDecl q f).2 := congrArg Prod.snd e.symm
      rw [e]
      unfold mapIterDecl
      cases f.kind with
      | none => rcases hq with rfl | rfl | rfl <;> first | exact .inl rfl | exact .inr (.inl rfl)
      | some κ => exact .inr (.inr (.inl ⟨κ, q, rfl, hq⟩))
    · simp

/-- C64: at any time, the emitted `Clone` of the owning iterator of a map is available exactly if no payload has a hash
table, and yields what the original has yet to yield, with the values cloned. -/
theorem C64_emitted_map_into (H : HashbrownApi) (V : Type) (c : V → V) (vs : List Variant) (S : Struct H V)
    (it : IterVal H V) (h : (genMapIter (collect vs) .intoIter).Reaches S it) :
    ∃ K, genMapClone (collect vs) .intoIter = some K ∧
      (K.run (genMapIter (collect vs) .intoIter).decls true c it).isSome = (fieldsOf vs).hashFree ∧
      ∀ it', K.run (genMapIter (collect vs) .intoIter).decls true c it = some it' →
        it'.start = it.start ∧ it'.stop = it.stop ∧
        ∀ fuel ds, (genMapIter (collect vs) .intoIter).run fuel ds it' =
          ((genMapIter (collect vs) .intoIter).run fuel ds it).map (clonedOuts c) := by
  obtain ⟨fuel, ds, outs, h⟩ := h
  have hd : ((genMapIter (collect vs) .intoIter).decls.map Prod.fst).Nodup := mapDecl_names vs _ ▸ names_nodup vs
  have hi := reached_inv (mapInit_shared vs (by simp)) hd h
  have hb := bounds_all (H := H) (V := V) (fun κ => .map κ .intoIter) isClone_into vs 0
  rw [← collect_fields] at hb
  refine ⟨_, rfl, ?_⟩
  cases hf : (fieldsOf vs).hashFree with
  | false =>
    rw [CloneCode.run_none _ (hb.trans hf)]
    exact ⟨rfl, fun _ e => nomatch e⟩
  | true =>
    have ho : ∀ p ∈ it.fields, p.2.Owning := by
      intro p hp
      obtain ⟨f, hm, e⟩ := List.mem_map.mp (hi.cell hp)
      refine owning_of_ty (hi.noAddr p hp) ?_
      have e : p.2.ty = (mapIterDecl .intoIter f).2 := congrArg Prod.snd e.symm
      rw [collect_fields] at hm
      have hk := payloads_hashFree vs 0 hf f hm
      rw [e]
      unfold mapIterDecl
      cases hfk : f.kind with
      | none => exact .inr (.inl rfl)
      | some κ => exact .inr (.inr (.inl ⟨κ, rfl, hk κ hfk⟩))
    rw [CloneCode.run_eq ⟨rfl, rfl⟩ (by rw [mapDecl_names]) hd (hb.trans hf) true c (ICell.cloned c) (cloned_ty c) hi
      fun p hp => Owning.clone c (ho p hp)]
    refine ⟨rfl, fun it' e => ?_⟩
    cases e
    exact ⟨rfl, rfl, fun fuel ds => run_cloned c _ fuel ds it ho⟩

/-- C64: at any time, the emitted `Clone` of the iterators of a set returns the same iterator; that of the owning one
is available exactly if no payload has a hash table. -/
theorem C64_emitted_set (H : HashbrownApi) (V : Type) (c : V → V) (owned : Bool) (vs : List Variant) (S : Struct H V)
    (q : SetIt) (it : IterVal H V) (h : (genSetIter (collect vs) q).Reaches S it) :
    (genSetClone (collect vs) q).run (genSetIter (collect vs) q).decls owned c it =
      match q with
      | .iter => some it
      | .intoIter => if (fieldsOf vs).hashFree then some it else none := by
  obtain ⟨fuel, ds, outs, h⟩ := h
  have hd : ((genSetIter (collect vs) q).decls.map Prod.fst).Nodup := setDecl_names vs q ▸ names_nodup vs
  have hi := reached_inv (setInit_shared vs q) hd h
  have hb := bounds_all (H := H) (V := V) (fun κ => .set κ .intoIter) isClone_set vs 0
  rw [← collect_fields] at hb
  have key : (genSetClone (collect vs) q).bounds.all (IterTy.isClone H V) = true →
      (q = .iter ∨ (fieldsOf vs).hashFree = true) →
      (genSetClone (collect vs) q).run (genSetIter (collect vs) q).decls owned c it = some it := by
    intro hb hq
    refine (CloneCode.run_eq (by cases q <;> exact ⟨rfl, rfl⟩) (by rw [setDecl_names]; cases q <;> rfl) hd hb owned c id
      (fun _ => rfl) hi fun p hp => ?_).trans (by simp)
    obtain ⟨f, hm, e⟩ := List.mem_map.mp (hi.cell hp)
    refine set_clone_self c owned ?_
    have e : p.2.ty = (setIterDecl q f).2 := congrArg Prod.snd e.symm
    rw [collect_fields] at hm
    rw [e, setIterDecl]
    cases hfk : f.kind with
    | none => exact .inl rfl
    | some κ => exact .inr ⟨κ, q, rfl, hq.imp_right fun hf => payloads_hashFree vs 0 hf f hm κ hfk⟩
  cases q with
  | iter => exact key rfl (.inl rfl)
  | intoIter =>
    cases hf : (fieldsOf vs).hashFree with
    | true => exact key (hb.trans hf) (.inr hf)
    | false => exact CloneCode.run_none _ (hb.trans hf) owned c it

/-- C64: where there is an emitted `Clone` and its `where` clause holds, every field it clones is of a `Clone` type. -/
theorem C64_typed (H : HashbrownApi) (V : Type) (vs : List Variant) :
    (∀ q K, genMapClone (collect vs) q = some K → K.bounds.all (IterTy.isClone H V) = true →
      ∀ p ∈ (genMapIter (collect vs) q).decls, IterTy.isClone H V p.2 = true) ∧
    (∀ q, (genSetClone (collect vs) q).bounds.all (IterTy.isClone H V) = true →
      ∀ p ∈ (genSetIter (collect vs) q).decls, IterTy.isClone H V p.2 = true) ∧
    (∀ q, genMapClone (collect vs) q = none → ∀ κ n, ⟨n, some κ⟩ ∈ vs →
      ∃ p ∈ (genMapIter (collect vs) q).decls, IterTy.isClone H V p.2 = false) := by
  refine ⟨?_, ?_, ?_⟩
  · intro q K e hb p hp
    obtain ⟨f, hf, rfl⟩ := List.mem_map.mp hp
    simp only [mapIterDecl]
    cases hk : f.kind with
    | none => cases q <;> rfl
    | some κ =>
      cases q with
      | iter => rfl
      | keys => rfl
      | values => rfl
      | iterMut => cases e
      | valuesMut => cases e
      | intoIter =>
        cases e
        exact List.all_eq_true.mp hb _ (List.mem_filterMap.mpr ⟨f, hf, by rw [hk]; rfl⟩)
  · intro q hb p hp
    obtain ⟨f, hf, rfl⟩ := List.mem_map.mp hp
    simp only [setIterDecl]
    cases hk : f.kind with
    | none => rfl
    | some κ =>
      cases q with
      | iter => rfl
      | intoIter => exact List.all_eq_true.mp hb _ (List.mem_filterMap.mpr ⟨f, hf, by rw [hk]; rfl⟩)
  · intro q e κ n hm
    obtain ⟨f, hf, hk⟩ : ∃ f ∈ (collect vs).fields, f.kind = some κ := by
      rw [collect_fields]
      have : ∀ (vs : List Variant) i, ⟨n, some κ⟩ ∈ vs → ∃ f ∈ fieldsFrom i vs, f.kind = some κ := by
        intro vs
        induction vs with
        | nil => intro _ h; cases h
        | cons v vs ih =>
          intro i h
          rcases List.mem_cons.mp h with rfl | h
          · exact ⟨_, .head _, rfl⟩
          · obtain ⟨f, h1, h2⟩ := ih (i + 1) h
            exact ⟨f, .tail _ h1, h2⟩
      exact this vs 0 hm
    refine ⟨mapIterDecl q f, List.mem_map.mpr ⟨f, hf, rfl⟩, ?_⟩
    simp only [mapIterDecl, hk]
    cases q with
    | iter => cases e
    | keys => cases e
    | values => cases e
    | intoIter => cases e
    | iterMut => rfl
    | valuesMut => rfl

/-! ## Concrete cases -/

/-- `enum Key { A, Flag(bool), Opt(Option<Part>) }`. -/
def exClone : List Variant := [⟨"A", none⟩, ⟨"Flag", some .bool⟩, ⟨"Opt", some (.opt (.units 2))⟩]

/-- A map with entries `A`, `Flag(true)`, `Flag(false)`, `Opt(Some(1))`, `Opt(None)`. -/
def exCloneMap : (mapStorage Ex.H.api Nat (.enum (fieldsOf exClone))).S :=
  let M := mapStorage Ex.H.api Nat (.enum (fieldsOf exClone))
  let key (k : Unit ⊕ (Bool ⊕ (Option (Fin 2) ⊕ Empty))) : KeyTy.Key (.enum (fieldsOf exClone)) := k
  [(key (.inl ()), 1), (key (.inr (.inl true)), 2), (key (.inr (.inl false)), 3), (key (.inr (.inr (.inl (some 1)))), 4),
    (key (.inr (.inr (.inl none))), 5)].foldl (fun s p => (M.insert s p.1 p.2).2) M.empty

def exOuts (l : List (Option (Out Ex.H.api Nat))) : List (Option (String × Nat)) :=
  l.map fun o => o.bind fun | .entry k (.val v) => some (k.var, v) | _ => none

example : (fieldsOf exClone).hashFree = true := by decide
example : (fieldsOf exVariants).hashFree = false := by decide
/-- The bounds of `into_iter` hold for this enum, `iter_mut` has no `Clone`, and there is a payload. -/
example : ((genMapClone (collect exClone) .intoIter).map fun K => K.bounds.all (IterTy.isClone Ex.H.api Nat)) = some true ∧
    (genMapClone (collect exClone) .iterMut).isNone ∧ (genMapIter (collect exClone) .intoIter).decls.length = 3 := ⟨rfl, rfl, rfl⟩
/-- After one call at each end the iterator is cloned, here with a `clone` that adds 100; both go on. -/
example : ∃ it it' K, (((genMapIter (collect exClone) .intoIter).make (mapStruct (fieldsOf exClone) exCloneMap)).bind
      ((genMapIter (collect exClone) .intoIter).runSt 5 [.front, .back])).map (fun p => (exOuts p.1, p.2)) =
        some ([some ("A", 1), some ("Opt", 5)], it) ∧
    genMapClone (collect exClone) .intoIter = some K ∧
    K.run (genMapIter (collect exClone) .intoIter).decls true (· + 100) it = some it' ∧
    ((genMapIter (collect exClone) .intoIter).run 5 [.front, .back, .front, .back] it').map exOuts =
      some [some ("Flag", 102), some ("Opt", 104), some ("Flag", 103), none] ∧
    ((genMapIter (collect exClone) .intoIter).run 5 [.front, .back, .front, .back] it).map exOuts =
      some [some ("Flag", 2), some ("Opt", 4), some ("Flag", 3), none] :=
  ⟨_, _, _, rfl, rfl, rfl, rfl, rfl⟩
/-- With a hash table there is no `Clone`. -/
example : ∀ K, genMapClone (collect exVariants) .intoIter = some K →
    (((genMapIter (collect exVariants) .intoIter).make (H := Ex.H.api) (V := Nat) (mapStruct (fieldsOf exVariants) Ex.map)).map
      fun it => (K.run (genMapIter (collect exVariants) .intoIter).decls true id it).isSome) = some false := by
  intro K e; cases e; rfl
example : ∃ f, KeyTy.cloneIntoIter Ex.H.api Nat (· + 100) .bool = some f ∧
    let M := mapStorage Ex.H.api Nat .bool
    (M.intoIter.I.run [.back, .front] (f (M.intoIter.init (M.insert (M.insert M.empty true 1).2 false 2).2))).map (·.1) =
      some [some (false, 102), some (true, 101)] := ⟨_, rfl, rfl⟩

end Gen

end FixedMap
