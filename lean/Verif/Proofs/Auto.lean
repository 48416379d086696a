import Verif.Spec.Auto
import Verif.Spec.Order
import Verif.Proofs.GenHeader

/-!
# Proofs about `Send` and `Sync`
-/

set_option autoImplicit false
set_option linter.unusedSimpArgs false

namespace FixedMap

/-! ## The rules -/

theorem RTy.access_sync (v : Auto) : ∀ t : RTy, (t.auto v).sync = true ↔ (t.access ≠ [] → v.sync = true)
  | .plain => by simp [RTy.auto, RTy.access]
  | .value => by simp [RTy.auto, RTy.access]
  | .ref t => by simpa [RTy.auto, RTy.access] using access_sync v t
  | .mutRef t => by simpa [RTy.auto, RTy.access] using access_sync v t
  | .opt t => by simpa [RTy.auto, RTy.access] using access_sync v t
  | .array t => by simpa [RTy.auto, RTy.access] using access_sync v t
  | .pair t u => by
    have ht := access_sync v t
    have hu := access_sync v u
    simp only [RTy.auto, RTy.access, Auto.and, Bool.and_eq_true, ht, hu]
    cases t.access <;> cases u.access <;> simp
  | .hash h => by cases h <;> simp [RTy.auto, RTy.access, HashTy.auto, HashTy.access]

theorem RTy.mayShare_iff (v : Auto) (t : RTy) : t.mayShare v ↔ (t.access ≠ [] → v.sync = true) := by
  simp only [RTy.mayShare, RTy.maySend, RTy.access]
  cases t.access with
  | nil => simp
  | cons a as => simpa using fun h _ _ => h

theorem RTy.sync_iff (v : Auto) (t : RTy) : (t.auto v).sync = true ↔ t.mayShare v :=
  (access_sync v t).trans (mayShare_iff v t).symm

theorem RTy.send_iff (v : Auto) : ∀ t : RTy, (t.auto v).send = true ↔ t.maySend v
  | .plain => by simp [RTy.auto, RTy.access, RTy.maySend]
  | .value => by simp [RTy.auto, RTy.access, RTy.maySend]
  | .ref t => by simpa [RTy.auto, RTy.mayShare] using sync_iff v t
  | .mutRef t => by
    rw [RTy.auto, send_iff v t]
    simp only [RTy.maySend, RTy.access, List.mem_map]
    constructor
    · rintro ⟨h1, h2⟩
      refine ⟨?_, ?_⟩
      · rintro a ⟨b, hb, rfl⟩ hn
        exact h1 b hb (by rintro rfl; exact hn rfl)
      · rintro a ⟨b, hb, rfl⟩ hn
        cases b <;> first | exact h2 _ hb rfl | exact nomatch hn
    · rintro ⟨h1, h2⟩
      refine ⟨fun a ha hn => h1 _ ⟨a, ha, rfl⟩ ?_, fun a ha hn => h2 _ ⟨a, ha, rfl⟩ (by rw [hn]; rfl)⟩
      cases a <;> first | exact absurd rfl hn | exact fun h => nomatch h
  | .opt t => send_iff v t
  | .array t => send_iff v t
  | .pair t u => by
    simp only [RTy.auto, Auto.and, Bool.and_eq_true, send_iff v t, send_iff v u, RTy.maySend, RTy.access, List.mem_append]
    constructor
    · rintro ⟨⟨h1, h2⟩, h3, h4⟩
      exact ⟨fun a h => h.elim (h1 a) (h3 a), fun a h => h.elim (h2 a) (h4 a)⟩
    · rintro ⟨h1, h2⟩
      exact ⟨⟨fun a h => h1 a (.inl h), fun a h => h2 a (.inl h)⟩, fun a h => h1 a (.inr h), fun a h => h2 a (.inr h)⟩
  | .hash h => by cases h <;> simp [RTy.auto, RTy.maySend, RTy.access, HashTy.auto, HashTy.access]

theorem bool_eq_of_iff {a b : Bool} (h : a = true ↔ b = true) : a = b := by
  cases a <;> cases b <;> simp_all

/-- A type that grants accesses of one kind. -/
theorem RTy.grants.auto {t : RTy} {a : Access} (h : t.grants a) (v : Auto) :
    t.auto v = if a = .look then ⟨v.sync, v.sync⟩ else v := by
  obtain ⟨hn, ha⟩ := h
  have hs : (t.auto v).sync = v.sync := bool_eq_of_iff ((access_sync v t).trans ⟨fun h => h hn, fun h _ => h⟩)
  obtain ⟨b, hb⟩ := List.exists_mem_of_ne_nil _ hn
  have hb' : a ∈ t.access := ha b hb ▸ hb
  have hd : (t.auto v).send = if a = .look then v.sync else v.send := by
    refine bool_eq_of_iff ((send_iff v t).trans ?_)
    constructor
    · rintro ⟨h1, h2⟩
      split
      · next e => exact h2 a hb' e
      · next e => exact h1 a hb' e
    · intro h
      refine ⟨fun c hc hne => ?_, fun c hc he => ?_⟩
      · rw [ha c hc] at hne; rwa [if_neg hne] at h
      · rw [ha c hc] at he; rwa [if_pos he] at h
  rw [show t.auto v = ⟨(t.auto v).send, (t.auto v).sync⟩ from rfl, hs, hd]
  split <;> rfl

theorem RTy.auto_of_nil {t : RTy} (h : t.access = []) (v : Auto) : t.auto v = ⟨true, true⟩ := by
  have hs : (t.auto v).sync = true := (access_sync v t).2 fun hn => absurd h hn
  have hd : (t.auto v).send = true := (send_iff v t).2 (by simp [RTy.maySend, h])
  rw [show t.auto v = ⟨(t.auto v).send, (t.auto v).sync⟩ from rfl, hs, hd]

/-! ## Only one kind of access -/

/-- All accesses are of this kind. -/
def RTy.only (t : RTy) (a : Access) : Prop := ∀ b ∈ t.access, b = a

instance (t : RTy) (a : Access) : Decidable (t.only a) := inferInstanceAs (Decidable (∀ b ∈ t.access, b = a))

theorem RTy.only.pair {t u : RTy} {a : Access} (ht : t.only a) (hu : u.only a) : (RTy.pair t u).only a := fun b h =>
  (List.mem_append.mp h).elim (ht b) (hu b)

theorem RTy.pair_ne_left {t u : RTy} (h : t.access ≠ []) : (RTy.pair t u).access ≠ [] := fun e => h (List.append_eq_nil_iff.mp e).1

theorem RTy.pair_ne_right {t u : RTy} (h : u.access ≠ []) : (RTy.pair t u).access ≠ [] := fun e => h (List.append_eq_nil_iff.mp e).2

mutual
theorem KeyTy.mapTy_only : ∀ κ : KeyTy, κ.mapTy.only .own
  | .bool => by decide
  | .unit => by decide
  | .opt κ => (KeyTy.mapTy_only κ).pair (by decide)
  | .prim _ => by show (RTy.hash .table).only .own; decide
  | .units _ => by show (RTy.array (.opt .value)).only .own; decide
  | .bitset _ _ _ => by show (RTy.array (.opt .value)).only .own; decide
  | .enum fs => Fields.mapTy_only fs
theorem Fields.mapTy_only : ∀ fs : Fields, fs.mapTy.only .own
  | .nil => by decide
  | .simple fs => RTy.only.pair (by decide) (Fields.mapTy_only fs)
  | .complex κ fs => (KeyTy.mapTy_only κ).pair (Fields.mapTy_only fs)
end
mutual
theorem KeyTy.mapTy_ne : ∀ κ : KeyTy, κ.noEmpty = true → κ.mapTy.access ≠ []
  | .bool, _ => by decide
  | .unit, _ => by decide
  | .opt _, _ => RTy.pair_ne_right (by decide)
  | .prim _, _ => by show (RTy.hash .table).access ≠ []; decide
  | .units _, _ => by show (RTy.array (.opt .value)).access ≠ []; decide
  | .bitset _ _ _, _ => by show (RTy.array (.opt .value)).access ≠ []; decide
  | .enum fs, h => by
    have h := (Bool.and_eq_true _ _).mp h
    exact Fields.mapTy_ne fs h.1 h.2
theorem Fields.mapTy_ne : ∀ fs : Fields, (!fs.isNil) = true → fs.noEmpty = true → fs.mapTy.access ≠ []
  | .nil, h, _ => by cases h
  | .simple _, _, _ => RTy.pair_ne_left (by decide)
  | .complex κ _, _, h => RTy.pair_ne_left (KeyTy.mapTy_ne κ ((Bool.and_eq_true _ _).mp h).1)
end

open Gen (MapIt SetIt)

theorem optIterTy_only {i : RTy} : ∀ {q : MapIt}, i.only q.grant → (optIterTy i q).only q.grant
  | .iter, h | .values, h | .iterMut, h | .valuesMut, h | .intoIter, h | .keys, h => by
    intro b hb
    simp only [optIterTy, RTy.access, List.mem_append, List.append_nil, List.map_cons, List.map_nil, List.mem_singleton, Gen.MapIt.grant,
      Access.mutably, List.mem_nil_iff, or_false] at hb ⊢
    first
    | exact hb.elim (h b) id
    | exact h b hb

mutual
theorem KeyTy.mapIterTy_only (q : MapIt) : ∀ κ : KeyTy, (κ.mapIterTy q).only q.grant
  | .bool => by cases q <;> exact (by decide)
  | .unit => by cases q <;> exact (by decide)
  | .opt κ => optIterTy_only (KeyTy.mapIterTy_only q κ)
  | .prim _ => by show (hashIterTy q).only q.grant; cases q <;> decide
  | .units _ => by show (unitsIterTy q).only q.grant; cases q <;> decide
  | .bitset _ _ _ => by show (unitsIterTy q).only q.grant; cases q <;> decide
  | .enum fs => RTy.only.pair (fun b h => nomatch h) (RTy.only.pair (fun b h => nomatch h) (Fields.mapIterTy_only q fs))
theorem Fields.mapIterTy_only (q : MapIt) : ∀ fs : Fields, (fs.mapIterTy q).only q.grant
  | .nil => fun b h => nomatch h
  | .simple fs => RTy.only.pair (by cases q <;> decide) (Fields.mapIterTy_only q fs)
  | .complex κ fs => (KeyTy.mapIterTy_only q κ).pair (Fields.mapIterTy_only q fs)
end

theorem optIterTy_ne (i : RTy) : ∀ {q : MapIt}, q ≠ .keys → (optIterTy i q).access ≠ []
  | .iter, _ | .values, _ | .iterMut, _ | .valuesMut, _ | .intoIter, _ => RTy.pair_ne_right (by decide)
  | .keys, h => absurd rfl h

mutual
theorem KeyTy.mapIterTy_ne {q : MapIt} (hq : q ≠ .keys) : ∀ κ : KeyTy, κ.noEmpty = true → (κ.mapIterTy q).access ≠ []
  | .bool, _ => by show (boolIterTy q).access ≠ []; cases q <;> first | exact absurd rfl hq | decide
  | .unit, _ => by show (unitIterTy q).access ≠ []; cases q <;> first | exact absurd rfl hq | decide
  | .opt κ, _ => optIterTy_ne _ hq
  | .prim _, _ => by show (hashIterTy q).access ≠ []; cases q <;> first | exact absurd rfl hq | decide
  | .units _, _ => by show (unitsIterTy q).access ≠ []; cases q <;> first | exact absurd rfl hq | decide
  | .bitset _ _ _, _ => by show (unitsIterTy q).access ≠ []; cases q <;> first | exact absurd rfl hq | decide
  | .enum fs, h => by
    have h := (Bool.and_eq_true _ _).mp h
    exact RTy.pair_ne_right (RTy.pair_ne_right (Fields.mapIterTy_ne hq fs h.1 h.2))
theorem Fields.mapIterTy_ne {q : MapIt} (hq : q ≠ .keys) : ∀ fs : Fields, (!fs.isNil) = true → fs.noEmpty = true →
    (fs.mapIterTy q).access ≠ []
  | .nil, h, _ => by cases h
  | .simple _, _, _ => RTy.pair_ne_left (by cases q <;> first | exact absurd rfl hq | decide)
  | .complex κ _, _, h => RTy.pair_ne_left (KeyTy.mapIterTy_ne hq κ ((Bool.and_eq_true _ _).mp h).1)
end

mutual
theorem KeyTy.keysTy_nil : ∀ κ : KeyTy, (κ.mapIterTy .keys).access = [] ↔ κ.hashFree = true
  | .bool => by decide
  | .unit => by decide
  | .opt κ => by
    have := KeyTy.keysTy_nil κ
    simp only [KeyTy.mapIterTy, optIterTy, RTy.access, List.append_nil, KeyTy.hashFree, this]
  | .prim _ => by simp [KeyTy.mapIterTy, hashIterTy, RTy.access, HashTy.access, KeyTy.hashFree]
  | .units _ => by simp [KeyTy.mapIterTy, unitsIterTy, RTy.access, KeyTy.hashFree]
  | .bitset _ _ _ => by simp [KeyTy.mapIterTy, unitsIterTy, RTy.access, KeyTy.hashFree]
  | .enum fs => by
    have := Fields.keysTy_nil fs
    simp only [KeyTy.mapIterTy, RTy.access, List.nil_append, KeyTy.hashFree, this]
theorem Fields.keysTy_nil : ∀ fs : Fields, (fs.mapIterTy .keys).access = [] ↔ fs.hashFree = true
  | .nil => by decide
  | .simple fs => by
    have := Fields.keysTy_nil fs
    simp only [Fields.mapIterTy, slotIterTy, RTy.access, List.nil_append, Fields.hashFree, this]
  | .complex κ fs => by
    have h1 := KeyTy.keysTy_nil κ
    have h2 := Fields.keysTy_nil fs
    simp only [Fields.mapIterTy, RTy.access, List.append_eq_nil_iff, Fields.hashFree, Bool.and_eq_true, h1, h2]
end

mutual
theorem KeyTy.entryTy_only : ∀ κ : KeyTy, κ.entryTy.only .change
  | .bool => by decide
  | .unit => by decide
  | .opt κ => RTy.only.pair (by decide) (KeyTy.entryTy_only κ)
  | .prim _ => by show (RTy.hash .entry).only .change; decide
  | .units _ => by show keyedTy.only .change; decide
  | .bitset _ _ _ => by show keyedTy.only .change; decide
  | .enum fs => RTy.only.pair (by decide) (Fields.entryTy_only fs)
theorem Fields.entryTy_only : ∀ fs : Fields, fs.entryTy.only .change
  | .nil => by decide
  | .simple fs => Fields.entryTy_only fs
  | .complex κ fs => (KeyTy.entryTy_only κ).pair (Fields.entryTy_only fs)
end

theorem KeyTy.entryTy_ne : ∀ κ : KeyTy, κ.entryTy.access ≠ []
  | .bool => by decide
  | .unit => by decide
  | .opt _ => RTy.pair_ne_left (by decide)
  | .prim _ => by show (RTy.hash .entry).access ≠ []; decide
  | .units _ => by show keyedTy.access ≠ []; decide
  | .bitset _ _ _ => by show keyedTy.access ≠ []; decide
  | .enum _ => RTy.pair_ne_left (by decide)

mutual
theorem KeyTy.setTy_nil : ∀ κ : KeyTy, κ.setTy.access = []
  | .bool | .unit | .prim _ | .units _ | .bitset _ _ _ => rfl
  | .opt κ => by simp only [KeyTy.setTy, RTy.access, KeyTy.setTy_nil κ, List.append_nil]
  | .enum fs => Fields.setTy_nil fs
theorem Fields.setTy_nil : ∀ fs : Fields, fs.setTy.access = []
  | .nil => rfl
  | .simple fs => Fields.setTy_nil fs
  | .complex κ fs => by simp only [Fields.setTy, RTy.access, KeyTy.setTy_nil κ, Fields.setTy_nil fs, List.append_nil]
end

mutual
theorem KeyTy.setIterTy_nil (q : SetIt) : ∀ κ : KeyTy, (κ.setIterTy q).access = []
  | .bool | .unit | .units _ | .bitset _ _ _ => rfl
  | .prim _ => by cases q <;> rfl
  | .opt κ => by simp only [KeyTy.setIterTy, RTy.access, KeyTy.setIterTy_nil q κ, List.append_nil]
  | .enum fs => Fields.setIterTy_nil q fs
theorem Fields.setIterTy_nil (q : SetIt) : ∀ fs : Fields, (fs.setIterTy q).access = []
  | .nil => rfl
  | .simple fs => Fields.setIterTy_nil q fs
  | .complex κ fs => by simp only [Fields.setIterTy, RTy.access, KeyTy.setIterTy_nil q κ, Fields.setIterTy_nil q fs, List.append_nil]
end

/-! ## The emitted structs -/

namespace Gen

theorem fields_mapTy : ∀ (i : Nat) (vs : List Variant),
    (((fieldsFrom i vs).map fun f => (match f.kind with | some κ => FieldTy.map κ | none => .slot).ty.rty).foldr .pair .plain) =
      (fieldsOf vs).mapTy
  | _, [] => rfl
  | i, ⟨_, none⟩ :: vs => congrArg (RTy.pair _) (fields_mapTy (i + 1) vs)
  | i, ⟨_, some _⟩ :: vs => congrArg (RTy.pair _) (fields_mapTy (i + 1) vs)

theorem fields_setTy : ∀ (i : Nat) (vs : List Variant),
    (((fieldsFrom i vs).map fun f => (match f.kind with | some κ => FieldTy.set κ | none => .flag).ty.rty).foldr .pair .plain) =
      (fieldsOf vs).setTy
  | _, [] => rfl
  | i, ⟨_, none⟩ :: vs => congrArg (RTy.pair _) (fields_setTy (i + 1) vs)
  | i, ⟨_, some _⟩ :: vs => congrArg (RTy.pair _) (fields_setTy (i + 1) vs)

theorem fields_mapIterTy (q : MapIt) : ∀ (i : Nat) (vs : List Variant),
    (((fieldsFrom i vs).map fun f => (Gen.mapIterTy q (mapIterDecl q f).2).rty).foldr .pair .plain) = (fieldsOf vs).mapIterTy q
  | _, [] => rfl
  | i, ⟨_, none⟩ :: vs => by
    have h := fields_mapIterTy q (i + 1) vs
    cases q <;> exact congrArg (RTy.pair _) h
  | i, ⟨_, some _⟩ :: vs => congrArg (RTy.pair _) (fields_mapIterTy q (i + 1) vs)

theorem fields_setIterTy (q : SetIt) : ∀ (i : Nat) (vs : List Variant),
    (((fieldsFrom i vs).map fun f => (Gen.setIterTy q (setIterDecl q f).2).rty).foldr .pair .plain) = (fieldsOf vs).setIterTy q
  | _, [] => rfl
  | i, ⟨_, none⟩ :: vs => congrArg (RTy.pair _) (fields_setIterTy q (i + 1) vs)
  | i, ⟨_, some _⟩ :: vs => congrArg (RTy.pair _) (fields_setIterTy q (i + 1) vs)

theorem decl_rty (vs : List Variant) {d : Decl} (h : d ∈ genDecls (collect vs)) :
    d.rty = (d.item.ty (.enum (fieldsOf vs))).rty := by
  obtain ⟨i, rfl⟩ := mem_genDecls h
  cases i with
  | mapStorage =>
    refine Eq.trans ?_ (fields_mapTy 0 vs)
    simp only [Decl.rty, declOf, genMap, collect_fields, List.map_map]
    congr 2
    funext f
    simp only [Function.comp]
    cases f.kind <;> rfl
  | setStorage =>
    refine Eq.trans ?_ (fields_setTy 0 vs)
    simp only [Decl.rty, declOf, genSet, collect_fields, List.map_map]
    congr 2
    funext f
    simp only [Function.comp]
    cases f.kind <;> rfl
  | mapIter q =>
    refine Eq.trans ?_ (congrArg (fun t => RTy.pair .plain (.pair .plain t)) (fields_mapIterTy q 0 vs))
    simp only [Decl.rty, declOf, genMapIter, collect_fields, List.map_map, List.map_cons, List.foldr_cons, Ty.rty]
    rfl
  | setIter q =>
    refine Eq.trans ?_ (congrArg (fun t => RTy.pair .plain (.pair .plain t)) (fields_setIterTy q 0 vs))
    simp only [Decl.rty, declOf, genSetIter, collect_fields, List.map_map, List.map_cons, List.foldr_cons, Ty.rty]
    rfl

theorem fields_entryTy : ∀ (i : Nat) (vs : List Variant),
    ((((fieldsFrom i vs).filterMap fun f => f.kind.map fun κ => (f.name, some κ)).map fun p : String × Option KeyTy =>
      match p.2 with | none => keyedTy | some κ => κ.entryTy).foldr .pair .plain) = (fieldsOf vs).entryTy
  | _, [] => rfl
  | i, ⟨_, none⟩ :: vs => fields_entryTy (i + 1) vs
  | i, ⟨_, some _⟩ :: vs => congrArg (RTy.pair _) (fields_entryTy (i + 1) vs)

theorem entries_rty (vs : List Variant) :
    entriesTy (("Simple", none) :: complexArms (collect vs) fun _ κ => some κ) = (KeyTy.enum (fieldsOf vs)).entryTy := by
  refine Eq.trans ?_ (congrArg (RTy.pair keyedTy) (fields_entryTy 0 vs))
  simp only [entriesTy, complexArms, collect_fields, List.map_cons, List.foldr_cons]
  rfl

end Gen

end FixedMap
