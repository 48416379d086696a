import Verif.Spec.Memory
import Verif.Proofs.History
import Verif.Proofs.Entry
import Verif.Proofs.MapHash

/-! # Memory of maps: helper lemmas -/

set_option autoImplicit false
set_option linter.unusedSimpArgs false

namespace FixedMap

/-- What the methods of a storage do to its memory. -/
structure MemOf {K V : Type} (M : MapCore K V) (n : Nat) (home : K → Option Nat) (mem : M.S → List Nat) : Prop where
  len : ∀ s, (mem s).length = n
  empty : mem M.empty = List.replicate n 0
  write : ∀ s a v, mem (M.write s a v) = mem s
  remove : ∀ s k, mem (M.remove s k).2 = mem s
  retain : ∀ {σ : Type} (f : σ → K → V → σ × V × Option Bool) s st, mem (M.retain f s st).s = mem s
  clear : ∀ s, mem (M.clear s).1 = mem s
  entry : ∀ s k e s', M.entry s k = .ok (e, s') → mem s' = mem s
  occInsert : ∀ e s v old s', M.occInsert e s v = .ok (old, s') → mem s' = mem s
  occRemove : ∀ e s old s', M.occRemove e s = .ok (old, s') → mem s' = mem s
  vacInsert : ∀ e s v a s', M.vacInsert e s v = .ok (a, s') → mem s' = mem s ∨ ∃ i, home (M.vacKey e) = some i ∧ GrownAt i (mem s) (mem s')
  insert : ∀ s k v, mem (M.insert s k v).2 = mem s ∨ ∃ i, home k = some i ∧ GrownAt i (mem s) (mem (M.insert s k v).2)
  present : ∀ s k v, (M.get s k).isSome → mem (M.insert s k v).2 = mem s
  clone : ∀ c s, mem (M.clone c s) = mem s

theorem GrownAt.left {i : Nat} {l l' : List Nat} (h : GrownAt i l l') (r : List Nat) : GrownAt i (l ++ r) (l' ++ r) := by
  obtain ⟨y, x, h1, h2, rfl⟩ := h
  have := (List.getElem?_eq_some_iff.mp h1).1
  exact ⟨y, x, by rw [List.getElem?_append_left this, h1], h2, by rw [List.set_append_left _ _ this]⟩

theorem GrownAt.right {i n : Nat} {l l' r : List Nat} (h : GrownAt i l l') (hr : r.length = n) : GrownAt (n + i) (r ++ l) (r ++ l') := by
  obtain ⟨y, x, h1, h2, rfl⟩ := h
  subst hr
  refine ⟨y, x, by rw [List.getElem?_append_right (by omega)]; simpa using h1, h2, ?_⟩
  rw [List.set_append_right _ _ (by omega)]; simp

theorem Res.map_eq_ok {α β : Type} {f : α → β} {r : Res α} {b : β} (h : r.map f = .ok b) : ∃ a, r = .ok a ∧ f a = b := by
  cases r with
  | ok a => exact ⟨a, rfl, by cases h; rfl⟩
  | panic => cases h
  | ub => cases h

theorem Res.bind_eq_ok {α β : Type} {f : α → Res β} {r : Res α} {b : β} (h : r.bind f = .ok b) : ∃ a, r = .ok a ∧ f a = .ok b := by
  cases r with
  | ok a => exact ⟨a, rfl, h⟩
  | panic => cases h
  | ub => cases h

/-- A storage without tables. -/
theorem MemOf.leaf {K V : Type} (M : MapCore K V) : MemOf M 0 (fun _ => none) (fun _ => []) where
  len _ := rfl
  empty := rfl
  write _ _ _ := rfl
  remove _ _ := rfl
  retain _ _ _ := rfl
  clear _ := rfl
  entry _ _ _ _ _ := rfl
  occInsert _ _ _ _ _ _ := rfl
  occRemove _ _ _ _ _ := rfl
  vacInsert _ _ _ _ _ _ := .inl rfl
  insert _ _ _ := .inl rfl
  present _ _ _ _ := rfl
  clone _ _ := rfl

theorem MemOf.hash {K V : Type} {A : HashMapApi K V} (Q : MemoryLaws A) : MemOf (hashMap A).toMapCore 1 (fun _ => some 0) (fun t => [Q.mem t]) where
  len _ := rfl
  empty := by simp [Q.new_mem]
  write s a v := by simp [Q.write_mem]
  remove s k := by simp [Q.remove_mem]
  retain f s st := by simp [Q.retain_mem]
  clear s := by simp [Q.clear_mem]
  entry s k e s' h := by
    have : (A.entry s k) = (e, s') := Res.ok.inj h
    have := Q.entry_mem s k
    simp_all
  occInsert e s v old s' h := by simp [Q.occ_insert_mem _ _ _ _ _ h]
  occRemove e s old s' h := by simp [Q.occ_remove_mem _ _ _ _ h]
  vacInsert e s v a s' h := .inr ⟨0, rfl, _, _, rfl, Q.vac_insert_mem _ _ _ _ _ h, rfl⟩
  insert s k v := .inr ⟨0, rfl, _, _, rfl, Q.insert_mem s k v, rfl⟩
  present s k v h := by simp [(Q.insert_present s k v h).1]
  clone c s := by simp [Q.clone_mem]

section
variable {K V : Type} {n : Nat} {home : K → Option Nat}

theorem MemOf.opt {M : MapStorage K V} {mem : M.S → List Nat} (h : MemOf M.toMapCore n home mem) :
    MemOf (optMap M).toMapCore n (fun k => Option.bind k home) (fun s => mem s.some) where
  len s := h.len _
  empty := h.empty
  write s a v := by
    cases a with
    | none => rfl
    | some a => exact h.write _ _ _
  remove s k := by
    cases k with
    | none => rfl
    | some k => exact h.remove _ _
  retain f s st := by
    show mem (OptMapSt.some (RetainOut.mapS _ (RetainOut.andThen _ _ _)).s) = _
    unfold RetainOut.andThen
    split <;> exact h.retain _ _ _
  clear s := h.clear _
  entry s k e s' he := by
    cases k with
    | none =>
      obtain ⟨b, -, hb⟩ := Res.map_eq_ok he
      cases b <;> (cases hb; rfl)
    | some k =>
      obtain ⟨⟨e', t⟩, h1, hb⟩ := Res.map_eq_ok he
      have := h.entry _ _ _ _ h1
      cases e' <;> (cases hb; exact this)
  occInsert e s v old s' he := by
    cases e with
    | none => obtain ⟨p, -, hb⟩ := Res.map_eq_ok he; cases hb; rfl
    | some e => obtain ⟨p, h1, hb⟩ := Res.map_eq_ok he; cases hb; exact h.occInsert _ _ _ _ _ h1
  occRemove e s old s' he := by
    cases e with
    | none => obtain ⟨p, -, hb⟩ := Res.map_eq_ok he; cases hb; rfl
    | some e => obtain ⟨p, h1, hb⟩ := Res.map_eq_ok he; cases hb; exact h.occRemove _ _ _ _ h1
  vacInsert e s v a s' he := by
    cases e with
    | none => obtain ⟨p, -, hb⟩ := Res.map_eq_ok he; cases hb; exact .inl rfl
    | some e => obtain ⟨p, h1, hb⟩ := Res.map_eq_ok he; cases hb; exact h.vacInsert _ _ _ _ _ h1
  insert s k v := by
    cases k with
    | none => exact .inl rfl
    | some k => exact h.insert _ _ _
  present s k v hp := by
    cases k with
    | none => rfl
    | some k => exact h.present _ _ _ hp
  clone c s := h.clone _ _

theorem MemOf.simple {F : MapFields K V} {mem : F.S → List Nat} (h : MemOf F.toMapCore n home mem) :
    MemOf (fieldsSimple F).toMapCore n (Sum.elim (fun _ => none) home) (fun s => mem s.2) where
  len s := h.len _
  empty := h.empty
  write s a v := by
    cases a with
    | inl _ => rfl
    | inr a => exact h.write _ _ _
  remove s k := by
    cases k with
    | inl _ => rfl
    | inr k => exact h.remove _ _
  retain f s st := by
    show mem (RetainOut.andThen _ _ _).s.2 = _
    unfold RetainOut.andThen
    split
    · rfl
    · exact h.retain _ _ _
  clear s := h.clear _
  entry s k e s' he := by
    cases k with
    | inl _ =>
      obtain ⟨b, -, hb⟩ := Res.map_eq_ok he
      cases b <;> (cases hb; rfl)
    | inr k =>
      obtain ⟨⟨e', t⟩, h1, hb⟩ := Res.map_eq_ok he
      have := h.entry _ _ _ _ h1
      cases e' <;> (cases hb; exact this)
  occInsert e s v old s' he := by
    cases e with
    | inl _ => obtain ⟨p, -, hb⟩ := Res.map_eq_ok he; cases hb; rfl
    | inr e => obtain ⟨p, h1, hb⟩ := Res.map_eq_ok he; cases hb; exact h.occInsert _ _ _ _ _ h1
  occRemove e s old s' he := by
    cases e with
    | inl _ => obtain ⟨p, -, hb⟩ := Res.map_eq_ok he; cases hb; rfl
    | inr e => obtain ⟨p, h1, hb⟩ := Res.map_eq_ok he; cases hb; exact h.occRemove _ _ _ _ h1
  vacInsert e s v a s' he := by
    cases e with
    | inl _ => obtain ⟨p, -, hb⟩ := Res.map_eq_ok he; cases hb; exact .inl rfl
    | inr e => obtain ⟨p, h1, hb⟩ := Res.map_eq_ok he; cases hb; exact h.vacInsert _ _ _ _ _ h1
  insert s k v := by
    cases k with
    | inl _ => exact .inl rfl
    | inr k => exact h.insert _ _ _
  present s k v hp := by
    cases k with
    | inl _ => rfl
    | inr k => exact h.present _ _ _ hp
  clone c s := h.clone _ _

theorem MemOf.complex {E : Type} {m : Nat} {home' : E → Option Nat} {M : MapStorage E V} {F : MapFields K V} {mem' : M.S → List Nat}
    {mem : F.S → List Nat} (h' : MemOf M.toMapCore m home' mem') (h : MemOf F.toMapCore n home mem) :
    MemOf (fieldsComplex M F).toMapCore (m + n) (Sum.elim home' fun k => (home k).map (m + ·)) (fun s => mem' s.1 ++ mem s.2) where
  len s := by simp [h.len, h'.len]
  empty := by
    show mem' M.empty ++ mem F.empty = _
    rw [h.empty, h'.empty, List.replicate_append_replicate]
  write s a v := by
    cases a with
    | inl a => exact congrArg (· ++ mem s.2) (h'.write _ _ _)
    | inr a => exact congrArg (mem' s.1 ++ ·) (h.write _ _ _)
  remove s k := by
    cases k with
    | inl a => exact congrArg (· ++ mem s.2) (h'.remove _ _)
    | inr a => exact congrArg (mem' s.1 ++ ·) (h.remove _ _)
  retain f s st := by
    show mem' (RetainOut.andThen _ _ _).s.1 ++ mem (RetainOut.andThen _ _ _).s.2 = _
    unfold RetainOut.andThen
    split
    · exact congrArg (· ++ mem s.2) (h'.retain _ _ _)
    · exact congr (congrArg _ (h'.retain _ _ _)) (h.retain _ _ _)
  clear s := congr (congrArg _ (h'.clear _)) (h.clear _)
  entry s k e s' he := by
    cases k with
    | inl k =>
      obtain ⟨⟨e', t⟩, h1, hb⟩ := Res.map_eq_ok he
      have := h'.entry _ _ _ _ h1
      cases e' <;> (cases hb; exact congrArg (· ++ mem s.2) this)
    | inr k =>
      obtain ⟨⟨e', t⟩, h1, hb⟩ := Res.map_eq_ok he
      have := h.entry _ _ _ _ h1
      cases e' <;> (cases hb; exact congrArg (mem' s.1 ++ ·) this)
  occInsert e s v old s' he := by
    cases e with
    | inl e => obtain ⟨p, h1, hb⟩ := Res.map_eq_ok he; cases hb; exact congrArg (· ++ mem s.2) (h'.occInsert _ _ _ _ _ h1)
    | inr e => obtain ⟨p, h1, hb⟩ := Res.map_eq_ok he; cases hb; exact congrArg (mem' s.1 ++ ·) (h.occInsert _ _ _ _ _ h1)
  occRemove e s old s' he := by
    cases e with
    | inl e => obtain ⟨p, h1, hb⟩ := Res.map_eq_ok he; cases hb; exact congrArg (· ++ mem s.2) (h'.occRemove _ _ _ _ h1)
    | inr e => obtain ⟨p, h1, hb⟩ := Res.map_eq_ok he; cases hb; exact congrArg (mem' s.1 ++ ·) (h.occRemove _ _ _ _ h1)
  vacInsert e s v a s' he := by
    cases e with
    | inl e =>
      obtain ⟨p, h1, hb⟩ := Res.map_eq_ok he; cases hb
      rcases h'.vacInsert _ _ _ _ _ h1 with h2 | ⟨i, h2, h3⟩
      · exact .inl (congrArg (· ++ mem s.2) h2)
      · exact .inr ⟨i, h2, h3.left _⟩
    | inr e =>
      obtain ⟨p, h1, hb⟩ := Res.map_eq_ok he; cases hb
      rcases h.vacInsert _ _ _ _ _ h1 with h2 | ⟨i, h2, h3⟩
      · exact .inl (congrArg (mem' s.1 ++ ·) h2)
      · refine .inr ⟨m + i, ?_, h3.right (h'.len _)⟩
        show Option.map _ (home (F.vacKey e)) = _
        rw [h2]; rfl
  insert s k v := by
    cases k with
    | inl k =>
      rcases h'.insert s.1 k v with h2 | ⟨i, h2, h3⟩
      · exact .inl (congrArg (· ++ mem s.2) h2)
      · exact .inr ⟨i, h2, h3.left _⟩
    | inr k =>
      rcases h.insert s.2 k v with h2 | ⟨i, h2, h3⟩
      · exact .inl (congrArg (mem' s.1 ++ ·) h2)
      · refine .inr ⟨m + i, ?_, h3.right (h'.len _)⟩
        show Option.map _ (home k) = _
        rw [h2]; rfl
  present s k v hp := by
    cases k with
    | inl k => exact congrArg (· ++ mem s.2) (h'.present _ _ _ hp)
    | inr k => exact congrArg (mem' s.1 ++ ·) (h.present _ _ _ hp)
  clone c s := congr (congrArg _ (h'.clone _ _)) (h.clone _ _)

end

mutual
theorem mapMem_of (H : HashbrownApi) (V : Type) (Q : (p : Prim) → MemoryLaws (H p.Key V)) :
    (κ : KeyTy) → MemOf (mapStorage H V κ).toMapCore κ.tables κ.home (mapMem H V (fun p => (Q p).mem) κ)
  | .bool => .leaf _
  | .unit => .leaf _
  | .opt κ => (mapMem_of H V Q κ).opt
  | .prim p => .hash (Q p)
  | .units _ => .leaf _
  | .bitset _ _ _ => .leaf _
  | .enum fs => fieldsMem_of H V Q fs
theorem fieldsMem_of (H : HashbrownApi) (V : Type) (Q : (p : Prim) → MemoryLaws (H p.Key V)) :
    (fs : Fields) → MemOf (mapFields H V fs).toMapCore fs.tables fs.home (fieldsMem H V (fun p => (Q p).mem) fs)
  | .nil => .leaf _
  | .simple fs => (fieldsMem_of H V Q fs).simple
  | .complex κ fs => (mapMem_of H V Q κ).complex (fieldsMem_of H V Q fs)
end

/-! ## Histories -/

section
variable {K V σ : Type} {M : MapStorage K V} {n : Nat} {home : K → Option Nat} {mem : M.S → List Nat}

theorem MemOf.updateRefs (h : MemOf M.toMapCore n home mem) (f : σ → K → V → σ × V) (refs : List (K × M.Addr)) :
    ∀ (s : M.S) (st : σ) (r : M.S × σ × List V × List V), FixedMap.updateRefs M f refs s st = .ok r → mem r.1 = mem s := by
  induction refs with
  | nil => intro s st r hr; cases hr; rfl
  | cons p refs ih =>
    obtain ⟨k, a⟩ := p
    intro s st r hr
    obtain ⟨v, -, hr⟩ := Res.bind_eq_ok hr
    obtain ⟨q, hq, hr⟩ := Res.map_eq_ok hr
    cases hr
    exact (ih _ _ _ hq).trans (h.write _ _ _)

/-- One call. -/
theorem MemOf.step (L : CoreLaws M.toMapCore) (h : MemOf M.toMapCore n home mem) (s : M.S) (op : Op σ K V) (r : StepOut σ K V M.S)
    (hr : apiStep M s op = .ok r) :
    mem r.s = mem s ∨ ∃ k i, op.stores = some k ∧ M.get s k = none ∧ home k = some i ∧ GrownAt i (mem s) (mem r.s) := by
  -- storing through a vacant entry
  have vac : ∀ (k : K) (e : M.Vac) (s' : M.S) (v : V) (p : M.Addr × M.S), op.stores = some k → M.get s k = none → mem s' = mem s →
      L.vacFits e s' k → M.vacInsert e s' v = .ok p →
      mem p.2 = mem s ∨ ∃ k i, op.stores = some k ∧ M.get s k = none ∧ home k = some i ∧ GrownAt i (mem s) (mem p.2) := by
    intro k e s' v p hk hg hs hf hp
    rcases h.vacInsert e s' v p.1 p.2 hp with h1 | ⟨i, h1, h2⟩
    · exact .inl (h1.trans hs)
    · rw [L.vacKey_eq e s' k hf] at h1
      rw [hs] at h2
      exact .inr ⟨k, i, hk, hg, h1, h2⟩
  -- the entry of a key
  have ent : ∀ (k : K) (p : (M.Occ ⊕ M.Vac) × M.S), M.entry s k = .ok p → mem p.2 = mem s ∧
      ∀ e, p.1 = .inr e → M.get s k = none ∧ L.vacFits e p.2 k := by
    intro k p hp
    refine ⟨h.entry s k p.1 p.2 hp, ?_⟩
    intro e he
    rcases L.entry_cases s k with ⟨v, e', s', h1, h2, -, -⟩ | ⟨e', s', h1, h2, -, h3⟩
    · rw [h2] at hp; cases hp; cases he
    · rw [h2] at hp; cases hp; cases he; exact ⟨h1, h3⟩
  cases op with
  | insert k v =>
    cases hr
    cases hg : M.get s k with
    | some w => exact .inl (h.present s k v (by rw [hg]; rfl))
    | none =>
      rcases h.insert s k v with h1 | ⟨i, h1, h2⟩
      · exact .inl h1
      · exact .inr ⟨k, i, rfl, hg, h1, h2⟩
  | remove k => cases hr; exact .inl (h.remove _ _)
  | get k => cases hr; exact .inl rfl
  | containsKey k => cases hr; exact .inl rfl
  | len => cases hr; exact .inl rfl
  | isEmpty => cases hr; exact .inl rfl
  | clear => cases hr; exact .inl (h.clear _)
  | retain f st => cases hr; exact .inl (h.retain _ _ _)
  | replace k v =>
    simp only [apiStep] at hr
    split at hr
    · obtain ⟨old, -, hr⟩ := Res.map_eq_ok hr
      cases hr; exact .inl (h.write _ _ _)
    · cases hr; exact .inl rfl
  | iter =>
    simp only [apiStep] at hr
    split at hr
    · cases hr; exact .inl rfl
    · cases hr
  | orInsert k v =>
    obtain ⟨p, hp, hr⟩ := Res.bind_eq_ok hr
    obtain ⟨q, hq, hr⟩ := Res.bind_eq_ok hr
    obtain ⟨x, -, hr⟩ := Res.map_eq_ok hr
    cases hr
    obtain ⟨hm, he⟩ := ent k p hp
    obtain ⟨e | e, s'⟩ := p
    · obtain ⟨a, -, hq⟩ := Res.map_eq_ok hq
      cases hq; exact .inl hm
    · obtain ⟨a, ha, hq⟩ := Res.map_eq_ok hq
      cases hq
      exact vac k e s' v a rfl (he e rfl).1 hm (he e rfl).2 ha
  | orInsertWith k f st =>
    obtain ⟨p, hp, hr⟩ := Res.bind_eq_ok hr
    obtain ⟨q, hq, hr⟩ := Res.bind_eq_ok hr
    have hs : r.s = q.2.1 := by
      split at hr
      · obtain ⟨x, -, hr⟩ := Res.map_eq_ok hr; cases hr; rfl
      · cases hr; rfl
    rw [hs]
    obtain ⟨hm, he⟩ := ent k p hp
    obtain ⟨e | e, s'⟩ := p
    · obtain ⟨a, -, hq⟩ := Res.map_eq_ok hq
      cases hq; exact .inl hm
    · simp only [Entry.orInsertWith] at hq
      split at hq
      · cases hq; exact .inl hm
      · obtain ⟨a, ha, hq⟩ := Res.map_eq_ok hq
        cases hq
        exact vac k e s' _ a rfl (he e rfl).1 hm (he e rfl).2 ha
  | orInsertWithKey k f st =>
    obtain ⟨p, hp, hr⟩ := Res.bind_eq_ok hr
    obtain ⟨q, hq, hr⟩ := Res.bind_eq_ok hr
    have hs : r.s = q.2.1 := by
      split at hr
      · obtain ⟨x, -, hr⟩ := Res.map_eq_ok hr; cases hr; rfl
      · cases hr; rfl
    rw [hs]
    obtain ⟨hm, he⟩ := ent k p hp
    obtain ⟨e | e, s'⟩ := p
    · obtain ⟨a, -, hq⟩ := Res.map_eq_ok hq
      cases hq; exact .inl hm
    · simp only [Entry.orInsertWithKey] at hq
      split at hq
      · cases hq; exact .inl hm
      · obtain ⟨a, ha, hq⟩ := Res.map_eq_ok hq
        cases hq
        exact vac k e s' _ a rfl (he e rfl).1 hm (he e rfl).2 ha
  | orDefault k f st =>
    obtain ⟨p, hp, hr⟩ := Res.bind_eq_ok hr
    obtain ⟨q, hq, hr⟩ := Res.bind_eq_ok hr
    have hs : r.s = q.2.1 := by
      split at hr
      · obtain ⟨x, -, hr⟩ := Res.map_eq_ok hr; cases hr; rfl
      · cases hr; rfl
    rw [hs]
    obtain ⟨hm, he⟩ := ent k p hp
    obtain ⟨e | e, s'⟩ := p
    · obtain ⟨a, -, hq⟩ := Res.map_eq_ok hq
      cases hq; exact .inl hm
    · simp only [Entry.orDefault] at hq
      split at hq
      · cases hq; exact .inl hm
      · obtain ⟨a, ha, hq⟩ := Res.map_eq_ok hq
        cases hq
        exact vac k e s' _ a rfl (he e rfl).1 hm (he e rfl).2 ha
  | modifyOrInsert k v w =>
    obtain ⟨p, hp, hr⟩ := Res.bind_eq_ok hr
    obtain ⟨q, hq, hr⟩ := Res.bind_eq_ok hr
    obtain ⟨hm, he⟩ := ent k p hp
    split at hr
    · cases hr
    rename_i e₂ hq1
    obtain ⟨u, hu, hr⟩ := Res.bind_eq_ok hr
    obtain ⟨x, -, hr⟩ := Res.map_eq_ok hr
    cases hr
    obtain ⟨e | e, s'⟩ := p
    · obtain ⟨a, ha, hq⟩ := Res.bind_eq_ok hq
      split at hq
      · cases hq
      · cases hq
        cases hq1
        obtain ⟨b, -, hu⟩ := Res.map_eq_ok hu
        cases hu
        exact .inl ((h.write _ _ _).trans hm)
    · cases hq
      cases hq1
      obtain ⟨b, hb, hu⟩ := Res.map_eq_ok hu
      cases hu
      exact vac k e s' w b rfl (he e rfl).1 hm (he e rfl).2 hb
  | entryInsert k v =>
    obtain ⟨p, hp, hr⟩ := Res.bind_eq_ok hr
    obtain ⟨hm, he⟩ := ent k p hp
    obtain ⟨e | e, s'⟩ := p
    · obtain ⟨q, hq, hr⟩ := Res.map_eq_ok hr
      cases hr
      exact .inl ((h.occInsert _ _ _ _ _ hq).trans hm)
    · obtain ⟨q, hq, hr⟩ := Res.map_eq_ok hr
      cases hr
      exact vac k e s' v q rfl (he e rfl).1 hm (he e rfl).2 hq
  | entryRemove k =>
    obtain ⟨p, hp, hr⟩ := Res.bind_eq_ok hr
    obtain ⟨hm, he⟩ := ent k p hp
    obtain ⟨e | e, s'⟩ := p
    · obtain ⟨q, hq, hr⟩ := Res.map_eq_ok hr
      cases hr
      exact .inl ((h.occRemove _ _ _ _ hq).trans hm)
    · cases hr
      exact .inl hm
  | entryKey k =>
    obtain ⟨p, hp, hr⟩ := Res.map_eq_ok hr
    cases hr
    exact .inl (ent k p hp).1
  | updateAll f st =>
    simp only [apiStep] at hr
    split at hr
    · obtain ⟨q, hq, hr⟩ := Res.map_eq_ok hr
      cases hr
      exact .inl (h.updateRefs f _ _ _ _ hq)
    · cases hr

end

/-! ## Reusing memory -/

/-- `fits s t`: the map `t` has the memory of `s`, holds only keys of `s`, and has room for all of them. -/
structure Reuse {K V : Type} (M : MapCore K V) (mem : M.S → List Nat) (fits : M.S → M.S → Prop) : Prop where
  clear : ∀ s, fits s (M.clear s).1
  insert : ∀ s t k v, fits s t → (M.get s k).isSome → fits s (M.insert t k v).2
  mem : ∀ s t, fits s t → mem t = mem s

theorem Reuse.leaf {K V : Type} (M : MapCore K V) : Reuse M (fun _ => []) fun _ _ => True :=
  ⟨fun _ => trivial, fun _ _ _ _ _ _ => trivial, fun _ _ _ => rfl⟩

theorem HashMapLaws.fewer {K V : Type} {A : HashMapApi K V} (L : HashMapLaws A) {s t : A.Table} {k : K}
    (ht : ∀ k, (A.get t k).isSome → (A.get s k).isSome) (hk : A.get t k = none) (hs : (A.get s k).isSome) : A.len t < A.len s := by
  have keys : ∀ t k, k ∈ (L.entries t).map Prod.fst ↔ (A.get t k).isSome := by
    intro t k
    rw [List.mem_map]
    constructor
    · rintro ⟨⟨k', v⟩, h, rfl⟩
      rw [(L.mem_entries t _ _).mp h]; rfl
    · intro h
      obtain ⟨v, hv⟩ := Option.isSome_iff_exists.mp h
      exact ⟨(k, v), (L.mem_entries t _ _).mpr hv, rfl⟩
  rw [L.len_eq, L.len_eq, ← List.length_map (f := Prod.fst) (as := L.entries t), ← List.length_map (f := Prod.fst) (as := L.entries s)]
  refine Nat.lt_of_not_le fun hle => ?_
  have := subset_of_nodup_length (L.nodup_keys t) (fun x hx => (keys s x).mpr (ht x ((keys t x).mp hx))) hle k ((keys s k).mpr hs)
  rw [keys, hk] at this
  cases this

theorem Reuse.hash {K V : Type} {A : HashMapApi K V} (L : HashMapLaws A) (Q : MemoryLaws A) :
    Reuse (hashMap A).toMapCore (fun t => [Q.mem t])
      fun s t => Q.mem t = Q.mem s ∧ A.len s ≤ Q.room t ∧ ∀ k, (A.get t k).isSome → (A.get s k).isSome where
  clear s := by
    refine ⟨Q.clear_mem s, Q.clear_room s, ?_⟩
    intro k h
    obtain ⟨v, hv⟩ := Option.isSome_iff_exists.mp h
    have := (L.mem_entries _ _ _).mpr hv
    rw [show L.entries (A.clear s).1 = [] from L.clear_entries s] at this
    cases this
  insert s t k v h hs := by
    obtain ⟨h1, h2, h3⟩ := h
    have hm : Q.mem (A.insert t k v).2 = Q.mem t ∧ Q.room t ≤ Q.room (A.insert t k v).2 := by
      cases hk : A.get t k with
      | some w => exact Q.insert_present t k v (by rw [hk]; rfl)
      | none => exact Q.insert_fits t k v (Nat.lt_of_lt_of_le (L.fewer h3 hk hs) h2)
    refine ⟨hm.1.trans h1, Nat.le_trans h2 hm.2, ?_⟩
    intro k' hk'
    by_cases e : k' = k
    · rw [e]; exact hs
    · refine h3 k' ?_
      rw [← L.get_insert_ne t k v k' e]; exact hk'
  mem s t h := by simp [h.1]

section
variable {K V : Type}

theorem Reuse.opt {M : MapStorage K V} {mem : M.S → List Nat} {fits : M.S → M.S → Prop} (h : Reuse M.toMapCore mem fits) :
    Reuse (optMap M).toMapCore (fun s => mem s.some) (fun s t => fits s.some t.some) where
  clear s := h.clear _
  insert s t k v hf hs := by
    cases k with
    | none => exact hf
    | some k => exact h.insert _ _ _ _ hf hs
  mem s t hf := h.mem _ _ hf

theorem Reuse.simple {F : MapFields K V} {mem : F.S → List Nat} {fits : F.S → F.S → Prop} (h : Reuse F.toMapCore mem fits) :
    Reuse (fieldsSimple F).toMapCore (fun s => mem s.2) (fun s t => fits s.2 t.2) where
  clear s := h.clear _
  insert s t k v hf hs := by
    cases k with
    | inl _ => exact hf
    | inr k => exact h.insert _ _ _ _ hf hs
  mem s t hf := h.mem _ _ hf

theorem Reuse.complex {E : Type} {M : MapStorage E V} {F : MapFields K V} {mem' : M.S → List Nat} {mem : F.S → List Nat}
    {fits' : M.S → M.S → Prop} {fits : F.S → F.S → Prop} (h' : Reuse M.toMapCore mem' fits') (h : Reuse F.toMapCore mem fits) :
    Reuse (fieldsComplex M F).toMapCore (fun s => mem' s.1 ++ mem s.2) (fun s t => fits' s.1 t.1 ∧ fits s.2 t.2) where
  clear s := ⟨h'.clear _, h.clear _⟩
  insert s t k v hf hs := by
    cases k with
    | inl k => exact ⟨h'.insert _ _ _ _ hf.1 hs, hf.2⟩
    | inr k => exact ⟨hf.1, h.insert _ _ _ _ hf.2 hs⟩
  mem s t hf := congr (congrArg _ (h'.mem _ _ hf.1)) (h.mem _ _ hf.2)

end

mutual
theorem mapReuse (H : Hashbrown) (V : Type) (Q : (p : Prim) → MemoryLaws (H.api p.Key V)) :
    (κ : KeyTy) → ∃ fits, Reuse (mapStorage H.api V κ).toMapCore (mapMem H.api V (fun p => (Q p).mem) κ) fits
  | .bool => ⟨_, .leaf _⟩
  | .unit => ⟨_, .leaf _⟩
  | .opt κ => by
    obtain ⟨_, h⟩ := mapReuse H V Q κ
    exact ⟨_, h.opt⟩
  | .prim p => ⟨_, .hash (H.laws p.Key V) (Q p)⟩
  | .units _ => ⟨_, .leaf _⟩
  | .bitset _ _ _ => ⟨_, .leaf _⟩
  | .enum fs => fieldsReuse H V Q fs
theorem fieldsReuse (H : Hashbrown) (V : Type) (Q : (p : Prim) → MemoryLaws (H.api p.Key V)) :
    (fs : Fields) → ∃ fits, Reuse (mapFields H.api V fs).toMapCore (fieldsMem H.api V (fun p => (Q p).mem) fs) fits
  | .nil => ⟨_, .leaf _⟩
  | .simple fs => by
    obtain ⟨_, h⟩ := fieldsReuse H V Q fs
    exact ⟨_, h.simple⟩
  | .complex κ fs => by
    obtain ⟨_, h⟩ := mapReuse H V Q κ
    obtain ⟨_, h'⟩ := fieldsReuse H V Q fs
    exact ⟨_, h.complex h'⟩
end

theorem Reuse.inserts {K V : Type} {M : MapCore K V} {mem : M.S → List Nat} {fits : M.S → M.S → Prop} (h : Reuse M mem fits) (s : M.S)
    (l : List (K × V)) (hl : ∀ p ∈ l, (M.get s p.1).isSome) :
    ∀ t, fits s t → fits s (l.foldl (fun t p => (M.insert t p.1 p.2).2) t) := by
  induction l with
  | nil => exact fun t ht => ht
  | cons p l ih =>
    intro t ht
    exact ih (fun q hq => hl q (List.mem_cons_of_mem _ hq)) _ (h.insert _ _ _ _ ht (hl p List.mem_cons_self))

/-! ## Key types without tables -/

mutual
theorem mapStorage_heapless (H H' : HashbrownApi) (V : Type) : (κ : KeyTy) → κ.tables = 0 → mapStorage H V κ = mapStorage H' V κ
  | .bool, _ => rfl
  | .unit, _ => rfl
  | .opt κ, h => congrArg optMap (mapStorage_heapless H H' V κ h)
  | .prim _, h => nomatch h
  | .units _, _ => rfl
  | .bitset _ _ _, _ => rfl
  | .enum fs, h => congrArg enumMap (mapFields_heapless H H' V fs h)
theorem mapFields_heapless (H H' : HashbrownApi) (V : Type) : (fs : Fields) → fs.tables = 0 → mapFields H V fs = mapFields H' V fs
  | .nil, _ => rfl
  | .simple fs, h => congrArg fieldsSimple (mapFields_heapless H H' V fs h)
  | .complex κ fs, h =>
    congr (congrArg fieldsComplex (mapStorage_heapless H H' V κ (Nat.eq_zero_of_add_eq_zero_right h)))
      (mapFields_heapless H H' V fs (Nat.eq_zero_of_add_eq_zero_left h))
end

mutual
theorem setStorage_heapless (H H' : HashbrownApi) : (κ : KeyTy) → κ.tables = 0 → setStorage H κ = setStorage H' κ
  | .bool, _ => rfl
  | .unit, _ => rfl
  | .opt κ, h => congrArg optSet (setStorage_heapless H H' κ h)
  | .prim _, h => nomatch h
  | .units _, _ => rfl
  | .bitset _ _ _, _ => rfl
  | .enum fs, h => congrArg enumSet (setFields_heapless H H' fs h)
theorem setFields_heapless (H H' : HashbrownApi) : (fs : Fields) → fs.tables = 0 → setFields H fs = setFields H' fs
  | .nil, _ => rfl
  | .simple fs, h => congrArg setFieldsSimple (setFields_heapless H H' fs h)
  | .complex κ fs, h =>
    congr (congrArg setFieldsComplex (setStorage_heapless H H' κ (Nat.eq_zero_of_add_eq_zero_right h)))
      (setFields_heapless H H' fs (Nat.eq_zero_of_add_eq_zero_left h))
end

/-! ## Sets -/

/-- What the methods of a set do to its memory; `fits` as for maps. -/
structure SetMemOf {T : Type} (M : SetCore T) (n : Nat) (home : T → Option Nat) (mem : M.S → List Nat) (fits : M.S → M.S → Prop) : Prop where
  len : ∀ s, (mem s).length = n
  empty : mem M.empty = List.replicate n 0
  remove : ∀ s k, mem (M.remove s k).2 = mem s
  retain : ∀ {σ : Type} (f : σ → T → σ × Option Bool) s st, mem (M.retain f s st).s = mem s
  clear : ∀ s, mem (M.clear s) = mem s
  clone : ∀ s, mem (M.clone s) = mem s
  insert : ∀ s k, mem (M.insert s k).2 = mem s ∨ ∃ i, home k = some i ∧ GrownAt i (mem s) (mem (M.insert s k).2)
  present : ∀ s k, M.contains s k = true → mem (M.insert s k).2 = mem s
  fits_clear : ∀ s, fits s (M.clear s)
  fits_insert : ∀ s t k, fits s t → M.contains s k = true → fits s (M.insert t k).2
  fits_mem : ∀ s t, fits s t → mem t = mem s

theorem SetMemOf.leaf {T : Type} (M : SetCore T) : SetMemOf M 0 (fun _ => none) (fun _ => []) fun _ _ => True where
  len _ := rfl
  empty := rfl
  remove _ _ := rfl
  retain _ _ _ := rfl
  clear _ := rfl
  clone _ := rfl
  insert _ _ := .inl rfl
  present _ _ _ := rfl
  fits_clear _ := trivial
  fits_insert _ _ _ _ _ := trivial
  fits_mem _ _ _ := rfl

theorem SetMemOf.hash {T : Type} {A : HashMapApi T Unit} (L : HashMapLaws A) (Q : MemoryLaws A) :
    SetMemOf (hashSet A).toSetCore 1 (fun _ => some 0) (fun t => [Q.mem t])
      fun s t => Q.mem t = Q.mem s ∧ A.len s ≤ Q.room t ∧ ∀ k, (A.get t k).isSome → (A.get s k).isSome where
  len _ := rfl
  empty := by simp [Q.new_mem]
  remove s k := by simp [Q.remove_mem]
  retain f s st := by simp [Q.retain_mem]
  clear s := by simp [Q.clear_mem]
  clone s := by simp [Q.clone_mem]
  insert s k := .inr ⟨0, rfl, _, _, rfl, Q.insert_mem s k (), rfl⟩
  present s k h := by simp [(Q.insert_present s k () ((L.contains_key_eq s k).symm.trans h)).1]
  fits_clear s := (Reuse.hash L Q).clear s
  fits_insert s t k h hs := (Reuse.hash L Q).insert s t k () h ((L.contains_key_eq s k).symm.trans hs)
  fits_mem s t h := by simp [h.1]

section
variable {T : Type} {n : Nat} {home : T → Option Nat}

theorem SetMemOf.opt {M : SetStorage T} {mem : M.S → List Nat} {fits : M.S → M.S → Prop} (h : SetMemOf M.toSetCore n home mem fits) :
    SetMemOf (optSet M).toSetCore n (fun k => Option.bind k home) (fun s => mem s.some) (fun s t => fits s.some t.some) where
  len s := h.len _
  empty := h.empty
  remove s k := by
    cases k with
    | none => rfl
    | some k => exact h.remove _ _
  retain f s st := by
    show mem (OptSetSt.some (SetRetainOut.mapS _ (SetRetainOut.andThen _ _ _)).s) = _
    unfold SetRetainOut.andThen
    split <;> exact h.retain _ _ _
  clear s := h.clear _
  clone s := h.clone _
  insert s k := by
    cases k with
    | none => exact .inl rfl
    | some k => exact h.insert _ _
  present s k hp := by
    cases k with
    | none => rfl
    | some k => exact h.present _ _ hp
  fits_clear s := h.fits_clear _
  fits_insert s t k hf hs := by
    cases k with
    | none => exact hf
    | some k => exact h.fits_insert _ _ _ hf hs
  fits_mem s t hf := h.fits_mem _ _ hf

theorem SetMemOf.simple {F : SetFields T} {mem : F.S → List Nat} {fits : F.S → F.S → Prop} (h : SetMemOf F.toSetCore n home mem fits) :
    SetMemOf (setFieldsSimple F).toSetCore n (Sum.elim (fun _ => none) home) (fun s => mem s.2) (fun s t => fits s.2 t.2) where
  len s := h.len _
  empty := h.empty
  remove s k := by
    cases k with
    | inl _ => rfl
    | inr k => exact h.remove _ _
  retain f s st := by
    show mem (SetRetainOut.andThen _ _ _).s.2 = _
    unfold SetRetainOut.andThen
    split
    · rfl
    · exact h.retain _ _ _
  clear s := h.clear _
  clone s := h.clone _
  insert s k := by
    cases k with
    | inl _ => exact .inl rfl
    | inr k => exact h.insert _ _
  present s k hp := by
    cases k with
    | inl _ => rfl
    | inr k => exact h.present _ _ hp
  fits_clear s := h.fits_clear _
  fits_insert s t k hf hs := by
    cases k with
    | inl _ => exact hf
    | inr k => exact h.fits_insert _ _ _ hf hs
  fits_mem s t hf := h.fits_mem _ _ hf

theorem SetMemOf.complex {E : Type} {m : Nat} {home' : E → Option Nat} {M : SetStorage E} {F : SetFields T} {mem' : M.S → List Nat}
    {mem : F.S → List Nat} {fits' : M.S → M.S → Prop} {fits : F.S → F.S → Prop} (h' : SetMemOf M.toSetCore m home' mem' fits')
    (h : SetMemOf F.toSetCore n home mem fits) :
    SetMemOf (setFieldsComplex M F).toSetCore (m + n) (Sum.elim home' fun k => (home k).map (m + ·)) (fun s => mem' s.1 ++ mem s.2)
      (fun s t => fits' s.1 t.1 ∧ fits s.2 t.2) where
  len s := by simp [h.len, h'.len]
  empty := by
    show mem' M.empty ++ mem F.empty = _
    rw [h.empty, h'.empty, List.replicate_append_replicate]
  remove s k := by
    cases k with
    | inl a => exact congrArg (· ++ mem s.2) (h'.remove _ _)
    | inr a => exact congrArg (mem' s.1 ++ ·) (h.remove _ _)
  retain f s st := by
    show mem' (SetRetainOut.andThen _ _ _).s.1 ++ mem (SetRetainOut.andThen _ _ _).s.2 = _
    unfold SetRetainOut.andThen
    split
    · exact congrArg (· ++ mem s.2) (h'.retain _ _ _)
    · exact congr (congrArg _ (h'.retain _ _ _)) (h.retain _ _ _)
  clear s := congr (congrArg _ (h'.clear _)) (h.clear _)
  clone s := congr (congrArg _ (h'.clone _)) (h.clone _)
  insert s k := by
    cases k with
    | inl k =>
      rcases h'.insert s.1 k with h2 | ⟨i, h2, h3⟩
      · exact .inl (congrArg (· ++ mem s.2) h2)
      · exact .inr ⟨i, h2, h3.left _⟩
    | inr k =>
      rcases h.insert s.2 k with h2 | ⟨i, h2, h3⟩
      · exact .inl (congrArg (mem' s.1 ++ ·) h2)
      · refine .inr ⟨m + i, ?_, h3.right (h'.len _)⟩
        show Option.map _ (home k) = _
        rw [h2]; rfl
  present s k hp := by
    cases k with
    | inl k => exact congrArg (· ++ mem s.2) (h'.present _ _ hp)
    | inr k => exact congrArg (mem' s.1 ++ ·) (h.present _ _ hp)
  fits_clear s := ⟨h'.fits_clear _, h.fits_clear _⟩
  fits_insert s t k hf hs := by
    cases k with
    | inl k => exact ⟨h'.fits_insert _ _ _ hf.1 hs, hf.2⟩
    | inr k => exact ⟨hf.1, h.fits_insert _ _ _ hf.2 hs⟩
  fits_mem s t hf := congr (congrArg _ (h'.fits_mem _ _ hf.1)) (h.fits_mem _ _ hf.2)

end

mutual
theorem setMem_of (H : Hashbrown) (Q : (p : Prim) → MemoryLaws (H.api p.Key Unit)) :
    (κ : KeyTy) → ∃ fits, SetMemOf (setStorage H.api κ).toSetCore κ.tables κ.home (setMem H.api (fun p => (Q p).mem) κ) fits
  | .bool => ⟨_, .leaf _⟩
  | .unit => ⟨_, .leaf _⟩
  | .opt κ => by
    obtain ⟨_, h⟩ := setMem_of H Q κ
    exact ⟨_, h.opt⟩
  | .prim p => ⟨_, .hash (H.laws p.Key Unit) (Q p)⟩
  | .units _ => ⟨_, .leaf _⟩
  | .bitset _ _ _ => ⟨_, .leaf _⟩
  | .enum fs => setFieldsMem_of H Q fs
theorem setFieldsMem_of (H : Hashbrown) (Q : (p : Prim) → MemoryLaws (H.api p.Key Unit)) :
    (fs : Fields) → ∃ fits, SetMemOf (setFields H.api fs).toSetCore fs.tables fs.home (setFieldsMem H.api (fun p => (Q p).mem) fs) fits
  | .nil => ⟨_, .leaf _⟩
  | .simple fs => by
    obtain ⟨_, h⟩ := setFieldsMem_of H Q fs
    exact ⟨_, h.simple⟩
  | .complex κ fs => by
    obtain ⟨_, h⟩ := setMem_of H Q κ
    obtain ⟨_, h'⟩ := setFieldsMem_of H Q fs
    exact ⟨_, h.complex h'⟩
end

theorem SetMemOf.inserts {T : Type} {M : SetCore T} {n : Nat} {home : T → Option Nat} {mem : M.S → List Nat} {fits : M.S → M.S → Prop}
    (h : SetMemOf M n home mem fits) (s : M.S) (l : List T) (hl : ∀ x ∈ l, M.contains s x = true) :
    ∀ t, fits s t → fits s (l.foldl (fun t x => (M.insert t x).2) t) := by
  induction l with
  | nil => exact fun t ht => ht
  | cons p l ih =>
    intro t ht
    exact ih (fun q hq => hl q (List.mem_cons_of_mem _ hq)) _ (h.fits_insert _ _ _ ht (hl p List.mem_cons_self))

end FixedMap
