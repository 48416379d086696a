import Verif.Spec.GenHistory
import Verif.Spec.GenEntry
import Verif.Proofs.History

/-! # The emitted code simulates an association list -/

set_option autoImplicit false
set_option linter.unusedSimpArgs false

namespace FixedMap.Gen

variable {H : HashbrownApi} {K V : Type}

/-- What is needed of the emitted code, over abstract types. -/
structure Emits (M : MapCore K V) (C : MapCode) (E : EntryCode) (key : K → DynKey) (S : M.S → Struct H V)
    (addr : M.Addr → DynAddr H V) (occ : M.Occ → DynOcc H V) (vac : M.Vac → DynVac H V) : Prop where
  insert : ∀ s k v, C.insert.run [.key (key k), .val v] (S s) = some (.optVal (M.insert s k v).1, S (M.insert s k v).2)
  containsKey : ∀ s k, C.containsKey.run [.key (key k)] (S s) = some (.bool (M.containsKey s k), S s)
  get : ∀ s k, C.get.run [.key (key k)] (S s) = some (.optVal (M.get s k), S s)
  getMut : ∀ s k, C.getMut.run [.key (key k)] (S s) = some (.optAddr ((M.getMut s k).map addr), S s)
  remove : ∀ s k, C.remove.run [.key (key k)] (S s) = some (.optVal (M.remove s k).1, S (M.remove s k).2)
  len : ∀ s, eval [] C.len (S s) = some (.nat (M.len s), S s)
  isEmpty : ∀ s, eval [] C.isEmpty (S s) = some (.bool (M.isEmpty s), S s)
  clear : ∀ s, runClear C.clear (S s) = some (S (M.clear s).1, (M.clear s).2)
  read : ∀ s a, readAddr (S s) (addr a) = M.read s a
  write : ∀ s a v, writeAddr (S s) (addr a) v = S (M.write s a v)
  entry : ∀ s k, E.runEntry (key k) (S s) = some ((M.entry s k).map fun p => (p.1.map occ vac, S p.2))
  occInsert : ∀ e s v, E.runOcc E.occInsert [("value", v)] (occ e) (S s) =
    some ((M.occInsert e s v).map fun p => (.val p.1, S p.2))
  occRemove : ∀ e s, E.runOcc E.occRemove [] (occ e) (S s) = some ((M.occRemove e s).map fun p => (.val p.1, S p.2))
  vacInsert : ∀ e s v, E.runVac E.vacInsert [("value", v)] (vac e) (S s) =
    some ((M.vacInsert e s v).map fun p => (.addr (addr p.1), S p.2))

section
variable {D : Type} [DecidableEq D]

/-- The list holds what the storage holds. -/
structure Holds (M : MapCore K V) (key : K → D) (s : M.S) (l : List (D × V)) : Prop where
  nodup : (l.map Prod.fst).Nodup
  keys : ∀ p ∈ l, ∃ k, key k = p.1
  get : ∀ k, FinMap.get l (key k) = M.get s k

namespace Holds

variable {M : MapCore K V} {key : K → D} {s s' : M.S} {l : List (D × V)}

theorem put (h : Holds M key s l) (inj : ∀ k k', key k = key k' → k = k') {k : K} {v : V} (h1 : M.get s' k = some v)
    (h2 : ∀ k', k' ≠ k → M.get s' k' = M.get s k') : Holds M key s' (FinMap.put l (key k) v) where
  nodup := FinMap.put_nodup h.nodup _ _
  keys p hp := by
    rcases List.mem_cons.1 hp with rfl | hp
    · exact ⟨k, rfl⟩
    · exact h.keys p (List.mem_filter.1 hp).1
  get k' := by
    rw [FinMap.get_put]
    by_cases e : k' = k
    · rw [e, if_pos rfl, h1]
    · rw [if_neg (fun c => e (inj _ _ c)), h2 k' e, h.get]

theorem erase (h : Holds M key s l) (inj : ∀ k k', key k = key k' → k = k') {k : K} (h1 : M.get s' k = none)
    (h2 : ∀ k', k' ≠ k → M.get s' k' = M.get s k') : Holds M key s' (FinMap.erase l (key k)) where
  nodup := Assoc.erase_nodup h.nodup _
  keys p hp := h.keys p (List.mem_filter.1 hp).1
  get k' := by
    rw [Assoc.lookup_erase]
    by_cases e : k' = k
    · rw [e, if_pos rfl, h1]
    · rw [if_neg (fun c => e (inj _ _ c)), h2 k' e, h.get]

theorem same (h : Holds M key s l) (h2 : ∀ k, M.get s' k = M.get s k) : Holds M key s' l :=
  ⟨h.nodup, h.keys, fun k => by rw [h.get, h2]⟩

/-- The entries of the storage are those of the list. -/
theorem perm (h : Holds M key s l) (L : CoreLaws M) (inj : ∀ k k', key k = key k' → k = k') :
    ((L.entries s).map fun p => (key p.1, p.2)).Perm l := by
  have n1 : l.Nodup := List.Pairwise.imp (fun h e => h (by rw [e])) (List.pairwise_map.mp h.nodup)
  have n2 : ((L.entries s).map fun p => (key p.1, p.2)).Nodup := by
    refine List.pairwise_map.2 (List.Pairwise.imp ?_ (List.pairwise_map.mp (L.nodup_keys s)))
    intro a b hab e
    exact hab (inj _ _ (congrArg Prod.fst e))
  rw [List.perm_ext_iff_of_nodup n2 n1]
  rintro ⟨d, v⟩
  rw [List.mem_map]
  constructor
  · rintro ⟨⟨k, w⟩, hm, e⟩
    rw [← e, Assoc.lookup_iff h.nodup, h.get]
    exact (L.mem_entries _ _ _).1 hm
  · intro hm
    obtain ⟨k, rfl⟩ := h.keys _ hm
    exact ⟨(k, v), (L.mem_entries _ _ _).2 (by rw [← h.get, ← Assoc.lookup_iff h.nodup]; exact hm), rfl⟩

end Holds

end

variable {M : MapCore K V} {C : MapCode} {E : EntryCode} {key : K → DynKey} {S : M.S → Struct H V}
  {addr : M.Addr → DynAddr H V} {occ : M.Occ → DynOcc H V} {vac : M.Vac → DynVac H V}

theorem Emits.step (X : Emits M C E key S addr occ vac) (L : CoreLaws M) (inj : ∀ k k', key k = key k' → k = k')
    {s : M.S} {l : List (DynKey × V)} (h : Holds M key s l) (op : GenOp DynKey V) (hk : ∀ d, op.key? = some d → ∃ k, key k = d) :
    ∃ s', genStep C E (S s) op = some ((refGen l op).1, S s') ∧ Holds M key s' (refGen l op).2 := by
  cases op with
  | insert d v =>
    obtain ⟨k, rfl⟩ := hk d rfl
    refine ⟨(M.insert s k v).2, ?_, h.put inj (L.get_insert_self s k v) (L.get_insert_ne s k v)⟩
    simp only [genStep, refGen, X.insert, Option.bind_some, Val.out, Option.map_some, L.insert_ret, h.get]
  | remove d =>
    obtain ⟨k, rfl⟩ := hk d rfl
    refine ⟨(M.remove s k).2, ?_, h.erase inj (L.get_remove_self s k) (L.get_remove_ne s k)⟩
    simp only [genStep, refGen, X.remove, Option.bind_some, Val.out, Option.map_some, L.remove_ret, h.get]
  | get d =>
    obtain ⟨k, rfl⟩ := hk d rfl
    refine ⟨s, ?_, h⟩
    simp only [genStep, refGen, X.get, Option.bind_some, Val.out, Option.map_some, h.get]
  | containsKey d =>
    obtain ⟨k, rfl⟩ := hk d rfl
    refine ⟨s, ?_, h⟩
    simp only [genStep, refGen, X.containsKey, Option.bind_some, Val.out, Option.map_some, L.containsKey_eq, h.get]
  | set d v =>
    obtain ⟨k, rfl⟩ := hk d rfl
    simp only [genStep, refGen, X.getMut, Option.bind_some, h.get]
    cases e : M.get s k with
    | none =>
      rw [L.getMut_none s k e]
      exact ⟨s, rfl, h⟩
    | some w =>
      obtain ⟨a, ha, hka⟩ := L.getMut_some s k w e
      refine ⟨M.write s a v, ?_, ?_⟩
      · simp only [ha, Option.map_some, X.read, X.write, L.read_eq s a k hka, e]
      · exact h.put inj (L.get_write_self s a k v hka) fun k' => L.get_write_ne s a k v k' hka
  | entryInsert d v =>
    obtain ⟨k, rfl⟩ := hk d rfl
    simp only [genStep, refGen, X.entry, h.get]
    cases e : M.get s k with
    | none =>
      obtain ⟨n, s1, h1, h2, h3⟩ := L.entry_none s k e
      obtain ⟨_, a, s2, h4, h5, h6, _⟩ := L.vacInsert_eq n s1 k v h3
      refine ⟨s2, ?_, h.put inj h5 fun k' hne => (h6 k' hne).trans (h2 k')⟩
      simp only [h1, Res.map, resOk, Option.bind_some, Sum.map_inr, X.vacInsert, h4]
    | some w =>
      obtain ⟨n, s1, h1, h2, h3⟩ := L.entry_some s k w e
      obtain ⟨old, s2, h4, h5, h6, h7, _⟩ := L.occInsert_eq n s1 k v h3
      refine ⟨s2, ?_, h.put inj h6 fun k' hne => (h7 k' hne).trans (h2 k')⟩
      have : w = old := by rw [h2, e] at h5; exact Option.some.inj h5
      simp only [h1, Res.map, resOk, Option.bind_some, Sum.map_inl, X.occInsert, h4, this]
  | entryRemove d =>
    obtain ⟨k, rfl⟩ := hk d rfl
    simp only [genStep, refGen, X.entry, h.get]
    cases e : M.get s k with
    | none =>
      obtain ⟨n, s1, h1, h2, h3⟩ := L.entry_none s k e
      refine ⟨s1, ?_, h.erase inj ((h2 k).trans e) fun k' _ => h2 k'⟩
      simp only [h1, Res.map, resOk, Option.bind_some, Sum.map_inr]
    | some w =>
      obtain ⟨n, s1, h1, h2, h3⟩ := L.entry_some s k w e
      obtain ⟨old, s2, h4, h5, h6, h7⟩ := L.occRemove_eq n s1 k h3
      refine ⟨s2, ?_, h.erase inj h6 fun k' hne => (h7 k' hne).trans (h2 k')⟩
      have : w = old := by rw [h2, e] at h5; exact Option.some.inj h5
      simp only [h1, Res.map, resOk, Option.bind_some, Sum.map_inl, X.occRemove, h4, this]
  | len =>
    refine ⟨s, ?_, h⟩
    have hp := (h.perm L inj).length_eq
    rw [List.length_map] at hp
    simp only [genStep, refGen, X.len, Option.bind_some, Val.out, Option.map_some, L.len_eq, hp]
  | isEmpty =>
    refine ⟨s, ?_, h⟩
    have hp := (h.perm L inj).isEmpty_eq
    rw [List.isEmpty_map] at hp
    simp only [genStep, refGen, X.isEmpty, Option.bind_some, Val.out, Option.map_some, L.isEmpty_eq, hp]
  | clear =>
    refine ⟨(M.clear s).1, ?_, List.nodup_nil, fun p hp => (nomatch hp), fun k => ?_⟩
    · simp only [genStep, refGen, X.clear, Option.map_some]
    · cases e : M.get (M.clear s).1 k with
      | none => rfl
      | some w =>
        have := (L.mem_entries _ _ _).2 e
        rw [L.clear_entries] at this
        exact nomatch this

theorem Emits.run (X : Emits M C E key S addr occ vac) (L : CoreLaws M) (inj : ∀ k k', key k = key k' → k = k') :
    ∀ (ops : List (GenOp DynKey V)) (s : M.S) (l : List (DynKey × V)), Holds M key s l →
      (∀ op ∈ ops, ∀ d, op.key? = some d → ∃ k, key k = d) → genRun C E ops (S s) = some (refGenRun ops l)
  | [], _, _, _, _ => rfl
  | op :: ops, s, l, h, hk => by
    obtain ⟨s', h1, h2⟩ := X.step L inj h op (hk op List.mem_cons_self)
    have ih := X.run L inj ops s' _ h2 fun o ho => hk o (List.mem_cons_of_mem _ ho)
    simp only [genRun, h1, Option.bind_some, ih, Option.map_some, refGenRun]

end FixedMap.Gen
