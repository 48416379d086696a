import Verif.Spec.Retain
import Verif.Proofs.Iter

/-! # What every map storage satisfies: helper structures -/

set_option autoImplicit false

namespace FixedMap

/-- Laws of a map storage without its iterators, with proof-level data:
`entries` lists the content, `keyAt s a` is the key whose value the live reference `a` points to, `occFits e s k`
says that the occupied entry `e` currently stands for the present key `k`, `vacFits` likewise. -/
structure CoreLaws {K V : Type} (M : MapCore K V) where
  entries : M.S → List (K × V)
  keyAt : M.S → M.Addr → Option K
  occFits : M.Occ → M.S → K → Prop
  vacFits : M.Vac → M.S → K → Prop
  mem_entries : ∀ s k v, (k, v) ∈ entries s ↔ M.get s k = some v
  nodup_keys : ∀ s, ((entries s).map Prod.fst).Nodup
  entries_empty : entries M.empty = []
  len_eq : ∀ s, M.len s = (entries s).length
  isEmpty_eq : ∀ s, M.isEmpty s = (entries s).isEmpty
  containsKey_eq : ∀ s k, M.containsKey s k = (M.get s k).isSome
  insert_ret : ∀ s k v, (M.insert s k v).1 = M.get s k
  get_insert_self : ∀ s k v, M.get (M.insert s k v).2 k = some v
  get_insert_ne : ∀ s k v k', k' ≠ k → M.get (M.insert s k v).2 k' = M.get s k'
  remove_ret : ∀ s k, (M.remove s k).1 = M.get s k
  get_remove_self : ∀ s k, M.get (M.remove s k).2 k = none
  get_remove_ne : ∀ s k k', k' ≠ k → M.get (M.remove s k).2 k' = M.get s k'
  retain_entries : ∀ {σ : Type} (f : σ → K → V → σ × V × Option Bool) s st,
    (entries (M.retain f s st).s).Perm (retainRef f (entries s) st).s
  retain_st : ∀ {σ : Type} (f : σ → K → V → σ × V × Option Bool) s st,
    (M.retain f s st).st = (retainRef f (entries s) st).st
  retain_panicked : ∀ {σ : Type} (f : σ → K → V → σ × V × Option Bool) s st,
    (M.retain f s st).panicked = (retainRef f (entries s) st).panicked
  retain_dropped : ∀ {σ : Type} (f : σ → K → V → σ × V × Option Bool) s st,
    (M.retain f s st).dropped = (retainRef f (entries s) st).dropped
  clear_entries : ∀ s, entries (M.clear s).1 = []
  clear_dropped : ∀ s, (M.clear s).2.Perm ((entries s).map Prod.snd)
  keyAt_live : ∀ s a k, keyAt s a = some k → (M.get s k).isSome
  read_eq : ∀ s a k, keyAt s a = some k → M.read s a = M.get s k
  get_write_self : ∀ s a k v, keyAt s a = some k → M.get (M.write s a v) k = some v
  get_write_ne : ∀ s a k v k', keyAt s a = some k → k' ≠ k → M.get (M.write s a v) k' = M.get s k'
  keyAt_write : ∀ s a k v a', keyAt s a = some k → keyAt (M.write s a v) a' = keyAt s a'
  keys_write : ∀ s a k v, keyAt s a = some k → (entries (M.write s a v)).map Prod.fst = (entries s).map Prod.fst
  getMut_some : ∀ s k v, M.get s k = some v → ∃ a, M.getMut s k = some a ∧ keyAt s a = some k
  getMut_none : ∀ s k, M.get s k = none → M.getMut s k = none
  entry_some : ∀ s k v, M.get s k = some v → ∃ e s', M.entry s k = .ok (.inl e, s') ∧
    (∀ k', M.get s' k' = M.get s k') ∧ occFits e s' k
  entry_none : ∀ s k, M.get s k = none → ∃ e s', M.entry s k = .ok (.inr e, s') ∧
    (∀ k', M.get s' k' = M.get s k') ∧ vacFits e s' k
  occKey_eq : ∀ e s k, occFits e s k → M.occKey e = k
  occGet_eq : ∀ e s k, occFits e s k → ∃ v, M.occGet e s = .ok v ∧ M.get s k = some v
  occGetMut_eq : ∀ e s k, occFits e s k → ∃ a, M.occGetMut e s = .ok a ∧ keyAt s a = some k
  occIntoMut_eq : ∀ e s k, occFits e s k → ∃ a, M.occIntoMut e s = .ok a ∧ keyAt s a = some k
  occFits_write : ∀ e s k a v, occFits e s k → keyAt s a = some k → occFits e (M.write s a v) k
  occInsert_eq : ∀ e s k v, occFits e s k → ∃ old s', M.occInsert e s v = .ok (old, s') ∧ M.get s k = some old ∧
    M.get s' k = some v ∧ (∀ k', k' ≠ k → M.get s' k' = M.get s k') ∧ occFits e s' k
  occRemove_eq : ∀ e s k, occFits e s k → ∃ old s', M.occRemove e s = .ok (old, s') ∧ M.get s k = some old ∧
    M.get s' k = none ∧ (∀ k', k' ≠ k → M.get s' k' = M.get s k')
  vacKey_eq : ∀ e s k, vacFits e s k → M.vacKey e = k
  vacInsert_eq : ∀ e s k v, vacFits e s k → M.get s k = none ∧ ∃ a s', M.vacInsert e s v = .ok (a, s') ∧
    M.get s' k = some v ∧ (∀ k', k' ≠ k → M.get s' k' = M.get s k') ∧ keyAt s' a = some k
  eq_iff : ∀ veq s t, M.eq veq s t = true ↔ ∀ k, optBeq veq (M.get s k) (M.get t k) = true
  get_clone : ∀ c s k, M.get (M.clone c s) k = (M.get s k).map c

/-- Laws of the iterators of a map storage. `ku` says that the keys iterator is right (it is not for a key type
containing `()`). -/
structure IterLaws {K V : Type} (M : MapStorage K V) (L : CoreLaws M.toMapCore) (ku : Bool) where
  addrs : M.S → List (K × M.Addr)
  keysL : M.S → List K
  iter : ∀ s, YieldsAt M.iter s (L.entries s)
  intoIter : ∀ s, YieldsAt M.intoIter s (L.entries s)
  values : ∀ s, YieldsAt M.values s ((L.entries s).map Prod.snd)
  keys : ∀ s, YieldsAt M.keys s (keysL s)
  keysL_eq : ku = true → ∀ s, keysL s = (L.entries s).map Prod.fst
  iterMut : ∀ s, YieldsAt M.iterMut s (addrs s)
  valuesMut : ∀ s, YieldsAt M.valuesMut s ((addrs s).map Prod.snd)
  addrs_keys : ∀ s, (addrs s).map Prod.fst = (L.entries s).map Prod.fst
  addrs_at : ∀ s k a, (k, a) ∈ addrs s → L.keyAt s a = some k

/-- Laws of the iterator fields of a generated struct. -/
structure FieldLaws {K V : Type} (F : MapFields K V) (L : CoreLaws F.toMapCore) (ku : Bool) where
  addrs : F.S → List (K × F.Addr)
  keysL : F.S → List K
  iter : ∀ s, StepYieldsAt F.iter s (L.entries s)
  intoIter : ∀ s, StepYieldsAt F.intoIter s (L.entries s)
  values : ∀ s, StepYieldsAt F.values s ((L.entries s).map Prod.snd)
  keys : ∀ s, StepYieldsAt F.keys s (keysL s)
  keysL_eq : ku = true → ∀ s, keysL s = (L.entries s).map Prod.fst
  iterMut : ∀ s, StepYieldsAt F.iterMut s (addrs s)
  valuesMut : ∀ s, StepYieldsAt F.valuesMut s ((addrs s).map Prod.snd)
  addrs_keys : ∀ s, (addrs s).map Prod.fst = (L.entries s).map Prod.fst
  addrs_at : ∀ s k a, (k, a) ∈ addrs s → L.keyAt s a = some k

/-! ## `retainRef` on composed lists -/

/-- Rename keys in the outcome. -/
theorem retainRef_map {K K' V σ : Type} (f : σ → K' → V → σ × V × Option Bool) (g : K → K')
    (l : List (K × V)) (st : σ) :
    retainRef f (l.map fun p => (g p.1, p.2)) st =
      (retainRef (fun st k v => f st (g k) v) l st).mapS (List.map fun p => (g p.1, p.2)) := by
  induction l generalizing st with
  | nil => rfl
  | cons p l ih =>
    obtain ⟨k, v⟩ := p
    simp only [List.map_cons, retainRef]
    rcases h : f st (g k) v with ⟨st', v', _ | _ | _⟩ <;> simp [RetainOut.mapS, ih]

theorem retainRef_append {K V σ : Type} (f : σ → K → V → σ × V × Option Bool) (l l' : List (K × V)) (st : σ) :
    retainRef f (l ++ l') st =
      ((retainRef f l st).andThen l' fun st => retainRef f l' st).mapS fun p => p.1 ++ p.2 := by
  induction l generalizing st with
  | nil => simp [retainRef, RetainOut.andThen, RetainOut.mapS]
  | cons p l ih =>
    obtain ⟨k, v⟩ := p
    simp only [List.cons_append, retainRef]
    rcases h : f st k v with ⟨st', v', _ | _ | _⟩
    · simp [RetainOut.andThen, RetainOut.mapS]
    all_goals
      simp only [ih]
      simp only [RetainOut.andThen, RetainOut.mapS]
      split <;> simp_all

/-- Entries of a slot. -/
def slotEntries {K V : Type} (k : K) (slot : Option V) : List (K × V) := slot.toList.map fun v => (k, v)

@[simp] theorem slotEntries_none {K V : Type} (k : K) : slotEntries k (none : Option V) = [] := rfl
@[simp] theorem slotEntries_some {K V : Type} (k : K) (v : V) : slotEntries k (some v) = [(k, v)] := rfl

theorem retainSlot_spec {K V σ : Type} (f : σ → K → V → σ × V × Option Bool) (k : K) (slot : Option V) (st : σ) :
    retainRef f (slotEntries k slot) st = (retainSlot f k slot st).mapS (slotEntries k) := by
  cases slot with
  | none => rfl
  | some v =>
    simp only [slotEntries_some, retainRef, retainSlot]
    rcases h : f st k v with ⟨st', v', _ | _ | _⟩ <;> simp [RetainOut.mapS]

/-- A `retain` outcome matches the reference outcome, the content up to order. -/
structure RetainMatches {K V S σ : Type} (e : S → List (K × V)) (r : RetainOut S σ V)
    (q : RetainOut (List (K × V)) σ V) : Prop where
  entries : (e r.s).Perm q.s
  st : r.st = q.st
  panicked : r.panicked = q.panicked
  dropped : r.dropped = q.dropped

theorem retain_compose {K A B V σ : Type} {f : σ → K → V → σ × V × Option Bool}
    (eA : A → List (K × V)) (eB : B → List (K × V)) {a : A} {b : B}
    {ra : RetainOut A σ V} {rb : σ → RetainOut B σ V} {st : σ}
    (hA : RetainMatches eA ra (retainRef f (eA a) st))
    (hB : ∀ st, RetainMatches eB (rb st) (retainRef f (eB b) st)) :
    RetainMatches (fun p : A × B => eA p.1 ++ eB p.2) (ra.andThen b rb) (retainRef f (eA a ++ eB b) st) := by
  rw [retainRef_append]
  obtain ⟨h1, h2, h3, h4⟩ := hA
  have hB := hB ra.st
  constructor
  all_goals simp only [RetainOut.andThen, RetainOut.mapS, ← h2, ← h3, ← h4]
  · split
    · exact h1.append_right _
    · exact h1.append hB.entries
  · split
    · rfl
    · exact hB.st
  · split
    · rfl
    · exact hB.panicked
  · split
    · rfl
    · simp only [hB.dropped]

/-! ## optional slots -/

theorem optionBucket_new_some {V : Type} (v : V) : OptionBucket.new (some v) = .ok .some := rfl
theorem optionBucket_new_none {V : Type} : OptionBucket.new (none : Option V) = .ok .none := rfl

/-! ## consequences -/

namespace CoreLaws

variable {K V : Type} {M : MapCore K V} (L : CoreLaws M)
include L

theorem nodup_entries (s : M.S) : (L.entries s).Nodup :=
  List.Pairwise.imp (fun h e => h (by rw [e])) (List.pairwise_map.mp (L.nodup_keys s))

theorem get_iff (s : M.S) (k : K) : (M.get s k).isSome ↔ k ∈ (L.entries s).map Prod.fst := by
  constructor
  · intro h
    obtain ⟨v, hv⟩ := Option.isSome_iff_exists.mp h
    exact List.mem_map.mpr ⟨(k, v), (L.mem_entries s k v).mpr hv, rfl⟩
  · intro h
    obtain ⟨⟨k', v⟩, hm, rfl⟩ := List.mem_map.mp h
    rw [(L.mem_entries s _ v).mp hm]; rfl

theorem perm_of_get {s t : M.S} (h : ∀ k, M.get s k = M.get t k) : (L.entries s).Perm (L.entries t) := by
  rw [List.perm_ext_iff_of_nodup (L.nodup_entries s) (L.nodup_entries t)]
  rintro ⟨k, v⟩
  rw [L.mem_entries, L.mem_entries, h]

theorem get_empty (k : K) : M.get M.empty k = none := by
  cases h : M.get M.empty k with
  | none => rfl
  | some v => have := (L.mem_entries M.empty k v).mpr h; rw [L.entries_empty] at this; simp at this

theorem get_clear (s : M.S) (k : K) : M.get (M.clear s).1 k = none := by
  cases h : M.get (M.clear s).1 k with
  | none => rfl
  | some v => have := (L.mem_entries _ k v).mpr h; rw [L.clear_entries] at this; simp at this

end CoreLaws

end FixedMap
