import Verif.Proofs.ProbeTable
import Verif.Spec.IterDrop
import Verif.Spec.ClonePanic

/-!
# The open-addressing table as an instance of the API of hashbrown

An entry is the key and the position of its slot, a reference is a position.
-/

set_option autoImplicit false
set_option linter.unusedSimpArgs false

namespace FixedMap

namespace Probe

variable {K V : Type} (P : Probing K)

/-- Arrays of slots that satisfy the invariant. -/
abbrev Table (V : Type) : Type := { s : List (Slot K V) // Inv P s }

def keyIn (s : List (Slot K V)) (p : Nat) : Option K := (s[p]?.bind Slot.entry).map Prod.fst

/-- What the iterators yield for a slot and its position. -/
def entryOf (x : Slot K V × Nat) : Option (K × V) := x.1.entry
def keyOf (x : Slot K V × Nat) : Option K := x.1.entry.map Prod.fst
def valOf (x : Slot K V × Nat) : Option V := x.1.entry.map Prod.snd
def refOf (x : Slot K V × Nat) : Option (K × Nat) := x.1.entry.map fun e => (e.1, x.2)
def posOf (x : Slot K V × Nat) : Option Nat := x.1.entry.map fun _ => x.2

theorem inv_mapVal {P : Probing K} {s : List (Slot K V)} (hs : Inv P s) (c : V → V) : Inv P (s.map (Slot.mapVal c)) := by
  have key : ∀ (q : Nat) (k : K) (u : V), (s.map (Slot.mapVal c))[q]? = some (.full k u) → ∃ u', s[q]? = some (.full k u') := by
    intro q k u h
    rw [List.getElem?_map] at h
    cases hx : s[q]? with
    | none => rw [hx] at h; cases h
    | some x =>
      rw [hx] at h
      cases x with
      | full k' v' => cases h; exact ⟨_, rfl⟩
      | _ => cases h
  constructor
  · intro k u u' a b ha hb
    obtain ⟨_, ha⟩ := key _ _ _ ha
    obtain ⟨_, hb⟩ := key _ _ _ hb
    exact hs.unique _ _ _ _ _ ha hb
  · intro k u q hq r hr hre
    obtain ⟨_, hq⟩ := key _ _ _ hq
    rw [List.length_map] at hr
    refine hs.reach _ _ _ hq r hr ?_
    rw [List.getElem?_map] at hre
    cases hx : s[r]? with
    | none => rw [hx] at hre; cases hre
    | some x =>
      rw [hx] at hre
      cases x with
      | empty => rfl
      | _ => cases hre

variable [DecidableEq K]

theorem insert_inv {P : Probing K} {s : List (Slot K V)} (hs : Inv P s) (k : K) (v : V) : Inv P (insert P s k v) := by
  unfold insert
  split
  · exact inv_setValue hs _ _
  · rename_i h
    exact (insertNew_law hs ((find_none hs).mp h) v).1

theorem remove_inv {P : Probing K} {s : List (Slot K V)} (hs : Inv P s) (k : K) : Inv P (remove P s k) := by
  unfold remove
  split
  · rename_i p h
    obtain ⟨v, hv⟩ := findIn_some h
    exact inv_erase hs hv
  · exact hs

/-- Erasing the slot of an entry. -/
def eraseAt {P : Probing K} (t : Table P V) (p : Nat) : Res (V × Table P V) :=
  match h : t.1[p]? with
  | some (.full _ v) => .ok (v, ⟨erase P t.1 p, inv_erase t.2 h⟩)
  | _ => .ub

/-- Storing a new key; the key must be absent. -/
def insertAt {P : Probing K} (t : Table P V) (k : K) (v : V) : Res (Nat × Table P V) :=
  if h : find P t.1 k = none then
    match freeIn (reserve P t.1) (P.probe k (reserve P t.1).length) with
    | some p => .ok (p, ⟨insertNew P t.1 k v, (insertNew_law t.2 ((find_none t.2).mp h) v).1⟩)
    | none => .ub
  else .ub

end Probe

open Probe in
/-- The API of hashbrown on slots. -/
@[reducible] def probeApi {K : Type} (P : Probing K) (V : Type) [DecidableEq K] : HashMapApi K V where
  Table := Table P V
  Addr := Nat
  OccupiedEntry := K × Nat
  VacantEntry := K
  read t a := valueAt t.1 a
  write t a v := ⟨setValue t.1 a v, inv_setValue t.2 a v⟩
  new := ⟨[], inv_replicate 0⟩
  len t := (entries t.1).length
  is_empty t := (entries t.1).length == 0
  insert t k v := (lookup P t.1 k, ⟨insert P t.1 k v, insert_inv t.2 k v⟩)
  contains_key t k := (find P t.1 k).isSome
  get t k := lookup P t.1 k
  get_mut t k := find P t.1 k
  remove t k := (lookup P t.1 k, ⟨remove P t.1 k, remove_inv t.2 k⟩)
  retain f t st :=
    let r := retainFrom P f t.1.length 0 t.1 st
    ⟨⟨r.s, (retain_law f _ 0 t.1 st t.2 (Nat.zero_add _)).1⟩, r.st, r.panicked, r.dropped⟩
  clear t := (⟨List.replicate t.1.length .empty, inv_replicate _⟩, (entries t.1).map Prod.snd)
  entry t k := (match find P t.1 k with | some p => .inl (k, p) | none => .inr k, t)
  occ_key e := e.1
  occ_get e t := match valueAt t.1 e.2 with | some v => .ok v | none => .ub
  occ_get_mut e t := match valueAt t.1 e.2 with | some _ => .ok e.2 | none => .ub
  occ_into_mut e t := match valueAt t.1 e.2 with | some _ => .ok e.2 | none => .ub
  occ_insert e t v := match valueAt t.1 e.2 with
    | some old => .ok (old, ⟨setValue t.1 e.2 v, inv_setValue t.2 _ v⟩)
    | none => .ub
  occ_remove e t := eraseAt t e.2
  vac_key e := e
  vac_insert e t v := insertAt t e v
  clone c t := ⟨t.1.map (Slot.mapVal c), inv_mapVal t.2 c⟩
  iter := ⟨scanIter entryOf, fun t => t.1.zipIdx⟩
  keys := ⟨scanIter keyOf, fun t => t.1.zipIdx⟩
  values := ⟨scanIter valOf, fun t => t.1.zipIdx⟩
  iter_mut := ⟨scanIter refOf, fun t => t.1.zipIdx⟩
  values_mut := ⟨scanIter posOf, fun t => t.1.zipIdx⟩
  into_iter := ⟨scanIter entryOf, fun t => t.1.zipIdx⟩

namespace Probe

variable {K V : Type} {P : Probing K}

/-! ## Laws -/

theorem zip_entries (s : List (Slot K V)) (i : Nat) : (s.zipIdx i).filterMap entryOf = entries s := by
  induction s generalizing i with
  | nil => rfl
  | cons x s ih =>
    rw [List.zipIdx_cons, entries_cons, List.filterMap_cons]
    cases h : x.entry <;> simp [entryOf, h, ih]

theorem zip_map {β : Type} (s : List (Slot K V)) (g : K × V → β) (f : Slot K V × Nat → Option β) (hf : ∀ x, f x = (entryOf x).map g)
    (i : Nat) : (s.zipIdx i).filterMap f = (entries s).map g := by
  rw [← zip_entries s i, List.map_filterMap]
  congr 1
  funext x; exact hf x

def refs (s : List (Slot K V)) : List (K × Nat) := s.zipIdx.filterMap refOf

theorem refs_pos (s : List (Slot K V)) : s.zipIdx.filterMap posOf = (refs s).map Prod.snd := by
  rw [refs, List.map_filterMap]
  congr 1
  funext x
  cases h : x.1.entry <;> simp [posOf, refOf, h]

theorem refs_keys (s : List (Slot K V)) : (refs s).map Prod.fst = (entries s).map Prod.fst := by
  rw [refs, List.map_filterMap]
  exact zip_map s Prod.fst _ (fun x => by cases h : x.1.entry <;> simp [entryOf, refOf, h]) 0

theorem keyIn_iff {s : List (Slot K V)} {p : Nat} {k : K} : keyIn s p = some k ↔ ∃ v, s[p]? = some (.full k v) := by
  unfold keyIn
  cases h : s[p]? with
  | none => simp
  | some x => cases x <;> simp [Slot.entry]

theorem refs_at {s : List (Slot K V)} {k : K} {a : Nat} (h : (k, a) ∈ refs s) : keyIn s a = some k := by
  obtain ⟨⟨x, i⟩, hx, e⟩ := List.mem_filterMap.mp h
  have hx := List.mem_zipIdx_iff_getElem?.mp hx
  cases x with
  | full k' v' => cases e; exact keyIn_iff.mpr ⟨v', hx⟩
  | _ => cases e

theorem valueAt_some {s : List (Slot K V)} {p : Nat} {k : K} (h : keyIn s p = some k) : ∃ v, valueAt s p = some v ∧ (k, v) ∈ entries s := by
  obtain ⟨v, hv⟩ := keyIn_iff.mp h
  exact ⟨v, valueAt_full hv, mem_entries.mpr ⟨p, hv⟩⟩

theorem mem_setValue {s : List (Slot K V)} (hs : Inv P s) {p : Nat} {k : K} {v : V} (hp : s[p]? = some (.full k v)) (w : V) {k' : K} {u : V} :
    (k', u) ∈ entries (setValue s p w) ↔ (k' = k ∧ u = w) ∨ (k' ≠ k ∧ (k', u) ∈ entries s) := by
  obtain ⟨h1, h2⟩ := entries_setValue hp w
  have hn := keys_nodup hs.unique
  rw [h1] at hn ⊢
  rw [h2]
  simp only [List.map_append, List.map_cons, List.nodup_append, List.nodup_cons] at hn
  obtain ⟨-, ⟨h3, -⟩, h4⟩ := hn
  have hk1 : ∀ u, (k, u) ∉ entries (s.take p) := fun u hm => h4 k (List.mem_map.mpr ⟨_, hm, rfl⟩) k (.head _) rfl
  have hk2 : ∀ u, (k, u) ∉ entries (s.drop (p + 1)) := fun u hm => h3 (List.mem_map.mpr ⟨_, hm, rfl⟩)
  simp only [List.mem_append, List.mem_cons, Prod.mk.injEq]
  by_cases e : k' = k
  · subst e; simp [hk1, hk2]
  · simp [e]

theorem mem_erase {s : List (Slot K V)} (hs : Inv P s) {p : Nat} {k : K} {v : V} (hp : s[p]? = some (.full k v)) {k' : K} {u : V} :
    (k', u) ∈ entries (erase P s p) ↔ k' ≠ k ∧ (k', u) ∈ entries s := by
  obtain ⟨h1, h2⟩ := entries_erase (P := P) hp
  have hn := keys_nodup hs.unique
  rw [h1] at hn ⊢
  rw [h2]
  simp only [List.map_append, List.map_cons, List.nodup_append, List.nodup_cons] at hn
  obtain ⟨-, ⟨h3, -⟩, h4⟩ := hn
  have hk1 : ∀ u, (k, u) ∉ entries (s.take p) := fun u hm => h4 k (List.mem_map.mpr ⟨_, hm, rfl⟩) k (.head _) rfl
  have hk2 : ∀ u, (k, u) ∉ entries (s.drop (p + 1)) := fun u hm => h3 (List.mem_map.mpr ⟨_, hm, rfl⟩)
  simp only [List.mem_append, List.mem_cons, Prod.mk.injEq]
  by_cases e : k' = k
  · subst e; simp [hk1, hk2]
  · simp [e]

theorem setValue_keyIn {s : List (Slot K V)} (p : Nat) (w : V) (q : Nat) : keyIn (setValue s p w) q = keyIn s q := by
  unfold setValue
  split
  · rename_i k v h
    simp only [keyIn, List.getElem?_set]
    split
    · rename_i e; subst e
      rw [if_pos (getElem?_lt h), h]; rfl
    · rfl
  · rfl

theorem setValue_keys {s : List (Slot K V)} (p : Nat) (w : V) : (entries (setValue s p w)).map Prod.fst = (entries s).map Prod.fst := by
  cases h : s[p]? with
  | none => simp [setValue, h]
  | some x =>
    cases x with
    | full k v =>
      obtain ⟨h1, h2⟩ := entries_setValue h w
      rw [h1, h2]; simp
    | _ => simp [setValue, h]

variable [DecidableEq K]

theorem mem_insert {s : List (Slot K V)} (hs : Inv P s) (k : K) (v : V) {k' : K} {u : V} :
    (k', u) ∈ entries (insert P s k v) ↔ (k' = k ∧ u = v) ∨ (k' ≠ k ∧ (k', u) ∈ entries s) := by
  unfold insert
  split
  · rename_i p h
    obtain ⟨w, hw⟩ := findIn_some h
    exact mem_setValue hs hw v
  · rename_i h
    have hk := (find_none hs).mp h
    rw [(insertNew_law hs hk v).2.mem_iff, List.mem_cons, Prod.mk.injEq]
    by_cases e : k' = k
    · subst e; simp [hk]
    · simp [e]

theorem mem_remove {s : List (Slot K V)} (hs : Inv P s) (k : K) {k' : K} {u : V} :
    (k', u) ∈ entries (remove P s k) ↔ k' ≠ k ∧ (k', u) ∈ entries s := by
  unfold remove
  split
  · rename_i p h
    obtain ⟨w, hw⟩ := findIn_some h
    exact mem_erase hs hw
  · rename_i h
    have hk := (find_none hs).mp h
    by_cases e : k' = k
    · subst e; simp [hk]
    · simp [e]

theorem lookup_find {s : List (Slot K V)} {k : K} : (lookup P s k).isSome = (find P s k).isSome := by
  cases h : find P s k with
  | none => simp [lookup, h]
  | some p =>
    obtain ⟨w, hw⟩ := findIn_some h
    simp [lookup, h, valueAt_full hw]

theorem find_keyIn {s : List (Slot K V)} {k : K} {p : Nat} (h : find P s k = some p) : keyIn s p = some k :=
  keyIn_iff.mpr (findIn_some h)

theorem keyIn_find {s : List (Slot K V)} (hs : Inv P s) {k : K} {p : Nat} (h : keyIn s p = some k) : find P s k = some p := by
  obtain ⟨v, hv⟩ := keyIn_iff.mp h
  exact find_eq hs hv

theorem keyIn_lookup {s : List (Slot K V)} (hs : Inv P s) {k : K} {p : Nat} (h : keyIn s p = some k) : lookup P s k = valueAt s p := by
  rw [lookup, keyIn_find hs h]; rfl

theorem lookup_mapVal {s : List (Slot K V)} (hs : Inv P s) (c : V → V) (k : K) :
    lookup P (s.map (Slot.mapVal c)) k = (lookup P s k).map c := by
  have he : entries (s.map (Slot.mapVal c)) = (entries s).map fun p => (p.1, c p.2) := by
    rw [entries, entries, List.filterMap_map, List.map_filterMap]
    congr 1
    funext x; cases x <;> rfl
  apply Option.ext
  intro v
  rw [← lookup_iff (inv_mapVal hs c), he, List.mem_map, Option.map_eq_some_iff]
  constructor
  · rintro ⟨⟨k', w⟩, hm, e⟩
    cases e
    exact ⟨w, (lookup_iff hs _ _).mp hm, rfl⟩
  · rintro ⟨w, hw, rfl⟩
    exact ⟨(k, w), (lookup_iff hs _ _).mpr hw, rfl⟩

end Probe

open Probe in
/-- The laws assumed of hashbrown hold. -/
def probeLaws {K : Type} (P : Probing K) (V : Type) [DecidableEq K] : HashMapLaws (probeApi P V) where
  entries t := entries t.1
  addrs t := refs t.1
  keyAt t a := keyIn t.1 a
  occFits e t k := e.1 = k ∧ keyIn t.1 e.2 = some k
  vacFits e t k := e = k ∧ find P t.1 k = none
  mem_entries t k v := lookup_iff t.2 k v
  nodup_keys t := keys_nodup t.2.unique
  new_entries := rfl
  len_eq _ := rfl
  is_empty_eq t := by cases h : entries t.1 <;> simp [h]
  contains_key_eq t k := lookup_find.symm
  insert_ret _ _ _ := rfl
  get_insert_self t k v := (lookup_iff (insert_inv t.2 k v) k v).mp ((mem_insert t.2 k v).mpr (.inl ⟨rfl, rfl⟩))
  get_insert_ne t k v k' h := lookup_ext (insert_inv t.2 k v) t.2 fun u => by rw [mem_insert t.2]; simp [h]
  remove_ret _ _ := rfl
  get_remove_self t k := (lookup_none (remove_inv t.2 k)).mpr fun v => by rw [mem_remove t.2]; simp
  get_remove_ne t k k' h := lookup_ext (remove_inv t.2 k) t.2 fun u => by rw [mem_remove t.2]; simp [h]
  retain_entries f t st := by
    have := (retain_law f _ 0 t.1 st t.2 (Nat.zero_add _)).2.1
    simp only [List.take_zero, List.drop_zero] at this
    exact this ▸ List.Perm.refl _
  retain_st f t st := (retain_law f _ 0 t.1 st t.2 (Nat.zero_add _)).2.2.1
  retain_panicked f t st := (retain_law f _ 0 t.1 st t.2 (Nat.zero_add _)).2.2.2.1
  retain_dropped f t st := (retain_law f _ 0 t.1 st t.2 (Nat.zero_add _)).2.2.2.2
  clear_entries t := entries_replicate _
  clear_dropped _ := List.Perm.refl _
  keyAt_live t a k h := by
    obtain ⟨v, hv, -⟩ := valueAt_some h
    show (lookup P t.1 k).isSome
    rw [keyIn_lookup t.2 h, hv]; rfl
  read_eq t a k h := (keyIn_lookup t.2 h).symm
  get_write_self t a k v h := by
    obtain ⟨w, hw⟩ := keyIn_iff.mp h
    exact (lookup_iff (inv_setValue t.2 a v) k v).mp ((mem_setValue t.2 hw v).mpr (.inl ⟨rfl, rfl⟩))
  get_write_ne t a k v k' h hne := by
    obtain ⟨w, hw⟩ := keyIn_iff.mp h
    exact lookup_ext (inv_setValue t.2 a v) t.2 fun u => by rw [mem_setValue t.2 hw]; simp [hne]
  keyAt_write t a k v a' _ := setValue_keyIn _ _ _
  keys_write t a _ v _ := setValue_keys _ _
  get_mut_some t k v h := by
    have h : lookup P t.1 k = some v := h
    cases hf : find P t.1 k with
    | none => rw [(lookup_none_find t.2).mpr hf] at h; cases h
    | some p => exact ⟨p, hf, find_keyIn hf⟩
  get_mut_none t k h := (lookup_none_find t.2).mp h
  entry_some t k v h := by
    have h : lookup P t.1 k = some v := h
    cases hf : find P t.1 k with
    | none => rw [(lookup_none_find t.2).mpr hf] at h; cases h
    | some p => exact ⟨(k, p), t, by simp only [hf], fun _ => rfl, rfl, find_keyIn hf⟩
  entry_none t k h := by
    have hf := (lookup_none_find t.2).mp h
    exact ⟨k, t, by simp only [hf], fun _ => rfl, rfl, hf⟩
  occ_key_eq _ _ _ h := h.1
  occ_get_eq e t k := by
    rintro ⟨-, h⟩
    obtain ⟨v, hv, -⟩ := valueAt_some h
    exact ⟨v, by simp only [hv], (keyIn_lookup t.2 h).trans hv⟩
  occ_get_mut_eq e t k := by
    rintro ⟨-, h⟩
    obtain ⟨v, hv, -⟩ := valueAt_some h
    exact ⟨e.2, by simp only [hv], h⟩
  occ_into_mut_eq e t k := by
    rintro ⟨-, h⟩
    obtain ⟨v, hv, -⟩ := valueAt_some h
    exact ⟨e.2, by simp only [hv], h⟩
  occFits_write e t k a v := by
    rintro ⟨h1, h2⟩ _
    exact ⟨h1, (setValue_keyIn _ _ _).trans h2⟩
  occ_insert_eq e t k v := by
    rintro ⟨h1, h2⟩
    obtain ⟨w, hw, -⟩ := valueAt_some h2
    obtain ⟨w', hw'⟩ := keyIn_iff.mp h2
    refine ⟨w, ⟨setValue t.1 e.2 v, inv_setValue t.2 _ v⟩, by simp only [hw], (keyIn_lookup t.2 h2).trans hw, ?_, ?_, h1,
      (setValue_keyIn _ _ _).trans h2⟩
    · exact (lookup_iff (inv_setValue t.2 _ v) k v).mp ((mem_setValue t.2 hw' v).mpr (.inl ⟨rfl, rfl⟩))
    · intro k' hne
      exact lookup_ext (inv_setValue t.2 _ v) t.2 fun u => by rw [mem_setValue t.2 hw']; simp [hne]
  occ_remove_eq e t k := by
    rintro ⟨h1, h2⟩
    obtain ⟨w, hw⟩ := keyIn_iff.mp h2
    refine ⟨w, ⟨erase P t.1 e.2, inv_erase t.2 hw⟩, ?_, (keyIn_lookup t.2 h2).trans (valueAt_full hw), ?_, ?_⟩
    · show eraseAt t e.2 = _
      unfold eraseAt
      split
      · rename_i k' v' he
        rw [hw] at he; cases he; rfl
      · rename_i hne
        exact absurd hw (hne _ _)
    · exact (lookup_none (inv_erase t.2 hw)).mpr fun v => by rw [mem_erase t.2 hw]; simp
    · intro k' hne
      exact lookup_ext (inv_erase t.2 hw) t.2 fun u => by rw [mem_erase t.2 hw]; simp [hne]
  vac_key_eq _ _ _ h := h.1
  vac_insert_eq e t k v := by
    rintro ⟨rfl, h⟩
    refine ⟨(lookup_none_find t.2).mpr h, ?_⟩
    have hk := (find_none t.2).mp h
    obtain ⟨g1, g2, g3⟩ := reserve_law t.2
    obtain ⟨p, x, e1, e2, e3, e4, -⟩ := put_at (P := P) g2 e v
    obtain ⟨i1, i2⟩ := insertNew_law t.2 hk v
    refine ⟨p, ⟨insertNew P t.1 e v, i1⟩, ?_, ?_, ?_, ?_⟩
    · show insertAt t e v = _
      simp only [insertAt, h, dite_true, e1]
    · exact (lookup_iff i1 e v).mp (i2.mem_iff.mpr (.head _))
    · intro k' hne
      exact lookup_ext i1 t.2 fun u => by rw [i2.mem_iff]; simp [hne]
    · show keyIn (put P (reserve P t.1) e v) p = some e
      rw [e4]
      exact keyIn_iff.mpr ⟨v, by rw [List.getElem?_set, if_pos rfl, if_pos (getElem?_lt e2)]⟩
  get_clone c t k := lookup_mapVal t.2 c k
  iter_like t := by have := scanIter_like entryOf t.1.zipIdx; rwa [zip_entries] at this
  into_iter_like t := by have := scanIter_like entryOf t.1.zipIdx; rwa [zip_entries] at this
  keys_like t := by have := scanIter_like keyOf t.1.zipIdx; rwa [zip_map t.1 Prod.fst keyOf (fun _ => rfl)] at this
  values_like t := by have := scanIter_like valOf t.1.zipIdx; rwa [zip_map t.1 Prod.snd valOf (fun _ => rfl)] at this
  iter_mut_like t := scanIter_like refOf t.1.zipIdx
  values_mut_like t := by have := scanIter_like posOf t.1.zipIdx; rwa [refs_pos] at this
  addrs_keys t := refs_keys _
  addrs_at t k a h := refs_at h

namespace Probe

/-! ## Cloning with effects -/

variable {K V : Type} {P : Probing K}

/-- The invariant does not look at the values. -/
def Slot.shape : Slot K V → Slot K Unit := Slot.mapVal fun _ => ()

theorem shape_full {x : Slot K V} {k : K} {u : Unit} (h : x.shape = .full k u) : ∃ v, x = .full k v := by
  cases x with
  | full k' v => cases h; exact ⟨v, rfl⟩
  | _ => cases h

theorem inv_shape {s t : List (Slot K V)} (h : s.map Slot.shape = t.map Slot.shape) (hs : Inv P s) : Inv P t := by
  have hl : s.length = t.length := by simpa using congrArg List.length h
  have at_ : ∀ i, s[i]?.map Slot.shape = t[i]?.map Slot.shape := fun i => by rw [← List.getElem?_map, h, List.getElem?_map]
  have full : ∀ (i : Nat) (k : K) (v : V), t[i]? = some (Slot.full k v) → ∃ w : V, s[i]? = some (Slot.full k w) := by
    intro i k v hi
    have := at_ i
    rw [hi] at this
    obtain ⟨x, hx, e⟩ := Option.map_eq_some_iff.mp this
    obtain ⟨w, rfl⟩ := shape_full e
    exact ⟨w, hx⟩
  constructor
  · intro k v w p q hp hq
    obtain ⟨_, hp⟩ := full _ _ _ hp
    obtain ⟨_, hq⟩ := full _ _ _ hq
    exact hs.unique _ _ _ _ _ hp hq
  · intro k v q hq r hr hre
    obtain ⟨_, hq⟩ := full _ _ _ hq
    refine hs.reach _ _ _ hq r (hl ▸ hr) ?_
    have := at_ r
    rw [hre] at this
    obtain ⟨x, hx, e⟩ := Option.map_eq_some_iff.mp this
    cases x with
    | empty => exact hx
    | _ => cases e

theorem cloneSlots_law {σ : Type} (c : Cloner σ V) (s : List (Slot K V)) (st : σ) :
    let q := cloneRef c (entries s) st
    let r := cloneSlots c s st
    r.1 = q.st ∧ r.2.1 = q.made.map Prod.snd ∧ (r.2.2 = none ↔ q.panicked = true) ∧
      ∀ s', r.2.2 = some s' → entries s' = q.made ∧ s.map Slot.shape = s'.map Slot.shape := by
  induction s generalizing st with
  | nil => exact ⟨rfl, rfl, by simp [cloneSlots, entries, cloneRef], fun s' h => by cases h; exact ⟨rfl, rfl⟩⟩
  | cons x s ih =>
    cases x with
    | empty =>
      have he : entries (Slot.empty :: s) = entries s := rfl
      rw [he]
      obtain ⟨h1, h2, h3, h4⟩ := ih st
      refine ⟨h1, h2, by simpa [cloneSlots] using h3, fun s' h => ?_⟩
      obtain ⟨t, ht, rfl⟩ := Option.map_eq_some_iff.mp (show (cloneSlots c s st).2.2.map (Slot.empty :: ·) = some s' from h)
      obtain ⟨h5, h6⟩ := h4 t ht
      exact ⟨h5, congrArg (Slot.empty :: ·) h6⟩
    | deleted =>
      have he : entries (Slot.deleted :: s) = entries s := rfl
      rw [he]
      obtain ⟨h1, h2, h3, h4⟩ := ih st
      refine ⟨h1, h2, by simpa [cloneSlots] using h3, fun s' h => ?_⟩
      obtain ⟨t, ht, rfl⟩ := Option.map_eq_some_iff.mp (show (cloneSlots c s st).2.2.map (Slot.deleted :: ·) = some s' from h)
      obtain ⟨h5, h6⟩ := h4 t ht
      exact ⟨h5, congrArg (Slot.deleted :: ·) h6⟩
    | full k v =>
      have he : entries (Slot.full k v :: s) = (k, v) :: entries s := rfl
      rw [he]
      rcases hc : c st v with ⟨st', _ | w⟩
      · simp [cloneSlots, cloneRef, hc]
      · obtain ⟨h1, h2, h3, h4⟩ := ih st'
        simp only [cloneSlots, cloneRef, hc]
        refine ⟨h1, by rw [h2]; rfl, by simpa using h3, fun s' h => ?_⟩
        obtain ⟨t, ht, rfl⟩ := Option.map_eq_some_iff.mp h
        obtain ⟨h5, h6⟩ := h4 t ht
        refine ⟨?_, congrArg (Slot.full k () :: ·) h6⟩
        rw [show entries (Slot.full k w :: t) = (k, w) :: entries t from rfl, h5]

theorem scanIter_rest {β α : Type} (f : β → Option α) (ds : List Dir) (l : List β) outs st (h : (scanIter f).run ds l = some (outs, st)) :
    List.filterMap f st = (dequeRun ds (l.filterMap f)).2 := by
  induction ds generalizing l outs with
  | nil => cases h; rfl
  | cons d ds ih =>
    cases d with
    | back => simp [IterImpl.run, IterImpl.step, scanIter] at h
    | front =>
      simp only [IterImpl.run, IterImpl.step] at h
      obtain ⟨⟨os, st''⟩, h1, h2⟩ := Option.map_eq_some_iff.mp h
      cases h2
      have e := ih _ _ h1
      have e2 : (scan f l).2.filterMap f = (l.filterMap f).tail := (scan_eq f l).2
      rw [show ((scanIter f).next l).2 = (scan f l).2 from rfl, e2] at e
      exact e

end Probe

/-- A hashbrown with open addressing. -/
@[reducible] def probeHashbrown (P : (K : Type) → [DecidableEq K] → Probing K) : Hashbrown where
  api K V _ := probeApi (P K) V
  laws K V _ := probeLaws (P K) V

open Probe in
/-- What its owning iterator holds: the values in the slots it has not passed. -/
def probeHeld (P : (K : Type) → [DecidableEq K] → Probing K) (V : Type) : HeldApi (probeHashbrown P).api V :=
  fun _ _ st => List.filterMap valOf st

open Probe in
/-- Its `clone`. -/
def probeClone (P : (K : Type) → [DecidableEq K] → Probing K) (V : Type) : TableCloneApi (probeHashbrown P).api V :=
  fun _ _ _ c t st =>
    let r := cloneSlots c t.1 st
    (r.1, r.2.1, match h : r.2.2 with
      | none => none
      | some s => some ⟨s, inv_shape ((cloneSlots_law c t.1 st).2.2.2 s h).2 t.2⟩)

/-! ## Linear probing -/

namespace Probe

/-- The `i`-th slot probed from `j`, wrapping around. -/
def around (n j i : Nat) : Nat := if j + i < n then j + i else j + i - n

/-- How many slots may be used, full or deleted: 7/8 of them. hashbrown 0.13 `bucket_mask_to_capacity`. -/
def capacity (n : Nat) : Nat := if n ≤ 8 then n - 1 else n / 8 * 7

theorem mem_before {l : List Nat} {q r : Nat} : r ∈ before l q ↔ ∃ i : Nat, l[i]? = some r ∧ ∀ j : Nat, j ≤ i → l[j]? ≠ some q := by
  induction l with
  | nil => simp [before]
  | cons x l ih =>
    by_cases hx : x = q
    · subst hx
      simp only [before, ne_eq, decide_not, List.takeWhile_cons, decide_true, Bool.not_true, Bool.false_eq_true, if_false, List.not_mem_nil,
        false_iff]
      rintro ⟨i, -, h⟩
      exact h 0 (Nat.zero_le _) rfl
    · have hb : before (x :: l) q = x :: before l q := by simp [before, hx]
      rw [hb, List.mem_cons, ih]
      constructor
      · rintro (rfl | ⟨i, h1, h2⟩)
        · exact ⟨0, rfl, fun j hj => by cases Nat.le_zero.mp hj; simpa using hx⟩
        · refine ⟨i + 1, h1, fun j hj => ?_⟩
          cases j with
          | zero => simpa using hx
          | succ j => exact h2 j (by omega)
      · rintro ⟨i, h1, h2⟩
        cases i with
        | zero => exact .inl (by simpa using h1.symm)
        | succ i => exact .inr ⟨i, h1, fun j hj => h2 (j + 1) (by omega)⟩

/-- Linear probing from the slot that the hash selects. The table is rebuilt when 7/8 of the slots are in use: in place if at most half of them are full, else with
twice the slots. A removed entry leaves no tombstone if the next slot is empty. -/
def linear {K : Type} (hash : K → Nat) : Probing K where
  probe k n := (List.range n).map (around n (hash k % n))
  perm k n := by
    rcases Nat.eq_zero_or_pos n with rfl | hn
    · exact .refl _
    have hj := Nat.mod_lt (hash k) hn
    generalize hash k % n = j at hj
    refine (List.perm_ext_iff_of_nodup ?_ List.nodup_range).mpr fun q => ?_
    · rw [List.nodup_iff_pairwise_ne, List.pairwise_map]
      refine List.Pairwise.imp_of_mem ?_ List.pairwise_lt_range
      intro a b ha hb hab
      rw [List.mem_range] at ha hb
      unfold around
      split <;> split <;> omega
    · rw [List.mem_map, List.mem_range]
      constructor
      · rintro ⟨i, hi, rfl⟩
        rw [List.mem_range] at hi
        unfold around
        split <;> omega
      · intro hq
        by_cases h : j ≤ q
        · exact ⟨q - j, List.mem_range.mpr (by omega), by unfold around; split <;> omega⟩
        · exact ⟨q + n - j, List.mem_range.mpr (by omega), by unfold around; split <;> omega⟩
  resize items empties n :=
    if n - empties < capacity n then none
    else if items + 1 ≤ capacity n / 2 then some n
    else some (max 4 (2 * n))
  room items empties n h := by
    have hc : capacity n ≤ n - 1 := by unfold capacity; split <;> omega
    by_cases h1 : n - empties < capacity n
    · rw [if_pos h1]; show items < n; omega
    · rw [if_neg h1]
      by_cases h2 : items + 1 ≤ capacity n / 2
      · rw [if_pos h2]; show items < n; omega
      · rw [if_neg h2]; show items < max 4 (2 * n); omega
  reclaim e p := e[around e.length 1 p]? == some true
  safe e p h k q hq hp := by
    have h : e[around e.length 1 p]? = some true := by simpa using h
    have hql := (List.getElem?_eq_some_iff.mp hq).1
    have hj := Nat.mod_lt (hash k) (Nat.lt_of_le_of_lt (Nat.zero_le _) hql)
    generalize hash k % e.length = j at hj hp ⊢
    refine ⟨_, mem_before.mpr ?_, h⟩
    obtain ⟨i, h1, h2⟩ := mem_before.mp hp
    have hne : around e.length 1 p ≠ q := by
      rintro he
      rw [he, hq] at h
      cases h
    have at_ : ∀ i : Nat, i < e.length → ((List.range e.length).map (around e.length j))[i]? = some (around e.length j i) := by
      intro i hi
      rw [List.getElem?_map, List.getElem?_range hi]; rfl
    have hi : i < e.length := by
      have := (List.getElem?_eq_some_iff.mp h1).1
      simpa using this
    rw [at_ i hi, Option.some.injEq] at h1
    subst h1
    by_cases hl : i + 1 < e.length
    · have hs : around e.length 1 (around e.length j i) = around e.length j (i + 1) := by
        unfold around; split <;> split <;> split <;> omega
      refine ⟨i + 1, by rw [at_ _ hl, hs], fun j' hj' => ?_⟩
      rcases Nat.lt_or_eq_of_le hj' with h | rfl
      · exact h2 j' (by omega)
      · rw [at_ _ hl, ← hs]
        exact fun c => hne (Option.some.inj c)
    · exfalso
      have hj1 : around e.length j ((if j ≤ q then q - j else q + e.length - j)) = q := by
        unfold around; split <;> split <;> omega
      have hlt : (if j ≤ q then q - j else q + e.length - j) < e.length := by split <;> omega
      exact h2 (if j ≤ q then q - j else q + e.length - j) (by omega) (by rw [at_ _ hlt, hj1])

end Probe

end FixedMap
