import Verif.Spec.Memory
import Verif.Spec.HashbrownProbe

/-! # The laws about memory hold for tables with open addressing

The memory of a table is its array of slots. The policy must be patient: rebuild only when no slot is empty, and never with fewer slots. -/

set_option autoImplicit false
set_option linter.unusedSimpArgs false

namespace FixedMap

/-- Rebuilds only when it must, and never shrinks. -/
structure Patient {K : Type} (P : Probing K) : Prop where
  waits : ∀ items empties slots, 0 < empties → P.resize items empties slots = none
  grows : ∀ items empties slots m, P.resize items empties slots = some m → slots ≤ m

namespace Probe

variable {K V : Type} {P : Probing K}

/-- Entries that fit. -/
def roomIn (s : List (Slot K V)) : Nat := (entries s).length + s.countP Slot.isEmpty

theorem setValue_length (s : List (Slot K V)) (p : Nat) (v : V) : (setValue s p v).length = s.length := by
  unfold setValue; split <;> simp

theorem countP_set {α : Type} (f : α → Bool) (s : List α) (p : Nat) (x y : α) (h : s[p]? = some x) :
    (s.set p y).countP f + (f x).toNat = s.countP f + (f y).toNat := by
  rw [set_split y h]
  conv => rhs; rw [at_split h]
  simp only [List.countP_append, List.countP_cons]
  cases f x <;> cases f y <;> simp <;> omega

theorem setValue_room (s : List (Slot K V)) (p : Nat) (v : V) : roomIn (setValue s p v) = roomIn s := by
  unfold roomIn
  cases hp : s[p]? with
  | none => simp [setValue, hp]
  | some x =>
    cases x with
    | empty => simp [setValue, hp]
    | deleted => simp [setValue, hp]
    | full k w =>
      have h1 := countP_set Slot.isEmpty s p _ (.full k v) hp
      simp only [show Slot.isEmpty (.full k w) = false from rfl, show Slot.isEmpty (.full k v) = false from rfl] at h1
      have h2 := entries_setValue hp v
      have h3 : (entries (setValue s p v)).length = (entries s).length := by
        rw [h2.2]; conv => rhs; rw [h2.1]
        simp
      rw [h3, setValue_full hp]
      simp at h1
      omega

theorem erase_length (s : List (Slot K V)) (p : Nat) : (erase P s p).length = s.length := by simp [erase]

theorem retainFrom_length {σ : Type} (f : σ → K → V → σ × V × Option Bool) : ∀ (n i : Nat) (s : List (Slot K V)) (st : σ),
    (retainFrom P f n i s st).s.length = s.length := by
  intro n
  induction n with
  | zero => intro i s st; rfl
  | succ n ih =>
    intro i s st
    simp only [retainFrom]
    split
    · split
      · exact setValue_length _ _ _
      · rw [ih, setValue_length]
      · exact (ih _ _ _).trans (erase_length _ _)
    · exact ih _ _ _

theorem put_room {s : List (Slot K V)} (h : (entries s).length < s.length) (k : K) (v : V) : roomIn s ≤ roomIn (put P s k v) := by
  obtain ⟨p, hp⟩ := free_some (P := P) h k
  have hl : ∀ q ∈ P.probe k s.length, q < s.length := fun q hq => List.mem_range.mp ((P.perm k s.length).mem_iff.mp hq)
  have he := (put_entries (P := P) h k v).length_eq
  unfold roomIn
  rw [he]
  have : put P s k v = s.set p (.full k v) := by simp [put, hp]
  rw [this]
  have hlt : p < s.length := by
    have := (freeIn_some hl hp)
    grind
  have := countP_set Slot.isEmpty s p _ (.full k v) (List.getElem?_eq_getElem hlt)
  rw [show Slot.isEmpty (.full k v) = false from rfl] at this
  have h1 : (s[p].isEmpty).toNat ≤ 1 := by cases s[p].isEmpty <;> simp
  simp only [Bool.toNat_false] at this
  simp only [List.length_cons]
  omega

theorem rebuild_length (m : Nat) (s : List (Slot K V)) : (rebuild P m s).length = m := by
  unfold rebuild
  suffices h : ∀ (l : List (K × V)) (t : List (Slot K V)), (l.foldl (fun t p => put P t p.1 p.2) t).length = t.length by
    rw [h]; simp
  intro l
  induction l with
  | nil => intro t; rfl
  | cons p l ih => intro t; exact (ih _).trans (put_length _ _ _)

theorem insertNew_length (hP : Patient P) (s : List (Slot K V)) (k : K) (v : V) : s.length ≤ (insertNew P s k v).length := by
  unfold insertNew
  rw [put_length]
  unfold reserve
  split
  · rename_i m h
    rw [rebuild_length]
    exact hP.grows _ _ _ _ h
  · exact Nat.le_refl _

theorem insertNew_fits (hP : Patient P) (s : List (Slot K V)) (k : K) (v : V) (h : (entries s).length < roomIn s) :
    (insertNew P s k v).length = s.length ∧ roomIn s ≤ roomIn (insertNew P s k v) := by
  have hr : reserve P s = s := by
    unfold reserve
    rw [hP.waits _ _ _ (by unfold roomIn at h; omega)]
  unfold insertNew
  rw [hr]
  refine ⟨put_length _ _ _, put_room ?_ k v⟩
  have := entries_empties s
  unfold roomIn at h
  omega

end Probe

open Probe in
/-- A patient table satisfies the laws. -/
@[reducible] def probeMemory {K : Type} {P : Probing K} (hP : Patient P) (V : Type) [DecidableEq K] : MemoryLaws (probeApi P V) where
  mem t := t.1.length
  room t := roomIn t.1
  new_mem := rfl
  write_mem t a v := setValue_length _ _ _
  remove_mem t k := by
    show (remove P t.1 k).length = _
    unfold remove
    split
    · exact erase_length _ _
    · rfl
  retain_mem f t st := retainFrom_length _ _ _ _ _
  clear_mem t := List.length_replicate
  clear_room t := by
    have := entries_empties t.1
    show (entries t.1).length ≤ roomIn (List.replicate t.1.length .empty)
    simp only [roomIn, entries_replicate, List.countP_replicate, Slot.isEmpty]
    simp; omega
  entry_mem t k := rfl
  occ_insert_mem e t v old t' h := by
    simp only [probeApi] at h
    split at h
    · cases h; exact setValue_length _ _ _
    · cases h
  occ_remove_mem e t old t' h := by
    simp only [probeApi, eraseAt] at h
    split at h
    · cases h; exact erase_length _ _
    · cases h
  vac_insert_mem e t v a t' h := by
    simp only [probeApi, insertAt] at h
    split at h
    · split at h
      · cases h; exact insertNew_length hP _ _ _
      · cases h
    · cases h
  clone_mem c t := List.length_map _
  insert_mem t k v := by
    show _ ≤ (Probe.insert P t.1 k v).length
    unfold Probe.insert
    split
    · rw [setValue_length]; exact Nat.le_refl _
    · exact insertNew_length hP _ _ _
  insert_present t k v h := by
    show (Probe.insert P t.1 k v).length = _ ∧ _ ≤ roomIn (Probe.insert P t.1 k v)
    unfold Probe.insert
    split
    · exact ⟨setValue_length _ _ _, Nat.le_of_eq (setValue_room _ _ _).symm⟩
    · rename_i hf
      rw [show (probeApi P V).get t k = none from (lookup_none_find t.2).mpr hf] at h
      cases h
  insert_fits t k v h := by
    show (Probe.insert P t.1 k v).length = _ ∧ _ ≤ roomIn (Probe.insert P t.1 k v)
    unfold Probe.insert
    split
    · exact ⟨setValue_length _ _ _, Nat.le_of_eq (setValue_room _ _ _).symm⟩
    · exact insertNew_fits hP _ _ _ h

/-- Linear probing that fills the array before it is rebuilt: in place if at most half of the slots are full, else with twice the slots. -/
def packed {K : Type} (hash : K → Nat) : Probing K :=
  { Probe.linear hash with
    resize := fun items empties n => if 0 < empties then none else if items + 1 ≤ n / 2 then some n else some (max 4 (2 * n))
    room := by
      intro items empties n h
      by_cases h1 : 0 < empties
      · rw [if_pos h1]; show items < n; omega
      · rw [if_neg h1]
        by_cases h2 : items + 1 ≤ n / 2
        · rw [if_pos h2]; show items < n; omega
        · rw [if_neg h2]; show items < max 4 (2 * n); omega }

theorem packed_patient {K : Type} (hash : K → Nat) : Patient (packed hash) where
  waits items empties n h := if_pos h
  grows items empties n m h := by
    simp only [packed] at h
    split at h
    · cases h
    · split at h <;> cases h <;> omega

end FixedMap
