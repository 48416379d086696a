import Verif.Model.ProbeTable
import Verif.Spec.Hashbrown

/-! # Open addressing satisfies the laws assumed of hashbrown -/

set_option autoImplicit false
set_option linter.unusedSimpArgs false

namespace FixedMap.Probe

variable {K V : Type} (P : Probing K)

/-! ## Lists -/

theorem at_split {α : Type} {s : List α} {p : Nat} {x : α} (h : s[p]? = some x) : s = s.take p ++ x :: s.drop (p + 1) := by
  obtain ⟨hp, rfl⟩ := List.getElem?_eq_some_iff.mp h
  rw [List.getElem_cons_drop, List.take_append_drop]

theorem set_split {α : Type} {s : List α} {p : Nat} {x : α} (y : α) (h : s[p]? = some x) :
    s.set p y = s.take p ++ y :: s.drop (p + 1) := by
  obtain ⟨hp, -⟩ := List.getElem?_eq_some_iff.mp h
  rw [List.set_eq_take_append_cons_drop, if_pos hp]

theorem getElem?_lt {α : Type} {s : List α} {p : Nat} {x : α} (h : s[p]? = some x) : p < s.length :=
  (List.getElem?_eq_some_iff.mp h).1

theorem entries_append (s t : List (Slot K V)) : entries (s ++ t) = entries s ++ entries t := List.filterMap_append

theorem entries_cons (x : Slot K V) (s : List (Slot K V)) : entries (x :: s) = x.entry.toList ++ entries s := by
  cases h : x.entry <;> simp [entries, List.filterMap_cons, h]

theorem mem_entries {s : List (Slot K V)} {k : K} {v : V} : (k, v) ∈ entries s ↔ ∃ p : Nat, s[p]? = some (Slot.full k v) := by
  rw [entries, List.mem_filterMap]
  constructor
  · rintro ⟨x, hx, e⟩
    obtain ⟨p, hp⟩ := List.mem_iff_getElem?.mp hx
    cases x with
    | full k' v' => cases e; exact ⟨p, hp⟩
    | _ => cases e
  · rintro ⟨p, hp⟩
    exact ⟨_, List.mem_iff_getElem?.mpr ⟨p, hp⟩, rfl⟩

/-- Entries after a slot changes. -/
theorem entries_set {s : List (Slot K V)} {p : Nat} {x : Slot K V} (y : Slot K V) (h : s[p]? = some x) :
    entries s = entries (s.take p) ++ (x.entry.toList ++ entries (s.drop (p + 1))) ∧
    entries (s.set p y) = entries (s.take p) ++ (y.entry.toList ++ entries (s.drop (p + 1))) := by
  constructor
  · rw [← entries_cons, ← entries_append, ← at_split h]
  · rw [set_split y h, entries_append, entries_cons]

/-! ## Probing -/

theorem before_cons {l : List Nat} {p q : Nat} : before (p :: l) q = if p = q then [] else p :: before l q := by
  by_cases h : p = q <;> simp [before, List.takeWhile_cons, h]

section
variable [DecidableEq K]

theorem findIn_some {s : List (Slot K V)} {k : K} {l : List Nat} {p : Nat} (h : findIn s k l = some p) : ∃ v, s[p]? = some (.full k v) := by
  induction l with
  | nil => cases h
  | cons q l ih =>
    simp only [findIn] at h
    split at h
    · rename_i k' v' e
      split at h
      · cases h; subst_vars; exact ⟨_, e⟩
      · exact ih h
    · exact ih h
    · cases h

theorem findIn_reach {s : List (Slot K V)} {k : K} {v : V} {q : Nat} (hu : ∀ p w, s[p]? = some (.full k w) → p = q)
    (hq : s[q]? = some (.full k v)) :
    ∀ l : List Nat, (∀ p ∈ l, p < s.length) → q ∈ l → (∀ r ∈ before l q, s[r]? ≠ some .empty) → findIn s k l = some q := by
  intro l
  induction l with
  | nil => intro _ h; cases h
  | cons p l ih =>
    intro hl hm hb
    by_cases e : p = q
    · subst e; simp [findIn, hq]
    · rw [before_cons, if_neg e] at hb
      have hm : q ∈ l := by
        cases hm with
        | head => exact absurd rfl e
        | tail _ h => exact h
      have := ih (fun p h => hl p (.tail _ h)) hm (fun r h => hb r (.tail _ h))
      obtain ⟨x, hx⟩ : ∃ x, s[p]? = some x := ⟨_, List.getElem?_eq_getElem (hl p (.head _))⟩
      have hne := hb p (.head _)
      simp only [findIn, hx]
      cases x with
      | empty => exact absurd hx hne
      | deleted => exact this
      | full k' v' =>
        have hk : k' ≠ k := by rintro rfl; exact e (hu p _ hx)
        simp only [if_neg hk]; exact this

variable {P}

theorem find_eq {s : List (Slot K V)} (hs : Inv P s) {k : K} {v : V} {q : Nat} (hq : s[q]? = some (.full k v)) : find P s k = some q := by
  refine findIn_reach (fun p w h => hs.unique k w v p q h hq) hq _ ?_ ?_ (hs.reach k v q hq)
  · intro p hp
    exact List.mem_range.mp ((P.perm k s.length).mem_iff.mp hp)
  · exact (P.perm k s.length).mem_iff.mpr (List.mem_range.mpr (getElem?_lt hq))

theorem find_none {s : List (Slot K V)} (hs : Inv P s) {k : K} : find P s k = none ↔ ∀ v, (k, v) ∉ entries s := by
  constructor
  · intro h v hm
    obtain ⟨q, hq⟩ := mem_entries.mp hm
    rw [find_eq hs hq] at h; cases h
  · intro h
    cases hf : find P s k with
    | none => rfl
    | some p =>
      obtain ⟨v, hv⟩ := findIn_some hf
      exact absurd (mem_entries.mpr ⟨p, hv⟩) (h v)

omit [DecidableEq K] in
theorem valueAt_full {s : List (Slot K V)} {p : Nat} {k : K} {v : V} (h : s[p]? = some (.full k v)) : valueAt s p = some v := by
  simp [valueAt, h, Slot.entry]

theorem lookup_iff {s : List (Slot K V)} (hs : Inv P s) (k : K) (v : V) : (k, v) ∈ entries s ↔ lookup P s k = some v := by
  constructor
  · intro hm
    obtain ⟨q, hq⟩ := mem_entries.mp hm
    rw [lookup, find_eq hs hq]; exact valueAt_full hq
  · intro h
    obtain ⟨p, hp, hv⟩ := Option.bind_eq_some_iff.mp h
    obtain ⟨w, hw⟩ := findIn_some hp
    rw [valueAt_full hw] at hv; cases hv
    exact mem_entries.mpr ⟨p, hw⟩

theorem lookup_ext {s t : List (Slot K V)} (hs : Inv P s) (ht : Inv P t) {k k' : K}
    (h : ∀ v, (k, v) ∈ entries s ↔ (k', v) ∈ entries t) : lookup P s k = lookup P t k' := by
  apply Option.ext
  intro v
  rw [← lookup_iff hs, ← lookup_iff ht]; exact h v

theorem lookup_none {s : List (Slot K V)} (hs : Inv P s) {k : K} : lookup P s k = none ↔ ∀ v, (k, v) ∉ entries s := by
  rw [Option.eq_none_iff_forall_ne_some]
  constructor
  · intro h v hm; exact h v ((lookup_iff hs k v).mp hm)
  · intro h v hv; exact h v ((lookup_iff hs k v).mpr hv)

theorem lookup_none_find {s : List (Slot K V)} (hs : Inv P s) {k : K} : lookup P s k = none ↔ find P s k = none :=
  (lookup_none hs).trans (find_none hs).symm

end

variable {P}

theorem keys_nodup {s : List (Slot K V)} (hu : ∀ (k : K) (v w : V) (p q : Nat), s[p]? = some (.full k v) → s[q]? = some (.full k w) → p = q) :
    ((entries s).map Prod.fst).Nodup := by
  induction s with
  | nil => simp [entries]
  | cons x s ih =>
    have ih := ih fun k v w p q hp hq => by
      have := hu k v w (p + 1) (q + 1) (by simpa using hp) (by simpa using hq)
      omega
    rw [entries_cons]
    cases x with
    | empty => simpa [Slot.entry] using ih
    | deleted => simpa [Slot.entry] using ih
    | full k v =>
      simp only [Slot.entry, Option.toList_some, List.cons_append, List.nil_append, List.map_cons, List.nodup_cons]
      refine ⟨fun hm => ?_, ih⟩
      obtain ⟨⟨k', w⟩, hm, e⟩ := List.mem_map.mp hm
      obtain ⟨p, hp⟩ := mem_entries.mp hm
      cases e
      have := hu k' v w 0 (p + 1) (by simp) (by simpa using hp)
      omega

/-! ## The invariant is preserved -/

theorem inv_replicate (m : Nat) : Inv P (List.replicate m (.empty : Slot K V)) := by
  have h : ∀ (p : Nat) (k : K) (v : V), (List.replicate m (.empty : Slot K V))[p]? ≠ some (.full k v) := by
    intro p k v h
    rw [List.getElem?_replicate] at h
    split at h <;> cases h
  exact ⟨fun k v w p q hp => absurd hp (h p k v), fun k v q hq => absurd hq (h q k v)⟩

theorem entries_replicate (m : Nat) : entries (List.replicate m (.empty : Slot K V)) = [] := by
  induction m with
  | zero => rfl
  | succ m ih => rw [List.replicate_succ, entries_cons, ih]; rfl

/-- Overwriting a value. -/
theorem inv_value {s : List (Slot K V)} (hs : Inv P s) {p : Nat} {k : K} {v : V} (hp : s[p]? = some (.full k v)) (w : V) :
    Inv P (s.set p (.full k w)) := by
  have key : ∀ (q : Nat) (k' : K) (u : V), (s.set p (.full k w))[q]? = some (.full k' u) → ∃ u', s[q]? = some (.full k' u') := by
    intro q k' u h
    rw [List.getElem?_set] at h
    split at h
    · rename_i e; subst e
      rw [if_pos (getElem?_lt hp)] at h
      cases h; exact ⟨v, hp⟩
    · exact ⟨u, h⟩
  constructor
  · intro k' u u' a b ha hb
    obtain ⟨_, ha⟩ := key _ _ _ ha
    obtain ⟨_, hb⟩ := key _ _ _ hb
    exact hs.unique _ _ _ _ _ ha hb
  · intro k' u q hq r hr hre
    obtain ⟨_, hq⟩ := key _ _ _ hq
    rw [List.length_set] at hr
    refine hs.reach _ _ _ hq r hr ?_
    rw [List.getElem?_set] at hre
    split at hre
    · split at hre <;> cases hre
    · exact hre

theorem inv_erase {s : List (Slot K V)} (hs : Inv P s) {p : Nat} {k : K} {v : V} (hp : s[p]? = some (.full k v)) : Inv P (erase P s p) := by
  have key : ∀ (q : Nat) (k' : K) (u : V), (erase P s p)[q]? = some (.full k' u) → s[q]? = some (.full k' u) ∧ q ≠ p := by
    intro q k' u h
    rw [erase, List.getElem?_set] at h
    split at h
    · split at h
      · split at h <;> cases h
      · cases h
    · rename_i e; exact ⟨h, fun h => e h.symm⟩
  constructor
  · intro k' u u' a b ha hb
    exact hs.unique _ _ _ _ _ (key _ _ _ ha).1 (key _ _ _ hb).1
  · intro k' u q hq r hr hre
    obtain ⟨hq, hne⟩ := key _ _ _ hq
    rw [erase, List.length_set] at hr
    rw [erase, List.getElem?_set] at hre
    split at hre
    · rename_i e
      subst e
      rw [if_pos (getElem?_lt hp)] at hre
      split at hre
      · rename_i hc
        have := P.safe _ _ hc k' q (by simp [List.getElem?_map, hq, Slot.isEmpty]) (by simpa using hr)
        obtain ⟨r', h1, h2⟩ := this
        rw [List.length_map] at h1
        refine hs.reach _ _ _ hq r' h1 ?_
        rw [List.getElem?_map] at h2
        cases hx : s[r']? with
        | none => rw [hx] at h2; cases h2
        | some x =>
          rw [hx] at h2
          cases x with
          | empty => rfl
          | _ => cases h2
      · cases hre
    · exact hs.reach _ _ _ hq r hr hre

theorem entries_erase {s : List (Slot K V)} {p : Nat} {k : K} {v : V} (hp : s[p]? = some (.full k v)) :
    entries s = entries (s.take p) ++ (k, v) :: entries (s.drop (p + 1)) ∧
    entries (erase P s p) = entries (s.take p) ++ entries (s.drop (p + 1)) := by
  have := entries_set (if P.reclaim (s.map Slot.isEmpty) p then .empty else .deleted) hp
  refine ⟨this.1, this.2.trans ?_⟩
  split <;> rfl

theorem setValue_full {s : List (Slot K V)} {p : Nat} {k : K} {v : V} (hp : s[p]? = some (.full k v)) (w : V) :
    setValue s p w = s.set p (.full k w) := by
  simp only [setValue, hp]

theorem entries_setValue {s : List (Slot K V)} {p : Nat} {k : K} {v : V} (hp : s[p]? = some (.full k v)) (w : V) :
    entries s = entries (s.take p) ++ (k, v) :: entries (s.drop (p + 1)) ∧
    entries (setValue s p w) = entries (s.take p) ++ (k, w) :: entries (s.drop (p + 1)) := by
  rw [setValue_full hp]
  exact entries_set _ hp

theorem inv_setValue {s : List (Slot K V)} (hs : Inv P s) (p : Nat) (w : V) : Inv P (setValue s p w) := by
  unfold setValue
  split
  · exact inv_value hs ‹_› w
  · exact hs

/-! ## Storing a new key -/

theorem freeIn_some {s : List (Slot K V)} {l : List Nat} (hl : ∀ p ∈ l, p < s.length) {p : Nat} (h : freeIn s l = some p) :
    p ∈ l ∧ (∃ x, s[p]? = some x ∧ x.entry = none) ∧ ∀ r ∈ before l p, s[r]? ≠ some .empty := by
  induction l with
  | nil => cases h
  | cons q l ih =>
    simp only [freeIn] at h
    split at h
    · rename_i k v e
      obtain ⟨h1, h2, h3⟩ := ih (fun p h => hl p (.tail _ h)) h
      refine ⟨.tail _ h1, h2, ?_⟩
      rw [before_cons]
      split
      · intro r hr; cases hr
      · intro r hr
        cases hr with
        | head => rw [e]; exact fun h => nomatch h
        | tail _ hr => exact h3 r hr
    · rename_i e
      cases h
      obtain ⟨x, hx⟩ : ∃ x, s[p]? = some x := ⟨_, List.getElem?_eq_getElem (hl p (.head _))⟩
      refine ⟨.head _, ⟨x, hx, ?_⟩, ?_⟩
      · cases x with
        | full k v => exact absurd hx (e k v)
        | _ => rfl
      · rw [before_cons, if_pos rfl]; intro r hr; cases hr

theorem freeIn_none {s : List (Slot K V)} {l : List Nat} (h : freeIn s l = none) : ∀ p ∈ l, ∃ k v, s[p]? = some (.full k v) := by
  induction l with
  | nil => intro p hp; cases hp
  | cons q l ih =>
    simp only [freeIn] at h
    split at h
    · rename_i k v e
      intro p hp
      cases hp with
      | head => exact ⟨k, v, e⟩
      | tail _ hp => exact ih h p hp
    · cases h

theorem full_length {s : List (Slot K V)} (h : ∀ x ∈ s, ∃ e, x.entry = some e) : (entries s).length = s.length := by
  induction s with
  | nil => rfl
  | cons x s ih =>
    obtain ⟨e, he⟩ := h x (.head _)
    rw [entries_cons, he]
    simpa using ih fun y hy => h y (.tail _ hy)

theorem free_some {s : List (Slot K V)} (h : (entries s).length < s.length) (k : K) : ∃ p, freeIn s (P.probe k s.length) = some p := by
  cases hf : freeIn s (P.probe k s.length) with
  | some p => exact ⟨p, rfl⟩
  | none =>
    exfalso
    have : (entries s).length = s.length := full_length fun x hx => by
      obtain ⟨p, hp⟩ := List.mem_iff_getElem?.mp hx
      have hm : p ∈ P.probe k s.length := (P.perm k s.length).mem_iff.mpr (List.mem_range.mpr (getElem?_lt hp))
      obtain ⟨k', v', e⟩ := freeIn_none hf p hm
      rw [hp] at e; cases e
      exact ⟨_, rfl⟩
    omega

/-- Where a new key goes. -/
theorem put_at {s : List (Slot K V)} (h : (entries s).length < s.length) (k : K) (v : V) :
    ∃ p x, freeIn s (P.probe k s.length) = some p ∧ s[p]? = some x ∧ x.entry = none ∧ put P s k v = s.set p (.full k v) ∧
      ∀ r ∈ before (P.probe k s.length) p, s[r]? ≠ some .empty := by
  obtain ⟨p, hp⟩ := free_some (P := P) h k
  obtain ⟨-, ⟨x, hx, he⟩, hb⟩ := freeIn_some (fun p hp => List.mem_range.mp ((P.perm k s.length).mem_iff.mp hp)) hp
  exact ⟨p, x, hp, hx, he, by rw [put, hp], hb⟩

theorem put_entries {s : List (Slot K V)} (h : (entries s).length < s.length) (k : K) (v : V) :
    (entries (put P s k v)).Perm ((k, v) :: entries s) := by
  obtain ⟨p, x, -, hx, he, e, -⟩ := put_at (P := P) h k v
  obtain ⟨h1, h2⟩ := entries_set (.full k v) hx
  rw [e, h2, h1, he]
  simp only [Slot.entry, Option.toList_some, Option.toList_none, List.cons_append, List.nil_append]
  exact List.perm_middle

theorem put_length (s : List (Slot K V)) (k : K) (v : V) : (put P s k v).length = s.length := by
  unfold put; split <;> simp

theorem put_inv {s : List (Slot K V)} (hs : Inv P s) (h : (entries s).length < s.length) {k : K} (hk : ∀ v, (k, v) ∉ entries s) (v : V) :
    Inv P (put P s k v) := by
  obtain ⟨p, x, -, hx, he, e, hb⟩ := put_at (P := P) h k v
  rw [e]
  have key : ∀ (q : Nat) (k' : K) (u : V), (s.set p (.full k v))[q]? = some (.full k' u) →
      (q = p ∧ k' = k) ∨ (q ≠ p ∧ s[q]? = some (.full k' u)) := by
    intro q k' u h
    rw [List.getElem?_set] at h
    split at h
    · rename_i e; subst e
      rw [if_pos (getElem?_lt hx)] at h
      cases h; exact .inl ⟨rfl, rfl⟩
    · rename_i e; exact .inr ⟨fun h => e h.symm, h⟩
  constructor
  · intro k' u u' a b ha hb
    rcases key _ _ _ ha with ⟨ea, ka⟩ | ⟨-, ha'⟩ <;> rcases key _ _ _ hb with ⟨eb, kb⟩ | ⟨-, hb'⟩
    · rw [ea, eb]
    · exact absurd (mem_entries.mpr ⟨_, hb'⟩) (ka ▸ hk _)
    · exact absurd (mem_entries.mpr ⟨_, ha'⟩) (kb ▸ hk _)
    · exact hs.unique _ _ _ _ _ ha' hb'
  · intro k' u q hq r hr hre
    rw [List.length_set] at hr
    have hre' : s[r]? = some .empty := by
      rw [List.getElem?_set] at hre
      split at hre
      · split at hre <;> cases hre
      · exact hre
    rcases key _ _ _ hq with ⟨rfl, rfl⟩ | ⟨-, hq⟩
    · exact hb r hr hre'
    · exact hs.reach _ _ _ hq r hr hre'

theorem putAll {l : List (K × V)} : ∀ {t : List (Slot K V)}, Inv P t → (entries t).length + l.length ≤ t.length →
    ((entries t ++ l).map Prod.fst).Nodup →
    let t' := l.foldl (fun t p => put P t p.1 p.2) t
    Inv P t' ∧ t'.length = t.length ∧ (entries t').Perm (entries t ++ l) := by
  induction l with
  | nil => intro t ht _ _; exact ⟨ht, rfl, by simp⟩
  | cons p l ih =>
    obtain ⟨k, v⟩ := p
    intro t ht hl hn
    have hlt : (entries t).length < t.length := by simp at hl; omega
    have hk : ∀ v, (k, v) ∉ entries t := by
      intro w hm
      rw [List.map_append, List.nodup_append] at hn
      exact hn.2.2 k (List.mem_map.mpr ⟨_, hm, rfl⟩) k (.head _) rfl
    have hp := put_entries (P := P) hlt k v
    have hlen := put_length (P := P) t k v
    have hperm : (entries (put P t k v) ++ l).Perm (entries t ++ (k, v) :: l) :=
      (hp.append_right l).trans (by simpa using (List.perm_middle (a := (k, v)) (l₁ := entries t) (l₂ := l)).symm)
    obtain ⟨h1, h2, h3⟩ := ih (put_inv ht hlt hk v) (by rw [hlen, hp.length_eq]; simp at hl ⊢; omega)
      ((hperm.map Prod.fst).nodup_iff.mpr hn)
    exact ⟨h1, h2.trans hlen, h3.trans hperm⟩

theorem rebuild_law {s : List (Slot K V)} (hs : Inv P s) {m : Nat} (hm : (entries s).length < m) :
    Inv P (rebuild P m s) ∧ (rebuild P m s).length = m ∧ (entries (rebuild P m s)).Perm (entries s) := by
  have := putAll (P := P) (l := entries s) (inv_replicate m) (by rw [entries_replicate]; simp; omega)
    (by rw [entries_replicate]; exact keys_nodup hs.unique)
  simpa [rebuild, entries_replicate] using this

theorem entries_empties (s : List (Slot K V)) : (entries s).length + s.countP Slot.isEmpty ≤ s.length := by
  induction s with
  | nil => exact Nat.le_refl _
  | cons x s ih =>
    rw [entries, List.filterMap_cons, List.countP_cons, List.length_cons]
    have ih : (s.filterMap Slot.entry).length + s.countP Slot.isEmpty ≤ s.length := ih
    cases x <;> simp only [Slot.entry, Slot.isEmpty, List.length_cons] <;> simp <;> omega

theorem reserve_law {s : List (Slot K V)} (hs : Inv P s) :
    Inv P (reserve P s) ∧ (entries (reserve P s)).length < (reserve P s).length ∧ (entries (reserve P s)).Perm (entries s) := by
  have hr := P.room (entries s).length (s.countP Slot.isEmpty) s.length (entries_empties s)
  unfold reserve
  split
  · rename_i m e
    rw [e] at hr
    have hr : (entries s).length < m := hr
    obtain ⟨h1, h2, h3⟩ := rebuild_law hs hr
    exact ⟨h1, by rw [h2, h3.length_eq]; exact hr, h3⟩
  · rename_i e
    rw [e] at hr
    exact ⟨hs, hr, .refl _⟩

theorem insertNew_law {s : List (Slot K V)} (hs : Inv P s) {k : K} (hk : ∀ v, (k, v) ∉ entries s) (v : V) :
    Inv P (insertNew P s k v) ∧ (entries (insertNew P s k v)).Perm ((k, v) :: entries s) := by
  obtain ⟨h1, h2, h3⟩ := reserve_law hs
  exact ⟨put_inv h1 h2 (fun v hm => hk v (h3.mem_iff.mp hm)) v, (put_entries h2 k v).trans (h3.cons _)⟩

/-! ## `retain` -/

theorem retain_law {σ : Type} (f : σ → K → V → σ × V × Option Bool) : ∀ (n i : Nat) (s : List (Slot K V)) (st : σ), Inv P s →
    i + n = s.length →
    let r := retainFrom P f n i s st
    let r' := retainRef f (entries (s.drop i)) st
    Inv P r.s ∧ entries r.s = entries (s.take i) ++ r'.s ∧ r.st = r'.st ∧ r.panicked = r'.panicked ∧ r.dropped = r'.dropped := by
  intro n
  induction n with
  | zero =>
    intro i s st hs hi
    have : s.drop i = [] := List.drop_of_length_le (by omega)
    have h2 : s.take i = s := List.take_of_length_le (by omega)
    simp [retainFrom, this, h2, entries, retainRef, hs]
  | succ n ih =>
    intro i s st hs hi
    have hlt : i < s.length := by omega
    obtain ⟨x, hx⟩ : ∃ x, s[i]? = some x := ⟨_, List.getElem?_eq_getElem hlt⟩
    have hd : s.drop i = x :: s.drop (i + 1) := by
      obtain ⟨h, rfl⟩ := List.getElem?_eq_some_iff.mp hx
      rw [List.getElem_cons_drop]
    have htake : ∀ y, (s.set i y).take (i + 1) = s.take i ++ [y] := by
      intro y
      rw [List.take_add_one, List.take_set_of_le (Nat.le_refl i), List.getElem?_set, if_pos rfl, if_pos hlt]; rfl
    have hdrop : ∀ y, (s.set i y).drop (i + 1) = s.drop (i + 1) := by
      intro y
      rw [List.drop_set_of_lt (by omega)]
    have hskip : x.entry = none → s[i]? = some x → entries (s.take (i + 1)) = entries (s.take i) ∧ entries (s.drop i) = entries (s.drop (i + 1)) := by
      intro he _
      have h1 : s.take (i + 1) = s.take i ++ [x] := by
        rw [List.take_add_one, hx]; rfl
      rw [h1, entries_append, entries_cons, he, hd, entries_cons, he]
      simp [entries]
    cases x with
    | empty =>
      obtain ⟨h1, h2⟩ := hskip rfl hx
      have := ih (i + 1) s st hs (by omega)
      simp only [retainFrom, hx, h2]
      rw [h1] at this
      exact this
    | deleted =>
      obtain ⟨h1, h2⟩ := hskip rfl hx
      have := ih (i + 1) s st hs (by omega)
      simp only [retainFrom, hx, h2]
      rw [h1] at this
      exact this
    | full k v =>
      rw [hd, entries_cons]
      simp only [retainFrom, hx, Slot.entry, Option.toList_some, List.cons_append, List.nil_append, retainRef]
      rcases hf : f st k v with ⟨st', v', _ | _ | _⟩
      · obtain ⟨-, h2⟩ := entries_setValue hx v'
        exact ⟨inv_setValue hs _ _, h2, rfl, rfl, rfl⟩
      · have hlen : (erase P s i).length = s.length := by simp [erase]
        obtain ⟨h1, h2, h3, h4, h5⟩ := ih (i + 1) (erase P s i) st' (inv_erase hs hx) (by rw [hlen]; omega)
        have ht : entries ((erase P s i).take (i + 1)) = entries (s.take i) := by
          rw [erase, htake, entries_append, entries_cons]
          split <;> simp [Slot.entry, entries]
        have hdr : (erase P s i).drop (i + 1) = s.drop (i + 1) := hdrop _
        rw [hdr] at h2 h3 h4 h5
        rw [ht] at h2
        exact ⟨h1, h2, h3, h4, by simp only [h5]⟩
      · have hv := setValue_full hx v'
        obtain ⟨h1, h2, h3, h4, h5⟩ := ih (i + 1) (setValue s i v') st' (inv_setValue hs _ _) (by rw [hv]; simp; omega)
        rw [hv, hdrop] at h2 h3 h4 h5
        rw [htake, entries_append, entries_cons] at h2
        rw [hv] at h1
        dsimp only
        rw [hv]
        refine ⟨h1, ?_, h3, h4, h5⟩
        rw [h2]
        simp [Slot.entry, entries]

/-! ## Iterators -/

theorem scan_eq {β α : Type} (f : β → Option α) (l : List β) :
    (scan f l).1 = (l.filterMap f).head? ∧ (scan f l).2.filterMap f = (l.filterMap f).tail := by
  induction l with
  | nil => exact ⟨rfl, rfl⟩
  | cons b l ih =>
    simp only [scan, List.filterMap_cons]
    cases f b with
    | some a => exact ⟨rfl, rfl⟩
    | none => exact ih

theorem scanIter_like {β α : Type} (f : β → Option α) (l : List β) : BehavesLike (scanIter f) l (l.filterMap f) := by
  intro ds
  induction ds generalizing l with
  | nil =>
    intro outs st' h
    simp only [IterImpl.run, Option.some.injEq, Prod.mk.injEq] at h
    obtain ⟨rfl, rfl⟩ := h
    simp [dequeRun, HintOk, scanIter]
  | cons d ds ih =>
    intro outs st' h
    cases d with
    | back => simp [IterImpl.run, IterImpl.step, scanIter] at h
    | front =>
      simp only [IterImpl.run, IterImpl.step] at h
      obtain ⟨⟨os, st''⟩, h1, h2⟩ := Option.map_eq_some_iff.mp h
      simp only [Prod.mk.injEq] at h2
      obtain ⟨rfl, rfl⟩ := h2
      have := ih _ _ _ h1
      obtain ⟨e1, e2⟩ := scan_eq f l
      change _ = _ ∧ _ at this
      simp only [dequeRun, dequeStep, List.cons.injEq]
      rw [← e2]
      exact ⟨⟨e1, this.1⟩, this.2⟩

end FixedMap.Probe
