import Verif.Spec.DropBatches
import Verif.Proofs.DropPanic

/-! # `clear` and dropping a map, exactly: proofs -/

set_option autoImplicit false
set_option linter.unusedSimpArgs false

namespace FixedMap

variable {σ V : Type} {d : Dtor σ V}

/-! ## Batches -/

section
variable {K K' : Type} {T : K → K → Bool} {inT : K → Bool}

def Batch.rename (g : K → K') (b : Batch K V) : Batch K' V := ⟨b.table, renameKeys g b.entries, b.order⟩

theorem IsBatches.rename {T' : K' → K' → Bool} {inT' : K' → Bool} {bs : List (Batch K V)} {l : List (K × V)}
    (h : IsBatches T inT bs l) (g : K → K') (hT : ∀ a b, T' (g a) (g b) = T a b) (hi : ∀ a, inT' (g a) = inT a) :
    IsBatches T' inT' (bs.map (Batch.rename g)) (renameKeys g l) where
  concat := by
    rw [← h.concat]
    clear h
    induction bs with
    | nil => rfl
    | cons b bs ih => rw [List.map_cons, List.flatMap_cons, List.flatMap_cons, renameKeys_append, ih]; rfl
  order b hb := by
    obtain ⟨c, hc, rfl⟩ := List.mem_map.1 hb
    simp only [Batch.rename, renameKeys_snd]
    exact h.order c hc
  table b hb p hp := by
    obtain ⟨c, hc, rfl⟩ := List.mem_map.1 hb
    obtain ⟨q, hq, rfl⟩ := List.mem_map.1 hp
    exact (hi q.1).trans (h.table c hc q hq)
  together b hb p hp q hq := by
    obtain ⟨c, hc, rfl⟩ := List.mem_map.1 hb
    obtain ⟨p', hp', rfl⟩ := List.mem_map.1 hp
    obtain ⟨q', hq', rfl⟩ := List.mem_map.1 hq
    exact (hT _ _).trans (h.together c hc p' hp' q' hq')
  apart := by
    refine List.pairwise_map.2 (h.apart.imp fun {b c} hbc p hp q hq => ?_)
    obtain ⟨p', hp', rfl⟩ := List.mem_map.1 hp
    obtain ⟨q', hq', rfl⟩ := List.mem_map.1 hq
    exact (hT _ _).trans (hbc p' hp' q' hq')

theorem IsBatches.append {bs cs : List (Batch K V)} {l l' : List (K × V)} (h : IsBatches T inT bs l) (h' : IsBatches T inT cs l')
    (hd : ∀ p ∈ l, ∀ q ∈ l', T p.1 q.1 = false) : IsBatches T inT (bs ++ cs) (l ++ l') where
  concat := by rw [List.flatMap_append, h.concat, h'.concat]
  order b hb := (List.mem_append.1 hb).elim (h.order b) (h'.order b)
  table b hb := (List.mem_append.1 hb).elim (h.table b) (h'.table b)
  together b hb := (List.mem_append.1 hb).elim (h.together b) (h'.together b)
  apart := by
    refine List.pairwise_append.2 ⟨h.apart, h'.apart, fun b hb c hc p hp q hq => hd p ?_ q ?_⟩
    · rw [← h.concat]; exact List.mem_flatMap.2 ⟨b, hb, hp⟩
    · rw [← h'.concat]; exact List.mem_flatMap.2 ⟨c, hc, hq⟩

/-- One batch. -/
theorem IsBatches.one {b : Batch K V} (ho : b.order.Perm (b.entries.map Prod.snd))
    (he : b.table = false → b.order = b.entries.map Prod.snd) (ht : ∀ p ∈ b.entries, inT p.1 = b.table)
    (hT : ∀ p ∈ b.entries, ∀ q ∈ b.entries, T p.1 q.1 = true) : IsBatches T inT [b] b.entries where
  concat := by simp
  order c hc := by cases List.mem_singleton.1 hc; exact ⟨ho, he⟩
  table c hc := by cases List.mem_singleton.1 hc; exact ht
  together c hc := by cases List.mem_singleton.1 hc; exact hT
  apart := List.pairwise_singleton _ _

theorem IsBatches.nil : IsBatches T inT ([] : List (Batch K V)) [] :=
  ⟨rfl, fun _ h => (nomatch h), fun _ h => (nomatch h), fun _ h => (nomatch h), .nil⟩

theorem dropBatches_append (bs cs : List (Batch K V)) (x : Drops σ V) :
    dropBatches d (bs ++ cs) x = dropBatches d cs (dropBatches d bs x) := by
  induction bs generalizing x with
  | nil => rfl
  | cons b bs ih => exact ih _

theorem dropBatches_rename (g : K → K') (bs : List (Batch K V)) (x : Drops σ V) :
    dropBatches d (bs.map (Batch.rename g)) x = dropBatches d bs x := by
  induction bs generalizing x with
  | nil => rfl
  | cons b bs ih => exact ih _

theorem clearBatches_rename (g : K → K') (bs : List (Batch K V)) (x : Drops σ V) :
    clearBatches d (bs.map (Batch.rename g)) x =
      ((clearBatches d bs x).1.map (Batch.rename g), (clearBatches d bs x).2) := by
  induction bs generalizing x with
  | nil => rfl
  | cons b bs ih =>
    simp only [List.map_cons, clearBatches]
    split
    · exact ih _
    · rfl

theorem clearBatches_normal (bs : List (Batch K V)) (x : Drops σ V) (h : (clearBatches d bs x).2.fate = .normal) :
    (clearBatches d bs x).1 = [] := by
  induction bs generalizing x with
  | nil => rfl
  | cons b bs ih =>
    simp only [clearBatches] at h ⊢
    split at h
    · rename_i hx; rw [if_pos hx]; exact ih _ h
    · rename_i hx; exact absurd h hx

theorem clearBatches_append (bs cs : List (Batch K V)) (x : Drops σ V) (hx : x.fate = .normal) :
    clearBatches d (bs ++ cs) x =
      if (clearBatches d bs x).2.fate = .normal then clearBatches d cs (clearBatches d bs x).2
      else ((clearBatches d bs x).1 ++ cs, (clearBatches d bs x).2) := by
  induction bs generalizing x with
  | nil => simp [clearBatches, hx]
  | cons b bs ih =>
    simp only [List.cons_append, clearBatches, if_pos hx]
    by_cases hb : (b.drop d x).fate = .normal
    · exact ih _ hb
    · cases bs with
      | nil =>
        simp only [List.nil_append, clearBatches, if_neg hb]
        cases cs with
        | nil => simp [clearBatches, hb]
        | cons c cs => simp [clearBatches, hb]
      | cons c bs => simp only [List.cons_append, clearBatches, if_neg hb]

theorem renameKeys_flatMap (g : K → K') (bs : List (Batch K V)) :
    (bs.map (Batch.rename g)).flatMap (·.entries) = renameKeys g (bs.flatMap (·.entries)) := by
  induction bs with
  | nil => rfl
  | cons b bs ih => rw [List.map_cons, List.flatMap_cons, List.flatMap_cons, renameKeys_append, ih]; rfl
end

/-! ## The primitives -/

theorem dropEach_aborted (l : List V) (x : Drops σ V) (h : x.fate = .aborted) : dropEach d l x = x := by
  induction l with
  | nil => rfl
  | cons v l ih =>
    have : x.value d v = x := by simp [Drops.value, h]
    rw [dropEach, this, ih]

theorem array_eq_each (l : List (Option V)) (x : Drops σ V) : x.array d l = dropEach d (l.flatMap Option.toList) x := by
  induction l generalizing x with
  | nil => rfl
  | cons o l ih =>
    cases o with
    | none => exact ih x
    | some v => exact ih _

theorem table_eq (l : List V) (x : Drops σ V) : x.table d l = if x.fate = .aborted then x else dropUntilPanic d l x := by
  induction l generalizing x with
  | nil => simp [Drops.table, dropUntilPanic]
  | cons v l ih =>
    simp only [Drops.table, dropUntilPanic]
    by_cases hx : x.fate = .aborted
    · have : x.value d v = x := by simp [Drops.value, hx]
      simp only [this, if_true, ih, hx]
    · simp only [if_neg hx]
      cases hp : (d x.st v).2 with
      | false =>
        have hf : (x.value d v).fate = x.fate := by simp [Drops.value, hx, hp]
        simp only [hf, if_true, Bool.false_eq_true, if_false, ih, if_neg hx]
      | true =>
        have hf : (x.value d v).fate ≠ x.fate := by
          simp only [Drops.value, if_neg hx, hp, if_true]
          revert hx
          cases x.fate <;> simp [Fate.panic]
        simp only [if_neg hf, if_true]

theorem batch_plain {K : Type} (e : List (K × V)) (x : Drops σ V) :
    (⟨false, e, e.map Prod.snd⟩ : Batch K V).drop d x = dropEach d (e.map Prod.snd) x := by
  simp only [Batch.drop, Bool.false_eq_true, if_false]
  split
  · rename_i h; rw [dropEach_aborted _ _ h]
  · rfl

theorem batch_table {K : Type} (e : List (K × V)) (o : List V) (x : Drops σ V) :
    (⟨true, e, o⟩ : Batch K V).drop d x = x.table d o := by
  rw [table_eq]
  simp only [Batch.drop, if_true]

theorem slot_eq_each {K : Type} (k : K) (o : Option V) (x : Drops σ V) :
    x.slot d o = dropEach d ((slotEntries k o).map Prod.snd) x := by
  cases o <;> rfl

/-! ## The laws -/

/-- What dropping a part of the storage does, by batches. -/
structure BatchLaw {S K : Type} (d : Dtor σ V) (T : K → K → Bool) (inT : K → Bool) (e : S → List (K × V))
    (c : S → Drops σ V → S × Drops σ V) (dr : S → Drops σ V → Drops σ V) (s : S) (bs : List (Batch K V)) : Prop where
  is : IsBatches T inT bs (e s)
  drop : ∀ x, dr s x = dropBatches d bs x
  clear : ∀ x, x.fate = .normal → (c s x).2 = (clearBatches d bs x).2 ∧
    e (c s x).1 = (clearBatches d bs x).1.flatMap (·.entries)

section
variable {S K K' : Type} {T : K → K → Bool} {inT : K → Bool} {e : S → List (K × V)} {c : S → Drops σ V → S × Drops σ V}
  {dr : S → Drops σ V → Drops σ V} {s : S} {bs : List (Batch K V)}

theorem BatchLaw.rename (h : BatchLaw d T inT e c dr s bs) (g : K → K') {T' : K' → K' → Bool} {inT' : K' → Bool}
    (hT : ∀ a b, T' (g a) (g b) = T a b) (hi : ∀ a, inT' (g a) = inT a) :
    BatchLaw d T' inT' (fun s => renameKeys g (e s)) c dr s (bs.map (Batch.rename g)) where
  is := h.is.rename g hT hi
  drop x := by rw [h.drop, dropBatches_rename]
  clear x hx := by
    rw [clearBatches_rename, renameKeys_flatMap]
    exact ⟨(h.clear x hx).1, by simp only [(h.clear x hx).2]⟩

/-- One statement: everything is dropped and nothing is left. -/
theorem BatchLaw.one (b : Batch K V) (he : b.entries = e s) (hi : IsBatches T inT [b] b.entries)
    (hd : ∀ x, dr s x = b.drop d x) (hc : ∀ x, (c s x).2 = b.drop d x) (hn : ∀ x, e (c s x).1 = []) :
    BatchLaw d T inT e c dr s [b] where
  is := he ▸ hi
  drop x := hd x
  clear x hx := by
    simp only [clearBatches, if_pos hx]
    exact ⟨hc x, by rw [hn x]; rfl⟩

theorem BatchLaw.seq {S' : Type} {e' : S' → List (K × V)} {c' : S' → Drops σ V → S' × Drops σ V}
    {dr' : S' → Drops σ V → Drops σ V} {s' : S'} {cs : List (Batch K V)} (h : BatchLaw d T inT e c dr s bs)
    (h' : BatchLaw d T inT e' c' dr' s' cs) (hT : ∀ p ∈ e s, ∀ q ∈ e' s', T p.1 q.1 = false) :
    BatchLaw d T inT (fun s : S × S' => e s.1 ++ e' s.2)
      (fun s x => (((c s.1 x).1, ((c s.1 x).2.next s.2 c').1), ((c s.1 x).2.next s.2 c').2))
      (fun s x => dr' s.2 (dr s.1 x)) (s, s') (bs ++ cs) where
  is := h.is.append h'.is hT
  drop x := by rw [dropBatches_append, h'.drop, h.drop]
  clear x hx := by
    rw [clearBatches_append _ _ _ hx]
    obtain ⟨h1, h2⟩ := h.clear x hx
    by_cases hn : (c s x).2.fate = .normal
    · have hn' := hn
      rw [h1] at hn'
      simp only [Drops.next, if_pos hn, if_pos hn']
      obtain ⟨g1, g2⟩ := h'.clear (c s x).2 hn
      rw [h1] at g1 g2
      refine ⟨?_, ?_⟩
      · rw [h1]; exact g1
      · rw [h2, clearBatches_normal _ _ hn', h1]
        exact g2
    · have hn' := hn
      rw [h1] at hn'
      simp only [Drops.next, if_neg hn, if_neg hn', h1, h2, List.flatMap_append, h'.is.concat, and_self]
end

theorem slotEntries_key {K : Type} {k : K} {o : Option V} : ∀ p ∈ slotEntries k o, p.1 = k := by
  intro p hp
  cases o with
  | none => exact nomatch hp
  | some v => cases List.mem_singleton.1 hp; rfl

theorem renameKeys_key {K K' : Type} {g : K → K'} {l : List (K × V)} : ∀ p ∈ renameKeys g l, ∃ k, p.1 = g k := by
  intro p hp
  obtain ⟨q, -, rfl⟩ := List.mem_map.1 hp
  exact ⟨q.1, rfl⟩

theorem batchLaw_slot {K : Type} (k : K) (T : K → K → Bool) (inT : K → Bool) (hT : T k k = true) (hi : inT k = false) (o : Option V) :
    BatchLaw d T inT (slotEntries k) (fun o (x : Drops σ V) => (none, x.slot d o)) (fun o x => x.slot d o) o
      [⟨false, slotEntries k o, (slotEntries k o).map Prod.snd⟩] := by
  have hb : ∀ x : Drops σ V, x.slot d o = (⟨false, slotEntries k o, (slotEntries k o).map Prod.snd⟩ : Batch K V).drop d x := by
    intro x
    rw [batch_plain, slot_eq_each k]
  refine .one _ rfl (.one (.refl _) (fun _ => rfl) (fun p hp => ?_) fun p hp q hq => ?_) hb hb fun _ => rfl
  · rw [slotEntries_key p hp, hi]
  · rw [slotEntries_key p hp, slotEntries_key q hq, hT]

theorem batchLaw_units (n : Nat) (s : UnitsSt n V) :
    BatchLaw d (fun _ _ => true) (fun _ => false) (unitsEntries (List.finRange n))
      (fun s x => (Vector.replicate n none, x.array d s.toList)) (fun s x => x.array d s.toList) s
      [⟨false, unitsEntries (List.finRange n) s, (unitsEntries (List.finRange n) s).map Prod.snd⟩] := by
  have hb : ∀ x : Drops σ V, x.array d s.toList =
      (⟨false, unitsEntries (List.finRange n) s, (unitsEntries (List.finRange n) s).map Prod.snd⟩ : Batch (Fin n) V).drop d x := by
    intro x
    rw [batch_plain, array_eq_each, unitsEntries_snd]
  exact .one _ rfl (.one (.refl _) (fun _ => rfl) (fun _ _ => rfl) fun _ _ _ _ => rfl) hb hb
    fun _ => (unitsCore n V).clear_entries s

theorem batchLaw_table {K : Type} {A : HashMapApi K V} (L : HashMapLaws A) (t : A.Table) :
    BatchLaw d (fun _ _ => true) (fun _ => true) L.entries
      (fun (t : A.Table) (x : Drops σ V) => ((A.clear t).1, x.table d (A.clear t).2)) (fun t x => x.table d (A.clear t).2) t
      [⟨true, L.entries t, (A.clear t).2⟩] :=
  .one _ rfl (.one (L.clear_dropped t) (fun h => (nomatch h)) (fun _ _ => rfl) fun _ _ _ _ => rfl)
    (fun x => (batch_table _ _ x).symm) (fun x => (batch_table _ _ x).symm) fun _ => L.clear_entries t

mutual
theorem batch_law (H : Hashbrown) (d : Dtor σ V) : (κ : KeyTy) → ∀ s,
    ∃ bs, BatchLaw d κ.together κ.inTable (mapCore H V κ).entries (κ.clearD H.api d) (κ.dropD H.api d) s bs
  | .bool => fun s => by
    have h := (batchLaw_slot (d := d) true KeyTy.bool.together KeyTy.bool.inTable rfl rfl s.t).seq
      (batchLaw_slot (d := d) false KeyTy.bool.together KeyTy.bool.inTable rfl rfl s.f) (by
        intro p hp q hq
        rw [slotEntries_key p hp, slotEntries_key q hq]
        rfl)
    exact ⟨_, h.is, h.drop, h.clear⟩
  | .unit => fun s => ⟨_, batchLaw_slot () _ _ rfl rfl s⟩
  | .opt κ => fun s => by
    obtain ⟨bs, h⟩ := batch_law H d κ s.some
    have h := (h.rename (T' := (KeyTy.opt κ).together) (inT' := (KeyTy.opt κ).inTable) some (fun _ _ => rfl) fun _ => rfl).seq
      (batchLaw_slot (d := d) none (KeyTy.opt κ).together (KeyTy.opt κ).inTable rfl rfl s.none) (by
        intro p hp q hq
        obtain ⟨k, hk⟩ := renameKeys_key p hp
        rw [hk, slotEntries_key q hq]
        rfl)
    exact ⟨_, h.is, h.drop, h.clear⟩
  | .prim p => fun s => ⟨_, batchLaw_table (H.laws p.Key V) s⟩
  | .units n => fun s => ⟨_, batchLaw_units n s⟩
  | .bitset n _ _ => fun s => ⟨_, batchLaw_units n s⟩
  | .enum fs => fieldsBatch_law H d fs
theorem fieldsBatch_law (H : Hashbrown) (d : Dtor σ V) : (fs : Fields) → ∀ s,
    ∃ bs, BatchLaw d fs.together fs.inTable (fieldsCore H V fs).entries (fs.clearD H.api d) (fs.dropD H.api d) s bs
  | .nil => fun s => ⟨[], .nil, fun _ => rfl, fun _ _ => ⟨rfl, rfl⟩⟩
  | .simple fs => fun s => by
    obtain ⟨bs, h⟩ := fieldsBatch_law H d fs s.2
    have h := ((batchLaw_slot (d := d) () (fun _ _ => true) (fun _ => false) rfl rfl s.1).rename
      (T' := (Fields.simple fs).together) (inT' := (Fields.simple fs).inTable) Sum.inl (fun _ _ => rfl) fun _ => rfl).seq
      (h.rename (T' := (Fields.simple fs).together) (inT' := (Fields.simple fs).inTable) Sum.inr (fun _ _ => rfl) fun _ => rfl) (by
        intro p hp q hq
        obtain ⟨a, ha⟩ := renameKeys_key p hp
        obtain ⟨b, hb⟩ := renameKeys_key q hq
        rw [ha, hb]
        rfl)
    exact ⟨_, h.is, h.drop, h.clear⟩
  | .complex κ fs => fun s => by
    obtain ⟨as, g⟩ := batch_law H d κ s.1
    obtain ⟨bs, h⟩ := fieldsBatch_law H d fs s.2
    have h := (g.rename
      (T' := (Fields.complex κ fs).together) (inT' := (Fields.complex κ fs).inTable) Sum.inl (fun _ _ => rfl) fun _ => rfl).seq
      (h.rename (T' := (Fields.complex κ fs).together) (inT' := (Fields.complex κ fs).inTable) Sum.inr (fun _ _ => rfl) fun _ => rfl) (by
        intro p hp q hq
        obtain ⟨a, ha⟩ := renameKeys_key p hp
        obtain ⟨b, hb⟩ := renameKeys_key q hq
        rw [ha, hb]
        rfl)
    exact ⟨_, h.is, h.drop, h.clear⟩
end

/-! ## The batches are determined by the entries -/

section
variable {K : Type} {T : K → K → Bool} {inT : K → Bool}

theorem cut_nil {l : List (K × V)} : cut T l = [] → l = [] := by
  cases l with
  | nil => exact fun _ => rfl
  | cons p l =>
    rw [cut]
    split
    · split <;> exact fun h => nomatch h
    · exact fun h => nomatch h

theorem cut_head (p : K × V) (l : List (K × V)) : ∃ b bs, cut T (p :: l) = (p :: b) :: bs := by
  rw [cut]
  split
  · split
    · exact ⟨_, _, rfl⟩
    · exact ⟨_, _, rfl⟩
  · exact ⟨_, _, rfl⟩

/-- Entries that belong together, followed by entries that do not belong to them. -/
theorem cut_append : (b : List (K × V)) → (l : List (K × V)) → b ≠ [] → (∀ p ∈ b, ∀ q ∈ b, T p.1 q.1 = true) →
    (∀ p ∈ b, ∀ q ∈ l, T p.1 q.1 = false) → cut T (b ++ l) = b :: cut T l
  | [], _, h, _, _ => absurd rfl h
  | [p], l, _, _, h => by
    cases l with
    | nil => rfl
    | cons q l =>
      obtain ⟨b, bs, e⟩ := cut_head (T := T) q l
      show cut T (p :: q :: l) = _
      rw [cut, e]
      have := h p (List.mem_singleton.2 rfl) q List.mem_cons_self
      simp only [this, Bool.false_eq_true, if_false]
  | p :: p' :: b, l, _, h, h' => by
    have ih := cut_append (p' :: b) l (fun e => nomatch e) (fun x hx y hy => h x (.tail _ hx) y (.tail _ hy))
      (fun x hx y hy => h' x (.tail _ hx) y hy)
    show cut T (p :: ((p' :: b) ++ l)) = _
    rw [cut, ih]
    simp only [h p List.mem_cons_self p' (.tail _ List.mem_cons_self), if_true]

theorem batch_empty {b : Batch K V} (h : b.order.Perm (b.entries.map Prod.snd)) (he : b.entries = []) (x : Drops σ V) :
    b.drop d x = x := by
  rw [he] at h
  simp only [Batch.drop, h.eq_nil, dropUntilPanic, dropEach, ite_self]

theorem isBatches_tail {b : Batch K V} {bs : List (Batch K V)} {l : List (K × V)} (h : IsBatches T inT (b :: bs) l) :
    IsBatches T inT bs (bs.flatMap (·.entries)) :=
  ⟨rfl, fun c hc => h.order c (.tail _ hc), fun c hc => h.table c (.tail _ hc), fun c hc => h.together c (.tail _ hc),
    (List.pairwise_cons.1 h.apart).2⟩

/-- Without hash tables the batches are those of `cut`, apart from empty ones. -/
theorem batches_plain (hi : ∀ k, inT k = false) : (bs : List (Batch K V)) → (l : List (K × V)) → IsBatches T inT bs l →
    (∀ x : Drops σ V, dropBatches d bs x = dropBatches d ((cut T l).map fun b => ⟨false, b, b.map Prod.snd⟩) x) ∧
    ∀ x : Drops σ V, (clearBatches d bs x).2 = (clearBatches d ((cut T l).map fun b => ⟨false, b, b.map Prod.snd⟩) x).2 ∧
      (clearBatches d bs x).1.flatMap (·.entries) =
        (clearBatches d ((cut T l).map fun b => ⟨false, b, b.map Prod.snd⟩) x).1.flatMap (·.entries)
  | [], l, h => by
    cases h.concat
    exact ⟨fun _ => rfl, fun _ => ⟨rfl, rfl⟩⟩
  | b :: bs, l, h => by
    obtain ⟨ih1, ih2⟩ := batches_plain hi bs _ (isBatches_tail h)
    have hl : b.entries ++ bs.flatMap (·.entries) = l := h.concat
    by_cases hb : b.entries = []
    · have hd := fun x : Drops σ V => batch_empty (d := d) (h.order b List.mem_cons_self).1 hb x
      rw [hb, List.nil_append] at hl
      rw [hl] at ih1 ih2
      refine ⟨fun x => by rw [dropBatches, hd, ih1], fun x => ?_⟩
      rw [clearBatches, hd]
      by_cases hx : x.fate = .normal
      · rw [if_pos hx]; exact ih2 x
      · rw [if_neg hx]
        refine ⟨?_, ?_⟩
        · cases cut T l with
          | nil => rfl
          | cons c cs => simp [clearBatches, hx]
        · have := (ih2 x).2
          rw [List.flatMap_cons, hb, List.nil_append, ← this]
          cases bs with
          | nil => rfl
          | cons c cs => simp [clearBatches, hx]
    · have hT : ∀ p ∈ b.entries, ∀ q ∈ bs.flatMap (·.entries), T p.1 q.1 = false := by
        intro p hp q hq
        obtain ⟨c, hc, hq⟩ := List.mem_flatMap.1 hq
        exact (List.pairwise_cons.1 h.apart).1 c hc p hp q hq
      have hc := cut_append b.entries _ hb (h.together b List.mem_cons_self) hT
      rw [hl] at hc
      have ht : b.table = false := by
        obtain ⟨p, hp⟩ := List.exists_mem_of_ne_nil _ hb
        exact (h.table b List.mem_cons_self p hp).symm.trans (hi _)
      have hbe : b = ⟨false, b.entries, b.entries.map Prod.snd⟩ := by
        have := (h.order b List.mem_cons_self).2 ht
        cases b
        simp_all
      rw [hc, List.map_cons, ← hbe]
      refine ⟨fun x => ih1 _, fun x => ?_⟩
      simp only [clearBatches]
      by_cases hx : x.fate = .normal
      · simp only [if_pos hx]; exact ih2 _
      · simp only [if_neg hx, List.flatMap_cons]
        refine ⟨trivial, congrArg (b.entries ++ ·) ?_⟩
        have := (ih2 x).2
        have hn : ∀ bs : List (Batch K V), clearBatches d bs x = (bs, x) := by
          intro bs
          cases bs with
          | nil => rfl
          | cons c cs => simp [clearBatches, hx]
        rw [hn, hn] at this
        exact this
end

mutual
theorem hashFree_inTable : (κ : KeyTy) → κ.hashFree = true → ∀ k, κ.inTable k = false
  | .bool, _, _ => rfl
  | .unit, _, _ => rfl
  | .opt κ, h, k => by
    cases (show Option κ.Key from k) with
    | none => rfl
    | some k => exact hashFree_inTable κ h k
  | .prim _, h, _ => nomatch h
  | .units _, _, _ => rfl
  | .bitset _ _ _, _, _ => rfl
  | .enum fs, h, k => fieldsHashFree_inTable fs h k
theorem fieldsHashFree_inTable : (fs : Fields) → fs.hashFree = true → ∀ k, fs.inTable k = false
  | .nil, _, _ => rfl
  | .simple fs, h, k => by
    cases (show Unit ⊕ fs.Key from k) with
    | inl _ => rfl
    | inr k => exact fieldsHashFree_inTable fs h k
  | .complex κ fs, h, k => by
    have h : (κ.hashFree && fs.hashFree) = true := h
    rw [Bool.and_eq_true] at h
    cases (show κ.Key ⊕ fs.Key from k) with
    | inl k => exact hashFree_inTable κ h.1 k
    | inr k => exact fieldsHashFree_inTable fs h.2 k
end

end FixedMap
