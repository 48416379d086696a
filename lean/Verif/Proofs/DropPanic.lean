import Verif.Spec.DropPanic
import Verif.Proofs.MapHash

/-! # Destructors that panic: proofs -/

set_option autoImplicit false
set_option linter.unusedSimpArgs false

namespace FixedMap

variable {np : Nat}
variable {σ V : Type} {d : Dtor σ V}

/-! ## The record of drops -/

theorem runDtors_append (d : Dtor σ V) (l l' : List V) (st : σ) :
    runDtors d (l ++ l') st =
      ((runDtors d l' (runDtors d l st).1).1, (runDtors d l' (runDtors d l st).1).2 + (runDtors d l st).2) := by
  induction l generalizing st with
  | nil => rfl
  | cons v l ih =>
    simp only [List.cons_append, runDtors, ih]
    exact Prod.ext rfl (by simp only []; omega)

theorem Fate.panic_ofPanics (n : Nat) : (Fate.ofPanics n).panic = .ofPanics (n + 1) := by
  match n with
  | 0 => rfl
  | 1 => rfl
  | n + 2 => rfl

theorem Fate.ofPanics_ne {n : Nat} (h : Fate.ofPanics n ≠ .aborted) : n ≤ 1 := by
  match n with
  | 0 => omega
  | 1 => omega
  | n + 2 => exact absurd rfl h

theorem honest_start (d : Dtor σ V) (st : σ) : (Drops.start st).Honest d st := ⟨rfl, rfl, Nat.zero_le _⟩

theorem Drops.HonestFrom.value {st : σ} {x : Drops σ V} (h : x.HonestFrom np d st) (v : V) : (x.value d v).HonestFrom np d st := by
  unfold Drops.value
  split
  · exact h
  · rename_i hx
    have e := runDtors_append d x.dropped [v] st
    simp only [runDtors] at e
    rw [← h.st_eq] at e
    refine ⟨by simp only [e], ?_, ?_⟩
    · simp only [e]
      rw [h.fate_eq]
      cases (d x.st v).2
      · simp
      · simp only [Fate.panic_ofPanics, Bool.toNat_true, if_true]
        congr 1
        omega
    · simp only [List.dropLast_concat]
      rw [h.fate_eq] at hx
      exact Fate.ofPanics_ne hx

theorem Drops.HonestFrom.slot {st : σ} {x : Drops σ V} (h : x.HonestFrom np d st) (o : Option V) : (x.slot d o).HonestFrom np d st := by
  cases o
  · exact h
  · exact h.value _

theorem Drops.HonestFrom.array {st : σ} {x : Drops σ V} (h : x.HonestFrom np d st) (l : List (Option V)) : (x.array d l).HonestFrom np d st := by
  induction l generalizing x with
  | nil => exact h
  | cons o l ih => exact ih (h.slot o)

theorem Drops.HonestFrom.table {st : σ} {x : Drops σ V} (h : x.HonestFrom np d st) (l : List V) : (x.table d l).HonestFrom np d st := by
  induction l generalizing x with
  | nil => exact h
  | cons v l ih =>
    simp only [Drops.table]
    split
    · exact ih (h.value v)
    · exact ⟨(h.value v).st_eq, (h.value v).fate_eq, (h.value v).stops⟩

theorem Drops.HonestFrom.next {S : Type} {st : σ} {x : Drops σ V} (h : x.HonestFrom np d st) (s : S)
    {c : S → Drops σ V → S × Drops σ V} (hc : ∀ y, y.HonestFrom np d st → (c s y).2.HonestFrom np d st) : (x.next s c).2.HonestFrom np d st := by
  unfold Drops.next
  split
  · exact hc x h
  · exact h

/-! ## Where the values go -/

def Fate.rank : Fate → Nat
  | .normal => 0
  | .unwinding => 1
  | .aborted => 2

theorem Fate.rank_inj {a b : Fate} (h : a.rank = b.rank) : a = b := by cases a <;> cases b <;> first | rfl | cases h

theorem Fate.rank_le_panic (a : Fate) : a.rank ≤ a.panic.rank := by cases a <;> decide

/-- Between `x` and `y` the values `vs` were dropped, leaked, or lost in an abort. `hf`: no hash table. -/
structure Accounts (hf : Bool) (x y : Drops σ V) (vs : List V) (dr lk lost : List V) : Prop where
  le : x.fate.rank ≤ y.fate.rank
  dropped : y.dropped = x.dropped ++ dr
  leaked : y.leaked = x.leaked ++ lk
  perm : (dr ++ lk ++ lost).Perm vs
  lost_nil : y.fate ≠ .aborted → lost = []
  lk_nil : y.fate = x.fate → lk = []
  idle : x.fate = .aborted → dr = []
  exact : hf = true → lk = [] ∧ dr ++ lost = vs

def Accounted (hf : Bool) (x y : Drops σ V) (vs : List V) : Prop := ∃ dr lk lost, Accounts hf x y vs dr lk lost

theorem Accounted.nil (hf : Bool) (x : Drops σ V) : Accounted hf x x [] :=
  ⟨[], [], [], Nat.le_refl _, by simp, by simp, .refl _, fun _ => rfl, fun _ => rfl, fun _ => rfl, fun _ => ⟨rfl, rfl⟩⟩

theorem Accounted.weaken {hf : Bool} {x y : Drops σ V} {vs : List V} (h : Accounted hf x y vs) {hf' : Bool}
    (hh : hf' = true → hf = true) : Accounted hf' x y vs := by
  obtain ⟨dr, lk, lost, h⟩ := h
  exact ⟨dr, lk, lost, h.le, h.dropped, h.leaked, h.perm, h.lost_nil, h.lk_nil, h.idle, fun e => h.exact (hh e)⟩

theorem aborted_of_rank {x y : Drops σ V} (h : x.fate.rank ≤ y.fate.rank) (hx : x.fate = .aborted) : y.fate = .aborted := by
  rw [hx] at h
  revert h
  cases y.fate <;> simp [Fate.rank]

theorem Accounted.append {hf hg : Bool} {x y z : Drops σ V} {vs ws : List V} (h : Accounted hf x y vs)
    (g : Accounted hg y z ws) : Accounted (hf && hg) x z (vs ++ ws) := by
  obtain ⟨dr, lk, lost, h⟩ := h
  obtain ⟨dr', lk', lost', g⟩ := g
  refine ⟨dr ++ dr', lk ++ lk', lost ++ lost', Nat.le_trans h.le g.le, ?_, ?_, ?_, ?_, ?_, ?_, ?_⟩
  · rw [g.dropped, h.dropped, List.append_assoc]
  · rw [g.leaked, h.leaked, List.append_assoc]
  · classical
    refine List.Perm.trans ?_ (h.perm.append g.perm)
    rw [List.perm_iff_count]
    intro a
    simp only [List.count_append]
    omega
  · intro e
    rw [g.lost_nil e, h.lost_nil fun e' => e (aborted_of_rank g.le e')]
    rfl
  · intro e
    have h1 := h.le
    have h2 := g.le
    rw [e] at h2
    have e1 : y.fate = x.fate := Fate.rank_inj (Nat.le_antisymm h2 h1)
    rw [h.lk_nil e1, g.lk_nil (e.trans e1.symm)]
    rfl
  · intro e
    rw [h.idle e, g.idle (aborted_of_rank h.le e)]
    rfl
  · intro e
    rw [Bool.and_eq_true] at e
    obtain ⟨a1, a2⟩ := h.exact e.1
    obtain ⟨b1, b2⟩ := g.exact e.2
    refine ⟨by rw [a1, b1]; rfl, ?_⟩
    rw [← a2, ← b2]
    by_cases hy : y.fate = .aborted
    · rw [g.idle hy]; simp
    · rw [h.lost_nil hy]; simp

theorem accounted_value (hf : Bool) (x : Drops σ V) (v : V) : Accounted hf x (x.value d v) [v] := by
  unfold Drops.value
  split
  · rename_i hx
    exact ⟨[], [], [v], Nat.le_refl _, by simp, by simp, .refl _, fun h => absurd hx h, fun _ => rfl, fun _ => rfl,
      fun _ => ⟨rfl, rfl⟩⟩
  · rename_i hx
    refine ⟨[v], [], [], ?_, rfl, by simp, .refl _, fun _ => rfl, fun _ => rfl, fun h => absurd h hx, fun _ => ⟨rfl, rfl⟩⟩
    cases (d x.st v).2
    · exact Nat.le_refl _
    · exact Fate.rank_le_panic _

theorem accounted_slot (hf : Bool) (x : Drops σ V) (o : Option V) : Accounted hf x (x.slot d o) o.toList := by
  cases o
  · exact .nil hf x
  · exact accounted_value hf x _

theorem accounted_array (hf : Bool) (x : Drops σ V) (l : List (Option V)) :
    Accounted hf x (x.array d l) (l.flatMap Option.toList) := by
  induction l generalizing x with
  | nil => exact .nil hf x
  | cons o l ih =>
    have := (accounted_slot (d := d) hf x o).append (ih (x.slot d o))
    rw [Bool.and_self] at this
    exact this

theorem accounted_table (x : Drops σ V) (l : List V) : Accounted false x (x.table d l) l := by
  induction l generalizing x with
  | nil => exact .nil _ x
  | cons v l ih =>
    simp only [Drops.table]
    have hv := accounted_value (d := d) false x v
    split
    · exact hv.append (ih _)
    · rename_i hne
      obtain ⟨dr, lk, lost, h⟩ := hv
      refine ⟨dr, lk ++ l, lost, h.le, h.dropped, ?_, ?_, h.lost_nil, fun e => absurd e hne, h.idle, fun e => nomatch e⟩
      · show (x.value d v).leaked ++ l = _
        rw [h.leaked, List.append_assoc]
      · classical
        refine List.Perm.trans ?_ (h.perm.append_right l)
        rw [List.perm_iff_count]
        intro a
        simp only [List.count_append]
        omega

theorem Accounted.perm {x y : Drops σ V} {vs ws : List V} (h : Accounted false x y vs) (p : vs.Perm ws) :
    Accounted false x y ws := by
  obtain ⟨dr, lk, lost, h⟩ := h
  exact ⟨dr, lk, lost, h.le, h.dropped, h.leaked, h.perm.trans p, h.lost_nil, h.lk_nil, h.idle, fun e => nomatch e⟩

/-! ## `clear` -/

/-- What `clear` does to a part of the storage with the entries `e`. -/
def ClearLaw {S K : Type} (e : S → List (K × V)) (hf : Bool) (c : S → Drops σ V → S × Drops σ V) : Prop :=
  ∀ s x, x.fate = .normal → ∃ pre post, e s = pre ++ post ∧ e (c s x).1 = post ∧
    Accounted hf x (c s x).2 (pre.map Prod.snd) ∧ ((c s x).2.fate = .normal → post = [])

theorem clearLaw_slot {K : Type} (k : K) :
    ClearLaw (slotEntries k) true fun (o : Option V) (x : Drops σ V) => (none, x.slot d o) := by
  intro o x _
  refine ⟨slotEntries k o, [], by simp, rfl, ?_, fun _ => rfl⟩
  rw [slotEntries_snd]
  exact accounted_slot true x o

theorem ClearLaw.rename {S K K' : Type} {e : S → List (K × V)} {hf : Bool} {c : S → Drops σ V → S × Drops σ V}
    (h : ClearLaw e hf c) (g : K → K') : ClearLaw (fun s => renameKeys g (e s)) hf c := by
  intro s x hx
  obtain ⟨pre, post, h1, h2, h3, h4⟩ := h s x hx
  refine ⟨renameKeys g pre, renameKeys g post, ?_, ?_, ?_, ?_⟩
  · simp only [h1, renameKeys_append]
  · simp only [h2]
  · rw [renameKeys_snd]; exact h3
  · intro hn; rw [h4 hn]; rfl

theorem ClearLaw.seq {A B K : Type} {eA : A → List (K × V)} {eB : B → List (K × V)} {ha hb : Bool}
    {ca : A → Drops σ V → A × Drops σ V} {cb : B → Drops σ V → B × Drops σ V}
    (hA : ClearLaw eA ha ca) (hB : ClearLaw eB hb cb) :
    ClearLaw (fun s : A × B => eA s.1 ++ eB s.2) (ha && hb) fun s x =>
      (((ca s.1 x).1, ((ca s.1 x).2.next s.2 cb).1), ((ca s.1 x).2.next s.2 cb).2) := by
  intro s x hx
  obtain ⟨pre, post, h1, h2, h3, h4⟩ := hA s.1 x hx
  by_cases hn : (ca s.1 x).2.fate = .normal
  · obtain ⟨pre', post', g1, g2, g3, g4⟩ := hB s.2 (ca s.1 x).2 hn
    simp only [Drops.next, if_pos hn]
    refine ⟨pre ++ pre', post', ?_, ?_, ?_, g4⟩
    · rw [h1, g1, h4 hn]; simp
    · rw [h2, g2, h4 hn]; simp
    · rw [List.map_append]; exact h3.append g3
  · simp only [Drops.next, if_neg hn]
    refine ⟨pre, post ++ eB s.2, ?_, ?_, h3.weaken (fun e => (Bool.and_eq_true _ _ ▸ e).1), fun e => absurd e hn⟩
    · rw [h1]; simp
    · rw [h2]

theorem ClearLaw.congr {S K : Type} {e e' : S → List (K × V)} {hf : Bool} {c c' : S → Drops σ V → S × Drops σ V}
    (h : ClearLaw e hf c) (he : ∀ s, e' s = e s) (hc : ∀ s x, c' s x = c s x) : ClearLaw e' hf c' := by
  intro s x hx
  simpa only [he, hc] using h s x hx

theorem unitsEntries_snd {n : Nat} (s : UnitsSt n V) :
    (unitsEntries (List.finRange n) s).map Prod.snd = s.toList.flatMap Option.toList := by
  rw [toList_eq_map]
  generalize List.finRange n = is
  induction is with
  | nil => rfl
  | cons i is ih =>
    rw [unitsEntries_cons, List.map_append, ih, slotEntries_snd]
    rfl

theorem clearLaw_units (n : Nat) :
    ClearLaw (unitsEntries (List.finRange n)) true fun (s : UnitsSt n V) (x : Drops σ V) =>
      (Vector.replicate n none, x.array d s.toList) := by
  intro s x _
  refine ⟨unitsEntries (List.finRange n) s, [], by simp, (unitsCore n V).clear_entries s, ?_, fun _ => rfl⟩
  rw [unitsEntries_snd]
  exact accounted_array true x _

theorem clearLaw_bool :
    ClearLaw (fun s => slotEntries true s.t ++ slotEntries false s.f) true fun (s : BoolMapSt V) (x : Drops σ V) =>
      (⟨none, ((x.slot d s.t).next s.f fun o x => (none, x.slot d o)).1⟩,
        ((x.slot d s.t).next s.f fun o x => (none, x.slot d o)).2) :=
  fun s x hx => ((clearLaw_slot (d := d) true).seq (clearLaw_slot (d := d) false)) (s.t, s.f) x hx

theorem clearLaw_table {K : Type} {A : HashMapApi K V} (L : HashMapLaws A) :
    ClearLaw L.entries false fun (t : A.Table) (x : Drops σ V) => ((A.clear t).1, x.table d (A.clear t).2) :=
  fun t x _ => ⟨L.entries t, [], (List.append_nil _).symm, L.clear_entries t, (accounted_table x _).perm (L.clear_dropped t),
    fun _ => rfl⟩

mutual
theorem clear_law (H : Hashbrown) (d : Dtor σ V) : (κ : KeyTy) →
    ClearLaw (mapCore H V κ).entries κ.hashFree (κ.clearD H.api d)
  | .bool => clearLaw_bool
  | .unit => clearLaw_slot ()
  | .opt κ => by
    intro s x hx
    have := (((clear_law H d κ).rename some).seq (clearLaw_slot (d := d) none)) (s.some, s.none) x hx
    rw [Bool.and_true] at this
    exact this
  | .prim p => clearLaw_table (H.laws p.Key V)
  | .units n => clearLaw_units n
  | .bitset n _ _ => clearLaw_units n
  | .enum fs => fieldsClear_law H d fs
theorem fieldsClear_law (H : Hashbrown) (d : Dtor σ V) : (fs : Fields) →
    ClearLaw (fieldsCore H V fs).entries fs.hashFree (fs.clearD H.api d)
  | .nil => fun s x _ => ⟨[], [], rfl, rfl, .nil _ x, fun _ => rfl⟩
  | .simple fs => by
    intro s x hx
    have := (((clearLaw_slot (d := d) ()).rename Sum.inl).seq ((fieldsClear_law H d fs).rename Sum.inr)) s x hx
    rw [Bool.true_and] at this
    exact this
  | .complex κ fs => by
    intro s x hx
    exact (((clear_law H d κ).rename Sum.inl).seq ((fieldsClear_law H d fs).rename Sum.inr)) s x hx
end

mutual
theorem clear_honest (H : Hashbrown) (d : Dtor σ V) (st : σ) : (κ : KeyTy) → ∀ s x, x.HonestFrom np d st →
    (κ.clearD H.api d s x).2.HonestFrom np d st
  | .bool => fun s _ h => Drops.HonestFrom.next (h.slot s.t) s.f fun _ g => g.slot _
  | .unit => fun s _ h => h.slot (show Option V from s)
  | .opt κ => fun s x h => Drops.HonestFrom.next (clear_honest H d st κ s.some x h) s.none fun _ g => g.slot _
  | .prim p => fun s _ h => h.table ((H.api p.Key V).clear s).2
  | .units n => fun (s : UnitsSt n V) _ h => h.array s.toList
  | .bitset n _ _ => fun (s : UnitsSt n V) _ h => h.array s.toList
  | .enum fs => fieldsClear_honest H d st fs
theorem fieldsClear_honest (H : Hashbrown) (d : Dtor σ V) (st : σ) : (fs : Fields) → ∀ s x, x.HonestFrom np d st →
    (fs.clearD H.api d s x).2.HonestFrom np d st
  | .nil => fun _ _ h => h
  | .simple fs => fun s _ h => Drops.HonestFrom.next (h.slot s.1) s.2 fun y g => fieldsClear_honest H d st fs s.2 y g
  | .complex κ fs => fun s x h =>
    Drops.HonestFrom.next (clear_honest H d st κ s.1 x h) s.2 fun y g => fieldsClear_honest H d st fs s.2 y g
end

/-! ## Dropping the map -/

theorem Accounted.sum {A B K : Type} {hf hg : Bool} {x y z : Drops σ V} {la : List (A × V)} {lb : List (B × V)}
    (g : A → K) (g' : B → K) (h : Accounted hf x y (la.map Prod.snd)) (h' : Accounted hg y z (lb.map Prod.snd)) :
    Accounted (hf && hg) x z ((renameKeys g la ++ renameKeys g' lb).map Prod.snd) := by
  rw [List.map_append, renameKeys_snd, renameKeys_snd]
  exact h.append h'

theorem accounted_slotEntries {K : Type} (k : K) (x : Drops σ V) (o : Option V) :
    Accounted true x (x.slot d o) ((slotEntries k o).map Prod.snd) := by
  rw [slotEntries_snd]
  exact accounted_slot true x o

mutual
theorem drop_accounted (H : Hashbrown) (d : Dtor σ V) : (κ : KeyTy) → ∀ s x,
    Accounted κ.hashFree x (κ.dropD H.api d s x) (((mapCore H V κ).entries s).map Prod.snd)
  | .bool => fun s x => by
    have := (accounted_slot (d := d) true x s.t).append (accounted_slot (d := d) true _ s.f)
    rw [← slotEntries_snd true, ← slotEntries_snd false, ← List.map_append] at this
    exact this
  | .unit => fun s x => accounted_slotEntries () x s
  | .opt κ => fun s x => by
    have := (drop_accounted H d κ s.some x).append (accounted_slot (d := d) true _ s.none)
    rw [Bool.and_true, ← renameKeys_snd some, ← slotEntries_snd none, ← List.map_append] at this
    exact this
  | .prim p => fun s x => (accounted_table (d := d) x _).perm ((H.laws p.Key V).clear_dropped s)
  | .units n => fun (s : UnitsSt n V) x => by
    have := accounted_array (d := d) true x s.toList
    rw [← unitsEntries_snd] at this
    exact this
  | .bitset n _ _ => fun (s : UnitsSt n V) x => by
    have := accounted_array (d := d) true x s.toList
    rw [← unitsEntries_snd] at this
    exact this
  | .enum fs => fieldsDrop_accounted H d fs
theorem fieldsDrop_accounted (H : Hashbrown) (d : Dtor σ V) : (fs : Fields) → ∀ s x,
    Accounted fs.hashFree x (fs.dropD H.api d s x) (((fieldsCore H V fs).entries s).map Prod.snd)
  | .nil => fun _ x => .nil _ x
  | .simple fs => fun s x =>
    (accounted_slotEntries (d := d) () x s.1).sum Sum.inl Sum.inr (fieldsDrop_accounted H d fs s.2 (x.slot d s.1))
  | .complex κ fs => fun s x =>
    (drop_accounted H d κ s.1 x).sum Sum.inl Sum.inr (fieldsDrop_accounted H d fs s.2 (κ.dropD H.api d s.1 x))
end

mutual
theorem drop_honest (H : Hashbrown) (d : Dtor σ V) (st : σ) : (κ : KeyTy) → ∀ s x, x.HonestFrom np d st →
    (κ.dropD H.api d s x).HonestFrom np d st
  | .bool => fun s _ h => (h.slot s.t).slot s.f
  | .unit => fun s _ h => h.slot (show Option V from s)
  | .opt κ => fun s x h => (drop_honest H d st κ s.some x h).slot s.none
  | .prim p => fun s _ h => h.table ((H.api p.Key V).clear s).2
  | .units n => fun (s : UnitsSt n V) _ h => h.array s.toList
  | .bitset n _ _ => fun (s : UnitsSt n V) _ h => h.array s.toList
  | .enum fs => fieldsDrop_honest H d st fs
theorem fieldsDrop_honest (H : Hashbrown) (d : Dtor σ V) (st : σ) : (fs : Fields) → ∀ s x, x.HonestFrom np d st →
    (fs.dropD H.api d s x).HonestFrom np d st
  | .nil => fun _ _ h => h
  | .simple fs => fun s _ h => fieldsDrop_honest H d st fs s.2 _ (h.slot s.1)
  | .complex κ fs => fun s x h => fieldsDrop_honest H d st fs s.2 _ (drop_honest H d st κ s.1 x h)
end

/-! ## `retain` -/

theorem retainRefD_map {K K' : Type} (f : σ → K' → V → σ × V × Option Bool) (g : K → K') (l : List (K × V)) (st : σ) :
    retainRefD d f (l.map fun p => (g p.1, p.2)) st =
      (retainRefD d (fun st k v => f st (g k) v) l st).mapS (List.map fun p => (g p.1, p.2)) := by
  induction l generalizing st with
  | nil => rfl
  | cons p l ih =>
    obtain ⟨k, v⟩ := p
    simp only [List.map_cons, retainRefD]
    rcases f st (g k) v with ⟨st', v', _ | _ | _⟩
    · rfl
    · simp only [ih]
      cases (d st' v').2 <;> rfl
    · simp only [ih]; rfl

theorem retainRefD_append {K : Type} (f : σ → K → V → σ × V × Option Bool) (l l' : List (K × V)) (st : σ) :
    retainRefD d f (l ++ l') st =
      ((retainRefD d f l st).andThen l' fun st => retainRefD d f l' st).mapS fun p => p.1 ++ p.2 := by
  induction l generalizing st with
  | nil => simp [retainRefD, RetainOut.andThen, RetainOut.mapS]
  | cons p l ih =>
    obtain ⟨k, v⟩ := p
    simp only [List.cons_append, retainRefD]
    rcases h : f st k v with ⟨st', v', _ | _ | _⟩
    · simp [RetainOut.andThen, RetainOut.mapS]
    · simp only [ih]
      cases (d st' v').2
      · simp only [RetainOut.andThen, RetainOut.mapS, Bool.false_eq_true, if_false]
        split <;> simp
      · simp [RetainOut.andThen, RetainOut.mapS]
    · simp only [ih]
      simp only [RetainOut.andThen, RetainOut.mapS]
      split <;> simp

theorem retainD_compose {K A B : Type} {f : σ → K → V → σ × V × Option Bool}
    (eA : A → List (K × V)) (eB : B → List (K × V)) {a : A} {b : B}
    {ra : RetainOut A σ V} {rb : σ → RetainOut B σ V} {st : σ}
    (hA : RetainMatches eA ra (retainRefD d f (eA a) st))
    (hB : ∀ st, RetainMatches eB (rb st) (retainRefD d f (eB b) st)) :
    RetainMatches (fun p : A × B => eA p.1 ++ eB p.2) (ra.andThen b rb) (retainRefD d f (eA a ++ eB b) st) := by
  rw [retainRefD_append]
  obtain ⟨h1, h2, h3, h4⟩ := hA
  have hB := hB ra.st
  constructor
  all_goals simp only [RetainOut.andThen, RetainOut.mapS, ← h2, ← h3, ← h4]
  · split
    · exact h1.append_right _
    · exact h1.append hB.entries
  · split
    · rfl
    · exact hB.st
  · split
    · rfl
    · exact hB.panicked
  · split
    · rfl
    · simp only [hB.dropped]

theorem RetainMatches.renamed {S K K' : Type} {e : S → List (K × V)} (g : K → K') (f : σ → K' → V → σ × V × Option Bool)
    {r : RetainOut S σ V} {s : S} {st : σ} (h : RetainMatches e r (retainRefD d (fun st k v => f st (g k) v) (e s) st)) :
    RetainMatches (fun t => renameKeys g (e t)) r (retainRefD d f (renameKeys g (e s)) st) := by
  rw [renameKeys, retainRefD_map]
  exact ⟨h.entries.map _, h.st, h.panicked, h.dropped⟩

theorem retainSlotD_spec {K : Type} (f : σ → K → V → σ × V × Option Bool) (k : K) (slot : Option V) (st : σ) :
    retainRefD d f (slotEntries k slot) st = (retainSlotD d f k slot st).mapS (slotEntries k) := by
  cases slot with
  | none => rfl
  | some v =>
    simp only [slotEntries_some, retainRefD, retainSlotD]
    rcases h : f st k v with ⟨st', v', _ | _ | _⟩ <;> simp [RetainOut.mapS]
    cases (d st' v').2 <;> simp

theorem retainD_slotted {K : Type} (k : K) (f : σ → K → V → σ × V × Option Bool) (slot : Option V) (st : σ) :
    RetainMatches (slotEntries k) (retainSlotD d f k slot st) (retainRefD d f (slotEntries k slot) st) := by
  rw [retainSlotD_spec]
  exact ⟨List.Perm.refl _, rfl, rfl, rfl⟩

theorem unitsRetainD_other {n : Nat} (f : σ → Fin n → V → σ × V × Option Bool) (is : List (Fin n)) (s : UnitsSt n V) (st : σ)
    (j : Fin n) (hj : j ∉ is) : (unitsRetainD d f is s st).s[j] = s[j] := by
  induction is generalizing s st with
  | nil => rfl
  | cons i is ih =>
    simp only [List.mem_cons, not_or] at hj
    simp only [unitsRetainD]
    split
    · simp only [unitsSet_getElem, if_neg hj.1]
    · simp only
      rw [ih _ _ hj.2, unitsSet_getElem, if_neg hj.1]

theorem unitsRetainD_spec {n : Nat} (f : σ → Fin n → V → σ × V × Option Bool) (is : List (Fin n)) (hnd : is.Nodup)
    (s : UnitsSt n V) (st : σ) :
    retainRefD d f (unitsEntries is s) st = (unitsRetainD d f is s st).mapS (unitsEntries is) := by
  induction is generalizing s st with
  | nil => rfl
  | cons i is ih =>
    rw [List.nodup_cons] at hnd
    rw [unitsEntries_cons, retainRefD_append, retainSlotD_spec]
    simp only [unitsRetainD]
    generalize retainSlotD d f i s[i] st = r
    obtain ⟨o, st', p, dr⟩ := r
    have hs := unitsEntries_set_of_not_mem hnd.1 s o
    cases p
    · rw [← hs]
      simp only [RetainOut.andThen, RetainOut.mapS, Bool.false_eq_true, if_false]
      rw [ih hnd.2]
      simp only [RetainOut.mapS, unitsEntries_cons, unitsRetainD_other _ _ _ _ _ hnd.1, unitsSet_getElem, if_true]
    · simp only [RetainOut.andThen, RetainOut.mapS, if_true, unitsEntries_cons, unitsSet_getElem, hs]

/-- After a panic of a destructor the rest stays. -/
theorem retainRef_stopped {K : Type} (f : σ → K → V → σ × V × Option Bool) (l : List (K × V)) (st : σ) :
    retainRef (dropAfter d f) l (st, true) = ⟨l, (st, true), false, []⟩ := by
  induction l with
  | nil => rfl
  | cons p l ih =>
    obtain ⟨k, v⟩ := p
    simp [retainRef, dropAfter] at ih ⊢
    simp [ih]

theorem retainRef_dropAfter {K : Type} (f : σ → K → V → σ × V × Option Bool) (l : List (K × V)) (st : σ) :
    let r := retainRef (dropAfter d f) l (st, false)
    (⟨r.s, r.st.1, r.panicked || r.st.2, r.dropped⟩ : RetainOut (List (K × V)) σ V) = retainRefD d f l st := by
  induction l generalizing st with
  | nil => rfl
  | cons p l ih =>
    obtain ⟨k, v⟩ := p
    have e : dropAfter d f (st, false) k v = (match f st k v with
      | (st', v', none) => ((st', false), v', none)
      | (st', v', some true) => ((st', false), v', some true)
      | (st', v', some false) => (d st' v', v', some false)) := rfl
    simp only [retainRef, retainRefD, e]
    rcases f st k v with ⟨st', v', _ | _ | _⟩
    · rfl
    · simp only []
      rcases hd : d st' v' with ⟨st'', p⟩
      cases p
      · simp only [Bool.false_eq_true, if_false, ← ih]
      · simp only [retainRef_stopped, if_true, Bool.or_true]
    · simp only [← ih]

theorem tableRetainD_law {K : Type} {A : HashMapApi K V} (L : HashMapLaws A) (f : σ → K → V → σ × V × Option Bool)
    (t : A.Table) (st : σ) : RetainMatches L.entries (tableRetainD d A f t st) (retainRefD d f (L.entries t) st) := by
  rw [← retainRef_dropAfter]
  have h2 := L.retain_st (dropAfter d f) t (st, false)
  exact ⟨L.retain_entries (dropAfter d f) t (st, false), congrArg Prod.fst h2,
    by simp only [tableRetainD, h2, L.retain_panicked], L.retain_dropped (dropAfter d f) t (st, false)⟩

theorem retainD_unit {K : Type} (f : σ → Unit ⊕ K → V → σ × V × Option Bool) (o : Option V) (st : σ) :
    RetainMatches (fun t => renameKeys (Sum.inl (β := K)) ((unitCore V).entries t)) (retainSlotD d f (.inl ()) o st)
      (retainRefD d f (renameKeys Sum.inl ((unitCore V).entries o)) st) := by
  have e : ∀ o : Option V, renameKeys (Sum.inl (β := K)) ((unitCore V).entries o) = slotEntries (.inl ()) o := by
    intro o; cases o <;> rfl
  have := retainD_slotted (d := d) (Sum.inl () : Unit ⊕ K) f o st
  rw [show (fun t => renameKeys (Sum.inl (β := K)) ((unitCore V).entries t)) = slotEntries (.inl ()) from funext e, e]
  exact this

mutual
theorem retainD_law (H : Hashbrown) (d : Dtor σ V) : (κ : KeyTy) → ∀ (f : σ → κ.Key → V → σ × V × Option Bool) s st,
    RetainMatches (mapCore H V κ).entries (κ.retainD H.api d f s st) (retainRefD d f ((mapCore H V κ).entries s) st)
  | .bool => fun f s st => by
    have := retainD_compose (d := d) (slotEntries true) (slotEntries false) (retainD_slotted true f s.t st)
      fun st => retainD_slotted false f s.f st
    exact ⟨this.entries, this.st, this.panicked, this.dropped⟩
  | .unit => fun f s st => retainD_slotted () f s st
  | .opt κ => fun f s st => by
    have := retainD_compose (d := d) (fun t => renameKeys some ((mapCore H V κ).entries t)) (slotEntries none)
      (RetainMatches.renamed some f (retainD_law H d κ _ s.some st)) fun st => retainD_slotted none f s.none st
    exact ⟨this.entries, this.st, this.panicked, this.dropped⟩
  | .prim p => fun f s st => tableRetainD_law (H.laws p.Key V) f s st
  | .units n => fun f s st => by
    have := unitsRetainD_spec (d := d) f _ (nodup_finRange n) s st
    exact ⟨(congrArg RetainOut.s this).symm ▸ .refl _, (congrArg RetainOut.st this).symm,
      (congrArg RetainOut.panicked this).symm, (congrArg RetainOut.dropped this).symm⟩
  | .bitset n _ _ => fun f s st => by
    have := unitsRetainD_spec (d := d) f _ (nodup_finRange n) s st
    exact ⟨(congrArg RetainOut.s this).symm ▸ .refl _, (congrArg RetainOut.st this).symm,
      (congrArg RetainOut.panicked this).symm, (congrArg RetainOut.dropped this).symm⟩
  | .enum fs => fieldsRetainD_law H d fs
theorem fieldsRetainD_law (H : Hashbrown) (d : Dtor σ V) : (fs : Fields) → ∀ (f : σ → fs.Key → V → σ × V × Option Bool) s st,
    RetainMatches (fieldsCore H V fs).entries (fs.retainD H.api d f s st) (retainRefD d f ((fieldsCore H V fs).entries s) st)
  | .nil => fun _ _ _ => ⟨.refl _, rfl, rfl, rfl⟩
  | .simple fs => fun f s st => by
    exact retainD_compose (d := d) (fun t => renameKeys Sum.inl ((unitCore V).entries t))
      (fun t => renameKeys Sum.inr ((fieldsCore H V fs).entries t))
      (retainD_unit f s.1 st)
      fun st => RetainMatches.renamed Sum.inr f (fieldsRetainD_law H d fs _ s.2 st)
  | .complex κ fs => fun f s st => by
    exact retainD_compose (d := d) (fun t => renameKeys Sum.inl ((mapCore H V κ).entries t))
      (fun t => renameKeys Sum.inr ((fieldsCore H V fs).entries t))
      (RetainMatches.renamed Sum.inl f (retainD_law H d κ _ s.1 st))
      fun st => RetainMatches.renamed Sum.inr f (fieldsRetainD_law H d fs _ s.2 st)
end

end FixedMap
