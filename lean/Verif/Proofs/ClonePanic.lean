import Verif.Spec.ClonePanic
import Verif.Proofs.DropPanic

/-! # `Clone` with a `V::clone` that has effects or panics: proofs -/

set_option autoImplicit false
set_option linter.unusedSimpArgs false

namespace FixedMap

variable {σ V : Type} {c : Cloner σ V} {d : Dtor σ V}

theorem cloneRef_append {K : Type} (l l' : List (K × V)) (st : σ) :
    cloneRef c (l ++ l') st =
      if (cloneRef c l st).panicked then cloneRef c l st
      else ⟨(cloneRef c l' (cloneRef c l st).st).st, (cloneRef c l st).made ++ (cloneRef c l' (cloneRef c l st).st).made,
        (cloneRef c l' (cloneRef c l st).st).panicked⟩ := by
  induction l generalizing st with
  | nil => rfl
  | cons p l ih =>
    obtain ⟨k, v⟩ := p
    obtain ⟨⟨st', _ | w⟩, h⟩ : ∃ r, c st v = r := ⟨_, rfl⟩
    · simp [cloneRef, h]
    · simp only [List.cons_append, cloneRef, h, ih]
      cases hp : (cloneRef c l st').panicked <;> simp [hp]

theorem cloneRef_rename {K K' : Type} (g : K → K') (l : List (K × V)) (st : σ) :
    cloneRef c (renameKeys g l) st = ⟨(cloneRef c l st).st, renameKeys g (cloneRef c l st).made, (cloneRef c l st).panicked⟩ := by
  induction l generalizing st with
  | nil => rfl
  | cons p l ih =>
    obtain ⟨k, v⟩ := p
    simp only [renameKeys, List.map_cons, cloneRef] at ih ⊢
    rcases h : c st v with ⟨st', _ | w⟩
    · rfl
    · simp only [ih, List.map_cons]

/-- What cloning a part of the storage with the entries `e` does. `hf`: no hash table. -/
def CloneLaw {S K : Type} (c : Cloner σ V) (d : Dtor σ V) (e : S → List (K × V)) (hf : Bool) (l : List (K × V)) (st : σ) :
    Cloned σ V S → Prop
  | .ok st' s' => (cloneRef c l st).panicked = false ∧ st' = (cloneRef c l st).st ∧ (e s').Perm (cloneRef c l st).made ∧
      (hf = true → e s' = (cloneRef c l st).made)
  | .panicked x => (cloneRef c l st).panicked = true ∧ x.HonestFrom 1 d (cloneRef c l st).st ∧
      Accounted false (.unwind (cloneRef c l st).st) x ((cloneRef c l st).made.map Prod.snd)

theorem honest_unwind (d : Dtor σ V) (st : σ) : (Drops.unwind st : Drops σ V).HonestFrom 1 d st := ⟨rfl, rfl, Nat.le_refl _⟩

theorem cloneLaw_slot {K : Type} (k : K) (o : Option V) (st : σ) :
    CloneLaw c d (slotEntries k) true (slotEntries k o) st (cloneSlot c o st) := by
  cases o with
  | none => exact ⟨rfl, rfl, .refl _, fun _ => rfl⟩
  | some v =>
    simp only [cloneSlot, slotEntries_some]
    rcases h : c st v with ⟨st', _ | w⟩
    · simp only [CloneLaw, cloneRef, h]
      exact ⟨trivial, honest_unwind d st', .nil _ _⟩
    · simp [CloneLaw, cloneRef, h]

theorem CloneLaw.rename {S K K' : Type} {e : S → List (K × V)} {hf : Bool} {l : List (K × V)} {st : σ} {r : Cloned σ V S}
    (h : CloneLaw c d e hf l st r) (g : K → K') : CloneLaw c d (fun s => renameKeys g (e s)) hf (renameKeys g l) st r := by
  cases r with
  | ok st' s' =>
    obtain ⟨h1, h2, h3, h4⟩ := h
    simp only [CloneLaw, cloneRef_rename]
    exact ⟨h1, h2, h3.map _, fun e => by rw [h4 e]⟩
  | panicked x =>
    obtain ⟨h1, h2, h3⟩ := h
    simp only [CloneLaw, cloneRef_rename, renameKeys_snd]
    exact ⟨h1, h2, h3⟩

theorem CloneLaw.both {A B K : Type} {eA : A → List (K × V)} {eB : B → List (K × V)} {ha hb hf : Bool} {la lb : List (K × V)} {st : σ}
    {a : Cloned σ V A} {b : σ → Cloned σ V B} {drop : A → Drops σ V → Drops σ V}
    (hA : CloneLaw c d eA ha la st a) (hB : ∀ st', CloneLaw c d eB hb lb st' (b st'))
    (hd : ∀ s x, Accounted hf x (drop s x) ((eA s).map Prod.snd))
    (hh : ∀ s x st', x.HonestFrom 1 d st' → (drop s x).HonestFrom 1 d st') :
    CloneLaw c d (fun p : A × B => eA p.1 ++ eB p.2) (ha && hb) (la ++ lb) st (a.both drop b) := by
  cases a with
  | panicked x =>
    obtain ⟨h1, h2, h3⟩ := hA
    simp only [Cloned.both, CloneLaw, cloneRef_append, h1, if_true]
    exact ⟨trivial, h2, h3⟩
  | ok st' s =>
    obtain ⟨h1, h2, h3, h4⟩ := hA
    subst h2
    have hB := hB (cloneRef c la st).st
    simp only [Cloned.both]
    cases hb' : b (cloneRef c la st).st with
    | ok st'' t =>
      rw [hb'] at hB
      obtain ⟨g1, g2, g3, g4⟩ := hB
      simp only [CloneLaw, cloneRef_append, h1, Bool.false_eq_true, if_false]
      refine ⟨g1, g2, h3.append g3, fun e => ?_⟩
      rw [Bool.and_eq_true] at e
      rw [h4 e.1, g4 e.2]
    | panicked x =>
      rw [hb'] at hB
      obtain ⟨g1, g2, g3⟩ := hB
      simp only [CloneLaw, cloneRef_append, h1, Bool.false_eq_true, if_false]
      refine ⟨g1, hh s x _ g2, ?_⟩
      have := g3.append (((hd s x).weaken (hf' := false) (fun e => nomatch e)).perm (h3.map _))
      refine this.perm ?_
      rw [List.map_append]
      exact List.perm_append_comm

theorem CloneLaw.map {A B K : Type} {eA : A → List (K × V)} {eB : B → List (K × V)} {hf : Bool} {l : List (K × V)} {st : σ}
    {a : Cloned σ V A} (h : CloneLaw c d eA hf l st a) (f : A → B) (he : ∀ s, eB (f s) = eA s) :
    CloneLaw c d eB hf l st (a.map f) := by
  cases a with
  | ok st' s =>
    simp only [Cloned.map, CloneLaw, he]
    exact h
  | panicked x => exact h

theorem unitsEntries_append {n : Nat} (is js : List (Fin n)) (s : UnitsSt n V) :
    unitsEntries (is ++ js) s = unitsEntries is s ++ unitsEntries js s := List.filterMap_append

theorem unitsEntries_empty {n : Nat} (is : List (Fin n)) (s : UnitsSt n V) (h : ∀ i ∈ is, s[i] = none) : unitsEntries is s = [] := by
  induction is with
  | nil => rfl
  | cons i is ih =>
    rw [unitsEntries_cons, h i (.head _), ih fun j hj => h j (.tail _ hj)]
    rfl

theorem cloneArray_law {n : Nat} (s : UnitsSt n V) (st0 : σ) : (is pre : List (Fin n)) → (acc : UnitsSt n V) → (st : σ) →
    pre ++ is = List.finRange n → cloneRef c (unitsEntries pre s) st0 = ⟨st, unitsEntries pre acc, false⟩ →
    (∀ i ∈ is, acc[i] = none) →
    CloneLaw c d (unitsEntries (List.finRange n)) true (unitsEntries (List.finRange n) s) st0 (cloneArray c d s is acc st)
  | [], pre, acc, st => by
    intro h1 h2 _
    rw [List.append_nil] at h1
    subst h1
    simp only [cloneArray, CloneLaw, h2]
    exact ⟨trivial, trivial, .refl _, fun _ => trivial⟩
  | i :: is, pre, acc, st => by
    intro h1 h2 h3
    have hn : (pre ++ i :: is).Nodup := h1 ▸ List.nodup_finRange n
    rw [List.nodup_append] at hn
    obtain ⟨-, n2, n3⟩ := hn
    rw [List.nodup_cons] at n2
    have hi : i ∉ pre := fun h => n3 i h i (.head _) rfl
    have hs := cloneLaw_slot (c := c) (d := d) i s[i] st
    simp only [cloneArray]
    cases hr : cloneSlot c s[i] st with
    | ok st' o =>
      rw [hr] at hs
      obtain ⟨g1, g2, -, g4⟩ := hs
      subst g2
      refine cloneArray_law s st0 is (pre ++ [i]) (acc.set i o) _ (by rw [← h1]; simp) ?_ ?_
      · rw [unitsEntries_append, cloneRef_append, h2, unitsEntries_append, unitsEntries_set_of_not_mem hi]
        simp only [Bool.false_eq_true, if_false]
        rw [unitsEntries_cons, unitsEntries_cons]
        have e1 : ∀ t : UnitsSt n V, unitsEntries [] t = [] := fun _ => rfl
        rw [e1, e1, List.append_nil, List.append_nil, g1, ← g4 rfl]
        simp
      · intro j hj
        have : j ≠ i := fun e => n2.1 (e ▸ hj)
        rw [← h3 j (.tail _ hj)]
        simp only [Fin.getElem_fin]
        rw [Vector.getElem_set_ne]
        exact fun e => this (Fin.ext e.symm)
    | panicked x =>
      rw [hr] at hs
      obtain ⟨g1, g2, g3⟩ := hs
      have e2 : cloneRef c (unitsEntries (List.finRange n) s) st0 =
          ⟨(cloneRef c (slotEntries i s[i]) st).st, unitsEntries pre acc ++ (cloneRef c (slotEntries i s[i]) st).made, true⟩ := by
        rw [← h1, unitsEntries_append, cloneRef_append, h2]
        simp only [Bool.false_eq_true, if_false]
        rw [unitsEntries_cons, cloneRef_append, if_pos g1, g1]
      simp only [CloneLaw, e2]
      refine ⟨trivial, g2.array _, ?_⟩
      have := g3.append ((accounted_array (d := d) false x acc.toList))
      refine this.perm ?_
      rw [← unitsEntries_snd, ← h1, unitsEntries_append, unitsEntries_empty (i :: is) acc h3, List.append_nil, List.map_append]
      exact List.perm_append_comm

theorem flatMap_some (l : List V) : (l.map some).flatMap Option.toList = l := by
  induction l with
  | nil => rfl
  | cons v l ih => simpa using ih

theorem cloneTable_law {H : Hashbrown} {hc : TableCloneApi H.api V} (h : TableCloneLaw H V hc) {K : Type} [DecidableEq K]
    (t : (H.api K V).Table) (st : σ) :
    CloneLaw c d (H.laws K V).entries false ((H.laws K V).entries t) st (cloneTable d (hc K c t st)) := by
  obtain ⟨h1, h2, h3, h4⟩ := h K σ c t st
  unfold cloneTable
  split
  · rename_i e
    simp only [CloneLaw]
    rw [h1, h2]
    refine ⟨h3.mp e, (honest_unwind d _).array _, ?_⟩
    have := accounted_array (d := d) false (.unwind (cloneRef c ((H.laws K V).entries t) st).st)
      (((cloneRef c ((H.laws K V).entries t) st).made.map Prod.snd).map some)
    rw [flatMap_some] at this
    exact this
  · rename_i t' e
    refine ⟨?_, h1, h4 t' e, fun e => nomatch e⟩
    rw [← Bool.not_eq_true, ← h3, e]
    exact fun e => nomatch e

section
variable (H : Hashbrown) {hc : TableCloneApi H.api V} (c d)

mutual
theorem clone_law (h : TableCloneLaw H V hc) : (κ : KeyTy) → ∀ s st,
    CloneLaw c d (mapCore H V κ).entries κ.hashFree ((mapCore H V κ).entries s) st (κ.cloneD H.api hc c d s st)
  | .bool => fun s st => CloneLaw.map ((cloneLaw_slot (c := c) (d := d) true s.t st).both (cloneLaw_slot false s.f)
      (fun o x => accounted_slotEntries true x o) (fun o x _ hx => hx.slot o)) _ fun _ => rfl
  | .unit => fun s st => cloneLaw_slot () s st
  | .opt κ => fun s st => by
    have := ((clone_law h κ s.some st).rename some).both (cloneLaw_slot none s.none)
      (drop := κ.dropD H.api d) (hf := κ.hashFree) (fun s x => by rw [renameKeys_snd]; exact drop_accounted H d κ s x)
      (fun s x st' hx => drop_honest H d st' κ s x hx)
    rw [Bool.and_true] at this
    exact CloneLaw.map (eB := (mapCore H V (.opt κ)).entries) this
      (fun p : (mapStorage H.api V κ).S × Option V => ⟨p.1, p.2⟩) fun _ => rfl
  | .prim p => fun s st => cloneTable_law h s st
  | .units n => fun (s : UnitsSt n V) st => cloneArray_law s st (List.finRange n) [] _ st rfl rfl fun i _ => by simp
  | .bitset n _ _ => fun (s : UnitsSt n V) st => cloneArray_law s st (List.finRange n) [] _ st rfl rfl fun i _ => by simp
  | .enum fs => fieldsClone_law h fs
theorem fieldsClone_law (h : TableCloneLaw H V hc) : (fs : Fields) → ∀ s st,
    CloneLaw c d (fieldsCore H V fs).entries fs.hashFree ((fieldsCore H V fs).entries s) st (fs.cloneD H.api hc c d s st)
  | .nil => fun _ _ => ⟨rfl, rfl, .refl _, fun _ => rfl⟩
  | .simple fs => fun s st => by
    have := ((cloneLaw_slot (c := c) (d := d) () s.1 st).rename Sum.inl).both (fun st' => (fieldsClone_law h fs s.2 st').rename Sum.inr)
      (drop := fun o x => x.slot d o) (hf := true) (fun s x => by rw [renameKeys_snd]; exact accounted_slotEntries () x s)
      (fun s x st' hx => hx.slot s)
    rw [Bool.true_and] at this
    exact this
  | .complex κ fs => fun s st =>
    ((clone_law h κ s.1 st).rename Sum.inl).both (fun st' => (fieldsClone_law h fs s.2 st').rename Sum.inr)
      (drop := κ.dropD H.api d) (hf := κ.hashFree) (fun s x => by rw [renameKeys_snd]; exact drop_accounted H d κ s x)
      (fun s x st' hx => drop_honest H d st' κ s x hx)
end
end

end FixedMap
