import Verif.Spec.Unwind
import Verif.Proofs.ClonePanic
import Verif.Proofs.Order
import Verif.Proofs.History

/-! # The order in which a half-made clone is dropped: proofs -/

set_option autoImplicit false
set_option linter.unusedSimpArgs false

namespace FixedMap

variable {σ V : Type} {c : Cloner σ V} {d : Dtor σ V}

theorem finGet_none {K : Type} [DecidableEq K] {l : List (K × V)} {k : K} (h : k ∉ l.map Prod.fst) : FinMap.get l k = none := by
  induction l with
  | nil => rfl
  | cons p l ih =>
    rw [List.map_cons, List.mem_cons, not_or] at h
    rw [FinMap.get, if_neg (fun e => h.1 e.symm)]
    exact ih h.2

theorem finGet_append {K : Type} [DecidableEq K] (l l' : List (K × V)) (k : K) :
    FinMap.get (l ++ l') k = (FinMap.get l k).or (FinMap.get l' k) := by
  induction l with
  | nil => rfl
  | cons p l ih =>
    simp only [List.cons_append, FinMap.get]
    split
    · rfl
    · exact ih

theorem filterMap_get {K : Type} [DecidableEq K] {ks : List K} (hk : ks.Nodup) : ∀ {l : List (K × V)}, (l.map Prod.fst).Sublist ks →
    ks.filterMap (FinMap.get l) = l.map Prod.snd := by
  induction ks with
  | nil =>
    intro l h
    rw [List.map_eq_nil_iff.mp (List.sublist_nil.mp h)]
    rfl
  | cons k ks ih =>
    intro l h
    have hk' := List.nodup_cons.mp hk
    cases l with
    | nil =>
      exact List.filterMap_eq_nil_iff.mpr fun _ _ => rfl
    | cons p l =>
      rw [List.map_cons] at h
      cases h with
      | cons _ h =>
        have hn : k ∉ (p :: l).map Prod.fst := fun hm => hk'.1 (h.subset hm)
        rw [List.filterMap_cons_none (finGet_none hn)]
        exact ih hk'.2 h
      | cons_cons _ h =>
        have : FinMap.get (p :: l) p.1 = some p.2 := by rw [FinMap.get, if_pos rfl]
        rw [List.filterMap_cons_some this, List.map_cons, ← ih hk'.2 h]
        congr 1
        apply filterMap_congr'
        intro j hj
        have : p.1 ≠ j := fun e => hk'.1 (e ▸ hj)
        rw [FinMap.get, if_neg this]

theorem cloneRef_keys {K : Type} (l : List (K × V)) (st : σ) :
    ((cloneRef c l st).made.map Prod.fst).Sublist (l.map Prod.fst) ∧
      ((cloneRef c l st).panicked = false → (cloneRef c l st).made.map Prod.fst = l.map Prod.fst) := by
  induction l generalizing st with
  | nil => exact ⟨.refl _, fun _ => rfl⟩
  | cons p l ih =>
    obtain ⟨k, v⟩ := p
    simp only [cloneRef]
    rcases c st v with ⟨st', _ | w⟩
    · exact ⟨List.nil_sublist _, fun e => nomatch e⟩
    · exact ⟨(ih st').1.cons_cons _, fun e => by simp only [List.map_cons, (ih st').2 e]⟩

/-- A clone of `l` panicked and was dropped in the order `u`. -/
def UnwindsAs {K : Type} [DecidableEq K] (c : Cloner σ V) (d : Dtor σ V) (u : K → List K) (l : List (K × V)) (st : σ) (x : Drops σ V) :
    Prop :=
  ∃ pre k v post st', l = pre ++ (k, v) :: post ∧ (cloneRef c pre st).panicked = false ∧
    c (cloneRef c pre st).st v = (st', none) ∧ x.HonestFrom 1 d st' ∧
    Accounted true (.unwind st') x ((u k).filterMap (FinMap.get (cloneRef c pre st).made))

/-- What cloning a part that stands for `l` does; `P`: what the clone stands for. -/
def CloneRun {S K : Type} [DecidableEq K] (c : Cloner σ V) (d : Dtor σ V) (P : S → List (K × V) → Prop) (u : K → List K)
    (l : List (K × V)) (st : σ) : Cloned σ V S → Prop
  | .ok st' s' => ∃ made, cloneRef c l st = ⟨st', made, false⟩ ∧ P s' made
  | .panicked x => UnwindsAs c d u l st x

section
variable {K K' : Type} [DecidableEq K] [DecidableEq K']

theorem UnwindsAs.rename {u : K → List K} {u' : K' → List K'} {l : List (K × V)} {st : σ} {x : Drops σ V}
    (h : UnwindsAs c d u l st x) {g : K → K'} (inj : ∀ a b, g a = g b → a = b) (hu : ∀ k, u' (g k) = (u k).map g) :
    UnwindsAs c d u' (renameKeys g l) st x := by
  obtain ⟨pre, k, v, post, st', rfl, h2, h3, h4, h5⟩ := h
  refine ⟨renameKeys g pre, g k, v, renameKeys g post, st', by simp [renameKeys], ?_, ?_, h4, ?_⟩
  · rw [cloneRef_rename]; exact h2
  · rw [cloneRef_rename]; exact h3
  · rw [cloneRef_rename, hu, List.filterMap_map]
    have : (FinMap.get (renameKeys g (cloneRef c pre st).made) ∘ g) = FinMap.get (cloneRef c pre st).made :=
      funext fun k => finGet_rename' inj _ k
    rw [this]
    exact h5
where
  finGet_rename' {g : K → K'} (inj : ∀ a b, g a = g b → a = b) (l : List (K × V)) (k : K) :
      FinMap.get (renameKeys g l) (g k) = FinMap.get l k := by
    induction l with
    | nil => rfl
    | cons p l ih =>
      obtain ⟨a, v⟩ := p
      simp only [FinMap.get, renameKeys, List.map_cons] at ih ⊢
      by_cases e : a = k
      · rw [if_pos e, if_pos (congrArg g e)]
      · rw [if_neg e, if_neg (fun h => e (inj _ _ h))]
        exact ih

theorem UnwindsAs.left {u : K → List K} {la lb : List (K × V)} {st : σ} {x : Drops σ V} (h : UnwindsAs c d u la st x) :
    UnwindsAs c d u (la ++ lb) st x := by
  obtain ⟨pre, k, v, post, st', rfl, h⟩ := h
  exact ⟨pre, k, v, post ++ lb, st', by simp, h⟩

theorem UnwindsAs.right {u uB : K → List K} {ua : List K} {la lb made : List (K × V)} {st st' : σ} {x y : Drops σ V}
    (ha : cloneRef c la st = ⟨st', made, false⟩) (h : UnwindsAs c d uB lb st' x)
    (hy : Accounted true x y (made.map Prod.snd)) (hh : ∀ w, x.HonestFrom 1 d w → y.HonestFrom 1 d w)
    (hua : ua.filterMap (FinMap.get made) = made.map Prod.snd)
    (hu : ∀ k ∈ lb.map Prod.fst, u k = uB k ++ ua) (hdis : ∀ k ∈ lb.map Prod.fst, ∀ j ∈ uB k, j ∉ la.map Prod.fst)
    (hdis' : ∀ j ∈ ua, j ∉ lb.map Prod.fst) :
    UnwindsAs c d u (la ++ lb) st y := by
  obtain ⟨pre, k, v, post, st'', rfl, h2, h3, h4, h5⟩ := h
  have hk : k ∈ (pre ++ (k, v) :: post).map Prod.fst := List.mem_map.mpr ⟨(k, v), by simp, rfl⟩
  have hm : made.map Prod.fst = la.map Prod.fst := by
    have := (cloneRef_keys (c := c) la st).2
    rw [ha] at this
    exact this rfl
  have hc : cloneRef c (la ++ pre) st = ⟨(cloneRef c pre st').st, made ++ (cloneRef c pre st').made, false⟩ := by
    rw [cloneRef_append, ha]
    simp [h2]
  refine ⟨la ++ pre, k, v, post, st'', by simp, by rw [hc], by rw [hc]; exact h3, hh _ h4, ?_⟩
  rw [hc, hu k hk, List.filterMap_append]
  have e1 : (uB k).filterMap (FinMap.get (made ++ (cloneRef c pre st').made)) = (uB k).filterMap (FinMap.get (cloneRef c pre st').made) := by
    apply filterMap_congr'
    intro j hj
    rw [finGet_append, finGet_none (l := made) (by rw [hm]; exact hdis k hk j hj), Option.none_or]
  have e2 : ua.filterMap (FinMap.get (made ++ (cloneRef c pre st').made)) = made.map Prod.snd := by
    rw [← hua]
    apply filterMap_congr'
    intro j hj
    rw [finGet_append, finGet_none (l := (cloneRef c pre st').made), Option.or_none]
    intro hm
    have := (cloneRef_keys (c := c) pre st').1.subset hm
    rw [List.mem_map] at this
    obtain ⟨q, hq, rfl⟩ := this
    exact hdis' _ hj (List.mem_map.mpr ⟨q, by simp [hq], rfl⟩)
  rw [e1, e2]
  exact h5.append hy

theorem CloneRun.rename {S : Type} {P : S → List (K × V) → Prop} {Q : S → List (K' × V) → Prop} {u : K → List K} {u' : K' → List K'}
    {l : List (K × V)} {st : σ} {r : Cloned σ V S} (h : CloneRun c d P u l st r) {g : K → K'} (inj : ∀ a b, g a = g b → a = b)
    (hu : ∀ k, u' (g k) = (u k).map g) (hP : ∀ s l, P s l → Q s (renameKeys g l)) : CloneRun c d Q u' (renameKeys g l) st r := by
  cases r with
  | ok st' s' =>
    obtain ⟨made, h1, h2⟩ := h
    exact ⟨renameKeys g made, by rw [cloneRef_rename, h1], hP _ _ h2⟩
  | panicked x => exact UnwindsAs.rename h inj hu

theorem CloneRun.imp {S : Type} {P Q : S → List (K × V) → Prop} {u : K → List K} {l : List (K × V)} {st : σ} {r : Cloned σ V S}
    (h : CloneRun c d P u l st r) (hP : ∀ s l, P s l → Q s l) : CloneRun c d Q u l st r := by
  cases r with
  | ok st' s' =>
    obtain ⟨made, h1, h2⟩ := h
    exact ⟨made, h1, hP _ _ h2⟩
  | panicked x => exact h

theorem CloneRun.map {S T : Type} {P : S → List (K × V) → Prop} {Q : T → List (K × V) → Prop} {u : K → List K} {l : List (K × V)}
    {st : σ} {r : Cloned σ V S} (h : CloneRun c d P u l st r) (f : S → T) (hP : ∀ s l, P s l → Q (f s) l) :
    CloneRun c d Q u l st (r.map f) := by
  cases r with
  | ok st' s' =>
    obtain ⟨made, h1, h2⟩ := h
    exact ⟨made, h1, hP _ _ h2⟩
  | panicked x => exact h

theorem cloneRun_slot (k : K) {u : K → List K} (hu : u k = []) (o : Option V) (st : σ) :
    CloneRun c d (fun o l => l = slotEntries k o) u (slotEntries k o) st (cloneSlot c o st) := by
  cases o with
  | none => exact ⟨[], rfl, rfl⟩
  | some v =>
    simp only [cloneSlot, slotEntries_some]
    rcases h : c st v with ⟨st', _ | w⟩
    · refine ⟨[], k, v, [], st', rfl, rfl, h, honest_unwind d st', ?_⟩
      rw [hu]
      exact .nil _ _
    · exact ⟨[(k, w)], by simp [cloneRef, h], rfl⟩

/-- `Struct { a, b }`: the keys of `a` come before those of `b`. -/
theorem CloneRun.both {A B : Type} {P : A → List (K × V) → Prop} {Q : B → List (K × V) → Prop} {u uB : K → List K} {ua : List K}
    {la lb : List (K × V)} {st : σ} {a : Cloned σ V A} {b : σ → Cloned σ V B} {drop : A → Drops σ V → Drops σ V}
    (hA : CloneRun c d P u la st a) (hB : ∀ st', CloneRun c d Q uB lb st' (b st'))
    (hd : ∀ s l, P s l → ∀ x, Accounted true x (drop s x) (l.map Prod.snd))
    (hh : ∀ s x w, x.HonestFrom 1 d w → (drop s x).HonestFrom 1 d w)
    (hn : ua.Nodup) (hua : (la.map Prod.fst).Sublist ua)
    (hu : ∀ k ∈ lb.map Prod.fst, u k = uB k ++ ua) (hdis : ∀ k ∈ lb.map Prod.fst, ∀ j ∈ uB k, j ∉ la.map Prod.fst)
    (hdis' : ∀ j ∈ ua, j ∉ lb.map Prod.fst) :
    CloneRun c d (fun (p : A × B) l => ∃ l1 l2, l = l1 ++ l2 ∧ P p.1 l1 ∧ Q p.2 l2) u (la ++ lb) st (a.both drop b) := by
  cases a with
  | panicked x => exact UnwindsAs.left hA
  | ok st' s =>
    obtain ⟨made, h1, h2⟩ := hA
    have hB := hB st'
    simp only [Cloned.both]
    cases hb' : b st' with
    | ok st'' t =>
      rw [hb'] at hB
      obtain ⟨made', g1, g2⟩ := hB
      exact ⟨made ++ made', by simp [cloneRef_append, h1, g1], made, made', rfl, h2, g2⟩
    | panicked x =>
      rw [hb'] at hB
      have hm : made.map Prod.fst = la.map Prod.fst := by
        have := (cloneRef_keys (c := c) la st).2
        rw [h1] at this
        exact this rfl
      exact UnwindsAs.right h1 hB (hd s made h2 x) (hh s x) (filterMap_get hn (by rw [hm]; exact hua)) hu hdis hdis'
end

theorem before_finRange {n : Nat} {pre is : List (Fin n)} {i : Fin n} (h : pre ++ i :: is = List.finRange n) :
    (List.finRange n).filter (fun j : Fin n => decide (j < i)) = pre := by
  have hp : (List.finRange n).Pairwise (· < ·) := List.pairwise_lt_finRange n
  rw [← h] at hp ⊢
  rw [List.pairwise_append, List.pairwise_cons] at hp
  obtain ⟨-, ⟨h1, -⟩, h2⟩ := hp
  rw [List.filter_append, List.filter_eq_self.mpr fun j hj => by simpa using h2 j hj i (.head _),
    List.filter_eq_nil_iff.mpr, List.append_nil]
  intro j hj
  rcases List.mem_cons.mp hj with rfl | hj
  · simp
  · have := h1 j hj
    simp only [decide_eq_true_eq]
    omega

theorem unitsEntries_sublist {n : Nat} (is : List (Fin n)) (s : UnitsSt n V) : ((unitsEntries is s).map Prod.fst).Sublist is := by
  induction is with
  | nil => exact .refl _
  | cons i is ih =>
    rw [unitsEntries_cons, List.map_append]
    cases s[i] with
    | none => exact ih.cons i
    | some v => exact ih.cons_cons i

theorem cloneArray_run {n : Nat} (s : UnitsSt n V) (st0 : σ) : (is pre : List (Fin n)) → (acc : UnitsSt n V) → (st : σ) →
    pre ++ is = List.finRange n → cloneRef c (unitsEntries pre s) st0 = ⟨st, unitsEntries pre acc, false⟩ →
    (∀ i ∈ is, acc[i] = none) →
    CloneRun c d (fun s l => l = unitsEntries (List.finRange n) s) (fun i => (List.finRange n).filter fun j : Fin n => decide (j < i))
      (unitsEntries (List.finRange n) s) st0 (cloneArray c d s is acc st)
  | [], pre, acc, st => by
    intro h1 h2 _
    rw [List.append_nil] at h1
    subst h1
    exact ⟨_, h2, rfl⟩
  | i :: is, pre, acc, st => by
    intro h1 h2 h3
    have hn : (pre ++ i :: is).Nodup := h1 ▸ List.nodup_finRange n
    rw [List.nodup_append] at hn
    obtain ⟨n1, n2, n3⟩ := hn
    rw [List.nodup_cons] at n2
    have hi : i ∉ pre := fun h => n3 i h i (.head _) rfl
    simp only [cloneArray]
    rcases hv : s[i] with _ | v
    · simp only [cloneSlot]
      refine cloneArray_run s st0 is (pre ++ [i]) _ _ (by rw [← h1]; simp) ?_ ?_
      · rw [unitsEntries_append, cloneRef_append, h2, unitsEntries_append, unitsEntries_set_of_not_mem hi]
        simp only [Bool.false_eq_true, if_false]
        rw [unitsEntries_cons, unitsEntries_cons, hv]
        simp [unitsEntries, cloneRef]
      · intro j hj
        have : j ≠ i := fun e => n2.1 (e ▸ hj)
        rw [← h3 j (.tail _ hj)]
        simp only [Fin.getElem_fin]
        rw [Vector.getElem_set_ne]
        exact fun e => this (Fin.ext e.symm)
    · simp only [cloneSlot]
      rcases hc : c st v with ⟨st', _ | w⟩
      · refine ⟨unitsEntries pre s, i, v, unitsEntries is s, st', ?_, by rw [h2], by rw [h2]; exact hc, (honest_unwind d st').array _, ?_⟩
        · rw [← h1, unitsEntries_append, unitsEntries_cons, hv]
          rfl
        · rw [h2]
          simp only [before_finRange h1]
          rw [filterMap_get n1 (unitsEntries_sublist pre acc)]
          have := accounted_array (d := d) true (.unwind st') acc.toList
          rw [← unitsEntries_snd, ← h1, unitsEntries_append, unitsEntries_empty (i :: is) acc h3, List.append_nil] at this
          exact this
      · refine cloneArray_run s st0 is (pre ++ [i]) _ _ (by rw [← h1]; simp) ?_ ?_
        · rw [unitsEntries_append, cloneRef_append, h2, unitsEntries_append, unitsEntries_set_of_not_mem hi]
          simp only [Bool.false_eq_true, if_false]
          rw [unitsEntries_cons, unitsEntries_cons, hv]
          simp [unitsEntries, cloneRef, hc]
        · intro j hj
          have : j ≠ i := fun e => n2.1 (e ▸ hj)
          rw [← h3 j (.tail _ hj)]
          simp only [Fin.getElem_fin]
          rw [Vector.getElem_set_ne]
          exact fun e => this (Fin.ext e.symm)

theorem keys_sublist (H : Hashbrown) (κ : KeyTy) (h : κ.hashFree = true) (s : (mapStorage H.api V κ).S) :
    (((mapCore H V κ).entries s).map Prod.fst).Sublist κ.allKeys := by
  rw [entries_allKeys H V κ h s]
  generalize κ.allKeys = ks
  induction ks with
  | nil => exact .refl _
  | cons k ks ih =>
    rcases hg : (mapStorage H.api V κ).get s k with _ | v
    · rw [List.filterMap_cons_none (by rw [hg]; rfl)]
      exact ih.cons k
    · rw [List.filterMap_cons_some (by rw [hg]; rfl)]
      exact ih.cons_cons k

theorem mem_rename {K K' : Type} {g : K → K'} {l : List (K × V)} {k : K'} (h : k ∈ (renameKeys g l).map Prod.fst) : ∃ j, k = g j := by
  simp only [renameKeys, List.map_map, List.mem_map] at h
  obtain ⟨p, -, rfl⟩ := h
  exact ⟨p.1, rfl⟩

theorem slotKey_eq {K : Type} {j k : K} {o : Option V} (h : k ∈ (slotEntries j o).map Prod.fst) : k = j := by
  cases o with
  | none => exact nomatch h
  | some v => simpa [slotEntries] using h

theorem sublist_rename {K K' : Type} (g : K → K') {l : List (K × V)} {ks : List K} (h : (l.map Prod.fst).Sublist ks) :
    ((renameKeys g l).map Prod.fst).Sublist (ks.map g) := by
  have := h.map g
  simp only [renameKeys, List.map_map] at this ⊢
  exact this

section
variable (H : Hashbrown) {hc : TableCloneApi H.api V} (c d)

mutual
theorem clone_run : (κ : KeyTy) → κ.hashFree = true → ∀ s st,
    CloneRun c d (fun s l => l = (mapCore H V κ).entries s) κ.unwindKeys ((mapCore H V κ).entries s) st (κ.cloneD H.api hc c d s st)
  | .bool, _ => fun s st => by
    refine CloneRun.map (CloneRun.both (P := fun o l => l = slotEntries true o) (Q := fun o l => l = slotEntries false o)
      (uB := fun _ => []) (ua := [true]) (cloneRun_slot true rfl s.t st)
      (cloneRun_slot false rfl s.f) (fun o l e x => e ▸ accounted_slotEntries true x o) (fun o x _ hx => hx.slot o)
      (by simp) (by cases s.t <;> simp [slotEntries]) ?_ (fun _ _ _ h => nomatch h) ?_) _ ?_
    · intro k hk
      cases slotKey_eq hk
      rfl
    · intro j hj hk
      have := slotKey_eq hk
      simp_all
    · rintro p _ ⟨l1, l2, rfl, rfl, rfl⟩
      rfl
  | .unit, _ => fun s st => cloneRun_slot () rfl s st
  | .opt κ, h => fun s st => by
    have h : κ.hashFree = true := h
    refine CloneRun.map (Q := fun s l => l = (mapCore H V (.opt κ)).entries s) (CloneRun.both (P := fun o l => l = renameKeys some ((mapCore H V κ).entries o)) (Q := fun o l => l = slotEntries none o)
      (u := KeyTy.unwindKeys (.opt κ)) (uB := fun _ => []) (ua := κ.allKeys.map some)
      ((clone_run κ h s.some st).rename (fun _ _ e => Option.some.inj e) (fun _ => rfl) (fun _ _ e => e ▸ rfl))
      (cloneRun_slot none rfl s.none)
      (drop := κ.dropD H.api d) (fun s l e x => by rw [e, renameKeys_snd]; exact h ▸ drop_accounted H d κ s x)
      (fun s x st' hx => drop_honest H d st' κ s x hx)
      (nodup_map_inj (fun _ _ e => Option.some.inj e) (nodup_allKeys κ)) (sublist_rename some (keys_sublist H κ h s.some)) ?_
      (fun _ _ _ h => nomatch h) ?_) (fun p : (mapStorage H.api V κ).S × Option V => ⟨p.1, p.2⟩) ?_
    · intro k hk
      cases slotKey_eq hk
      rfl
    · intro j hj hk
      have := slotKey_eq hk
      simp_all
    · rintro p _ ⟨l1, l2, rfl, rfl, rfl⟩
      rfl
  | .units n, _ => fun (s : UnitsSt n V) st => cloneArray_run s st (List.finRange n) [] _ st rfl rfl fun i _ => by simp
  | .bitset n _ _, _ => fun (s : UnitsSt n V) st => cloneArray_run s st (List.finRange n) [] _ st rfl rfl fun i _ => by simp
  | .enum fs, h => fieldsClone_run fs h
theorem fieldsClone_run : (fs : Fields) → fs.hashFree = true → ∀ s st,
    CloneRun c d (fun s l => l = (fieldsCore H V fs).entries s) fs.unwindKeys ((fieldsCore H V fs).entries s) st (fs.cloneD H.api hc c d s st)
  | .nil, _ => fun _ _ => ⟨[], rfl, rfl⟩
  | .simple fs, h => fun s st => by
    refine (CloneRun.both (P := fun o l => l = renameKeys Sum.inl (slotEntries () o))
      (Q := fun s l => l = renameKeys Sum.inr ((fieldsCore H V fs).entries s))
      (uB := fun k => match k with | .inl _ => [] | .inr k => (fs.unwindKeys k).map Sum.inr) (ua := [Sum.inl ()])
      ((cloneRun_slot () (u := fun _ => []) rfl s.1 st).rename (fun _ _ e => Sum.inl.inj e) (fun _ => rfl) (fun _ _ e => e ▸ rfl))
      (fun st' => (fieldsClone_run fs h s.2 st').rename (fun _ _ e => Sum.inr.inj e) (fun _ => rfl) (fun _ _ e => e ▸ rfl))
      (drop := fun o x => x.slot d o) (fun s l e x => by rw [e, renameKeys_snd]; exact accounted_slotEntries () x s)
      (fun s x st' hx => hx.slot s) (by simp) (by cases s.1 <;> simp [slotEntries, renameKeys]) ?_ ?_ ?_).imp ?_
    · intro k hk
      obtain ⟨k, rfl⟩ := mem_rename hk
      rfl
    · intro k hk j hj hm
      obtain ⟨k, rfl⟩ := mem_rename hk
      obtain ⟨_, rfl⟩ := mem_rename hm
      obtain ⟨_, _, e⟩ := List.mem_map.mp hj
      exact nomatch e
    · intro j hj hm
      obtain ⟨_, rfl⟩ := mem_rename hm
      simp at hj
    · rintro p _ ⟨l1, l2, rfl, rfl, rfl⟩
      rfl
  | .complex κ fs, h => fun s st => by
    have h := Bool.and_eq_true_iff.mp h
    refine (CloneRun.both (P := fun s l => l = renameKeys Sum.inl ((mapCore H V κ).entries s))
      (Q := fun s l => l = renameKeys Sum.inr ((fieldsCore H V fs).entries s))
      (uB := fun k => match k with | .inl _ => [] | .inr k => (fs.unwindKeys k).map Sum.inr) (ua := κ.allKeys.map Sum.inl)
      ((clone_run κ h.1 s.1 st).rename (fun _ _ e => Sum.inl.inj e) (fun _ => rfl) (fun _ _ e => e ▸ rfl))
      (fun st' => (fieldsClone_run fs h.2 s.2 st').rename (fun _ _ e => Sum.inr.inj e) (fun _ => rfl) (fun _ _ e => e ▸ rfl))
      (drop := κ.dropD H.api d) (fun s l e x => by rw [e, renameKeys_snd]; exact h.1 ▸ drop_accounted H d κ s x)
      (fun s x st' hx => drop_honest H d st' κ s x hx)
      (nodup_map_inj (fun _ _ e => Sum.inl.inj e) (nodup_allKeys κ)) (sublist_rename Sum.inl (keys_sublist H κ h.1 s.1)) ?_ ?_ ?_).imp ?_
    · intro k hk
      obtain ⟨k, rfl⟩ := mem_rename hk
      rfl
    · intro k hk j hj hm
      obtain ⟨k, rfl⟩ := mem_rename hk
      obtain ⟨_, rfl⟩ := mem_rename hm
      obtain ⟨_, _, e⟩ := List.mem_map.mp hj
      exact nomatch e
    · intro j hj hm
      obtain ⟨_, rfl⟩ := mem_rename hm
      obtain ⟨_, _, e⟩ := List.mem_map.mp hj
      exact nomatch e
    · rintro p _ ⟨l1, l2, rfl, rfl, rfl⟩
      rfl
end
end

theorem sublist_split {K : Type} {k : K} {post ys : List K} : ∀ {pre xs : List K}, (pre ++ k :: post).Nodup →
    (xs ++ k :: ys).Sublist (pre ++ k :: post) → xs.Sublist pre
  | [], [], _, _ => .refl _
  | [], x :: xs, hn, h => by
    exfalso
    have hk := (List.nodup_cons.mp hn).1
    cases h with
    | cons _ h => exact hk (h.subset (by simp))
    | cons_cons _ h => exact hk (h.subset (by simp))
  | p :: pre, xs, hn, h => by
    have hn' := (List.nodup_cons.mp hn)
    cases xs with
    | nil => exact List.nil_sublist _
    | cons x xs =>
      rw [List.cons_append, List.cons_append] at h
      cases h with
      | cons _ h => exact (sublist_split (xs := x :: xs) hn'.2 h).cons p
      | cons_cons _ h => exact (sublist_split hn'.2 h).cons_cons _

/-- The unwinding order consists of the keys before `k`. -/
def Before {K : Type} (ks : List K) (u : List K) (k : K) : Prop := ∃ pre post, ks = pre ++ k :: post ∧ u.Perm pre

theorem Before.map {K K' : Type} {ks u : List K} {k : K} (h : Before ks u k) (g : K → K') (qs : List K') :
    Before (ks.map g ++ qs) (u.map g) (g k) := by
  obtain ⟨pre, post, rfl, h⟩ := h
  exact ⟨pre.map g, post.map g ++ qs, by simp, h.map g⟩

theorem Before.after {K K' : Type} {ks u : List K} {k : K} (h : Before ks u k) (g : K → K') (qs : List K') :
    Before (qs ++ ks.map g) (u.map g ++ qs) (g k) := by
  obtain ⟨pre, post, rfl, h⟩ := h
  exact ⟨qs ++ pre.map g, post.map g, by simp, List.perm_append_comm.trans ((h.map g).append_left qs)⟩

theorem before_units {n : Nat} (i : Fin n) : Before (List.finRange n) ((List.finRange n).filter fun j : Fin n => decide (j < i)) i := by
  obtain ⟨pre, post, h⟩ := List.append_of_mem (List.mem_finRange i)
  exact ⟨pre, post, h, by rw [before_finRange h.symm]⟩

mutual
theorem unwindKeys_before : (κ : KeyTy) → κ.hashFree = true → ∀ k : κ.Key, Before κ.allKeys (κ.unwindKeys k) k
  | .bool, _, true => ⟨[], [false], rfl, .refl _⟩
  | .bool, _, false => ⟨[true], [], rfl, .refl _⟩
  | .unit, _, () => ⟨[], [], rfl, .refl _⟩
  | .opt κ, h, some k => (unwindKeys_before κ h k).map some [none]
  | .opt κ, _, none => ⟨κ.allKeys.map some, [], rfl, .refl _⟩
  | .units _, _, i => before_units i
  | .bitset _ _ _, _, i => before_units i
  | .enum fs, h, k => fieldsUnwindKeys_before fs h k
theorem fieldsUnwindKeys_before : (fs : Fields) → fs.hashFree = true → ∀ k : fs.Key, Before fs.allKeys (fs.unwindKeys k) k
  | .nil, _, k => nomatch k
  | .simple fs, _, .inl () => ⟨[], fs.allKeys.map Sum.inr, rfl, .refl _⟩
  | .simple fs, h, .inr k => (fieldsUnwindKeys_before fs h k).after Sum.inr [Sum.inl ()]
  | .complex κ fs, h, .inl k => (unwindKeys_before κ (Bool.and_eq_true_iff.mp h).1 k).map Sum.inl (fs.allKeys.map Sum.inr)
  | .complex κ fs, h, .inr k =>
    (fieldsUnwindKeys_before fs (Bool.and_eq_true_iff.mp h).2 k).after Sum.inr (κ.allKeys.map Sum.inl)
end

/-- All clones made are in the unwinding order. -/
theorem unwindKeys_perm {κ : KeyTy} (h : κ.hashFree = true) {pre post made : List (κ.Key × V)} {k : κ.Key} {v : V}
    (hs : ((pre ++ (k, v) :: post).map Prod.fst).Sublist κ.allKeys) (hm : made.map Prod.fst = pre.map Prod.fst) :
    ((κ.unwindKeys k).filterMap (FinMap.get made)).Perm (made.map Prod.snd) := by
  obtain ⟨a, b, e, hp⟩ := unwindKeys_before κ h k
  have hn := nodup_allKeys κ
  rw [e] at hn hs
  rw [List.map_append, List.map_cons] at hs
  have := sublist_split hn hs
  rw [← hm] at this
  rw [← filterMap_get (List.nodup_append.mp hn).1 this]
  exact hp.filterMap _

end FixedMap
