import Verif.Spec.Fold
import Verif.Proofs.MapHash

/-! # `fold` of each adapter agrees with the loop -/

set_option autoImplicit false
set_option linter.unusedSimpArgs false

namespace FixedMap

theorem drainBy_mono {St α : Type} (step : St → Option α × St) {n : Nat} : ∀ {m : Nat} {st : St} {l : List α},
    drainBy step n st = some l → n ≤ m → drainBy step m st = some l := by
  induction n with
  | zero => intro m st l h; cases h
  | succ n ih =>
    intro m st l h hm
    obtain ⟨m, rfl⟩ : ∃ k, m = k + 1 := ⟨m - 1, by omega⟩
    rw [drainBy] at h ⊢
    rcases e : step st with ⟨_ | a, st'⟩
    · rw [e] at h; exact h
    · rw [e] at h
      obtain ⟨l', h', rfl⟩ := Option.map_eq_some_iff.mp h
      simp only [ih h' (by omega : n ≤ m), Option.map_some]

theorem drainBy_unique {St α : Type} {step : St → Option α × St} {n m : Nat} {st : St} {l l' : List α} (h : drainBy step n st = some l)
    (h' : drainBy step m st = some l') : l = l' :=
  Option.some.inj ((drainBy_mono step h (Nat.le_max_left n m)).symm.trans (drainBy_mono step h' (Nat.le_max_right n m)))

theorem drain_eq {α : Type} (I : IterImpl α) (n : Nat) (st : I.St) : I.drain n st = drainBy I.next n st := by
  induction n generalizing st with
  | zero => rfl
  | succ n ih =>
    rw [IterImpl.drain, drainBy]
    rcases I.next st with ⟨_ | a, st'⟩
    · rfl
    · simp only [ih]

theorem Yields.drainBack {α : Type} {I : IterImpl α} {nb : I.St → Option α × I.St} (hnb : I.nextBack? = some nb) :
    ∀ (n : Nat) {st : I.St} {l : List α}, Yields I st l → l.length = n → drainBy nb (n + 1) st = some l.reverse
  | 0, st, l, h, hl => by
    cases List.length_eq_zero_iff.mp hl
    have h1 := (h.back hnb).1
    rw [drainBy]
    rcases e : nb st with ⟨_ | a, st'⟩
    · rfl
    · rw [e] at h1; cases h1
  | n + 1, st, l, h, hl => by
    have h1 := (h.back hnb).1
    have h2 := (h.back hnb).2
    have hne : l ≠ [] := by intro e; subst e; cases hl
    rw [drainBy]
    rcases e : nb st with ⟨_ | a, st'⟩
    · rw [e, List.getLast?_eq_some_getLast hne] at h1; cases h1
    · rw [e] at h1 h2
      rw [List.getLast?_eq_some_getLast hne] at h1
      have h1 : a = l.getLast hne := Option.some.inj h1
      have := Yields.drainBack hnb n h2 (by rw [List.length_dropLast]; omega)
      simp only [this, Option.map_some]
      have hl' : l = l.dropLast ++ [a] := by rw [h1]; exact (List.dropLast_concat_getLast hne).symm
      conv => rhs; rw [hl', List.reverse_append]
      rfl

/-! ## Loops -/

theorem loopFold_like {St α : Type} (step : St → Option α × St) : FoldsLike step (loopFold step) := by
  rintro st l ⟨n, h⟩
  refine ⟨n, fun fuel hf B E f => ?_⟩
  replace h := drainBy_mono step h hf
  clear hf n
  induction fuel generalizing st l with
  | zero => cases h
  | succ n ih =>
    intro acc
    rw [drainBy] at h
    rw [loopFold]
    rcases e : step st with ⟨_ | a, st'⟩
    · rw [e] at h; cases h; rfl
    · rw [e] at h
      obtain ⟨l', h', rfl⟩ := Option.map_eq_some_iff.mp h
      simp only [List.foldlM_cons]
      rcases e2 : f acc a with e' | acc'
      · rfl
      · exact ih st' l' h' acc'

theorem Folds.agrees_default {α : Type} (I : IterImpl α) : (Folds.default I).agrees := by
  refine ⟨loopFold_like _, fun nb e => ?_⟩
  have : (Folds.default I).rfold = loopFold nb := by simp only [Folds.default, e]
  rw [this]
  exact loopFold_like nb

/-! ## `Map` -/

theorem foldsLike_map {St α β : Type} {step : St → Option α × St} {F : FoldFn St α} (g : α → β) (h : FoldsLike step F) :
    FoldsLike (fun st => ((step st).1.map g, (step st).2)) (fun B E fuel f acc st => F B E fuel (fun acc x => f acc (g x)) acc st) := by
  rintro st l ⟨n, hl⟩
  have key : ∀ (n : Nat) (st : St) (l : List β), drainBy (fun st => ((step st).1.map g, (step st).2)) n st = some l →
      ∃ l', drainBy step n st = some l' ∧ l = l'.map g := by
    intro n
    induction n with
    | zero => intro st l h; cases h
    | succ n ih =>
      intro st l h
      rw [drainBy] at h
      rw [drainBy]
      rcases e : step st with ⟨_ | a, st'⟩
      · simp only [e] at h; cases h; exact ⟨[], rfl, rfl⟩
      · simp only [e, Option.map_some] at h
        obtain ⟨l', h', rfl⟩ := Option.map_eq_some_iff.mp h
        obtain ⟨l'', h'', rfl⟩ := ih st' l' h'
        exact ⟨a :: l'', by simp [h''], rfl⟩
  obtain ⟨l', h', rfl⟩ := key n st l hl
  obtain ⟨N, hN⟩ := h st l' ⟨n, h'⟩
  refine ⟨N, fun fuel hf B E f acc => (hN fuel hf B E _ acc).trans ?_⟩
  rw [List.foldlM_map]

theorem Folds.agrees.map {α β : Type} {I : IterImpl α} {F : Folds I} (g : α → β) (h : F.agrees) : (F.map g).agrees := by
  refine ⟨foldsLike_map g h.1, fun nb e => ?_⟩
  have e : I.nextBack?.map _ = some nb := e
  obtain ⟨nb', e', rfl⟩ := Option.map_eq_some_iff.mp e
  exact foldsLike_map g (h.2 nb' e')

/-! ## `Chain` -/

theorem andFold_append {α B E : Type} (f : B → α → Except E B) (acc : B) (l l' : List α) :
    andFold (some (l.foldlM f acc)) (fun acc => some (l'.foldlM f acc)) = some ((l ++ l').foldlM f acc) := by
  rw [List.foldlM_append]
  rcases l.foldlM f acc with e | b <;> rfl

theorem andFold_congr {B E : Type} {r r' : Option (Except E B)} {k k' : B → Option (Except E B)} (h : r = r') (h' : ∀ b, k b = k' b) :
    andFold r k = andFold r' k' := by
  rw [h, funext h']

/-- What an optional part of a chain holds. -/
def PartDrains {St α : Type} (step : St → Option α × St) : Option St → List α → Prop
  | none, l => l = []
  | some st, l => ∃ n, drainBy step n st = some l

theorem partFold_like {St α : Type} {step : St → Option α × St} {F : FoldFn St α} (h : FoldsLike step F) {o : Option St} {l : List α}
    (hl : PartDrains step o l) :
    ∃ n, ∀ fuel, n ≤ fuel → ∀ (B E : Type) (f : B → α → Except E B) (acc : B), partFold F B E fuel f acc o = some (l.foldlM f acc) := by
  cases o with
  | none => cases hl; exact ⟨0, fun _ _ _ _ _ _ => rfl⟩
  | some st => exact h st l hl

/-- The step of a chain. -/
def chainStep {St Tt α : Type} (s : St → Option α × St) (t : Tt → Option α × Tt) (st : Option St × Option Tt) : Option α × (Option St × Option Tt) :=
  match andThenOrClear s st.1 with
  | (some a, oa) => (some a, (oa, st.2))
  | (none, oa) =>
    match st.2 with
    | none => (none, (oa, none))
    | some b => ((t b).1, (oa, some (t b).2))

theorem chainStep_drains {St Tt α : Type} (s : St → Option α × St) (t : Tt → Option α × Tt) :
    ∀ (n : Nat) (oa : Option St) (ob : Option Tt) (l : List α), drainBy (chainStep s t) n (oa, ob) = some l →
      ∃ la lb, l = la ++ lb ∧ PartDrains s oa la ∧ PartDrains t ob lb
  | 0, _, _, _, h => by cases h
  | n + 1, oa, ob, l, h => by
    rw [drainBy] at h
    have second : (andThenOrClear s oa) = (none, none) → PartDrains s oa [] → ∃ la lb, l = la ++ lb ∧ PartDrains s oa la ∧ PartDrains t ob lb := by
      intro e hp
      simp only [chainStep, e] at h
      cases ob with
      | none => cases h; exact ⟨[], [], rfl, hp, rfl⟩
      | some b =>
        rcases e2 : t b with ⟨_ | y, b'⟩
        · simp only [e2] at h
          cases h
          exact ⟨[], [], rfl, hp, 1, by simp [drainBy, e2]⟩
        · simp only [e2] at h
          obtain ⟨l', h', rfl⟩ := Option.map_eq_some_iff.mp h
          obtain ⟨la, lb, rfl, hla, m, hm⟩ := chainStep_drains s t n none (some b') l' h'
          cases hla
          exact ⟨[], y :: lb, rfl, hp, m + 1, by simp [drainBy, e2, hm]⟩
    cases oa with
    | none => exact second rfl rfl
    | some a =>
      rcases e : s a with ⟨_ | x, a'⟩
      · exact second (by simp only [andThenOrClear, e]) ⟨1, by simp [drainBy, e]⟩
      · simp only [chainStep, andThenOrClear, e] at h
        obtain ⟨l', h', rfl⟩ := Option.map_eq_some_iff.mp h
        obtain ⟨la, lb, rfl, ⟨m, hm⟩, hlb⟩ := chainStep_drains s t n (some a') ob l' h'
        exact ⟨x :: la, lb, rfl, ⟨m + 1, by simp [drainBy, e, hm]⟩, hlb⟩

theorem foldsLike_chain {St Tt α : Type} {s : St → Option α × St} {t : Tt → Option α × Tt} {F : FoldFn St α} {G : FoldFn Tt α}
    (h : FoldsLike s F) (k : FoldsLike t G) :
    FoldsLike (chainStep s t)
      (fun B E fuel f acc st => andFold (partFold F B E fuel f acc st.1) fun acc => partFold G B E fuel f acc st.2) := by
  rintro ⟨oa, ob⟩ l ⟨n, hl⟩
  obtain ⟨la, lb, rfl, ha, hb⟩ := chainStep_drains s t n oa ob l hl
  obtain ⟨n1, h1⟩ := partFold_like h ha
  obtain ⟨n2, h2⟩ := partFold_like k hb
  refine ⟨max n1 n2, fun fuel hf B E f acc => ?_⟩
  rw [← andFold_append]
  exact andFold_congr (h1 fuel (by omega) B E f acc) fun acc => h2 fuel (by omega) B E f acc

theorem FoldsLike.comap {St Tt α : Type} {s : St → Option α × St} {F : FoldFn St α} (h : FoldsLike s F) (p : Tt → St) {t : Tt → Option α × Tt}
    (ht : ∀ st, (t st).1 = (s (p st)).1 ∧ p (t st).2 = (s (p st)).2) : FoldsLike t (fun B E fuel f acc st => F B E fuel f acc (p st)) := by
  rintro st l ⟨n, hl⟩
  refine h (p st) l ⟨n, ?_⟩
  rw [← hl]
  clear hl
  induction n generalizing st with
  | zero => rfl
  | succ n ih =>
    rw [drainBy, drainBy]
    have h1 := (ht st).1
    have h2 := (ht st).2
    rcases e : t st with ⟨o, st'⟩
    rcases e' : s (p st) with ⟨o', st''⟩
    rw [e, e'] at h1 h2
    simp only at h1 h2
    subst h1 h2
    cases o with
    | none => rfl
    | some a => simp only [ih]

theorem Folds.agrees.chain {α : Type} {I J : IterImpl α} {F : Folds I} {G : Folds J} (h : F.agrees) (k : G.agrees) : (F.chain G).agrees := by
  have hs : (I.chain J).next = chainStep I.next J.next := by
    funext st
    obtain ⟨oa, ob⟩ := st
    simp only [IterImpl.chain, chainStep]
    rcases andThenOrClear I.next oa with ⟨_ | x, oa'⟩
    · cases ob <;> rfl
    · rfl
  refine ⟨hs ▸ foldsLike_chain h.1 k.1, fun nb e => ?_⟩
  replace e : (I.chain J).nextBack? = some nb := e
  simp only [IterImpl.chain] at e
  rcases ha : I.nextBack? with _ | inb
  · rw [ha] at e; cases e
  rcases hb : J.nextBack? with _ | jnb
  · rw [ha, hb] at e; cases e
  rw [ha, hb] at e
  cases e
  refine (foldsLike_chain (k.2 jnb hb) (h.2 inb ha)).comap Prod.swap ?_
  rintro ⟨oa, ob⟩
  simp only [chainStep, Prod.swap]
  rcases andThenOrClear jnb ob with ⟨_ | x, ob'⟩
  · cases oa <;> exact ⟨rfl, rfl⟩
  · exact ⟨rfl, rfl⟩

/-! ## Arrays -/

theorem optFold {α : Type} {fuel : Nat} (hf : 2 ≤ fuel) (B E : Type) (f : B → α → Except E B) (acc : B) (o : Option α) :
    loopFold optNext B E fuel f acc o = some (o.toList.foldlM f acc) := by
  obtain ⟨n, rfl⟩ : ∃ n, fuel = n + 2 := ⟨fuel - 2, by omega⟩
  cases o with
  | none => rfl
  | some a =>
    simp only [Option.toList, List.foldlM_cons, List.foldlM_nil]
    rw [loopFold]
    simp only [optNext]
    rcases f acc a with e | acc' <;> rfl

theorem innerFold {α : Type} {fuel : Nat} (hf : 2 ≤ fuel) (B E : Type) (f : B → α → Except E B) (acc : B) (o : Option (Option α)) :
    partFold (loopFold optNext) B E fuel f acc o = some ((innerList o).foldlM f acc) := by
  rcases o with _ | o
  · rfl
  · refine (optFold hf B E f acc o).trans ?_
    cases o <;> rfl

theorem arrayFold_eq {β α : Type} (g : β → Option α) {fuel : Nat} (hf : 2 ≤ fuel) (B E : Type) (f : B → α → Except E B) (acc : B) (l : List β) :
    arrayFold g B E fuel f acc l = some ((l.filterMap g).foldlM f acc) := by
  induction l generalizing acc with
  | nil => rfl
  | cons b bs ih =>
    have e : (b :: bs).filterMap g = (g b).toList ++ bs.filterMap g := by
      rw [List.filterMap_cons]
      cases g b <;> rfl
    rw [e, ← andFold_append]
    exact andFold_congr (optFold hf B E f acc (g b)) ih

theorem Folds.agrees_flat {β α : Type} (g : β → Option α) : (Folds.flat g).agrees := by
  constructor
  · rintro st l ⟨n, hl⟩
    have e : l = flatList g st := drainBy_unique hl ((drain_eq _ _ _).symm.trans ((yields_flat g st).drain (Nat.lt_succ_self _)))
    subst e
    refine ⟨2, fun fuel hf B E f acc => ?_⟩
    simp only [flatList, List.append_assoc]
    rw [← andFold_append]
    refine andFold_congr (innerFold hf B E f acc _) fun acc => ?_
    rw [← andFold_append]
    exact andFold_congr (arrayFold_eq g hf B E f acc _) fun acc => innerFold hf B E f acc _
  · intro nb hnb
    rintro st l ⟨n, hl⟩
    have e : l = (flatList g st).reverse := drainBy_unique hl (Yields.drainBack hnb _ (yields_flat g st) rfl)
    subst e
    refine ⟨2, fun fuel hf B E f acc => ?_⟩
    have r : ∀ o : Option (Option α), (innerList o).reverse = innerList o := by rintro (_ | _ | a) <;> rfl
    simp only [flatList, List.reverse_append, r]
    rw [← andFold_append]
    refine andFold_congr (innerFold hf B E f acc _) fun acc => ?_
    rw [← andFold_append]
    refine andFold_congr ?_ fun acc => innerFold hf B E f acc _
    refine (arrayFold_eq g hf B E f acc _).trans ?_
    rw [List.filterMap_reverse]

/-! ## Storages -/

structure MapFolds.agree {K V : Type} {M : MapStorage K V} (F : MapFolds M) : Prop where
  iter : F.iter.agrees
  keys : F.keys.agrees
  values : F.values.agrees
  iterMut : F.iterMut.agrees
  valuesMut : F.valuesMut.agrees
  intoIter : F.intoIter.agrees

theorem mapFolds_agree (H : HashbrownApi) (V : Type) : (κ : KeyTy) → (mapFolds H V κ).agree
  | .bool => (⟨.chain (.map _ (Folds.agrees_default _)) (.map _ (Folds.agrees_default _)), Folds.agrees_default _,
      .chain (Folds.agrees_default _) (Folds.agrees_default _), .chain (.map _ (Folds.agrees_default _)) (.map _ (Folds.agrees_default _)),
      .chain (Folds.agrees_default _) (Folds.agrees_default _), .chain (.map _ (Folds.agrees_default _)) (.map _ (Folds.agrees_default _))⟩ :
      (boolMapFolds V).agree)
  | .unit => (⟨Folds.agrees_default _, Folds.agrees_default _, Folds.agrees_default _, Folds.agrees_default _, Folds.agrees_default _,
      Folds.agrees_default _⟩ : (MapFolds.default (unitMap V)).agree)
  | .opt κ =>
    have h := mapFolds_agree H V κ
    (⟨.chain (.map _ h.iter) (.map _ (Folds.agrees_default _)), .chain (.map _ h.keys) (Folds.agrees_default _),
      .chain h.values (Folds.agrees_default _), .chain (.map _ h.iterMut) (.map _ (Folds.agrees_default _)),
      .chain (.map _ h.valuesMut) (Folds.agrees_default _), .chain (.map _ h.intoIter) (.map _ (Folds.agrees_default _))⟩ :
      (optMapFolds (mapFolds H V κ)).agree)
  | .prim p => (⟨.map _ (Folds.agrees_default _), .map _ (Folds.agrees_default _), Folds.agrees_default _, .map _ (Folds.agrees_default _),
      Folds.agrees_default _, Folds.agrees_default _⟩ : (hashMapFolds (H p.Key V)).agree)
  | .units n => (⟨Folds.agrees_flat _, Folds.agrees_flat _, Folds.agrees_flat _, Folds.agrees_flat _, Folds.agrees_flat _, Folds.agrees_flat _⟩ :
      (unitsMapFolds n V).agree)
  | .bitset n _ _ => (⟨Folds.agrees_flat _, Folds.agrees_flat _, Folds.agrees_flat _, Folds.agrees_flat _, Folds.agrees_flat _,
      Folds.agrees_flat _⟩ : (unitsMapFolds n V).agree)
  | .enum fs => (⟨Folds.agrees_default _, Folds.agrees_default _, Folds.agrees_default _, Folds.agrees_default _, Folds.agrees_default _,
      Folds.agrees_default _⟩ : (MapFolds.default (enumMap (mapFields H V fs))).agree)

theorem setFolds_agree (H : HashbrownApi) : (κ : KeyTy) → (setFolds H κ).iter.agrees ∧ (setFolds H κ).intoIter.agrees
  | .bool => ⟨Folds.agrees_default boolSet.iter.I, Folds.agrees_default boolSet.intoIter.I⟩
  | .unit => ⟨Folds.agrees_default unitSet.iter.I, Folds.agrees_default unitSet.intoIter.I⟩
  | .opt κ => ⟨.chain (.map _ (setFolds_agree H κ).1) (Folds.agrees_default _), .chain (.map _ (setFolds_agree H κ).2) (Folds.agrees_default _)⟩
  | .prim _ => ⟨.map _ (Folds.agrees_default _), .map _ (Folds.agrees_default _)⟩
  | .units _ => ⟨Folds.agrees_flat _, Folds.agrees_flat _⟩
  | .bitset _ _ _ => ⟨Folds.agrees_flat _, Folds.agrees_flat _⟩
  | .enum fs => ⟨Folds.agrees_default (enumSet (setFields H fs)).iter.I, Folds.agrees_default (enumSet (setFields H fs)).intoIter.I⟩

/-- After a schedule. -/
theorem Folds.agrees.foldsTo {S α : Type} {it : IterOf S α} {F : Folds it.I} (h : F.agrees) {s : S} {l : List α} (hy : YieldsAt it s l) :
    it.foldsTo F s l := by
  have key : ∀ (ds : List Dir) (st : it.I.St) (l : List α) (outs : List (Option α)) (st' : it.I.St), Yields it.I st l →
      it.I.run ds st = some (outs, st') → Yields it.I st' (dequeRun ds l).2 := by
    intro ds
    induction ds with
    | nil => intro st l outs st' h e; cases e; exact h
    | cons d ds ih =>
      intro st l outs st' h e
      rw [IterImpl.run] at e
      cases d with
      | front =>
        simp only [IterImpl.step] at e
        obtain ⟨r, e1, e2⟩ := Option.map_eq_some_iff.mp e
        cases e2
        exact ih _ _ _ _ h.next.2 e1
      | back =>
        simp only [IterImpl.step] at e
        rcases hb : it.I.nextBack? with _ | nb
        · rw [hb] at e; cases e
        · rw [hb] at e
          obtain ⟨r, e1, e2⟩ := Option.map_eq_some_iff.mp e
          cases e2
          exact ih _ _ _ _ (h.back hb).2 e1
  intro ds outs st hr
  have y := key ds _ l outs st hy hr
  obtain ⟨n, hn⟩ := h.1 st _ ⟨_, (drain_eq _ _ _).symm.trans (y.drain (Nat.lt_succ_self _))⟩
  rcases hb : it.I.nextBack? with _ | nb
  · exact ⟨n, fun fuel hf B E f acc => ⟨hn fuel hf B E f acc, fun h => (nomatch h)⟩⟩
  · obtain ⟨m, hm⟩ := h.2 nb hb st _ ⟨_, Yields.drainBack hb _ y rfl⟩
    exact ⟨max n m, fun fuel hf B E f acc => ⟨hn fuel (by omega) B E f acc, fun _ => hm fuel (by omega) B E f acc⟩⟩

end FixedMap
