import Verif.Model.IterClonePanic
import Verif.Proofs.IterDrop
import Verif.Proofs.Unwind

/-! # `Clone` of an owning iterator with a `V::clone` that has effects or panics: proofs -/

set_option autoImplicit false
set_option linter.unusedSimpArgs false

namespace FixedMap

variable {σ V : Type} {c : Cloner σ V} {d : Dtor σ V}

section
variable {K : Type} [DecidableEq K]

theorem CloneRun.len {S : Type} {P : S → List (K × V) → Prop} {u : K → List K} {l : List (K × V)} {st : σ} {r : Cloned σ V S}
    (h : CloneRun c d P u l st r) : CloneRun c d (fun s m => P s m ∧ m.map Prod.fst = l.map Prod.fst) u l st r := by
  cases r with
  | ok st' s' =>
    obtain ⟨made, h1, h2⟩ := h
    refine ⟨made, h1, h2, ?_⟩
    have := (cloneRef_keys (c := c) l st).2
    rw [h1] at this
    exact this rfl
  | panicked x => exact h

/-- The states of the iterator stand for lists with keys in `ks`; dropping a state drops the values of its list; cloning a state
clones its list. -/
def IterOf.ClonesAs {S : Type} (it : IterOf S (K × V)) (c : Cloner σ V) (d : Dtor σ V) (ks : List K) (u : K → List K)
    (drop : it.I.St → Drops σ V → Drops σ V) (cl : it.I.St → σ → Cloned σ V it.I.St) (e : S → List (K × V)) : Prop :=
  ∃ R, IsSim it.I R ∧ (∀ s, R (it.init s) (e s)) ∧ (∀ st l, R st l → ∀ x, Accounted true x (drop st x) (l.map Prod.snd)) ∧
    (∀ st l, R st l → (l.map Prod.fst).Sublist ks) ∧ ∀ st l, R st l → ∀ w, CloneRun c d R u l w (cl st w)

/-- A clone of fields that stand for `ls`. -/
def StepClone {St : Type} (R : St → List (List (K × V)) → Prop) (ls : List (List (K × V))) (st : St) (l : List (K × V)) : Prop :=
  ∃ ls', R st ls' ∧ l = ls'.flatten ∧ ls'.map List.length = ls.map List.length

/-- The same for the fields of a generated iterator. -/
def StepOf.ClonesAs {S : Type} (F : StepOf S (K × V)) (c : Cloner σ V) (d : Dtor σ V) (ks : List K) (u : K → List K)
    (drop : F.St → Drops σ V → Drops σ V) (cl : F.St → σ → Cloned σ V F.St) (e : S → List (K × V)) : Prop :=
  ∃ R, IsStepSim F R ∧ (∀ s, ∃ ls, R (F.init s) ls ∧ ls.flatten = e s) ∧
    (∀ st ls, R st ls → ∀ x, Accounted true x (drop st x) (ls.flatten.map Prod.snd)) ∧
    (∀ st ls, R st ls → (ls.flatten.map Prod.fst).Sublist ks) ∧
    ∀ st ls, R st ls → ∀ w, CloneRun c d (StepClone R ls) u ls.flatten w (cl st w)

theorem clonesAs_slot {S : Type} (p : S → Option V) (k : K) {u : K → List K} (hu : u k = []) :
    ((IterOf.option p).map fun v => (k, v)).ClonesAs c d [k] u (fun (o : Option V) (x : Drops σ V) => x.slot d o)
      (fun (o : Option V) w => cloneSlot c o w) (fun s => slotEntries k (p s)) := by
  refine ⟨_, (option_sim V).map fun v => (k, v), fun s => ⟨_, rfl, rfl⟩, ?_, ?_, ?_⟩
  · rintro (st : Option V) _ ⟨_, rfl, rfl⟩ x
    exact accounted_slotEntries k x st
  · rintro (_ | v) _ ⟨_, rfl, rfl⟩ <;> simp
  · rintro (st : Option V) _ ⟨_, rfl, rfl⟩ w
    exact (cloneRun_slot k hu st w).imp fun s l e => ⟨_, e, rfl⟩

theorem IterOf.ClonesAs.rename {S T K' : Type} [DecidableEq K'] {it : IterOf S (K × V)} {ks : List K} {u : K → List K}
    {drop : it.I.St → Drops σ V → Drops σ V} {cl : it.I.St → σ → Cloned σ V it.I.St} {e : S → List (K × V)}
    (h : it.ClonesAs c d ks u drop cl e) (p : T → S) {g : K → K'} (inj : ∀ a b, g a = g b → a = b) {u' : K' → List K'}
    (hu : ∀ k, u' (g k) = (u k).map g) :
    ((it.comap p).map fun q => (g q.1, q.2)).ClonesAs c d (ks.map g) u' drop cl (fun t => renameKeys g (e (p t))) := by
  obtain ⟨R, hs, hi, hd, hk, hc⟩ := h
  refine ⟨_, hs.map fun q => (g q.1, q.2), fun t => ⟨e (p t), rfl, hi (p t)⟩, ?_, ?_, ?_⟩
  · rintro st _ ⟨l, rfl, hl⟩ x
    have := hd st l hl x
    rw [← renameKeys_snd g] at this
    exact this
  · rintro st _ ⟨l, rfl, hl⟩
    exact sublist_rename g (hk st l hl)
  · rintro st _ ⟨l, rfl, hl⟩ w
    exact (hc st l hl w).rename inj hu fun s l h => ⟨l, rfl, h⟩

theorem StepOf.ClonesAs.rename {S T K' : Type} [DecidableEq K'] {F : StepOf S (K × V)} {ks : List K} {u : K → List K}
    {drop : F.St → Drops σ V → Drops σ V} {cl : F.St → σ → Cloned σ V F.St} {e : S → List (K × V)}
    (h : F.ClonesAs c d ks u drop cl e) (p : T → S) {g : K → K'} (inj : ∀ a b, g a = g b → a = b) {u' : K' → List K'}
    (hu : ∀ k, u' (g k) = (u k).map g) :
    ((F.comap p).map fun q => (g q.1, q.2)).ClonesAs c d (ks.map g) u' drop cl (fun t => renameKeys g (e (p t))) := by
  obtain ⟨R, hs, hi, hd, hk, hc⟩ := h
  refine ⟨_, (hs.comap p).map fun q => (g q.1, q.2), fun t => ?_, ?_, ?_, ?_⟩
  · obtain ⟨ls, h1, h2⟩ := hi (p t)
    exact ⟨_, ⟨ls, rfl, h1⟩, by rw [← List.map_flatten, h2]; rfl⟩
  · rintro st _ ⟨ls, rfl, hl⟩ x
    have := hd st ls hl x
    rw [← renameKeys_snd g] at this
    rw [← List.map_flatten]
    exact this
  · rintro st _ ⟨ls, rfl, hl⟩
    rw [← List.map_flatten]
    exact sublist_rename g (hk st ls hl)
  · rintro st _ ⟨ls, rfl, hl⟩ w
    rw [← List.map_flatten]
    refine (hc st ls hl w).rename inj hu ?_
    rintro s _ ⟨ls', h1, rfl, h3⟩
    refine ⟨ls'.map (List.map fun q => (g q.1, q.2)), ⟨ls', rfl, h1⟩, by rw [← List.map_flatten]; rfl, ?_⟩
    simpa [Function.comp_def] using h3

theorem cloneRun_part {T : Type} {R : T → List (K × V) → Prop} {u : K → List K} {f : T → σ → Cloned σ V T}
    (h : ∀ t l, R t l → ∀ w, CloneRun c d R u l w (f t w)) {o : Option T} {l : List (K × V)} (ho : OptRel R o l) (w : σ) :
    CloneRun c d (OptRel R) u l w (clonePart f o w) := by
  cases o with
  | none =>
    cases ho
    exact ⟨[], rfl, rfl⟩
  | some t => exact (h t l ho w).map some fun _ _ h => h

theorem IterOf.ClonesAs.chain {S : Type} {a b : IterOf S (K × V)} {ka kb : List K} {u uB : K → List K}
    {da : a.I.St → Drops σ V → Drops σ V} {db : b.I.St → Drops σ V → Drops σ V} {ca : a.I.St → σ → Cloned σ V a.I.St}
    {cb : b.I.St → σ → Cloned σ V b.I.St} {ea eb : S → List (K × V)}
    (ha : a.ClonesAs c d ka u da ca ea) (hb : b.ClonesAs c d kb uB db cb eb)
    (hh : ∀ s x w, x.HonestFrom 1 d w → (da s x).HonestFrom 1 d w) (hn : ka.Nodup) (hu : ∀ k ∈ kb, u k = uB k ++ ka)
    (hdis : ∀ k ∈ kb, ∀ j ∈ uB k, j ∉ ka) (hdis' : ∀ j ∈ ka, j ∉ kb) :
    (a.chain b).ClonesAs c d (ka ++ kb) u (fun (st : Option a.I.St × Option b.I.St) x => (x.part da st.1).part db st.2)
      (fun (st : Option a.I.St × Option b.I.St) w => (clonePart ca st.1 w).both (fun o x => x.part da o) (clonePart cb st.2))
      (fun s => ea s ++ eb s) := by
  obtain ⟨R, hs, hi, hd, hk, hc⟩ := ha
  obtain ⟨T, ts, ti, td, tk, tc⟩ := hb
  have hk' : ∀ (o : Option a.I.St) l, OptRel R o l → (l.map Prod.fst).Sublist ka := by
    rintro (_ | st) l h
    · cases h; exact List.nil_sublist _
    · exact hk st l h
  have tk' : ∀ (o : Option b.I.St) l, OptRel T o l → (l.map Prod.fst).Sublist kb := by
    rintro (_ | st) l h
    · cases h; exact List.nil_sublist _
    · exact tk st l h
  refine ⟨_, hs.chain ts, fun s => ⟨_, _, rfl, hi s, ti s⟩, ?_, ?_, ?_⟩
  · rintro st _ ⟨la, lb, rfl, h1, h2⟩ x
    rw [List.map_append]
    exact (accounted_part hd h1 x).append (accounted_part td h2 _)
  · rintro st _ ⟨la, lb, rfl, h1, h2⟩
    rw [List.map_append]
    exact (hk' _ _ h1).append (tk' _ _ h2)
  · rintro st _ ⟨la, lb, rfl, h1, h2⟩ w
    have sa := hk' _ _ h1
    have sb := tk' _ _ h2
    exact CloneRun.both (cloneRun_part hc h1 w) (cloneRun_part tc h2) (fun o l h x => accounted_part hd h x)
      (fun o x w hx => hx.part (fun t y hy => hh t y w hy) o) hn sa (fun k hk => hu k (sb.subset hk))
      (fun k hk j hj hm => hdis k (sb.subset hk) j hj (sa.subset hm)) (fun j hj hm => hdis' j hj (sb.subset hm))

theorem stepClonesAs_nil {S : Type} {e : S → List (K × V)} (he : ∀ s, e s = []) {u : K → List K} :
    (StepOf.nil S (K × V)).ClonesAs c d [] u (fun _ (x : Drops σ V) => x) (fun s w => .ok w s) e := by
  refine ⟨_, stepNil_sim _ _, fun s => ⟨[], rfl, (he s).symm⟩, ?_, ?_, ?_⟩
  · rintro _ _ rfl x
    exact .nil _ _
  · rintro _ _ rfl
    exact .refl _
  · rintro _ _ rfl w
    exact ⟨[], rfl, [], rfl, rfl, rfl⟩

theorem StepOf.ClonesAs.congr {S : Type} {F : StepOf S (K × V)} {ks : List K} {u : K → List K} {drop : F.St → Drops σ V → Drops σ V}
    {cl : F.St → σ → Cloned σ V F.St} {e e' : S → List (K × V)} (h : F.ClonesAs c d ks u drop cl e) (he : ∀ s, e s = e' s) :
    F.ClonesAs c d ks u drop cl e' := (funext he : e = e') ▸ h

theorem StepOf.ClonesAs.cons {S : Type} {it : IterOf S (K × V)} {F : StepOf S (K × V)} {ka kb : List K} {u uB : K → List K}
    {da : it.I.St → Drops σ V → Drops σ V} {db : F.St → Drops σ V → Drops σ V} {ca : it.I.St → σ → Cloned σ V it.I.St}
    {cb : F.St → σ → Cloned σ V F.St} {ea eb : S → List (K × V)}
    (hb : F.ClonesAs c d kb uB db cb eb) (ha : it.ClonesAs c d ka u da ca ea)
    (hh : ∀ s x w, x.HonestFrom 1 d w → (da s x).HonestFrom 1 d w) (hn : ka.Nodup) (hu : ∀ k ∈ kb, u k = uB k ++ ka)
    (hdis : ∀ k ∈ kb, ∀ j ∈ uB k, j ∉ ka) (hdis' : ∀ j ∈ ka, j ∉ kb) :
    (StepOf.cons it F).ClonesAs c d (ka ++ kb) u (fun (st : it.I.St × F.St) x => db st.2 (da st.1 x))
      (fun (st : it.I.St × F.St) w => (ca st.1 w).both da (cb st.2)) (fun s => ea s ++ eb s) := by
  obtain ⟨R, hs, hi, hd, hk, hc⟩ := ha
  obtain ⟨T, ts, ti, td, tk, tc⟩ := hb
  refine ⟨_, IsStepSim.cons hs ts, fun s => ?_, ?_, ?_, ?_⟩
  · obtain ⟨ls, h1, h2⟩ := ti s
    exact ⟨_, ⟨_, ls, rfl, hi s, h1⟩, by rw [List.flatten_cons, h2]⟩
  · rintro st _ ⟨l, ls, rfl, h1, h2⟩ x
    rw [List.flatten_cons, List.map_append]
    exact (hd _ _ h1 x).append (td _ _ h2 _)
  · rintro st _ ⟨l, ls, rfl, h1, h2⟩
    rw [List.flatten_cons, List.map_append]
    exact (hk _ _ h1).append (tk _ _ h2)
  · rintro st _ ⟨l, ls, rfl, h1, h2⟩ w
    have sa := hk _ _ h1
    have sb := tk _ _ h2
    rw [List.flatten_cons]
    refine (CloneRun.both (hc _ _ h1 w).len (tc _ _ h2) (fun o l h x => hd _ _ h.1 x)
      hh hn sa (fun k hk => hu k (sb.subset hk))
      (fun k hk j hj hm => hdis k (sb.subset hk) j hj (sa.subset hm)) (fun j hj hm => hdis' j hj (sb.subset hm))).imp ?_
    rintro s _ ⟨l1, l2, rfl, ⟨g1, g2⟩, ls', g3, rfl, g5⟩
    refine ⟨l1 :: ls', ⟨l1, ls', rfl, g1, g3⟩, rfl, ?_⟩
    rw [List.map_cons, List.map_cons, g5]
    congr 1
    simpa using congrArg List.length g2

theorem StepOf.ClonesAs.toIter {S : Type} {F : StepOf S (K × V)} {ks : List K} {u : K → List K} {drop : F.St → Drops σ V → Drops σ V}
    {cl : F.St → σ → Cloned σ V F.St} {e : S → List (K × V)} (h : F.ClonesAs c d ks u drop cl e) :
    F.toIter.ClonesAs c d ks u (fun (st : LoopSt F.St) x => drop st.fields x)
      (fun (st : LoopSt F.St) w => (cl st.fields w).map fun fields => ⟨st.start, st.stop, fields⟩) e := by
  obtain ⟨R, hs, hi, hd, hk, hc⟩ := h
  refine ⟨_, hs.toIter, fun s => ?_, ?_, ?_, ?_⟩
  · obtain ⟨ls, h1, h2⟩ := hi s
    exact h2 ▸ loopInv_init hs h1
  · rintro st _ ⟨ls, h1, _, _, _, _, rfl⟩ x
    exact hd _ _ h1 x
  · rintro st _ ⟨ls, h1, _, _, _, _, rfl⟩
    exact hk _ _ h1
  · rintro st _ ⟨ls, h1, h2, h3, h4, h5, rfl⟩ w
    refine (hc _ _ h1 w).map _ ?_
    rintro s _ ⟨ls', g1, rfl, g3⟩
    have hl : ls'.length = ls.length := by simpa using congrArg List.length g3
    have he : ∀ j (hj : j < ls'.length), ls'[j].length = (ls[j]'(hl ▸ hj)).length := by
      intro j hj
      have := List.getElem_of_eq g3 (i := j) (by simpa using hj)
      simpa using this
    refine ⟨ls', g1, h2, h3, ?_, ?_, rfl⟩
    · intro j hj hlt
      exact List.eq_nil_of_length_eq_zero (by rw [he j hj, h4 j (hl ▸ hj) hlt]; rfl)
    · intro j hj hge
      exact List.eq_nil_of_length_eq_zero (by rw [he j hj, h5 j (hl ▸ hj) hge]; rfl)
end

section
variable {n : Nat}

theorem cloneElems_run (w0 : σ) : (l pre acc : List (Fin n × Option V)) → (w : σ) →
    cloneRef c (pre.filterMap fun p => p.2.map fun v => (p.1, v)) w0 = ⟨w, acc.filterMap fun p => p.2.map fun v => (p.1, v), false⟩ →
    (((pre ++ l).filterMap fun p => p.2.map fun v => (p.1, v)).map Prod.fst).Sublist (List.finRange n) →
    CloneRun c d (fun s l => l = s.filterMap fun p => p.2.map fun v => (p.1, v))
      (fun i => (List.finRange n).filter fun j : Fin n => decide (j < i))
      ((pre ++ l).filterMap fun p => p.2.map fun v => (p.1, v)) w0 (cloneElems c d l acc w)
  | [], pre, acc, w, h1, h2 => by
    rw [List.append_nil]
    exact ⟨_, h1, rfl⟩
  | (i, none) :: l, pre, acc, w, h1, h2 => by
    have := cloneElems_run w0 l (pre ++ [(i, none)]) (acc ++ [(i, none)]) w (by simpa [List.filterMap_append] using h1) (by simpa using h2)
    simpa [cloneElems, cloneSlot] using this
  | (i, some v) :: l, pre, acc, w, h1, h2 => by
    simp only [cloneElems, cloneSlot]
    rcases hc : c w v with ⟨w', _ | v'⟩
    · refine ⟨pre.filterMap fun p => p.2.map fun v => (p.1, v), i, v, l.filterMap fun p => p.2.map fun v => (p.1, v), w', ?_, by rw [h1],
        by rw [h1]; exact hc, (honest_unwind d w').array _, ?_⟩
      · simp [List.filterMap_append]
      · rw [h1]
        have hk : (acc.filterMap fun p => p.2.map fun v => (p.1, v)).map Prod.fst =
            (pre.filterMap fun p => p.2.map fun v => (p.1, v)).map Prod.fst := by
          have := (cloneRef_keys (c := c) (pre.filterMap fun p => p.2.map fun v => (p.1, v)) w0).2
          rw [h1] at this
          exact this rfl
        have hs : ((pre.filterMap fun p => p.2.map fun v => (p.1, v)).map Prod.fst).Sublist
            ((List.finRange n).filter fun j : Fin n => decide (j < i)) := by
          rw [List.filterMap_append, List.map_append] at h2
          have hp := (List.pairwise_lt_finRange n).sublist h2
          rw [List.pairwise_append] at hp
          have := ((List.sublist_append_left _ _).trans h2).filter (fun j : Fin n => decide (j < i))
          rw [List.filter_eq_self.mpr] at this
          · exact this
          · intro j hj
            have := hp.2.2 j hj i (by simp)
            simpa using this
        simp only
        rw [filterMap_get ((List.nodup_finRange n).filter _) (by rw [hk]; exact hs), filterMap_pairs]
        exact accounted_array true _ _
    · have := cloneElems_run w0 l (pre ++ [(i, some v)]) (acc ++ [(i, some v')]) w'
        (by
          rw [List.filterMap_append, cloneRef_append, h1]
          simp [cloneRef, hc])
        (by simpa using h2)
      simpa using this

theorem clonesAs_flat :
    (IterOf.flat (fun p : Fin n × Option V => p.2.map fun v => (p.1, v)) (unitsPairs (n := n))).ClonesAs c d (List.finRange n)
      (fun i => (List.finRange n).filter fun j : Fin n => decide (j < i))
      (fun (st : FlatSt (Fin n × Option V) (Fin n × V)) (x : Drops σ V) => x.flat d st)
      (fun (st : FlatSt (Fin n × Option V) (Fin n × V)) w => cloneFlatD c d st w)
      (fun s => unitsEntries (List.finRange n) s) := by
  let f := fun p : Fin n × Option V => p.2.map fun v => (p.1, v)
  have key : IsSim (flatIter f) (fun st l => FlatIdle st ∧ l = flatList f st ∧ (l.map Prod.fst).Sublist (List.finRange n)) := by
    have h := flat_sim f
    refine ⟨?_, ?_, ?_⟩
    · rintro ⟨fr, l, bk⟩ _ ⟨hi, rfl, hk⟩
      refine ⟨(h.next _ _ rfl).1, (flatNext_idle f l fr bk hi.2).1, (h.next _ _ rfl).2, ?_⟩
      rw [List.map_tail]
      exact (List.tail_sublist _).trans hk
    · rintro nb hnb ⟨fr, l, bk⟩ _ ⟨hi, rfl, hk⟩
      refine ⟨(h.back nb hnb _ _ rfl).1, ?_, (h.back nb hnb _ _ rfl).2, ?_⟩
      · cases hnb
        exact (flatNextBack_idle f l.reverse fr bk hi.1).1
      · rw [List.map_dropLast]
        exact (List.dropLast_sublist _).trans hk
    · rintro st _ ⟨_, rfl, _⟩
      exact h.hint _ _ rfl
  refine ⟨_, key, fun s => ⟨⟨rfl, rfl⟩, ?_, unitsEntries_sublist _ s⟩, ?_, fun _ _ h => h.2.2, ?_⟩
  · show unitsEntries _ s = innerList none ++ (unitsPairs s).filterMap f ++ innerList none
    simp [innerList, unitsPairs, unitsEntries, List.filterMap_map, f, Function.comp_def]
  · rintro ⟨fr, l, bk⟩ _ ⟨⟨h1, h2⟩, rfl, -⟩ x
    have h3 : ∀ (o : Option (Option (Fin n × V))) (y : Drops σ V), innerLen o = 0 →
        y.part (fun o x => x.slot d (o.map Prod.snd)) o = y ∧ innerList o = [] := by
      rintro (_ | _ | a) y h
      · exact ⟨rfl, rfl⟩
      · exact ⟨rfl, rfl⟩
      · cases h
    show Accounted true x (((x.array d (l.map Prod.snd)).part _ fr).part _ bk)
      ((innerList fr ++ l.filterMap f ++ innerList bk).map Prod.snd)
    rw [(h3 fr _ h1).1, (h3 bk _ h2).1, (h3 fr x h1).2, (h3 bk x h2).2, List.nil_append, List.append_nil]
    show Accounted true x _ ((l.filterMap fun p => p.2.map fun v => (p.1, v)).map Prod.snd)
    rw [filterMap_pairs]
    exact accounted_array true x _
  · rintro ⟨fr, l, bk⟩ _ ⟨⟨h1, h2⟩, rfl, hk⟩ w
    have h3 : ∀ (o : Option (Option (Fin n × V))) (w : σ), innerLen o = 0 →
        clonePart (cloneEntry c) o w = .ok w o ∧ innerList o = [] := by
      rintro (_ | _ | a) y h
      · exact ⟨rfl, rfl⟩
      · exact ⟨rfl, rfl⟩
      · cases h
    have e : flatList f ⟨fr, l, bk⟩ = l.filterMap f := by
      show innerList fr ++ l.filterMap f ++ innerList bk = _
      rw [(h3 fr w h1).2, (h3 bk w h2).2, List.nil_append, List.append_nil]
    rw [e] at hk ⊢
    have hr := (cloneElems_run (c := c) (d := d) w l [] [] w rfl (by simpa using hk)).len
    rw [List.nil_append] at hr
    simp only [cloneFlatD]
    cases he : cloneElems c d l [] w with
    | panicked x =>
      rw [he] at hr
      exact hr
    | ok w' l' =>
      rw [he] at hr
      obtain ⟨made, g1, rfl, g3⟩ := hr
      simp only [Cloned.both, (h3 fr w' h1).1, (h3 bk w' h2).1, Cloned.map]
      refine ⟨_, g1, ⟨h1, h2⟩, ?_, by rw [g3]; exact hk⟩
      show l'.filterMap f = innerList fr ++ l'.filterMap f ++ innerList bk
      rw [(h3 fr w h1).2, (h3 bk w h2).2, List.nil_append, List.append_nil]
end

theorem clonesAs_unit : (IterOf.option fun s : Option V => s.map fun v => ((), v)).ClonesAs c d [()] (fun _ => [])
    (fun (st : Option (Unit × V)) (x : Drops σ V) => x.slot d (st.map Prod.snd)) (fun (st : Option (Unit × V)) w => cloneEntry c st w)
    (fun s => slotEntries () s) := by
  refine ⟨_, option_sim _, fun s => ?_, ?_, ?_, ?_⟩
  · cases s <;> rfl
  · rintro (_ | ⟨_, v⟩) _ rfl x
    · exact .nil _ _
    · exact accounted_slot true x (some v)
  · rintro (_ | ⟨_, v⟩) _ rfl <;> simp
  · rintro (_ | ⟨_, v⟩) _ rfl w
    · exact ⟨[], rfl, rfl⟩
    · refine (cloneRun_slot (c := c) (d := d) () (u := fun _ => []) rfl (some v) w).map _ ?_
      rintro (_ | v) _ rfl <;> rfl

mutual
theorem intoIter_clonesAs (H : Hashbrown) (held : HeldApi H.api V) (c : Cloner σ V) (d : Dtor σ V) : (κ : KeyTy) →
    κ.hashFree = true → ∃ f, κ.cloneIntoIterD H.api held c d = some f ∧
      (mapStorage H.api V κ).intoIter.ClonesAs c d κ.allKeys κ.unwindKeys (κ.dropIntoIter H.api held d) f (mapCore H V κ).entries
  | .bool, _ => ⟨_, rfl, (clonesAs_slot (d := d) (fun s : BoolMapSt V => s.t) true (u := KeyTy.unwindKeys .bool) rfl).chain
      (clonesAs_slot (d := d) (u := fun _ => []) (fun s : BoolMapSt V => s.f) false rfl) (fun o x w h => h.slot o) (by simp)
      (by intro k hk; cases List.mem_singleton.mp hk; rfl) (fun _ _ _ h => nomatch h)
      (by intro j hj hm; cases List.mem_singleton.mp hj; cases List.mem_singleton.mp hm)⟩
  | .unit, _ => ⟨_, rfl, clonesAs_unit (d := d)⟩
  | .opt κ, h => by
    obtain ⟨f, e, hf⟩ := intoIter_clonesAs H held c d κ h
    refine ⟨_, by rw [KeyTy.cloneIntoIterD, e]; rfl, ?_⟩
    exact (hf.rename (OptMapSt.some (V := V)) (u' := KeyTy.unwindKeys (.opt κ)) (fun _ _ e => Option.some.inj e) (fun _ => rfl)).chain
      (clonesAs_slot (d := d) (u := fun _ => []) (fun s : OptMapSt (mapStorage H.api V κ).S V => s.none) none rfl)
      (fun s x w hx => dropIntoIter_honest H.api held d w κ s x hx)
      (nodup_map_inj (fun _ _ e => Option.some.inj e) (nodup_allKeys κ))
      (by intro k hk; cases List.mem_singleton.mp hk; rfl) (fun _ _ _ h => nomatch h) (by simp)
  | .units n, _ => ⟨_, rfl, clonesAs_flat (d := d)⟩
  | .bitset n _ _, _ => ⟨_, rfl, clonesAs_flat (d := d)⟩
  | .enum fs, h => by
    obtain ⟨f, e, hf⟩ := fieldsIntoIter_clonesAs H held c d fs h
    exact ⟨_, by rw [KeyTy.cloneIntoIterD, e]; rfl, hf.toIter⟩
theorem fieldsIntoIter_clonesAs (H : Hashbrown) (held : HeldApi H.api V) (c : Cloner σ V) (d : Dtor σ V) : (fs : Fields) →
    fs.hashFree = true → ∃ f, fs.cloneIntoIterD H.api held c d = some f ∧
      (mapFields H.api V fs).intoIter.ClonesAs c d fs.allKeys fs.unwindKeys (fs.dropIntoIter H.api held d) f (fieldsCore H V fs).entries
  | .nil, _ => ⟨_, rfl, stepClonesAs_nil fun _ => rfl⟩
  | .simple fs, h => by
    obtain ⟨f, e, hf⟩ := fieldsIntoIter_clonesAs H held c d fs h
    refine ⟨_, by rw [Fields.cloneIntoIterD, e]; rfl, ?_⟩
    refine ((hf.rename (Prod.snd (α := Option V)) (g := Sum.inr (α := Unit)) (fun _ _ e => Sum.inr.inj e)
        (u' := fun k => match k with | .inl _ => [] | .inr k => (fs.unwindKeys k).map Sum.inr) (fun _ => rfl)).cons
      (clonesAs_slot (d := d) (u := Fields.unwindKeys (.simple fs)) (fun s : Option V × (mapFields H.api V fs).S => s.1) (Sum.inl ()) rfl)
      (fun o x w h => h.slot o) (by simp) ?_ ?_ (by simp)).congr
      (fun s => congrArg (· ++ _) (by cases s.1 <;> rfl))
    · intro k hk
      obtain ⟨k, _, rfl⟩ := List.mem_map.mp hk
      rfl
    · intro k hk j hj hm
      obtain ⟨k, _, rfl⟩ := List.mem_map.mp hk
      obtain ⟨_, _, rfl⟩ := List.mem_map.mp hj
      simp at hm
  | .complex κ fs, h => by
    have h := Bool.and_eq_true_iff.mp h
    obtain ⟨f, e, hf⟩ := fieldsIntoIter_clonesAs H held c d fs h.2
    obtain ⟨f', e', hf'⟩ := intoIter_clonesAs H held c d κ h.1
    refine ⟨_, by rw [Fields.cloneIntoIterD, e, e']; rfl, ?_⟩
    refine ((hf.rename (Prod.snd (α := (mapStorage H.api V κ).S)) (g := Sum.inr (α := κ.Key)) (fun _ _ e => Sum.inr.inj e)
        (u' := fun k => match k with | .inl _ => [] | .inr k => (fs.unwindKeys k).map Sum.inr) (fun _ => rfl)).cons
      (hf'.rename (Prod.fst (β := (mapFields H.api V fs).S)) (g := Sum.inl (β := fs.Key)) (fun _ _ e => Sum.inl.inj e)
        (u' := Fields.unwindKeys (.complex κ fs)) (fun _ => rfl))
      (fun s x w hx => dropIntoIter_honest H.api held d w κ s x hx) (nodup_map_inj (fun _ _ e => Sum.inl.inj e) (nodup_allKeys κ)) ?_ ?_ (by simp))
    · intro k hk
      obtain ⟨k, _, rfl⟩ := List.mem_map.mp hk
      rfl
    · intro k hk j hj hm
      obtain ⟨k, _, rfl⟩ := List.mem_map.mp hk
      obtain ⟨_, _, rfl⟩ := List.mem_map.mp hj
      simp at hm
end

end FixedMap
