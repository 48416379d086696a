import Verif.Spec.IterDrop
import Verif.Proofs.DropPanic
import Verif.Proofs.ExactHint

/-! # Dropping an owning iterator: helper lemmas -/

set_option autoImplicit false
set_option linter.unusedSimpArgs false

namespace FixedMap

variable {np : Nat}
variable {σ V : Type} {d : Dtor σ V}

/-- The states of the iterator stand for lists, starting with `e s`, and dropping a state drops the values of its list. -/
def IterOf.DropsAs {S K : Type} (it : IterOf S (K × V)) (hf : Bool) (drop : it.I.St → Drops σ V → Drops σ V)
    (e : S → List (K × V)) : Prop :=
  ∃ R, IsSim it.I R ∧ (∀ s, R (it.init s) (e s)) ∧ ∀ st l, R st l → ∀ x, Accounted hf x (drop st x) (l.map Prod.snd)

/-- The same for the fields of a generated iterator. -/
def StepOf.DropsAs {S K : Type} (F : StepOf S (K × V)) (hf : Bool) (drop : F.St → Drops σ V → Drops σ V)
    (e : S → List (K × V)) : Prop :=
  ∃ R, IsStepSim F R ∧ (∀ s, ∃ ls, R (F.init s) ls ∧ ls.flatten = e s) ∧
    ∀ st ls, R st ls → ∀ x, Accounted hf x (drop st x) (ls.flatten.map Prod.snd)

theorem IterOf.DropsAs.run {S K : Type} {it : IterOf S (K × V)} {hf : Bool} {drop : it.I.St → Drops σ V → Drops σ V}
    {e : S → List (K × V)} (h : it.DropsAs hf drop e) (s : S) {ds : List Dir} {outs : List (Option (K × V))} {st : it.I.St}
    (hr : it.I.run ds (it.init s) = some (outs, st)) (x : Drops σ V) :
    Accounted hf x (drop st x) ((dequeRun ds (e s)).2.map Prod.snd) := by
  obtain ⟨R, hs, hi, hd⟩ := h
  exact hd _ _ (hs.run ds (hi s) hr) x

theorem dropsAs_slot {S K : Type} (p : S → Option V) (k : K) :
    ((IterOf.option p).map fun v => (k, v)).DropsAs true (fun (o : Option V) (x : Drops σ V) => x.slot d o)
      (fun s => slotEntries k (p s)) := by
  refine ⟨_, (option_sim V).map fun v => (k, v), fun s => ⟨_, rfl, rfl⟩, ?_⟩
  rintro (st : Option V) _ ⟨_, rfl, rfl⟩ x
  exact accounted_slotEntries k x st

theorem IterOf.DropsAs.rename {S T K K' : Type} {it : IterOf S (K × V)} {hf : Bool} {drop : it.I.St → Drops σ V → Drops σ V}
    {e : S → List (K × V)} (h : it.DropsAs hf drop e) (p : T → S) (g : K → K') :
    ((it.comap p).map fun q => (g q.1, q.2)).DropsAs hf drop (fun t => renameKeys g (e (p t))) := by
  obtain ⟨R, hs, hi, hd⟩ := h
  refine ⟨_, hs.map fun q => (g q.1, q.2), fun t => ⟨e (p t), rfl, hi (p t)⟩, ?_⟩
  rintro st _ ⟨l, rfl, hl⟩ x
  have := hd st l hl x
  rw [← renameKeys_snd g] at this
  exact this

theorem StepOf.DropsAs.rename {S T K K' : Type} {F : StepOf S (K × V)} {hf : Bool} {drop : F.St → Drops σ V → Drops σ V}
    {e : S → List (K × V)} (h : F.DropsAs hf drop e) (p : T → S) (g : K → K') :
    ((F.comap p).map fun q => (g q.1, q.2)).DropsAs hf drop (fun t => renameKeys g (e (p t))) := by
  obtain ⟨R, hs, hi, hd⟩ := h
  refine ⟨_, (hs.comap p).map fun q => (g q.1, q.2), fun t => ?_, ?_⟩
  · obtain ⟨ls, h1, h2⟩ := hi (p t)
    exact ⟨_, ⟨ls, rfl, h1⟩, by rw [← List.map_flatten, h2]; rfl⟩
  · rintro st _ ⟨ls, rfl, hl⟩ x
    have := hd st ls hl x
    rw [← renameKeys_snd g] at this
    rw [← List.map_flatten]
    exact this

theorem accounted_part {T K : Type} {R : T → List (K × V) → Prop} {hf : Bool} {f : T → Drops σ V → Drops σ V}
    (h : ∀ t l, R t l → ∀ x, Accounted hf x (f t x) (l.map Prod.snd)) {o : Option T} {l : List (K × V)} (ho : OptRel R o l)
    (x : Drops σ V) : Accounted hf x (x.part f o) (l.map Prod.snd) := by
  cases o with
  | none => cases ho; exact .nil _ _
  | some t => exact h t l ho x

theorem IterOf.DropsAs.chain {S K : Type} {a b : IterOf S (K × V)} {hf hg : Bool} {da : a.I.St → Drops σ V → Drops σ V}
    {db : b.I.St → Drops σ V → Drops σ V} {ea eb : S → List (K × V)} (ha : a.DropsAs hf da ea) (hb : b.DropsAs hg db eb) :
    (a.chain b).DropsAs (hf && hg)
      (fun (st : Option a.I.St × Option b.I.St) x => (x.part da st.1).part db st.2) (fun s => ea s ++ eb s) := by
  obtain ⟨R, hs, hi, hd⟩ := ha
  obtain ⟨T, ts, ti, td⟩ := hb
  refine ⟨_, hs.chain ts, fun s => ⟨_, _, rfl, hi s, ti s⟩, ?_⟩
  rintro st _ ⟨la, lb, rfl, h1, h2⟩ x
  rw [List.map_append]
  exact (accounted_part hd h1 x).append (accounted_part td h2 _)

theorem filterMap_pairs {n : Nat} (l : List (Fin n × Option V)) :
    (l.filterMap fun p => p.2.map fun v => (p.1, v)).map Prod.snd = (l.map Prod.snd).flatMap Option.toList := by
  induction l with
  | nil => rfl
  | cons p l ih =>
    obtain ⟨i, _ | v⟩ := p
    · exact ih
    · exact congrArg (v :: ·) ih

theorem dropsAs_flat {n : Nat} :
    (IterOf.flat (fun p : Fin n × Option V => p.2.map fun v => (p.1, v)) (unitsPairs (n := n))).DropsAs true
      (fun (st : FlatSt (Fin n × Option V) (Fin n × V)) (x : Drops σ V) => x.flat d st)
      (fun s => unitsEntries (List.finRange n) s) := by
  let f := fun p : Fin n × Option V => p.2.map fun v => (p.1, v)
  have key : IsSim (flatIter f) (fun st l => FlatIdle st ∧ l = flatList f st) := by
    have h := flat_sim f
    refine ⟨?_, ?_, ?_⟩
    · rintro ⟨fr, l, bk⟩ _ ⟨hi, rfl⟩
      exact ⟨(h.next _ _ rfl).1, (flatNext_idle f l fr bk hi.2).1, (h.next _ _ rfl).2⟩
    · rintro nb hnb ⟨fr, l, bk⟩ _ ⟨hi, rfl⟩
      refine ⟨(h.back nb hnb _ _ rfl).1, ?_, (h.back nb hnb _ _ rfl).2⟩
      cases hnb
      exact (flatNextBack_idle f l.reverse fr bk hi.1).1
    · rintro st _ ⟨_, rfl⟩
      exact h.hint _ _ rfl
  refine ⟨_, key, fun s => ⟨⟨rfl, rfl⟩, ?_⟩, ?_⟩
  · show unitsEntries _ s = innerList none ++ (unitsPairs s).filterMap f ++ innerList none
    simp [innerList, unitsPairs, unitsEntries, List.filterMap_map, f, Function.comp_def]
  · rintro ⟨fr, l, bk⟩ _ ⟨⟨h1, h2⟩, rfl⟩ x
    have h3 : ∀ (o : Option (Option (Fin n × V))) (y : Drops σ V), innerLen o = 0 →
        y.part (fun o x => x.slot d (o.map Prod.snd)) o = y ∧ innerList o = [] := by
      rintro (_ | _ | a) y h
      · exact ⟨rfl, rfl⟩
      · exact ⟨rfl, rfl⟩
      · cases h
    show Accounted true x (((x.array d (l.map Prod.snd)).part _ fr).part _ bk)
      ((innerList fr ++ l.filterMap f ++ innerList bk).map Prod.snd)
    rw [(h3 fr _ h1).1, (h3 bk _ h2).1, (h3 fr x h1).2, (h3 bk x h2).2, List.nil_append, List.append_nil]
    show Accounted true x _ ((l.filterMap fun p => p.2.map fun v => (p.1, v)).map Prod.snd)
    rw [filterMap_pairs]
    exact accounted_array true x _

theorem dropsAs_hash {K : Type} {A : HashMapApi K V} (L : HashMapLaws A) (held : A.into_iter.I.St → List V)
    (h : ∀ t ds outs st, A.into_iter.I.run ds (A.into_iter.init t) = some (outs, st) →
      (held st).Perm ((dequeRun ds (L.entries t)).2.map Prod.snd)) :
    A.into_iter.DropsAs false (fun st (x : Drops σ V) => x.table d (held st)) L.entries := by
  refine ⟨fun st l => ∃ t ds outs, A.into_iter.I.run ds (A.into_iter.init t) = some (outs, st) ∧ l = (dequeRun ds (L.entries t)).2,
    ⟨?_, ?_, ?_⟩, fun s => ⟨s, [], [], rfl, rfl⟩, ?_⟩
  · rintro st _ ⟨t, ds, outs, hr, rfl⟩
    have hr' := A.into_iter.I.run_append ds .front _ hr (r := A.into_iter.I.next st) rfl
    have a1 := (L.into_iter_like t _ _ _ hr).1
    have a2 := (L.into_iter_like t _ _ _ hr').1
    rw [dequeRun_append, a1] at a2
    refine ⟨by simpa [dequeStep] using List.append_cancel_left a2, t, _, _, hr', ?_⟩
    rw [dequeRun_append]
    rfl
  · rintro nb hnb st _ ⟨t, ds, outs, hr, rfl⟩
    have hr' := A.into_iter.I.run_append ds .back _ hr (r := nb st) (by simp [IterImpl.step, hnb])
    have a1 := (L.into_iter_like t _ _ _ hr).1
    have a2 := (L.into_iter_like t _ _ _ hr').1
    rw [dequeRun_append, a1] at a2
    refine ⟨by simpa [dequeStep] using List.append_cancel_left a2, t, _, _, hr', ?_⟩
    rw [dequeRun_append]
    rfl
  · rintro st _ ⟨t, ds, outs, hr, rfl⟩
    exact (L.into_iter_like t _ _ _ hr).2
  · rintro st _ ⟨t, ds, outs, hr, rfl⟩ x
    exact (accounted_table x _).perm (h t ds outs st hr)

theorem dropsAs_unit : (IterOf.option fun s : Option V => s.map fun v => ((), v)).DropsAs true
    (fun (st : Option (Unit × V)) (x : Drops σ V) => x.slot d (st.map Prod.snd)) (fun s => slotEntries () s) := by
  refine ⟨_, option_sim _, fun s => ?_, ?_⟩
  · cases s <;> rfl
  · rintro (_ | ⟨_, v⟩) _ rfl x
    · exact .nil _ _
    · exact accounted_slot true x (some v)

theorem stepDropsAs_nil {S K : Type} {e : S → List (K × V)} (he : ∀ s, e s = []) :
    (StepOf.nil S (K × V)).DropsAs true (fun _ (x : Drops σ V) => x) e := by
  refine ⟨_, stepNil_sim _ _, fun s => ⟨[], rfl, (he s).symm⟩, ?_⟩
  rintro _ _ rfl x
  exact .nil _ _

theorem StepOf.DropsAs.congr {S K : Type} {F : StepOf S (K × V)} {hf : Bool} {drop : F.St → Drops σ V → Drops σ V}
    {e e' : S → List (K × V)} (h : F.DropsAs hf drop e) (he : ∀ s, e s = e' s) : F.DropsAs hf drop e' :=
  (funext he : e = e') ▸ h

theorem StepOf.DropsAs.cons {S K : Type} {it : IterOf S (K × V)} {F : StepOf S (K × V)} {hf hg : Bool}
    {da : it.I.St → Drops σ V → Drops σ V} {db : F.St → Drops σ V → Drops σ V} {ea eb : S → List (K × V)}
    (hb : F.DropsAs hg db eb) (ha : it.DropsAs hf da ea) :
    (StepOf.cons it F).DropsAs (hf && hg) (fun (st : it.I.St × F.St) x => db st.2 (da st.1 x)) (fun s => ea s ++ eb s) := by
  obtain ⟨R, hs, hi, hd⟩ := ha
  obtain ⟨T, ts, ti, td⟩ := hb
  refine ⟨_, IsStepSim.cons hs ts, fun s => ?_, ?_⟩
  · obtain ⟨ls, h1, h2⟩ := ti s
    exact ⟨_, ⟨_, ls, rfl, hi s, h1⟩, by rw [List.flatten_cons, h2]⟩
  · rintro st _ ⟨l, ls, rfl, h1, h2⟩ x
    rw [List.flatten_cons, List.map_append]
    exact (hd _ _ h1 x).append (td _ _ h2 _)

theorem StepOf.DropsAs.toIter {S K : Type} {F : StepOf S (K × V)} {hf : Bool} {drop : F.St → Drops σ V → Drops σ V}
    {e : S → List (K × V)} (h : F.DropsAs hf drop e) :
    F.toIter.DropsAs hf (fun (st : LoopSt F.St) x => drop st.fields x) e := by
  obtain ⟨R, hs, hi, hd⟩ := h
  refine ⟨_, hs.toIter, fun s => ?_, ?_⟩
  · obtain ⟨ls, h1, h2⟩ := hi s
    exact h2 ▸ loopInv_init hs h1
  · rintro st _ ⟨ls, h1, _, _, _, _, rfl⟩ x
    exact hd _ _ h1 x

mutual
theorem intoIter_dropsAs (H : Hashbrown) {held : HeldApi H.api V} (hh : HeldLaw H V held) (d : Dtor σ V) : (κ : KeyTy) →
    (mapStorage H.api V κ).intoIter.DropsAs κ.hashFree (κ.dropIntoIter H.api held d) (mapCore H V κ).entries
  | .bool => (dropsAs_slot (d := d) (fun s : BoolMapSt V => s.t) true).chain (dropsAs_slot (d := d) (fun s : BoolMapSt V => s.f) false)
  | .unit => dropsAs_unit (d := d)
  | .opt κ => by
    have h := ((intoIter_dropsAs H hh d κ).rename (OptMapSt.some (V := V)) some).chain
      (dropsAs_slot (d := d) (fun s : OptMapSt (mapStorage H.api V κ).S V => s.none) none)
    rw [Bool.and_true] at h
    exact h
  | .prim p => dropsAs_hash (d := d) (H.laws p.Key V) _ fun t ds outs st => hh p.Key t ds outs st
  | .units n => dropsAs_flat (d := d)
  | .bitset n _ _ => dropsAs_flat (d := d)
  | .enum fs => (fieldsIntoIter_dropsAs H hh d fs).toIter
theorem fieldsIntoIter_dropsAs (H : Hashbrown) {held : HeldApi H.api V} (hh : HeldLaw H V held) (d : Dtor σ V) : (fs : Fields) →
    (mapFields H.api V fs).intoIter.DropsAs fs.hashFree (fs.dropIntoIter H.api held d) (fieldsCore H V fs).entries
  | .nil => stepDropsAs_nil fun _ => rfl
  | .simple fs =>
    (((fieldsIntoIter_dropsAs H hh d fs).rename Prod.snd Sum.inr).cons
      (dropsAs_slot (d := d) (fun s : Option V × (mapFields H.api V fs).S => s.1) (Sum.inl ()))).congr
      (fun s => congrArg (· ++ _) (by cases s.1 <;> rfl))
  | .complex κ fs =>
    ((fieldsIntoIter_dropsAs H hh d fs).rename Prod.snd Sum.inr).cons ((intoIter_dropsAs H hh d κ).rename Prod.fst Sum.inl)
end

theorem Drops.HonestFrom.part {T : Type} {f : T → Drops σ V → Drops σ V} {st : σ} {x : Drops σ V} (h : x.HonestFrom np d st)
    (hf : ∀ t y, y.HonestFrom np d st → (f t y).HonestFrom np d st) (o : Option T) : (x.part f o).HonestFrom np d st := by
  cases o with
  | none => exact h
  | some t => exact hf t x h

theorem Drops.HonestFrom.flat {n : Nat} {st : σ} {x : Drops σ V} (h : x.HonestFrom np d st) (s : FlatSt (Fin n × Option V) (Fin n × V)) :
    (x.flat d s).HonestFrom np d st :=
  ((h.array _).part (fun _ _ g => g.slot _) _).part (fun _ _ g => g.slot _) _

mutual
theorem dropIntoIter_honest (H : HashbrownApi) (held : HeldApi H V) (d : Dtor σ V) (st : σ) : (κ : KeyTy) → ∀ s x,
    x.HonestFrom np d st → (κ.dropIntoIter H held d s x).HonestFrom np d st
  | .bool => fun (s : Option (Option V) × Option (Option V)) _ h =>
    (h.part (fun _ _ g => g.slot _) s.1).part (fun _ _ g => g.slot _) s.2
  | .unit => fun (s : Option (Unit × V)) _ h => h.slot (s.map Prod.snd)
  | .opt κ => fun (s : Option ((mapStorage H V κ).intoIter.I.St) × Option (Option V)) _ h =>
    (h.part (dropIntoIter_honest H held d st κ) s.1).part (fun _ _ g => g.slot _) s.2
  | .prim p => fun s _ h => h.table (held p.Key s)
  | .units _ => fun s _ h => h.flat s
  | .bitset _ _ _ => fun s _ h => h.flat s
  | .enum fs => fun (s : LoopSt (mapFields H V fs).intoIter.St) x h => fieldsDropIntoIter_honest H held d st fs s.fields x h
theorem fieldsDropIntoIter_honest (H : HashbrownApi) (held : HeldApi H V) (d : Dtor σ V) (st : σ) : (fs : Fields) → ∀ s x,
    x.HonestFrom np d st → (fs.dropIntoIter H held d s x).HonestFrom np d st
  | .nil => fun _ _ h => h
  | .simple fs => fun (s : Option V × (mapFields H V fs).intoIter.St) _ h =>
    fieldsDropIntoIter_honest H held d st fs s.2 _ (h.slot s.1)
  | .complex κ fs => fun (s : (mapStorage H V κ).intoIter.I.St × (mapFields H V fs).intoIter.St) x h =>
    fieldsDropIntoIter_honest H held d st fs s.2 _ (dropIntoIter_honest H held d st κ s.1 x h)
end

end FixedMap
