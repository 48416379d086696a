import Verif.Proofs.DropBatches
import Verif.Proofs.IterDrop

/-! # Dropping an owning iterator, exactly: proofs -/

set_option autoImplicit false
set_option linter.unusedSimpArgs false

namespace FixedMap

variable {σ V : Type} {d : Dtor σ V}

/-- Dropping the state `st`, which holds the entries `l` with keys in `P`, drops them in batches. -/
def HoldsBatches {St K : Type} (d : Dtor σ V) (T : K → K → Bool) (inT P : K → Bool) (drop : St → Drops σ V → Drops σ V) (st : St)
    (l : List (K × V)) : Prop :=
  (∀ p ∈ l, P p.1 = true) ∧ ∃ bs, IsBatches T inT bs l ∧ ∀ x, drop st x = dropBatches d bs x

/-- The states of the iterator stand for lists, starting with `e s`, and dropping a state drops its list in batches. -/
def IterOf.DropsBy {S K : Type} (it : IterOf S (K × V)) (d : Dtor σ V) (T : K → K → Bool) (inT P : K → Bool)
    (drop : it.I.St → Drops σ V → Drops σ V) (e : S → List (K × V)) : Prop :=
  ∃ R, IsSim it.I R ∧ (∀ s, R (it.init s) (e s)) ∧ ∀ st l, R st l → HoldsBatches d T inT P drop st l

/-- The same for the fields of a generated iterator. -/
def StepOf.DropsBy {S K : Type} (F : StepOf S (K × V)) (d : Dtor σ V) (T : K → K → Bool) (inT P : K → Bool)
    (drop : F.St → Drops σ V → Drops σ V) (e : S → List (K × V)) : Prop :=
  ∃ R, IsStepSim F R ∧ (∀ s, ∃ ls, R (F.init s) ls ∧ ls.flatten = e s) ∧
    ∀ st ls, R st ls → HoldsBatches d T inT P drop st ls.flatten

section
variable {St K K' : Type} {T : K → K → Bool} {inT P : K → Bool} {drop : St → Drops σ V → Drops σ V}

theorem HoldsBatches.rename {st : St} {l : List (K × V)} (h : HoldsBatches d T inT P drop st l) (g : K → K')
    {T' : K' → K' → Bool} {inT' P' : K' → Bool} (hT : ∀ a b, T' (g a) (g b) = T a b) (hi : ∀ a, inT' (g a) = inT a)
    (hP : ∀ a, P a = true → P' (g a) = true) : HoldsBatches d T' inT' P' drop st (renameKeys g l) := by
  obtain ⟨h1, bs, h2, h3⟩ := h
  refine ⟨fun p hp => ?_, _, h2.rename g hT hi, fun x => (h3 x).trans (dropBatches_rename g bs x).symm⟩
  obtain ⟨q, hq, rfl⟩ := List.mem_map.1 hp
  exact hP _ (h1 q hq)

theorem HoldsBatches.nil {st : St} (h : ∀ x, drop st x = x) : HoldsBatches d T inT P drop st [] :=
  ⟨fun _ h => (nomatch h), [], .nil, h⟩

theorem HoldsBatches.append {St' : Type} {drop' : St' → Drops σ V → Drops σ V} {st : St} {st' : St'} {l l' : List (K × V)}
    {Q : K → Bool} (h : HoldsBatches d T inT P drop st l) (h' : HoldsBatches d T inT Q drop' st' l')
    (hPQ : ∀ a b, P a = true → Q b = true → T a b = false) {W : K → Bool} (hW : ∀ a, P a = true → W a = true)
    (hW' : ∀ a, Q a = true → W a = true) :
    HoldsBatches d T inT W (fun s : St × St' => fun x => drop' s.2 (drop s.1 x)) (st, st') (l ++ l') := by
  obtain ⟨h1, bs, h2, h3⟩ := h
  obtain ⟨g1, cs, g2, g3⟩ := h'
  refine ⟨fun p hp => (List.mem_append.1 hp).elim (fun h => hW _ (h1 p h)) (fun h => hW' _ (g1 p h)), bs ++ cs,
    h2.append g2 fun p hp q hq => hPQ _ _ (h1 p hp) (g1 q hq), fun x => ?_⟩
  rw [dropBatches_append, ← h3, ← g3]

theorem HoldsBatches.part {R : St → List (K × V) → Prop} (h : ∀ t l, R t l → HoldsBatches d T inT P drop t l) {o : Option St}
    {l : List (K × V)} (ho : OptRel R o l) : HoldsBatches d T inT P (fun o x => x.part drop o) o l := by
  cases o with
  | none => cases ho; exact .nil fun _ => rfl
  | some t => exact h t l ho
end

theorem IterOf.DropsBy.run {S K : Type} {it : IterOf S (K × V)} {T : K → K → Bool} {inT P : K → Bool}
    {drop : it.I.St → Drops σ V → Drops σ V} {e : S → List (K × V)} (h : it.DropsBy d T inT P drop e) (s : S) {ds : List Dir}
    {outs : List (Option (K × V))} {st : it.I.St} (hr : it.I.run ds (it.init s) = some (outs, st)) :
    HoldsBatches d T inT P drop st (dequeRun ds (e s)).2 := by
  obtain ⟨R, hs, hi, hd⟩ := h
  exact hd _ _ (hs.run ds (hi s) hr)

theorem holds_slot {K : Type} (k : K) {T : K → K → Bool} {inT P : K → Bool} (hT : T k k = true) (hi : inT k = false)
    (hP : P k = true) (o : Option V) :
    HoldsBatches d T inT P (fun (o : Option V) (x : Drops σ V) => x.slot d o) o (slotEntries k o) :=
  ⟨fun p hp => (slotEntries_key p hp).symm ▸ hP, _, (batchLaw_slot (d := d) k T inT hT hi o).is,
    (batchLaw_slot (d := d) k T inT hT hi o).drop⟩

theorem dropsBy_slot {S K : Type} (p : S → Option V) (k : K) {T : K → K → Bool} {inT P : K → Bool} (hT : T k k = true)
    (hi : inT k = false) (hP : P k = true) :
    ((IterOf.option p).map fun v => (k, v)).DropsBy d T inT P (fun (o : Option V) (x : Drops σ V) => x.slot d o)
      (fun s => slotEntries k (p s)) := by
  refine ⟨_, (option_sim V).map fun v => (k, v), fun s => ⟨_, rfl, rfl⟩, ?_⟩
  rintro (st : Option V) _ ⟨_, rfl, rfl⟩
  exact holds_slot k hT hi hP st

theorem IterOf.DropsBy.rename {S S' K K' : Type} {it : IterOf S (K × V)} {T : K → K → Bool} {inT P : K → Bool}
    {drop : it.I.St → Drops σ V → Drops σ V} {e : S → List (K × V)} (h : it.DropsBy d T inT P drop e) (p : S' → S) (g : K → K')
    {T' : K' → K' → Bool} {inT' P' : K' → Bool} (hT : ∀ a b, T' (g a) (g b) = T a b) (hi : ∀ a, inT' (g a) = inT a)
    (hP : ∀ a, P a = true → P' (g a) = true) :
    ((it.comap p).map fun q => (g q.1, q.2)).DropsBy d T' inT' P' drop (fun t => renameKeys g (e (p t))) := by
  obtain ⟨R, hs, hi', hd⟩ := h
  refine ⟨_, hs.map fun q => (g q.1, q.2), fun t => ⟨e (p t), rfl, hi' (p t)⟩, ?_⟩
  rintro st _ ⟨l, rfl, hl⟩
  exact (hd st l hl).rename g hT hi hP

theorem StepOf.DropsBy.rename {S S' K K' : Type} {F : StepOf S (K × V)} {T : K → K → Bool} {inT P : K → Bool}
    {drop : F.St → Drops σ V → Drops σ V} {e : S → List (K × V)} (h : F.DropsBy d T inT P drop e) (p : S' → S) (g : K → K')
    {T' : K' → K' → Bool} {inT' P' : K' → Bool} (hT : ∀ a b, T' (g a) (g b) = T a b) (hi : ∀ a, inT' (g a) = inT a)
    (hP : ∀ a, P a = true → P' (g a) = true) :
    ((F.comap p).map fun q => (g q.1, q.2)).DropsBy d T' inT' P' drop (fun t => renameKeys g (e (p t))) := by
  obtain ⟨R, hs, hi', hd⟩ := h
  refine ⟨_, (hs.comap p).map fun q => (g q.1, q.2), fun t => ?_, ?_⟩
  · obtain ⟨ls, h1, h2⟩ := hi' (p t)
    exact ⟨_, ⟨ls, rfl, h1⟩, by rw [← List.map_flatten, h2]; rfl⟩
  · rintro st _ ⟨ls, rfl, hl⟩
    rw [← List.map_flatten]
    exact (hd st ls hl).rename g hT hi hP

theorem IterOf.DropsBy.chain {S K : Type} {a b : IterOf S (K × V)} {T : K → K → Bool} {inT P Q W : K → Bool}
    {da : a.I.St → Drops σ V → Drops σ V} {db : b.I.St → Drops σ V → Drops σ V} {ea eb : S → List (K × V)}
    (ha : a.DropsBy d T inT P da ea) (hb : b.DropsBy d T inT Q db eb) (hPQ : ∀ a b, P a = true → Q b = true → T a b = false)
    (hW : ∀ a, P a = true → W a = true) (hW' : ∀ a, Q a = true → W a = true) :
    (a.chain b).DropsBy d T inT W
      (fun (st : Option a.I.St × Option b.I.St) x => (x.part da st.1).part db st.2) (fun s => ea s ++ eb s) := by
  obtain ⟨R, hs, hi, hd⟩ := ha
  obtain ⟨R', ts, ti, td⟩ := hb
  refine ⟨_, hs.chain ts, fun s => ⟨_, _, rfl, hi s, ti s⟩, ?_⟩
  rintro st _ ⟨la, lb, rfl, h1, h2⟩
  exact (HoldsBatches.part hd h1).append (HoldsBatches.part td h2) hPQ hW hW'

theorem dropsBy_flat {n : Nat} :
    (IterOf.flat (fun p : Fin n × Option V => p.2.map fun v => (p.1, v)) (unitsPairs (n := n))).DropsBy d
      (fun _ _ => true) (fun _ => false) (fun _ => true)
      (fun (st : FlatSt (Fin n × Option V) (Fin n × V)) (x : Drops σ V) => x.flat d st)
      (fun s => unitsEntries (List.finRange n) s) := by
  let f := fun p : Fin n × Option V => p.2.map fun v => (p.1, v)
  have key : IsSim (flatIter f) (fun st l => FlatIdle st ∧ l = flatList f st) := by
    have h := flat_sim f
    refine ⟨?_, ?_, ?_⟩
    · rintro ⟨fr, l, bk⟩ _ ⟨hi, rfl⟩
      exact ⟨(h.next _ _ rfl).1, (flatNext_idle f l fr bk hi.2).1, (h.next _ _ rfl).2⟩
    · rintro nb hnb ⟨fr, l, bk⟩ _ ⟨hi, rfl⟩
      refine ⟨(h.back nb hnb _ _ rfl).1, ?_, (h.back nb hnb _ _ rfl).2⟩
      cases hnb
      exact (flatNextBack_idle f l.reverse fr bk hi.1).1
    · rintro st _ ⟨_, rfl⟩
      exact h.hint _ _ rfl
  refine ⟨_, key, fun s => ⟨⟨rfl, rfl⟩, ?_⟩, ?_⟩
  · show unitsEntries _ s = innerList none ++ (unitsPairs s).filterMap f ++ innerList none
    simp [innerList, unitsPairs, unitsEntries, List.filterMap_map, f, Function.comp_def]
  · rintro ⟨fr, l, bk⟩ _ ⟨⟨h1, h2⟩, rfl⟩
    have h3 : ∀ o : Option (Option (Fin n × V)), innerLen o = 0 →
        (∀ y : Drops σ V, y.part (fun o x => x.slot d (o.map Prod.snd)) o = y) ∧ innerList o = [] := by
      rintro (_ | _ | a) h
      · exact ⟨fun _ => rfl, rfl⟩
      · exact ⟨fun _ => rfl, rfl⟩
      · cases h
    have e : flatList f ⟨fr, l, bk⟩ = l.filterMap f := by
      show innerList fr ++ l.filterMap f ++ innerList bk = _
      rw [(h3 fr h1).2, (h3 bk h2).2, List.nil_append, List.append_nil]
    rw [e]
    refine ⟨fun _ _ => rfl, [⟨false, l.filterMap f, (l.filterMap f).map Prod.snd⟩],
      .one (.refl _) (fun _ => rfl) (fun _ _ => rfl) (fun _ _ _ _ => rfl), fun x => ?_⟩
    show ((x.array d (l.map Prod.snd)).part _ fr).part _ bk = Batch.drop d _ x
    rw [(h3 fr h1).1, (h3 bk h2).1, batch_plain, array_eq_each]
    exact congrArg (fun l => dropEach d l x) (filterMap_pairs l).symm

theorem dropsBy_hash {K : Type} {A : HashMapApi K V} (L : HashMapLaws A) (held : A.into_iter.I.St → List V)
    (h : ∀ t ds outs st, A.into_iter.I.run ds (A.into_iter.init t) = some (outs, st) →
      (held st).Perm ((dequeRun ds (L.entries t)).2.map Prod.snd)) :
    A.into_iter.DropsBy d (fun _ _ => true) (fun _ => true) (fun _ => true) (fun st (x : Drops σ V) => x.table d (held st))
      L.entries := by
  refine ⟨fun st l => ∃ t ds outs, A.into_iter.I.run ds (A.into_iter.init t) = some (outs, st) ∧ l = (dequeRun ds (L.entries t)).2,
    ⟨?_, ?_, ?_⟩, fun s => ⟨s, [], [], rfl, rfl⟩, ?_⟩
  · rintro st _ ⟨t, ds, outs, hr, rfl⟩
    have hr' := A.into_iter.I.run_append ds .front _ hr (r := A.into_iter.I.next st) rfl
    have a1 := (L.into_iter_like t _ _ _ hr).1
    have a2 := (L.into_iter_like t _ _ _ hr').1
    rw [dequeRun_append, a1] at a2
    refine ⟨by simpa [dequeStep] using List.append_cancel_left a2, t, _, _, hr', ?_⟩
    rw [dequeRun_append]
    rfl
  · rintro nb hnb st _ ⟨t, ds, outs, hr, rfl⟩
    have hr' := A.into_iter.I.run_append ds .back _ hr (r := nb st) (by simp [IterImpl.step, hnb])
    have a1 := (L.into_iter_like t _ _ _ hr).1
    have a2 := (L.into_iter_like t _ _ _ hr').1
    rw [dequeRun_append, a1] at a2
    refine ⟨by simpa [dequeStep] using List.append_cancel_left a2, t, _, _, hr', ?_⟩
    rw [dequeRun_append]
    rfl
  · rintro st _ ⟨t, ds, outs, hr, rfl⟩
    exact (L.into_iter_like t _ _ _ hr).2
  · rintro st _ ⟨t, ds, outs, hr, rfl⟩
    exact ⟨fun _ _ => rfl, [⟨true, _, held st⟩],
      .one (h t ds outs st hr) (fun e => (nomatch e)) (fun _ _ => rfl) (fun _ _ _ _ => rfl), fun x => (batch_table _ _ x).symm⟩

theorem dropsBy_unit : (IterOf.option fun s : Option V => s.map fun v => ((), v)).DropsBy d (fun _ _ => true) (fun _ => false)
    (fun _ => true) (fun (st : Option (Unit × V)) (x : Drops σ V) => x.slot d (st.map Prod.snd)) (fun s => slotEntries () s) := by
  refine ⟨_, option_sim _, fun s => ?_, ?_⟩
  · cases s <;> rfl
  · rintro (_ | ⟨_, v⟩) _ rfl
    · exact .nil fun _ => rfl
    · exact holds_slot (d := d) (T := fun _ _ => true) (inT := fun _ => false) (P := fun _ => true) () rfl rfl rfl (some v)

theorem StepOf.DropsBy.congr {S K : Type} {F : StepOf S (K × V)} {T : K → K → Bool} {inT P : K → Bool}
    {drop : F.St → Drops σ V → Drops σ V} {e e' : S → List (K × V)} (h : F.DropsBy d T inT P drop e) (he : ∀ s, e s = e' s) :
    F.DropsBy d T inT P drop e' :=
  (funext he : e = e') ▸ h

theorem StepOf.DropsBy.cons {S K : Type} {it : IterOf S (K × V)} {F : StepOf S (K × V)} {T : K → K → Bool} {inT P Q W : K → Bool}
    {da : it.I.St → Drops σ V → Drops σ V} {db : F.St → Drops σ V → Drops σ V} {ea eb : S → List (K × V)}
    (hb : F.DropsBy d T inT Q db eb) (ha : it.DropsBy d T inT P da ea) (hPQ : ∀ a b, P a = true → Q b = true → T a b = false)
    (hW : ∀ a, P a = true → W a = true) (hW' : ∀ a, Q a = true → W a = true) :
    (StepOf.cons it F).DropsBy d T inT W (fun (st : it.I.St × F.St) x => db st.2 (da st.1 x)) (fun s => ea s ++ eb s) := by
  obtain ⟨R, hs, hi, hd⟩ := ha
  obtain ⟨R', ts, ti, td⟩ := hb
  refine ⟨_, IsStepSim.cons hs ts, fun s => ?_, ?_⟩
  · obtain ⟨ls, h1, h2⟩ := ti s
    exact ⟨_, ⟨_, ls, rfl, hi s, h1⟩, by rw [List.flatten_cons, h2]⟩
  · rintro st _ ⟨l, ls, rfl, h1, h2⟩
    rw [List.flatten_cons]
    exact (hd _ _ h1).append (td _ _ h2) hPQ hW hW'

theorem StepOf.DropsBy.toIter {S K : Type} {F : StepOf S (K × V)} {T : K → K → Bool} {inT P : K → Bool}
    {drop : F.St → Drops σ V → Drops σ V} {e : S → List (K × V)} (h : F.DropsBy d T inT P drop e) :
    F.toIter.DropsBy d T inT P (fun (st : LoopSt F.St) x => drop st.fields x) e := by
  obtain ⟨R, hs, hi, hd⟩ := h
  refine ⟨_, hs.toIter, fun s => ?_, ?_⟩
  · obtain ⟨ls, h1, h2⟩ := hi s
    exact h2 ▸ loopInv_init hs h1
  · rintro st _ ⟨ls, h1, _, _, _, _, rfl⟩
    exact hd _ _ h1

theorem sides {A B : Type} (p : A → A → Bool) (q : B → B → Bool) : ∀ a b : A ⊕ B, a.isLeft = true → b.isRight = true →
    sameSide p q a b = false
  | .inl _, .inr _, _, _ => rfl
  | .inl _, .inl _, _, h => nomatch h
  | .inr _, _, h, _ => nomatch h

mutual
theorem intoIter_dropsBy (H : Hashbrown) {held : HeldApi H.api V} (hh : HeldLaw H V held) (d : Dtor σ V) : (κ : KeyTy) →
    (mapStorage H.api V κ).intoIter.DropsBy d κ.together κ.inTable (fun _ => true) (κ.dropIntoIter H.api held d)
      (mapCore H V κ).entries
  | .bool => (dropsBy_slot (d := d) (fun s : BoolMapSt V => s.t) true (T := KeyTy.bool.together) (inT := KeyTy.bool.inTable)
      (P := fun b => b) rfl rfl rfl).chain
      (dropsBy_slot (d := d) (fun s : BoolMapSt V => s.f) false (P := fun b => !b) rfl rfl rfl)
      (fun a b h1 h2 => by
        have h1 : (show Bool from a) = true := h1
        have h2 : (!(show Bool from b)) = true := h2
        show ((show Bool from a) == (show Bool from b)) = false
        revert h1 h2
        cases (show Bool from a) <;> cases (show Bool from b) <;> simp) (fun _ _ => rfl) (fun _ _ => rfl)
  | .unit => dropsBy_unit (d := d)
  | .opt κ =>
    ((intoIter_dropsBy H hh d κ).rename (OptMapSt.some (V := V)) some (T' := (KeyTy.opt κ).together)
      (inT' := (KeyTy.opt κ).inTable) (P' := Option.isSome) (fun _ _ => rfl) (fun _ => rfl) (fun _ _ => rfl)).chain
      (dropsBy_slot (d := d) (fun s : OptMapSt (mapStorage H.api V κ).S V => s.none) none (P := Option.isNone) rfl rfl rfl)
      (fun a b h1 h2 => match a, b, h1, h2 with
        | some _, none, _, _ => rfl) (fun _ _ => rfl) (fun _ _ => rfl)
  | .prim p => dropsBy_hash (d := d) (H.laws p.Key V) _ fun t ds outs st => hh p.Key t ds outs st
  | .units n => dropsBy_flat (d := d)
  | .bitset n _ _ => dropsBy_flat (d := d)
  | .enum fs => (fieldsIntoIter_dropsBy H hh d fs).toIter
theorem fieldsIntoIter_dropsBy (H : Hashbrown) {held : HeldApi H.api V} (hh : HeldLaw H V held) (d : Dtor σ V) : (fs : Fields) →
    (mapFields H.api V fs).intoIter.DropsBy d fs.together fs.inTable (fun _ => true) (fs.dropIntoIter H.api held d)
      (fieldsCore H V fs).entries
  | .nil => ⟨_, stepNil_sim _ _, fun s => ⟨[], rfl, rfl⟩, fun _ _ h => by cases h; exact .nil fun _ => rfl⟩
  | .simple fs =>
    (((fieldsIntoIter_dropsBy H hh d fs).rename Prod.snd Sum.inr (T' := (Fields.simple fs).together)
      (inT' := (Fields.simple fs).inTable) (P' := Sum.isRight) (fun _ _ => rfl) (fun _ => rfl) (fun _ _ => rfl)).cons
      (dropsBy_slot (d := d) (fun s : Option V × (mapFields H.api V fs).S => s.1) (Sum.inl ()) (P := Sum.isLeft) rfl rfl rfl)
      (sides _ _) (fun _ _ => rfl) (fun _ _ => rfl)).congr
      (fun s => congrArg (· ++ _) (by cases s.1 <;> rfl))
  | .complex κ fs =>
    ((fieldsIntoIter_dropsBy H hh d fs).rename Prod.snd Sum.inr (T' := (Fields.complex κ fs).together)
      (inT' := (Fields.complex κ fs).inTable) (P' := Sum.isRight) (fun _ _ => rfl) (fun _ => rfl) (fun _ _ => rfl)).cons
      ((intoIter_dropsBy H hh d κ).rename Prod.fst Sum.inl (P' := Sum.isLeft) (fun _ _ => rfl) (fun _ => rfl) (fun _ _ => rfl))
      (sides _ _) (fun _ _ => rfl) (fun _ _ => rfl)
end

end FixedMap
