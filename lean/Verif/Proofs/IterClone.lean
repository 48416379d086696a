import Verif.Spec.IterClone
import Verif.Properties.Traits

/-! # Lemmas on cloned iterators -/

set_option autoImplicit false
set_option linter.unusedSimpArgs false

namespace FixedMap

/-- One step of the clone is the clone of one step. -/
structure Commutes {α : Type} (I : IterImpl α) (f : I.St → I.St) (item : α → α) : Prop where
  next : ∀ st, I.next (f st) = ((I.next st).1.map item, f (I.next st).2)
  nextBack : ∀ nb, I.nextBack? = some nb → ∀ st, nb (f st) = ((nb st).1.map item, f (nb st).2)
  hint : ∀ st, I.sizeHint (f st) = I.sizeHint st

theorem Commutes.clonesTo {α : Type} {I : IterImpl α} {f : I.St → I.St} {item : α → α} (h : Commutes I f item) :
    ClonesTo I f item := by
  have key : ∀ (ds : List Dir) st, I.run ds (f st) = (I.run ds st).map fun r => (r.1.map (Option.map item), f r.2) := by
    intro ds
    induction ds with
    | nil => exact fun st => rfl
    | cons d ds ih =>
      intro st
      cases d with
      | front =>
        simp only [IterImpl.run, IterImpl.step, h.next, ih, Option.map_map]
        cases I.run ds (I.next st).2 <;> rfl
      | back =>
        cases hb : I.nextBack? with
        | none => simp [IterImpl.run, IterImpl.step, hb]
        | some nb =>
          simp only [IterImpl.run, IterImpl.step, hb, Option.map_some, h.nextBack nb hb, ih, Option.map_map]
          cases I.run ds (nb st).2 <;> rfl
  intro st ds
  rw [key, Option.map_map]
  congr 1
  funext r
  simp only [Function.comp, h.hint]

theorem Commutes.option {α : Type} (item : α → α) : Commutes (optionIter α) (Option.map item) item where
  next _ := rfl
  nextBack nb e st := by cases e; rfl
  hint := fun (st : Option α) => by cases st <;> rfl

theorem Commutes.map {α β : Type} {I : IterImpl α} {f : I.St → I.St} {item : α → α} (h : Commutes I f item) (g : α → β)
    (item' : β → β) (hg : ∀ a, item' (g a) = g (item a)) : Commutes (I.map g) f item' where
  next st := by
    have e : Option.map g (Option.map item (I.next st).1) = Option.map item' (Option.map g (I.next st).1) := by
      rw [Option.map_map, Option.map_map]; congr 1; funext a; exact (hg a).symm
    exact (congrArg (fun q : Option α × I.St => (Option.map g q.1, q.2)) (h.next st)).trans
      (congrArg (fun o => (o, f (I.next st).2)) e)
  nextBack nb e st := by
    obtain ⟨nb', e1, rfl⟩ := Option.map_eq_some_iff.mp e
    have e : Option.map g (Option.map item (nb' st).1) = Option.map item' (Option.map g (nb' st).1) := by
      rw [Option.map_map, Option.map_map]; congr 1; funext a; exact (hg a).symm
    exact (congrArg (fun q : Option α × I.St => (Option.map g q.1, q.2)) (h.nextBack nb' e1 st)).trans
      (congrArg (fun o => (o, f (nb' st).2)) e)
  hint := h.hint

theorem andThenOrClear_clone {St α : Type} (n : St → Option α × St) (f : St → St) (item : α → α)
    (h : ∀ st, n (f st) = ((n st).1.map item, f (n st).2)) (o : Option St) :
    andThenOrClear n (o.map f) = ((andThenOrClear n o).1.map item, (andThenOrClear n o).2.map f) := by
  cases o with
  | none => rfl
  | some st =>
    simp only [Option.map_some, andThenOrClear, h]
    rcases n st with ⟨_ | a, st'⟩ <;> rfl

theorem Commutes.chain {α : Type} {I J : IterImpl α} {f : I.St → I.St} {g : J.St → J.St} {item : α → α}
    (h : Commutes I f item) (h' : Commutes J g item) :
    Commutes (I.chain J) (fun st => (st.1.map f, st.2.map g)) item where
  next := by
    rintro ⟨a, b⟩
    simp only [IterImpl.chain]
    rw [andThenOrClear_clone _ _ _ h.next]
    rcases andThenOrClear I.next a with ⟨_ | x, oa⟩
    · simp only [Option.map_none]
      cases b with
      | none => rfl
      | some b => simp only [Option.map_some, h'.next]
    · rfl
  nextBack := by
    intro nb e
    simp only [IterImpl.chain] at e
    cases hi : I.nextBack? with
    | none => rw [hi] at e; cases hj : J.nextBack? <;> rw [hj] at e <;> cases e
    | some inb =>
      cases hj : J.nextBack? with
      | none => rw [hi, hj] at e; cases e
      | some jnb =>
        rw [hi, hj] at e
        cases e
        rintro ⟨a, b⟩
        simp only
        rw [andThenOrClear_clone _ _ _ (h'.nextBack jnb hj)]
        rcases andThenOrClear jnb b with ⟨_ | x, ob⟩
        · simp only [Option.map_none]
          cases a with
          | none => rfl
          | some a =>
            simp only [Option.map_some, h.nextBack inb hi]
            rfl
        · rfl
  hint := by
    rintro ⟨_ | a, _ | b⟩ <;> simp [IterImpl.chain, h.hint, h'.hint]

theorem optNext_clone {α : Type} (item : α → α) (o : Option α) :
    optNext (o.map item) = ((optNext o).1.map item, (optNext o).2.map item) := rfl

theorem flatNext_clone {α β : Type} (f : β → Option α) (item : α → α) (elem : β → β)
    (h : ∀ b, f (elem b) = (f b).map item) : ∀ (l : List β) (front back : Option (Option α)),
    flatNext f (front.map (Option.map item)) (back.map (Option.map item)) (l.map elem) =
      ((flatNext f front back l).1.map item, cloneFlat item elem (flatNext f front back l).2) := by
  intro l
  induction l with
  | nil =>
    intro front back
    simp only [flatNext, List.map_nil]
    rw [andThenOrClear_clone optNext _ item (optNext_clone item), andThenOrClear_clone optNext _ item (optNext_clone item)]
    rcases andThenOrClear optNext front with ⟨_ | a, fr⟩ <;> rfl
  | cons b l ih =>
    intro front back
    simp only [flatNext, List.map_cons]
    rw [andThenOrClear_clone optNext _ item (optNext_clone item)]
    rcases andThenOrClear optNext front with ⟨_ | a, fr⟩
    · simp only [Option.map_none, h]
      exact ih (some (f b)) back
    · rfl

theorem flatNextBack_clone {α β : Type} (f : β → Option α) (item : α → α) (elem : β → β)
    (h : ∀ b, f (elem b) = (f b).map item) : ∀ (l : List β) (front back : Option (Option α)),
    flatNextBack f (front.map (Option.map item)) (back.map (Option.map item)) (l.map elem) =
      ((flatNextBack f front back l).1.map item, cloneFlat item elem (flatNextBack f front back l).2) := by
  intro l
  induction l with
  | nil =>
    intro front back
    simp only [flatNextBack, List.map_nil]
    rw [andThenOrClear_clone optNext _ item (optNext_clone item), andThenOrClear_clone optNext _ item (optNext_clone item)]
    rcases andThenOrClear optNext back with ⟨_ | a, fr⟩ <;> rfl
  | cons b l ih =>
    intro front back
    simp only [flatNextBack, List.map_cons]
    rw [andThenOrClear_clone optNext _ item (optNext_clone item)]
    rcases andThenOrClear optNext back with ⟨_ | a, fr⟩
    · simp only [Option.map_none, h]
      exact ih front (some (f b))
    · simp [cloneFlat, List.map_reverse]

theorem innerLen_clone {α : Type} (item : α → α) (o : Option (Option α)) : innerLen (o.map (Option.map item)) = innerLen o := by
  rcases o with _ | _ | a <;> rfl

theorem Commutes.flat {α β : Type} (f : β → Option α) (item : α → α) (elem : β → β)
    (h : ∀ b, f (elem b) = (f b).map item) : Commutes (flatIter f) (cloneFlat item elem) item where
  next st := flatNext_clone f item elem h st.iter st.front st.back
  nextBack nb e st := by
    cases e
    have := flatNextBack_clone f item elem h st.iter.reverse st.front st.back
    simp only [cloneFlat, List.map_reverse] at this ⊢
    exact this
  hint st := by simp [flatIter, cloneFlat, innerLen_clone]

/-- One arm of the clone is the clone of one arm. -/
structure StepCommutes {S α : Type} (F : StepOf S α) (f : F.St → F.St) (item : α → α) : Prop where
  next : ∀ i st, F.next i (f st) = (F.next i st).map fun p => (p.1.map item, f p.2)
  nextBack : ∀ nb, F.nextBack? = some nb → ∀ i st, nb i (f st) = (nb i st).map fun p => (p.1.map item, f p.2)

theorem StepCommutes.nil (S α : Type) (item : α → α) : StepCommutes (StepOf.nil S α) id item where
  next _ _ := rfl
  nextBack nb e i st := by cases e; rfl

theorem StepCommutes.cons {S α : Type} {it : IterOf S α} {F : StepOf S α} {f : it.I.St → it.I.St} {g : F.St → F.St}
    {item : α → α} (h : Commutes it.I f item) (h' : StepCommutes F g item) :
    StepCommutes (StepOf.cons it F) (fun st => (f st.1, g st.2)) item where
  next i st := by
    cases i with
    | zero => simp only [StepOf.cons, h.next, Option.map_some]
    | succ i =>
      simp only [StepOf.cons, h'.next, Option.map_map]
      rfl
  nextBack nb e := by
    simp only [StepOf.cons] at e
    cases hi : it.I.nextBack? with
    | none => rw [hi] at e; cases hj : F.nextBack? <;> rw [hj] at e <;> cases e
    | some inb =>
      cases hj : F.nextBack? with
      | none => rw [hi, hj] at e; cases e
      | some fb =>
        rw [hi, hj] at e
        cases e
        intro i st
        cases i with
        | zero =>
          simp only [h.nextBack inb hi]
          rfl
        | succ i =>
          simp only [h'.nextBack fb hj]
          cases fb i st.2 <;> rfl

theorem map_arm_clone {St α β : Type} (f : St → St) (g : α → β) (item : α → α) (item' : β → β)
    (hg : ∀ a, item' (g a) = g (item a)) (o : Option (Option α × St)) :
    (o.map fun p => (p.1.map item, f p.2)).map (fun p => (p.1.map g, p.2)) =
      (o.map fun p => (p.1.map g, p.2)).map fun p => (p.1.map item', f p.2) := by
  rcases o with _ | ⟨_ | a, st⟩
  · rfl
  · rfl
  · simp [hg]

theorem StepCommutes.map {S T α β : Type} {F : StepOf S α} {f : F.St → F.St} {item : α → α} (h : StepCommutes F f item)
    (p : T → S) (g : α → β) (item' : β → β) (hg : ∀ a, item' (g a) = g (item a)) :
    StepCommutes ((F.comap p).map g) f item' where
  next i st := (congrArg (Option.map fun q : Option α × F.St => (q.1.map g, q.2)) (h.next i st)).trans
    (map_arm_clone f g item item' hg (F.next i st))
  nextBack nb e i st := by
    obtain ⟨nb', e1, rfl⟩ := Option.map_eq_some_iff.mp e
    exact (congrArg (Option.map fun q : Option α × F.St => (q.1.map g, q.2)) (h.nextBack nb' e1 i st)).trans
      (map_arm_clone f g item item' hg (nb' i st))

theorem StepCommutes.loopNext {S α : Type} {F : StepOf S α} {f : F.St → F.St} {item : α → α} (h : StepCommutes F f item)
    (fuel : Nat) : ∀ st : LoopSt F.St, F.loopNext fuel ⟨st.start, st.stop, f st.fields⟩ =
      ((F.loopNext fuel st).1.map item,
        ⟨(F.loopNext fuel st).2.start, (F.loopNext fuel st).2.stop, f (F.loopNext fuel st).2.fields⟩) := by
  induction fuel with
  | zero => exact fun st => rfl
  | succ fuel ih =>
    intro st
    simp only [StepOf.loopNext, h.next]
    split
    · rcases F.next st.start st.fields with _ | ⟨_ | a, fs⟩
      · rfl
      · exact ih ⟨min (st.start + 1) st.stop, st.stop, fs⟩
      · rfl
    · rfl

theorem loopNextBack_clone {St α : Type} {nb : Nat → St → Option (Option α × St)} {f : St → St} {item : α → α}
    (h : ∀ i st, nb i (f st) = (nb i st).map fun p => (p.1.map item, f p.2))
    (fuel : Nat) : ∀ st : LoopSt St, loopNextBack nb fuel ⟨st.start, st.stop, f st.fields⟩ =
      ((loopNextBack nb fuel st).1.map item,
        ⟨(loopNextBack nb fuel st).2.start, (loopNextBack nb fuel st).2.stop, f (loopNextBack nb fuel st).2.fields⟩) := by
  induction fuel with
  | zero => exact fun st => rfl
  | succ fuel ih =>
    intro st
    simp only [loopNextBack, h]
    split
    · rcases nb (st.stop - 1) st.fields with _ | ⟨_ | a, fs⟩
      · rfl
      · exact ih ⟨st.start, max (st.stop - 1) st.start, fs⟩
      · rfl
    · rfl

theorem StepCommutes.toIter {S α : Type} {F : StepOf S α} {f : F.St → F.St} {item : α → α} (h : StepCommutes F f item) :
    Commutes F.toIter.I (fun st : LoopSt F.St => (⟨st.start, st.stop, f st.fields⟩ : LoopSt F.St)) item where
  next st := h.loopNext _ st
  nextBack nb e st := by
    obtain ⟨nb', e1, rfl⟩ := Option.map_eq_some_iff.mp e
    exact loopNextBack_clone (h.nextBack nb' e1) _ st
  hint _ := rfl

section
variable (H : HashbrownApi) (V : Type) (c : V → V)

/-- Clone the value of a pair. -/
def clonePair {K : Type} (p : K × V) : K × V := (p.1, c p.2)

mutual
theorem cloneIntoIter_commutes : (κ : KeyTy) → ∀ f, KeyTy.cloneIntoIter H V c κ = some f →
    Commutes (mapStorage H V κ).intoIter.I f (clonePair V c)
  | .bool => fun f e => by
    cases e
    exact Commutes.chain (item := clonePair V c)
      ((Commutes.option c).map (fun v : V => (true, v)) (clonePair V c) fun _ => rfl)
      ((Commutes.option c).map (fun v : V => (false, v)) (clonePair V c) fun _ => rfl)
  | .unit => fun f e => by
    cases e
    exact Commutes.option (clonePair V c)
  | .prim _ => fun f e => nomatch e
  | .units n => fun f e => by
    cases e
    exact Commutes.flat _ _ _ fun ⟨_, o⟩ => by cases o <;> rfl
  | .bitset n _ _ => fun f e => by
    cases e
    exact Commutes.flat _ _ _ fun ⟨_, o⟩ => by cases o <;> rfl
  | .opt κ => fun f e => by
    obtain ⟨g, e1, rfl⟩ := Option.map_eq_some_iff.mp e
    exact Commutes.chain (item := clonePair V c)
      ((cloneIntoIter_commutes κ g e1).map (fun p : κ.Key × V => (some p.1, p.2)) (clonePair V c) fun _ => rfl)
      ((Commutes.option c).map (fun v : V => ((none : Option κ.Key), v)) (clonePair V c) fun _ => rfl)
  | .enum fs => fun f e => by
    obtain ⟨g, e1, rfl⟩ := Option.map_eq_some_iff.mp e
    exact (fieldsCloneIntoIter_commutes fs g e1).toIter
theorem fieldsCloneIntoIter_commutes : (fs : Fields) → ∀ f, Fields.cloneIntoIter H V c fs = some f →
    StepCommutes (mapFields H V fs).intoIter f (clonePair V c)
  | .nil => fun f e => by
    cases e
    exact StepCommutes.nil _ _ _
  | .simple fs => fun f e => by
    obtain ⟨g, e1, rfl⟩ := Option.map_eq_some_iff.mp e
    exact StepCommutes.cons (it := (IterOf.option _).map _) ((Commutes.option c).map _ (clonePair V c) fun _ => rfl)
      ((fieldsCloneIntoIter_commutes fs g e1).map _ _ _ fun _ => rfl)
  | .complex κ fs => fun f e => by
    obtain ⟨g, e1, e⟩ := Option.bind_eq_some_iff.mp e
    obtain ⟨g', e2, rfl⟩ := Option.map_eq_some_iff.mp e
    exact StepCommutes.cons (it := (IterOf.comap _ _).map _) ((cloneIntoIter_commutes κ g e1).map _ (clonePair V c) fun _ => rfl)
      ((fieldsCloneIntoIter_commutes fs g' e2).map _ _ _ fun _ => rfl)
end

mutual
theorem cloneIntoIter_isSome : (κ : KeyTy) → (KeyTy.cloneIntoIter H V c κ).isSome = κ.hashFree
  | .bool => rfl
  | .unit => rfl
  | .prim _ => rfl
  | .units _ => rfl
  | .bitset _ _ _ => rfl
  | .opt κ => Option.isSome_map.trans (cloneIntoIter_isSome κ)
  | .enum fs => Option.isSome_map.trans (fieldsCloneIntoIter_isSome fs)
theorem fieldsCloneIntoIter_isSome : (fs : Fields) → (Fields.cloneIntoIter H V c fs).isSome = fs.hashFree
  | .nil => rfl
  | .simple fs => Option.isSome_map.trans (fieldsCloneIntoIter_isSome fs)
  | .complex κ fs => by
    have h1 := cloneIntoIter_isSome κ
    have h2 := fieldsCloneIntoIter_isSome fs
    rw [Fields.cloneIntoIter, Fields.hashFree, ← h1, ← h2]
    cases KeyTy.cloneIntoIter H V c κ with
    | none => rfl
    | some g => exact Option.isSome_map
end
end

end FixedMap
