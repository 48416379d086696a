import Verif.Proofs.MapHash
import Verif.Proofs.SetEnum
import Verif.Spec.ExactHint

/-! # Exact size hints -/

set_option autoImplicit false
set_option linter.unusedSimpArgs false

namespace FixedMap

/-- One call hands out one of `n` items, or there are none. -/
def CountStep {St α : Type} (inv : St → Prop) (cnt : St → Nat) (st : St) (r : Option α × St) : Prop :=
  inv r.2 ∧ cnt st = cnt r.2 + r.1.toList.length ∧ (r.1 = none → cnt st = 0)

/-- An iterator that knows how many items are left. -/
structure Counts {α : Type} (I : IterImpl α) (inv : I.St → Prop) (cnt : I.St → Nat) : Prop where
  hint : ∀ st, inv st → I.sizeHint st = (cnt st, some (cnt st))
  next : ∀ st, inv st → CountStep inv cnt st (I.next st)
  back : ∀ nb, I.nextBack? = some nb → ∀ st, inv st → CountStep inv cnt st (nb st)

theorem Counts.run {α : Type} {I : IterImpl α} {inv : I.St → Prop} {cnt : I.St → Nat} (h : Counts I inv cnt) (ds : List Dir)
    (st : I.St) (hs : inv st) (outs : List (Option α)) (st' : I.St) (hr : I.run ds st = some (outs, st')) :
    inv st' ∧ cnt st = cnt st' + (outs.filterMap id).length := by
  induction ds generalizing st outs with
  | nil => cases hr; exact ⟨hs, rfl⟩
  | cons d ds ih =>
    have key : ∀ r, I.step d st = some r → CountStep inv cnt st r := by
      intro r e
      cases d with
      | front => cases e; exact h.next st hs
      | back =>
        simp only [IterImpl.step, Option.map_eq_some_iff] at e
        obtain ⟨nb, e1, rfl⟩ := e
        exact h.back nb e1 st hs
    simp only [IterImpl.run] at hr
    split at hr
    · cases hr
    · rename_i o st1 e
      simp only [Option.map_eq_some_iff] at hr
      obtain ⟨⟨outs1, st2⟩, e1, e2⟩ := hr
      cases e2
      obtain ⟨k1, k2, _⟩ := key _ e
      obtain ⟨i1, i2⟩ := ih st1 k1 outs1 e1
      refine ⟨i1, ?_⟩
      rw [k2, i2]
      cases o
      · simp
      · simp; omega

theorem dequeRun_count {α : Type} (ds : List Dir) (l : List α) :
    l.length = (dequeRun ds l).2.length + ((dequeRun ds l).1.filterMap id).length := by
  induction ds generalizing l with
  | nil => rfl
  | cons d ds ih =>
    have := ih (dequeStep d l).2
    cases l with
    | nil => cases d <;> simpa [dequeRun, dequeStep] using this
    | cons a l =>
      cases d with
      | front => simp [dequeRun, dequeStep] at this ⊢; omega
      | back =>
        simp only [dequeRun, dequeStep, List.length_dropLast, List.length_cons] at this ⊢
        rw [List.getLast?_eq_some_getLast (List.cons_ne_nil a l)]
        simp
        omega

theorem Counts.drain {α : Type} {I : IterImpl α} {inv : I.St → Prop} {cnt : I.St → Nat} (h : Counts I inv cnt) (n : Nat)
    (st : I.St) (hs : inv st) (l : List α) (hd : I.drain n st = some l) : cnt st = l.length := by
  induction n generalizing st l with
  | zero => cases hd
  | succ n ih =>
    obtain ⟨k1, k2, k3⟩ := h.next st hs
    simp only [IterImpl.drain] at hd
    split at hd
    · rename_i e
      cases hd
      exact k3 (by rw [e])
    · rename_i a st' e
      rw [e] at k1 k2
      simp only [Option.map_eq_some_iff] at hd
      obtain ⟨l', e1, rfl⟩ := hd
      rw [k2, ih st' k1 l' e1]
      rfl

/-- An iterator method whose iterators know how many items are left. -/
def IterOf.Counted {S α : Type} (it : IterOf S α) (p : S → Prop) : Prop :=
  ∃ inv cnt, Counts it.I inv cnt ∧ ∀ s, p s → inv (it.init s)

theorem IterOf.Counted.exact {S α : Type} {it : IterOf S α} {p : S → Prop} (h : it.Counted p) {s : S} (hs : p s)
    {l : List α} (hl : it.runsTo s l) (ha : it.actsAs s l) : it.hintsExactly s l := by
  obtain ⟨inv, cnt, hc, hi⟩ := h
  intro ds outs st hr
  obtain ⟨r1, r2⟩ := hc.run ds _ (hi s hs) outs st hr
  obtain ⟨n, hn⟩ := hl
  have h1 := hc.drain n _ (hi s hs) l (hn n (Nat.le_refl n))
  have h2 := dequeRun_count ds l
  rw [← ha ds outs st hr] at h2
  have : cnt st = (dequeRun ds l).2.length := by omega
  rw [hc.hint st r1, this]

theorem counted_option {S α : Type} (q : S → Option α) (p : S → Prop) : (IterOf.option q).Counted p := by
  refine ⟨fun _ => True, fun st => (show Option α from st).toList.length, ⟨?_, ?_, ?_⟩, fun _ _ => trivial⟩
  · intro st _
    change Option α at st
    cases st <;> rfl
  · intro st _
    change Option α at st
    cases st <;> exact ⟨trivial, rfl, fun h => by cases h <;> rfl⟩
  · intro nb e st _
    cases e
    change Option α at st
    cases st <;> exact ⟨trivial, rfl, fun h => by cases h <;> rfl⟩

theorem IterOf.Counted.map {S α β : Type} {it : IterOf S α} {p : S → Prop} (h : it.Counted p) (f : α → β) :
    (it.map f).Counted p := by
  obtain ⟨inv, cnt, hc, hi⟩ := h
  have step : ∀ st (r : Option α × it.I.St), CountStep inv cnt st r → CountStep inv cnt st (r.1.map f, r.2) := by
    rintro st ⟨_ | a, st'⟩ ⟨h1, h2, h3⟩
    · exact ⟨h1, h2, fun _ => h3 rfl⟩
    · exact ⟨h1, h2, fun e => nomatch e⟩
  refine ⟨inv, cnt, ⟨hc.hint, fun st hs => step st _ (hc.next st hs), ?_⟩, hi⟩
  intro nb e st hs
  obtain ⟨nb', e1, rfl⟩ := Option.map_eq_some_iff.mp (show Option.map _ it.I.nextBack? = some nb from e)
  exact step st _ (hc.back nb' e1 st hs)

theorem IterOf.Counted.comap {S T α : Type} {it : IterOf S α} {p : S → Prop} (h : it.Counted p) (g : T → S) {q : T → Prop}
    (hq : ∀ t, q t → p (g t)) : (it.comap g).Counted q := by
  obtain ⟨inv, cnt, hc, hi⟩ := h
  exact ⟨inv, cnt, hc, fun t ht => hi _ (hq t ht)⟩

/-- What is left in a part of a chain. -/
def partCount {St : Type} (cnt : St → Nat) : Option St → Nat
  | none => 0
  | some st => cnt st

def PartInv {St : Type} (inv : St → Prop) : Option St → Prop
  | none => True
  | some st => inv st

theorem andThenOrClear_count {St α : Type} {inv : St → Prop} {cnt : St → Nat} {f : St → Option α × St}
    (hf : ∀ st, inv st → CountStep inv cnt st (f st)) (o : Option St) (ho : PartInv inv o) :
    CountStep (PartInv inv) (partCount cnt) o (andThenOrClear f o) := by
  cases o with
  | none => exact ⟨trivial, rfl, fun _ => rfl⟩
  | some st =>
    obtain ⟨h1, h2, h3⟩ := hf st ho
    rcases e : f st with ⟨_ | a, st'⟩
    · rw [e] at h3
      simp only [andThenOrClear, e]
      exact ⟨trivial, h3 rfl, fun _ => h3 rfl⟩
    · rw [e] at h1 h2
      simp only [andThenOrClear, e]
      exact ⟨h1, h2, fun e => nomatch e⟩

theorem IterOf.Counted.chain {S α : Type} {a b : IterOf S α} {p : S → Prop} (ha : a.Counted p) (hb : b.Counted p) :
    (a.chain b).Counted p := by
  obtain ⟨inva, ca, Ha, ia⟩ := ha
  obtain ⟨invb, cb, Hb, ib⟩ := hb
  refine ⟨fun st => PartInv inva st.1 ∧ PartInv invb st.2, fun st => partCount ca st.1 + partCount cb st.2, ⟨?_, ?_, ?_⟩,
    fun s hs => ⟨ia s hs, ib s hs⟩⟩
  · rintro ⟨_ | x, _ | y⟩ ⟨h1, h2⟩
    · rfl
    · simp only [IterOf.chain, IterImpl.chain, partCount, Nat.zero_add]; exact Hb.hint y h2
    · exact Ha.hint x h1
    · simp only [IterOf.chain, IterImpl.chain, partCount, Ha.hint x h1, Hb.hint y h2, addHint]
  · rintro ⟨x, y⟩ ⟨h1, h2⟩
    obtain ⟨g1, g2, g3⟩ := andThenOrClear_count Ha.next x h1
    simp only [IterOf.chain, IterImpl.chain]
    rcases e : andThenOrClear a.I.next x with ⟨_ | v, oa⟩
    · rw [e] at g1 g2 g3
      simp only [Option.toList, List.length_nil, Nat.add_zero] at g2
      cases y with
      | none =>
        refine ⟨⟨g1, trivial⟩, ?_, fun _ => ?_⟩
        · show partCount ca x + 0 = partCount ca oa + 0 + 0
          rw [g2]
        · simp only [partCount, Nat.add_zero]; exact g3 rfl
      | some y =>
        obtain ⟨k1, k2, k3⟩ := Hb.next y h2
        refine ⟨⟨g1, k1⟩, ?_, fun e => ?_⟩
        · simp only [partCount] at g2 ⊢; rw [g2, k2]; omega
        · have := g3 rfl
          simp only [partCount] at this ⊢; rw [this, k3 e]
    · rw [e] at g1 g2
      refine ⟨⟨g1, h2⟩, ?_, fun e => nomatch e⟩
      simp only [g2]; omega
  · intro nb hnb
    simp only [IterOf.chain, IterImpl.chain] at hnb
    split at hnb
    · rename_i na nb' ea eb
      cases hnb
      rintro ⟨x, y⟩ ⟨h1, h2⟩
      obtain ⟨g1, g2, g3⟩ := andThenOrClear_count (Hb.back nb' eb) y h2
      simp only
      rcases e : andThenOrClear nb' y with ⟨_ | v, ob⟩
      · rw [e] at g1 g2 g3
        simp only [Option.toList, List.length_nil, Nat.add_zero] at g2
        cases x with
        | none =>
          refine ⟨⟨trivial, g1⟩, ?_, fun _ => ?_⟩
          · show 0 + partCount cb y = 0 + partCount cb ob + 0
            rw [g2, Nat.add_zero]
          · simp only [partCount, Nat.zero_add]; exact g3 rfl
        | some x =>
          obtain ⟨k1, k2, k3⟩ := Ha.back na ea x h1
          refine ⟨⟨k1, g1⟩, ?_, fun e => ?_⟩
          · simp only [partCount] at g2 ⊢; rw [g2, k2]; omega
          · have := g3 rfl
            simp only [partCount] at this ⊢; rw [this, k3 e]
      · rw [e] at g1 g2
        refine ⟨⟨h1, g1⟩, ?_, fun e => nomatch e⟩
        simp only [g2]; omega
    · cases hnb

theorem counts_boolBits : Counts boolBitsIter (fun b => (show BitVec 8 from b) < 4#8) countOnes := by
  refine ⟨fun _ _ => rfl, ?_, ?_⟩
  · intro st hs
    change BitVec 8 at st
    rcases boolBits_lt4 st hs with rfl | rfl | rfl | rfl <;> exact ⟨by decide, by decide, by decide⟩
  · intro nb e st hs
    cases e
    change BitVec 8 at st
    rcases boolBits_lt4 st hs with rfl | rfl | rfl | rfl <;> exact ⟨by decide, by decide, by decide⟩

theorem IterImpl.run_append {α : Type} (I : IterImpl α) (ds : List Dir) (d : Dir) (st : I.St) {outs : List (Option α)} {st' : I.St}
    (h : I.run ds st = some (outs, st')) {r : Option α × I.St} (hr : I.step d st' = some r) :
    I.run (ds ++ [d]) st = some (outs ++ [r.1], r.2) := by
  induction ds generalizing st outs with
  | nil =>
    cases h
    simp [IterImpl.run, hr]
  | cons e ds ih =>
    simp only [List.cons_append, IterImpl.run] at h ⊢
    split at h
    · cases h
    · rename_i o st1 he
      simp only [Option.map_eq_some_iff] at h
      obtain ⟨⟨outs1, st2⟩, e1, e2⟩ := h
      cases e2
      rw [ih st1 e1]
      rfl

theorem dequeRun_append {α : Type} (ds : List Dir) (d : Dir) (l : List α) :
    dequeRun (ds ++ [d]) l = ((dequeRun ds l).1 ++ [(dequeStep d (dequeRun ds l).2).1], (dequeStep d (dequeRun ds l).2).2) := by
  induction ds generalizing l with
  | nil => rfl
  | cons e ds ih => simp [dequeRun, ih]

/-- Iterators that act as deques with exact hints count. -/
theorem counted_of_exact {S α : Type} {it : IterOf S α} (l : S → List α) (ha : ∀ s, it.actsAs s (l s))
    (he : ∀ s, it.hintsExactly s (l s)) (p : S → Prop) : it.Counted p := by
  have step : ∀ st, (∃ s ds outs, it.I.run ds (it.init s) = some (outs, st)) → ∀ d r, it.I.step d st = some r →
      CountStep (fun st => ∃ s ds outs, it.I.run ds (it.init s) = some (outs, st)) (fun st => (it.I.sizeHint st).1) st r := by
    rintro st ⟨s, ds, outs, h⟩ d r hr
    have h' := it.I.run_append ds d _ h hr
    have e1 := he s _ _ _ h
    have e2 := he s _ _ _ h'
    have a1 := ha s _ _ _ h
    have a2 := ha s _ _ _ h'
    rw [dequeRun_append] at a2 e2
    rw [a1] at a2
    have a3 : r.1 = (dequeStep d (dequeRun ds (l s)).2).1 := by
      have := List.append_cancel_left a2
      simpa using this
    refine ⟨⟨s, _, _, h'⟩, ?_, fun e => ?_⟩
    · simp only [e1, e2, a3]
      generalize (dequeRun ds (l s)).2 = q
      have := dequeRun_count [d] q
      simp only [dequeRun] at this
      rw [this]
      cases (dequeStep d q).1 <;> rfl
    · rw [e] at a3
      simp only [e1]
      revert a3
      generalize (dequeRun ds (l s)).2 = q
      cases q with
      | nil => intro _; rfl
      | cons a q =>
        cases d
        · intro h; cases h
        · intro h
          simp [dequeStep, List.getLast?_eq_some_getLast (List.cons_ne_nil a q)] at h
  refine ⟨_, _, ⟨?_, fun st hs => step st hs .front _ rfl, fun nb e st hs => step st hs .back _ (by simp [IterImpl.step, e])⟩,
    fun s _ => ⟨s, [], [], rfl⟩⟩
  rintro st ⟨s, ds, outs, h⟩
  have := he s _ _ _ h
  simp only [this]

theorem BehavesLike.actsAs {S α : Type} {it : IterOf S α} {s : S} {l : List α} (h : BehavesLike it.I (it.init s) l) :
    it.actsAs s l := fun ds outs st hr => (h ds outs st hr).1

/-- The six iterator methods of a map storage count. -/
structure MapCounted {K V : Type} (M : MapStorage K V) : Prop where
  iter : M.iter.Counted fun _ => True
  keys : M.keys.Counted fun _ => True
  values : M.values.Counted fun _ => True
  iterMut : M.iterMut.Counted fun _ => True
  valuesMut : M.valuesMut.Counted fun _ => True
  intoIter : M.intoIter.Counted fun _ => True

theorem mapCounted_bool (V : Type) : MapCounted (boolMap V) where
  iter := ((counted_option _ _).map _).chain ((counted_option _ _).map _)
  keys := ⟨_, _, counts_boolBits, fun s _ => by
    have lt : ∀ a b : Bool, ((if a then TRUE_BIT else 0) ||| (if b then FALSE_BIT else 0)) < 4#8 := by decide
    have := lt s.t.isSome s.f.isSome
    obtain ⟨t, f⟩ := s
    cases t <;> cases f <;> exact this⟩
  values := (counted_option _ _).chain (counted_option _ _)
  iterMut := ((counted_option _ _).map _).chain ((counted_option _ _).map _)
  valuesMut := (counted_option _ _).chain (counted_option _ _)
  intoIter := ((counted_option _ _).map _).chain ((counted_option _ _).map _)

theorem mapCounted_unit (V : Type) : MapCounted (unitMap V) where
  iter := counted_option _ _
  keys := counted_option _ _
  values := counted_option _ _
  iterMut := counted_option _ _
  valuesMut := counted_option _ _
  intoIter := counted_option _ _

theorem mapCounted_opt {K V : Type} {M : MapStorage K V} (h : MapCounted M) : MapCounted (optMap M) where
  iter := ((h.iter.comap _ fun _ _ => trivial).map _).chain ((counted_option _ _).map _)
  keys := ((h.keys.comap _ fun _ _ => trivial).map _).chain (counted_option _ _)
  values := (h.values.comap _ fun _ _ => trivial).chain (counted_option _ _)
  iterMut := ((h.iterMut.comap _ fun _ _ => trivial).map _).chain ((counted_option _ _).map _)
  valuesMut := ((h.valuesMut.comap _ fun _ _ => trivial).map _).chain (counted_option _ _)
  intoIter := ((h.intoIter.comap _ fun _ _ => trivial).map _).chain ((counted_option _ _).map _)

theorem mapCounted_hash {K V : Type} {A : HashMapApi K V} (L : HashMapLaws A) (h : L.exactHints) : MapCounted (hashMap A) where
  iter := (counted_of_exact _ (fun t => (L.iter_like t).actsAs) (fun t => (h t).1) _).map _
  keys := (counted_of_exact _ (fun t => (L.keys_like t).actsAs) (fun t => (h t).2.1) _).map _
  values := counted_of_exact _ (fun t => (L.values_like t).actsAs) (fun t => (h t).2.2.1) _
  iterMut := (counted_of_exact _ (fun t => (L.iter_mut_like t).actsAs) (fun t => (h t).2.2.2.1) _).map _
  valuesMut := counted_of_exact _ (fun t => (L.values_mut_like t).actsAs) (fun t => (h t).2.2.2.2.1) _
  intoIter := counted_of_exact _ (fun t => (L.into_iter_like t).actsAs) (fun t => (h t).2.2.2.2.2) _

theorem mapCounted (H : Hashbrown) (hH : H.exactHints) (V : Type) : (κ : KeyTy) → κ.counted = true →
    MapCounted (mapStorage H.api V κ)
  | .bool, _ => mapCounted_bool V
  | .unit, _ => mapCounted_unit V
  | .opt κ, h => mapCounted_opt (mapCounted H hH V κ h)
  | .prim p, _ => mapCounted_hash (H.laws p.Key V) (hH p.Key V)

/-- The two iterator methods of a set storage count. -/
structure SetCounted {T : Type} (M : SetStorage T) (p : M.S → Prop) : Prop where
  iter : M.iter.Counted p
  intoIter : M.intoIter.Counted p

theorem setCounted (H : Hashbrown) (hH : H.exactHints) : (κ : KeyTy) → κ.counted = true →
    SetCounted (setStorage H.api κ) (setLaws H κ).valid
  | .bool, _ => ⟨⟨_, _, counts_boolBits, fun _ h => h⟩, ⟨_, _, counts_boolBits, fun _ h => h⟩⟩
  | .unit, _ => ⟨counted_option _ _, counted_option _ _⟩
  | .opt κ, h =>
    have ih := setCounted H hH κ h
    ⟨((ih.iter.comap _ fun _ h => h).map _).chain (counted_option _ _),
      ((ih.intoIter.comap _ fun _ h => h).map _).chain (counted_option _ _)⟩
  | .prim p, _ =>
    have h := hH p.Key Unit
    ⟨(counted_of_exact _ (fun t => ((H.laws p.Key Unit).keys_like t).actsAs) (fun t => (h t).2.1) _).map _,
      (counted_of_exact _ (fun t => ((H.laws p.Key Unit).into_iter_like t).actsAs) (fun t => (h t).2.2.2.2.2) _).map _⟩

/-! ## the arrays of unit variants -/

/-- No item is pending in the front or back option, and only an exhausted iterator has answered `None`. -/
def FlatIdle {β α : Type} (st : FlatSt β α) : Prop := innerLen st.front = 0 ∧ innerLen st.back = 0

theorem flatNext_idle {β α : Type} (f : β → Option α) (l : List β) (fr bk : Option (Option α)) (hb : innerLen bk = 0) :
    FlatIdle (flatNext f fr bk l).2 ∧ ((flatNext f fr bk l).1 = none → (flatNext f fr bk l).2.iter = []) ∧
      (l = [] → (flatNext f fr bk l).2.iter = []) := by
  induction l generalizing fr with
  | nil =>
    rcases fr with _ | _ | a <;> rcases bk with _ | _ | b <;>
      simp_all [flatNext, andThenOrClear, optNext, FlatIdle, innerLen]
  | cons b l ih =>
    rcases fr with _ | _ | a
    · have := ih (some (f b))
      simp only [flatNext, andThenOrClear, optNext]
      exact ⟨this.1, this.2.1, fun h => nomatch h⟩
    · have := ih (some (f b))
      simp only [flatNext, andThenOrClear, optNext]
      exact ⟨this.1, this.2.1, fun h => nomatch h⟩
    · exact ⟨⟨rfl, hb⟩, (fun e => nomatch e), (fun e => nomatch e)⟩

theorem flatNextBack_idle {β α : Type} (f : β → Option α) (l : List β) (fr bk : Option (Option α)) (hf : innerLen fr = 0) :
    FlatIdle (flatNextBack f fr bk l).2 ∧ ((flatNextBack f fr bk l).1 = none → (flatNextBack f fr bk l).2.iter = []) ∧
      (l = [] → (flatNextBack f fr bk l).2.iter = []) := by
  induction l generalizing bk with
  | nil =>
    rcases fr with _ | _ | a <;> rcases bk with _ | _ | b <;>
      simp_all [flatNextBack, andThenOrClear, optNext, FlatIdle, innerLen]
  | cons b l ih =>
    rcases bk with _ | _ | a
    · have := ih (some (f b))
      simp only [flatNextBack, andThenOrClear, optNext]
      exact ⟨this.1, this.2.1, fun h => nomatch h⟩
    · have := ih (some (f b))
      simp only [flatNextBack, andThenOrClear, optNext]
      exact ⟨this.1, this.2.1, fun h => nomatch h⟩
    · exact ⟨⟨hf, rfl⟩, (fun e => nomatch e), (fun e => nomatch e)⟩

theorem flat_run {β α : Type} (f : β → Option α) (ds : List Dir) (st : FlatSt β α) (hs : FlatIdle st) (outs : List (Option α))
    (st' : FlatSt β α) (hr : (flatIter f).run ds st = some (outs, st')) :
    FlatIdle st' ∧ (none ∈ outs ∨ st.iter = [] → st'.iter = []) := by
  induction ds generalizing st outs with
  | nil => cases hr; exact ⟨hs, fun h => h.elim (fun h => nomatch h) id⟩
  | cons d ds ih =>
    have key : ∀ r, (flatIter f).step d st = some r → FlatIdle r.2 ∧ (r.1 = none → r.2.iter = []) ∧ (st.iter = [] → r.2.iter = []) := by
      intro r e
      cases d with
      | front => cases e; exact flatNext_idle f st.iter st.front st.back hs.2
      | back =>
        cases e
        have := flatNextBack_idle f st.iter.reverse st.front st.back hs.1
        exact ⟨this.1, this.2.1, fun h => this.2.2 (by rw [h]; rfl)⟩
    simp only [IterImpl.run] at hr
    split at hr
    · cases hr
    · rename_i o st1 e
      obtain ⟨⟨outs1, st2⟩, e1, e2⟩ := Option.map_eq_some_iff.mp hr
      cases e2
      obtain ⟨k1, k2, k3⟩ := key _ e
      obtain ⟨i1, i2⟩ := ih st1 k1 outs1 e1
      refine ⟨i1, fun h => i2 ?_⟩
      rcases h with h | h
      · rcases List.mem_cons.mp h with h | h
        · exact .inr (k2 h.symm)
        · exact .inl h
      · exact .inr (k3 h)

theorem flat_hints {S α β : Type} (f : β → Option α) (p : S → List β) (s : S) : (IterOf.flat f p).hintsVaguely s := by
  intro ds outs st hr
  obtain ⟨⟨h1, h2⟩, h3⟩ := flat_run f ds ⟨none, p s, none⟩ ⟨rfl, rfl⟩ outs st hr
  have e : (IterOf.flat f p).I.sizeHint st = (0, if (show FlatSt β α from st).iter.isEmpty then some 0 else none) := by
    show (innerLen _ + innerLen _, if (show FlatSt β α from st).iter.isEmpty then some (innerLen _ + innerLen _) else none) = _
    rw [h1, h2]
  rw [e]
  refine ⟨?_, fun hn => ?_⟩
  · split
    · exact .inr rfl
    · exact .inl rfl
  · rw [h3 (.inl hn)]
    rfl

end FixedMap
