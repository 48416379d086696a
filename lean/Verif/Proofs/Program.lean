import Verif.Spec.Program
import Verif.Proofs.Collect
import Verif.Properties.IterClonePanic
import Verif.Properties.Collect
import Verif.Properties.ClonePanic

/-! # Whole programs: lemmas -/

set_option autoImplicit false
set_option linter.unusedSimpArgs false

namespace FixedMap

variable {σ V : Type} {c : Cloner σ V} {d : Dtor σ V}

/-! ## The ledger -/

theorem Ledger.left {h h' : List V} {t : List (Ev V)} (l : Ledger h t h') : ∀ {g : List V}, h.Perm g → Ledger g t h' := by
  induction l with
  | nil p => exact fun q => .nil (q.symm.trans p)
  | gave _ ih => exact fun q => .gave (ih (q.cons _))
  | got p l _ => exact fun q => .got (q.symm.trans p) l
  | dropped p l _ => exact fun q => .dropped (q.symm.trans p) l

theorem Ledger.right {h h' g : List V} {t : List (Ev V)} (l : Ledger h t h') (q : h'.Perm g) : Ledger h t g := by
  induction l with
  | nil p => exact .nil (p.trans q)
  | gave _ ih => exact .gave (ih q)
  | got p _ ih => exact .got p (ih q)
  | dropped p _ ih => exact .dropped p (ih q)

theorem Ledger.append {h g h' : List V} {t t' : List (Ev V)} (l : Ledger h t g) (l' : Ledger g t' h') : Ledger h (t ++ t') h' := by
  induction l with
  | nil p => exact l'.left p.symm
  | gave _ ih => exact .gave (ih l')
  | got p _ ih => exact .got p (ih l')
  | dropped p _ ih => exact .dropped p (ih l')

theorem Ledger.frame {h h' : List V} {t : List (Ev V)} (l : Ledger h t h') (f : List V) : Ledger (h ++ f) t (h' ++ f) := by
  induction l with
  | nil p => exact .nil (p.append_right f)
  | gave _ ih => exact .gave ih
  | got p _ ih => exact .got (p.append_right f) ih
  | dropped p _ ih => exact .dropped (p.append_right f) ih

theorem Ledger.split {h h' : List V} (t : List (Ev V)) {t' : List (Ev V)} (l : Ledger h (t ++ t') h') :
    ∃ g, Ledger h t g ∧ Ledger g t' h' := by
  induction t generalizing h with
  | nil => exact ⟨h, .nil (.refl _), l⟩
  | cons e t ih =>
    cases l with
    | gave l => obtain ⟨g, h1, h2⟩ := ih l; exact ⟨g, .gave h1, h2⟩
    | got p l => obtain ⟨g, h1, h2⟩ := ih l; exact ⟨g, .got p h1, h2⟩
    | dropped p l => obtain ⟨g, h1, h2⟩ := ih l; exact ⟨g, .dropped p h1, h2⟩

theorem ledger_gave (us h : List V) : Ledger h (us.map .gave) (h ++ us) := by
  induction us generalizing h with
  | nil => exact .nil (by simp)
  | cons u us ih => exact .gave ((ih (u :: h)).right (by simpa using (List.perm_middle (a := u) (l₁ := h) (l₂ := us)).symm))

theorem ledger_got (gs h : List V) : Ledger (h ++ gs) (gs.map .got) h := by
  induction gs with
  | nil => exact .nil (by simp)
  | cons u gs ih => exact .got List.perm_middle ih

theorem ledger_dropped (gs h : List V) : Ledger (h ++ gs) (gs.map .dropped) h := by
  induction gs with
  | nil => exact .nil (by simp)
  | cons u gs ih => exact .dropped List.perm_middle ih

theorem Ledger.moves {h h' us gs : List V} (p : (h ++ us).Perm (h' ++ gs)) : Ledger h (us.map .gave ++ gs.map .got) h' :=
  ((ledger_gave us h).right p).append (ledger_got gs h')

theorem Ledger.gives {h h' us : List V} (p : (h ++ us).Perm h') : Ledger h (us.map .gave) h' := (ledger_gave us h).right p

theorem Ledger.takes {h h' gs : List V} (p : h.Perm (h' ++ gs)) : Ledger h (gs.map .got) h' := (ledger_got gs h').left p.symm

theorem Ledger.balance {h h' : List V} {t : List (Ev V)} (l : Ledger h t h') : (h ++ gaves t).Perm (h' ++ gots t ++ drops t) := by
  classical
  rw [List.perm_iff_count]
  intro a
  induction l with
  | nil p =>
    have := List.perm_iff_count.mp p a
    simp [gaves, gots, drops, this]
  | gave _ ih =>
    simp only [gaves, gots, drops, List.filterMap_cons, List.count_append, List.count_cons] at *
    omega
  | got p _ ih =>
    have := List.perm_iff_count.mp p a
    simp only [gaves, gots, drops, List.filterMap_cons, List.count_append, List.count_cons] at *
    omega
  | dropped p _ ih =>
    have := List.perm_iff_count.mp p a
    simp only [gaves, gots, drops, List.filterMap_cons, List.count_append, List.count_cons] at *
    omega

theorem runDtors_traced (l : List V) (st : Traced σ V) :
    (runDtors d.traced l st).1 = ((runDtors d l st.1).1, st.2 ++ l.map .dropped) := by
  induction l generalizing st with
  | nil => simp [runDtors]
  | cons v l ih => simp [runDtors, ih, Dtor.traced]

theorem honest_trace {np : Nat} {st : Traced σ V} {x : Drops (Traced σ V) V} (h : x.HonestFrom np d.traced st) :
    x.st.2 = st.2 ++ x.dropped.map .dropped := by
  rw [h.st_eq, runDtors_traced]

theorem cloneRef_traced {K : Type} (l : List (K × V)) (st : Traced σ V) :
    (cloneRef c.traced l st).st.2 = st.2 ++ ((cloneRef c.traced l st).made.map Prod.snd).map .gave := by
  induction l generalizing st with
  | nil => simp [cloneRef]
  | cons p l ih =>
    obtain ⟨k, v⟩ := p
    rcases h : c st.1 v with ⟨st', _ | w⟩
    · simp [cloneRef, Cloner.traced, h]
    · simp [cloneRef, Cloner.traced, h, ih]

/-- The events of a `retain`. -/
theorem retainRefD_traced {K : Type} (f : σ → K → V → σ × V × Option Bool) (l : List (K × V)) (st : Traced σ V) :
    ∃ evs, (retainRefD d.traced (tracedRetain f) l st).st.2 = st.2 ++ evs ∧
      Ledger (l.map Prod.snd) evs ((retainRefD d.traced (tracedRetain f) l st).s.map Prod.snd) := by
  induction l generalizing st with
  | nil => exact ⟨[], by simp [retainRefD], .nil (.refl _)⟩
  | cons p l ih =>
    obtain ⟨k, v⟩ := p
    rcases h : f st.1 k v with ⟨st', v', _ | _ | _⟩
    · refine ⟨[.got v, .gave v'], by simp [retainRefD, tracedRetain, h], ?_⟩
      simp only [retainRefD, tracedRetain, h]
      exact .got (.refl _) (.gave (.nil (.refl _)))
    · cases hd : (d st' v').2 with
      | true =>
        refine ⟨[.got v, .gave v', .dropped v'], by simp [retainRefD, tracedRetain, h, hd, Dtor.traced], ?_⟩
        simp only [retainRefD, tracedRetain, h, Dtor.traced, hd]
        exact .got (.refl _) (.gave (.dropped (.refl _) (.nil (.refl _))))
      | false =>
        obtain ⟨evs, h1, h2⟩ := ih ((d st' v').1, st.2 ++ [.got v, .gave v'] ++ [.dropped v'])
        refine ⟨[.got v, .gave v', .dropped v'] ++ evs, ?_, ?_⟩
        · simp only [retainRefD, tracedRetain, h, hd, Dtor.traced, Bool.false_eq_true, if_false] at h1 ⊢
          simpa using h1
        · simp only [retainRefD, tracedRetain, h, hd, Dtor.traced, Bool.false_eq_true, if_false] at h2 ⊢
          exact .got (.refl _) (.gave (.dropped (.refl _) h2))
    · obtain ⟨evs, h1, h2⟩ := ih (st', st.2 ++ [.got v, .gave v'])
      refine ⟨[.got v, .gave v'] ++ evs, ?_, ?_⟩
      · simp only [retainRefD, tracedRetain, h] at h1 ⊢
        simpa using h1
      · simp only [retainRefD, tracedRetain, h] at h2 ⊢
        exact .got (.refl _) (.gave (((h2.frame [v']).left List.perm_append_comm).right List.perm_append_comm))

/-! ## Variables -/

/-- What a variable holds. -/
def HoldsOpt {T : Type} (P : T → List V → Prop) : Option T → List V → Prop
  | none, vs => vs = []
  | some t, vs => P t vs

theorem InAll.cons {T : Type} {P : T → List V → Prop} {o : Option T} {us vs : List V} {l : List (Option T)}
    (ho : HoldsOpt P o us) (h : InAll P l vs) : InAll P (o :: l) (us ++ vs) := by
  cases o with
  | none => cases ho; exact .moved h
  | some t => exact .live ho h

theorem InAll.push {T : Type} {P : T → List V → Prop} {t : T} {us vs : List V} {l : List (Option T)}
    (h : InAll P l vs) (ht : P t us) : InAll P (l ++ [some t]) (vs ++ us) := by
  induction h with
  | nil => simpa using InAll.live ht .nil
  | moved _ ih => exact .moved ih
  | live hp _ ih => rw [List.append_assoc]; exact .live hp ih

theorem InAll.set {T : Type} {P : T → List V → Prop} {l : List (Option T)} {vs : List V} (h : InAll P l vs) :
    ∀ {x : Nat} {t : T}, l[x]? = some (some t) → ∃ us rest, P t us ∧ vs.Perm (us ++ rest) ∧
      ∀ o us', HoldsOpt P o us' → ∃ vs', InAll P (l.set x o) vs' ∧ vs'.Perm (us' ++ rest) := by
  induction h with
  | nil => intro x t h; simp at h
  | @moved l vs hl ih =>
    intro x t h
    cases x with
    | zero => simp at h
    | succ x =>
      obtain ⟨us, rest, h1, h2, h3⟩ := ih (by simpa using h)
      refine ⟨us, rest, h1, h2, fun o us' ho => ?_⟩
      obtain ⟨vs', h4, h5⟩ := h3 o us' ho
      exact ⟨vs', .moved h4, h5⟩
  | @live t' ws l vs hp hl ih =>
    intro x t h
    cases x with
    | zero =>
      cases (show some t' = some t by simpa using h)
      exact ⟨ws, vs, hp, .refl _, fun o us' ho => ⟨_, .cons ho hl, .refl _⟩⟩
    | succ x =>
      obtain ⟨us, rest, h1, h2, h3⟩ := ih (by simpa using h)
      refine ⟨us, ws ++ rest, h1, ?_, fun o us' ho => ?_⟩
      · refine (h2.append_left ws).trans ?_
        rw [← List.append_assoc, ← List.append_assoc]
        exact List.perm_append_comm.append_right rest
      · obtain ⟨vs', h4, h5⟩ := h3 o us' ho
        refine ⟨ws ++ vs', .live hp h4, (h5.append_left ws).trans ?_⟩
        rw [← List.append_assoc, ← List.append_assoc]
        exact List.perm_append_comm.append_right rest

theorem InAll.imp {T : Type} {P Q : T → List V → Prop} {l : List (Option T)} {vs : List V} (h : InAll P l vs)
    (hPQ : ∀ t us, P t us → Q t us) : InAll Q l vs := by
  induction h with
  | nil => exact .nil
  | moved _ ih => exact .moved ih
  | live hp _ ih => exact .live (hPQ _ _ hp) ih

/-! ## What a call drops -/

/-- No destructor panics. -/
abbrev Dtor.Quiet (d : Dtor σ V) : Prop := ∀ st v, (d st v).2 = false

/-- A call that dropped, leaked or lost `vs`, starting from the trace `t`. -/
structure Ends (d : Dtor σ V) (hf : Bool) (t : List (Ev V)) (x : Drops (Traced σ V) V) (vs : List V) : Prop where
  trace : x.st.2 = t ++ x.dropped.map .dropped
  perm : ∃ lost, (x.dropped ++ x.leaked ++ lost).Perm vs ∧ (x.fate ≠ .aborted → lost = [])
  leaked : hf = true → x.leaked = []
  quiet : d.Quiet → x.fate ≠ .aborted ∧ x.leaked = []

theorem Ends.reorder {hf : Bool} {t : List (Ev V)} {x : Drops (Traced σ V) V} {vs ws : List V} (h : Ends d hf t x vs) (p : vs.Perm ws) :
    Ends d hf t x ws := by
  obtain ⟨lost, h1, h2⟩ := h.perm
  exact ⟨h.trace, ⟨lost, h1.trans p, h2⟩, h.leaked, h.quiet⟩

theorem Ends.same (hf : Bool) (st : Traced σ V) : Ends d hf st.2 (.start st) [] :=
  ⟨by simp [Drops.start], ⟨[], .refl _, fun _ => rfl⟩, fun _ => rfl, fun _ => ⟨by simp [Drops.start], rfl⟩⟩

theorem runDtors_quiet (hq : d.Quiet) (l : List V) (st : Traced σ V) : (runDtors d.traced l st).2 = 0 := by
  induction l generalizing st with
  | nil => rfl
  | cons v l ih => simp [runDtors, ih, Dtor.traced, hq]

theorem Ends.of {hf : Bool} {np : Nat} {st : Traced σ V} {x y : Drops (Traced σ V) V} {vs : List V} (hh : x.HonestFrom np d.traced st)
    (ha : Accounted hf y x vs) (hnp : np ≤ 1) (h1 : y.dropped = []) (h2 : y.leaked = []) (h3 : y.fate = .ofPanics np) :
    Ends d hf st.2 x vs := by
  obtain ⟨dr, lk, lost, h⟩ := ha
  have e1 : x.dropped = dr := by rw [h.dropped, h1, List.nil_append]
  have e2 : x.leaked = lk := by rw [h.leaked, h2, List.nil_append]
  refine ⟨honest_trace hh, ⟨lost, by rw [e1, e2]; exact h.perm, h.lost_nil⟩, fun e => e2.trans (h.exact e).1, fun hq => ?_⟩
  have e3 : x.fate = .ofPanics np := by rw [hh.fate_eq, runDtors_quiet hq, Nat.zero_add]
  refine ⟨?_, e2.trans (h.lk_nil (e3.trans h3.symm))⟩
  rw [e3]
  match np, hnp with
  | 0, _ => exact fun e => nomatch e
  | 1, _ => exact fun e => nomatch e

theorem Ends.start {hf : Bool} {st : Traced σ V} {x : Drops (Traced σ V) V} {vs : List V} (hh : x.Honest d.traced st)
    (ha : Accounted hf (.start st) x vs) : Ends d hf st.2 x vs := .of hh ha (Nat.zero_le _) rfl rfl rfl

theorem Ends.unwind {hf : Bool} {st : Traced σ V} {x : Drops (Traced σ V) V} {vs : List V} (hh : x.HonestFrom 1 d.traced st)
    (ha : Accounted hf (.unwind st) x vs) : Ends d hf st.2 x vs := .of hh ha (Nat.le_refl _) rfl rfl rfl

theorem honest_each {np : Nat} {τ : Type} {e : Dtor τ V} {st : τ} : ∀ (l : List V) {x : Drops τ V}, x.HonestFrom np e st →
    (dropEach e l x).HonestFrom np e st
  | [], _, h => h
  | v :: l, _, h => honest_each l (h.value v)

theorem Ends.each (hf : Bool) (l : List V) (st : Traced σ V) : Ends d hf st.2 (dropEach d.traced l (.start st)) l :=
  .start (honest_each l (honest_start _ st)) ((accounted_each _ l _).weaken fun _ => rfl)

/-! ## Cloning -/

/-- What cloning does, in short. -/
def ClonesSound {S : Type} (d : Dtor σ V) (P : S → List V → Prop) (hf : Bool) (st : Traced σ V) : Cloned (Traced σ V) V S → Prop
  | .ok st' s' => ∃ us vs, st'.2 = st.2 ++ us.map .gave ∧ P s' vs ∧ vs.Perm us
  | .panicked x => ∃ us, Ends d hf (st.2 ++ us.map .gave) x us

theorem ClonesSound.of_law {S K : Type} {e : S → List (K × V)} {hf : Bool} {l : List (K × V)} {st : Traced σ V} {r : Cloned (Traced σ V) V S}
    (h : CloneLaw c.traced d.traced e hf l st r) : ClonesSound d (fun s vs => vs = vals (e s)) false st r := by
  cases r with
  | ok st' s' =>
    obtain ⟨_, h2, h3, _⟩ := h
    exact ⟨vals (cloneRef c.traced l st).made, _, by rw [h2, cloneRef_traced], rfl, h3.map _⟩
  | panicked x =>
    obtain ⟨_, h2, h3⟩ := h
    refine ⟨vals (cloneRef c.traced l st).made, ?_⟩
    have := Ends.unwind h2 h3
    rw [cloneRef_traced] at this
    exact this

theorem ClonesSound.of_run {S : Type} {κ : KeyTy} (hf : κ.hashFree = true) {P : S → List (κ.Key × V) → Prop} {l : List (κ.Key × V)}
    (hs : (l.map Prod.fst).Sublist κ.allKeys) {st : Traced σ V} {r : Cloned (Traced σ V) V S}
    (h : CloneRun c.traced d.traced P κ.unwindKeys l st r) : ClonesSound d (fun s vs => ∃ l, P s l ∧ vs = vals l) true st r := by
  cases r with
  | ok st' s' =>
    obtain ⟨made, h1, h2⟩ := h
    have := cloneRef_traced (c := c) l st
    rw [h1] at this
    exact ⟨vals made, _, this, ⟨made, h2, rfl⟩, .refl _⟩
  | panicked x =>
    obtain ⟨pre, k, v, post, st', rfl, g2, g3, g4, g5⟩ := h
    refine ⟨vals (cloneRef c.traced pre st).made, ?_⟩
    have := (Ends.unwind g4 g5).reorder (unwindKeys_perm hf hs ((cloneRef_keys (c := c.traced) pre st).2 g2))
    have e : st'.2 = (cloneRef c.traced pre st).st.2 := by
      have e1 := congrArg (fun q => q.1.2) g3
      have e2 := congrArg Prod.snd g3
      simp only [Cloner.traced] at e1 e2
      rw [e2] at e1
      simpa using e1.symm
    rw [e, cloneRef_traced] at this
    exact this

section
variable (H : Hashbrown) (κ : KeyTy)

/-- The values in a map. -/
def MapVals (m : (mapStorage H.api V κ).S) (vs : List V) : Prop := vs = vals ((mapCore H V κ).entries m)

theorem clonesSound_map {hc : TableCloneApi H.api V} (h : TableCloneLaw H V hc) (m : (mapStorage H.api V κ).S) (st : Traced σ V) :
    ClonesSound d (MapVals H κ) κ.hashFree st (Map.cloneD H.api hc κ c.traced d.traced m st) := by
  cases hf : κ.hashFree with
  | false => exact .of_law (clone_law c.traced d.traced H h κ m st)
  | true =>
    have := ClonesSound.of_run hf (keys_sublist H κ hf m) (clone_run (H := H) (hc := hc) (c := c.traced) (d := d.traced) κ hf m st)
    show ClonesSound d (MapVals H κ) true st (κ.cloneD H.api hc c.traced d.traced m st)
    revert this
    generalize κ.cloneD H.api hc c.traced d.traced m st = r
    intro this
    cases r with
    | ok st' s' =>
      obtain ⟨us, vs, h1, ⟨l, rfl, h2⟩, h3⟩ := this
      exact ⟨us, vs, h1, h2, h3⟩
    | panicked x => exact this

/-! ## Iterators -/

/-- The states of the owning iterator that occur, and the entries they stand for. -/
structure OwningIter (held : HeldApi H.api V) (c : Cloner σ V) (d : Dtor σ V)
    (R : (mapStorage H.api V κ).intoIter.I.St → List (κ.Key × V) → Prop) : Prop where
  sim : IsSim (mapStorage H.api V κ).intoIter.I R
  init : ∀ m, R ((mapStorage H.api V κ).intoIter.init m) ((mapCore H V κ).entries m)
  drop : ∀ it l, R it l → ∀ x, Accounted κ.hashFree x (κ.dropIntoIter H.api held d.traced it x) (vals l)
  clone : ∀ f, κ.cloneIntoIterD H.api held c.traced d.traced = some f → ∀ it l, R it l → ∀ st,
    ClonesSound d (fun it vs => ∃ l, R it l ∧ vs = vals l) κ.hashFree st (f it st)

theorem owningIter {held : HeldApi H.api V} (hh : HeldLaw H V held) (c : Cloner σ V) (d : Dtor σ V) :
    ∃ R, OwningIter H κ held c d R := by
  cases hf : κ.hashFree with
  | false =>
    obtain ⟨R, h1, h2, h3⟩ := intoIter_dropsAs H hh d.traced κ
    refine ⟨R, h1, h2, h3, fun f e => ?_⟩
    have := cloneIntoIterD_isSome H.api held c.traced d.traced κ
    rw [e, hf] at this
    cases this
  | true =>
    obtain ⟨f, e, R, h1, h2, h3, h4, h5⟩ := intoIter_clonesAs H held c.traced d.traced κ hf
    refine ⟨R, h1, h2, fun it l hr x => by rw [hf]; exact h3 it l hr x, fun f' e' it l hr st => ?_⟩
    cases e.symm.trans e'
    rw [hf]
    exact .of_run hf (h4 it l hr) (h5 it l hr st)
end

/-! ## The invariant -/

section
variable {H : Hashbrown} {κ : KeyTy} {R : (mapStorage H.api V κ).intoIter.I.St → List (κ.Key × V) → Prop}

/-- The values an iterator stands for. -/
def IterVals (R : (mapStorage H.api V κ).intoIter.I.St → List (κ.Key × V) → Prop) (it : (mapStorage H.api V κ).intoIter.I.St)
    (vs : List V) : Prop := ∃ l, R it l ∧ vs = vals l

/-- Every value is accounted for. -/
structure SoundWith (R : (mapStorage H.api V κ).intoIter.I.St → List (κ.Key × V) → Prop) (d : Dtor σ V) (w : World H.api κ σ V)
    (ms is lost : List V) : Prop where
  bad : w.bad = false
  maps : InAll (MapVals H κ) w.maps ms
  iters : InAll (IterVals R) w.iters is
  ledger : Ledger [] w.st.2 (ms ++ is ++ w.leaked ++ lost)
  lost_nil : w.aborted = false → lost = []
  leaked : κ.hashFree = true → w.leaked = []
  quiet : d.Quiet → w.aborted = false ∧ w.leaked = []

def Sound (R : (mapStorage H.api V κ).intoIter.I.St → List (κ.Key × V) → Prop) (d : Dtor σ V) (w : World H.api κ σ V) : Prop :=
  ∃ ms is lost, SoundWith R d w ms is lost

variable {w w' : World H.api κ σ V} {ms is ms' is' vs : List V} {evs : List (Ev V)} {x : Drops (Traced σ V) V}

theorem SoundWith.step (h : SoundWith R d w ms is []) (he : Ends d κ.hashFree (w.st.2 ++ evs) x vs) (hst : w'.st = x.st)
    (hl : w'.leaked = w.leaked ++ x.leaked) (ha : w'.aborted = decide (x.fate = .aborted)) (hb : w'.bad = false)
    (hm : InAll (MapVals H κ) w'.maps ms') (hi : InAll (IterVals R) w'.iters is')
    (bal : Ledger (ms ++ is) evs (ms' ++ is' ++ vs)) : Sound R d w' := by
  classical
  obtain ⟨lost, h1, h2⟩ := he.perm
  refine ⟨ms', is', lost, hb, hm, hi, ?_, ?_, ?_, ?_⟩
  · rw [hst, he.trace, hl]
    have h3 := h.ledger
    rw [List.append_nil] at h3
    refine (h3.append (bal.frame w.leaked)).append ((ledger_dropped x.dropped _).left ?_)
    rw [List.perm_iff_count] at h1 ⊢
    intro a
    have h1 := h1 a
    simp only [List.count_append] at *
    omega
  · intro e
    rw [ha] at e
    exact h2 (by simpa using e)
  · intro e
    rw [hl, h.leaked e, he.leaked e]
    rfl
  · intro hq
    have := he.quiet hq
    rw [ha, hl, (h.quiet hq).2, this.2]
    exact ⟨decide_eq_false this.1, rfl⟩

/-- A step that drops nothing. -/
theorem SoundWith.plain (h : SoundWith R d w ms is []) (ha : w.aborted = false) (hst : w'.st.2 = w.st.2 ++ evs)
    (hl : w'.leaked = w.leaked) (haa : w'.aborted = w.aborted) (hb : w'.bad = w.bad)
    (hm : InAll (MapVals H κ) w'.maps ms') (hi : InAll (IterVals R) w'.iters is')
    (bal : Ledger (ms ++ is) evs (ms' ++ is')) : Sound R d w' := by
  refine h.step (evs := evs) (x := .start w'.st) (vs := []) ?_ rfl ?_ ?_ (hb.trans h.bad) hm hi (by simpa using bal)
  · rw [← hst]; exact .same _ _
  · rw [hl]; exact (List.append_nil _).symm
  · rw [haa, ha]; rfl

/-- Nothing happened. -/
theorem SoundWith.sound (h : SoundWith R d w ms is []) : Sound R d w := ⟨_, _, _, h⟩

/-! ## Calls -/

theorem sound_dropped (h : SoundWith R d w ms is []) {y : Nat} {m m' : (mapStorage H.api V κ).S} (hx : w.maps[y]? = some (some m))
    (he : Ends d κ.hashFree (w.st.2 ++ evs) x vs)
    (bal : Ledger (vals ((mapCore H V κ).entries m)) evs (vals ((mapCore H V κ).entries m') ++ vs)) :
    Sound R d ((w.after x).setMap y (some m')) := by
  obtain ⟨us, rest, h1, h2, h3⟩ := h.maps.set hx
  cases h1
  obtain ⟨ms', h4, h5⟩ := h3 (some m') _ rfl
  refine h.step he rfl rfl rfl h.bad h4 h.iters (((bal.frame (rest ++ is)).left ?_).right ?_)
  · rw [← List.append_assoc]
    exact h2.symm.append_right is
  · refine .trans ?_ ((h5.symm.append_right is).append_right vs)
    classical
    rw [List.perm_iff_count]
    intro a
    simp only [List.count_append]
    omega

theorem sound_apiStep (h : SoundWith R d w ms is []) {y : Nat} {m : (mapStorage H.api V κ).S} (hx : w.maps[y]? = some (some m))
    (op : Op σ κ.Key V) :
    Sound R d (w.done d y (apiStep (mapStorage H.api V κ) m op)) := by
  obtain ⟨r, hr, hm⟩ := step_sim (mapIters H V κ) m op
  rw [hr]
  have hv := refStep_vals ((mapCore H V κ).nodup_keys m) op
  refine sound_dropped h hx (.each κ.hashFree r.dropped (r.out.world w.st.1, w.st.2 ++ (r.puts.map .gave ++ r.moved.map .got))) (.moves ?_)
  have p1 : (vals ((mapCore H V κ).entries r.s)).Perm (vals (refStep ((mapCore H V κ).entries m) op).s) := hm.entries.map Prod.snd
  have p2 := hm.dropped
  rw [hm.puts, hm.moved]
  classical
  rw [List.perm_iff_count] at *
  intro a
  have := hv a
  have := p1 a
  have := p2 a
  simp only [List.count_append] at *
  omega

theorem sound_modify (h : SoundWith R d w ms is []) {y : Nat} {m : (mapStorage H.api V κ).S} (hx : w.maps[y]? = some (some m))
    (k : κ.Key) (v u : V) : Sound R d (w.call d y m (.modifyOrInsert k v u)) := by
  have hn := (mapCore H V κ).nodup_keys m
  have hg := (mapCore H V κ).finGet m k
  simp only [World.call, Map.entry]
  generalize hL : (mapCore H V κ) = L at *
  cases e0 : (mapStorage H.api V κ).get m k with
  | some old =>
    obtain ⟨e, s', he, hs, hf⟩ := L.entry_some m k old e0
    obtain ⟨a, ha, hk⟩ := L.occGetMut_eq e s' k hf
    have hf' := L.occFits_write e s' k a v hf hk
    obtain ⟨a', ha', hk'⟩ := L.occIntoMut_eq e _ k hf'
    have hself := L.get_write_self s' a k v hk
    simp only [he, Res.bind, Entry.andModify, ha, L.read_eq s' a k hk, hs k, e0, Entry.orInsert, ha', Res.map]
    refine (if_pos (c := (Drops.start (w.st.add [.gave v, .got old]) : Drops (Traced σ V) V).fate = .normal) rfl).symm ▸ ?_
    have p1 : (vals (L.entries ((mapStorage H.api V κ).write s' a v))).Perm (vals (FinMap.put (L.entries m) k v)) :=
      (L.perm_put hself fun k' hne => (L.get_write_ne s' a k v k' hk hne).trans (hs k')).map _
    have p2 := erase_perm hn k
    rw [hg, e0] at p2
    subst hL
    refine sound_dropped h hx (evs := [.gave v, .got old, .gave u]) (vs := [u]) ?_ ?_
    · have := Ends.each (d := d) κ.hashFree [u] ((w.st.add [.gave v, .got old]).add [.gave u])
      have e1 : ((w.st.add [.gave v, .got old]).add [.gave u]).2 = w.st.2 ++ [.gave v, .got old, .gave u] := by simp [Traced.add]
      rw [e1] at this
      exact this
    · refine .gave (.got (g := v :: vals (FinMap.erase ((mapCore H V κ).entries m) k)) ((p2.cons v).trans (.swap ..)) (.gave (.nil ?_)))
      refine .trans ?_ (p1.symm.append_right [u])
      exact (List.perm_append_comm (l₁ := [u]))
  | none =>
    obtain ⟨e, s', he, hs, hf⟩ := L.entry_none m k e0
    obtain ⟨_, a, s'', ha, hk, hne, hka⟩ := L.vacInsert_eq e s' k u hf
    simp only [he, Res.bind, Entry.andModify, Entry.orInsert, ha, Res.map]
    have p0 : (vals (L.entries s')).Perm (vals (L.entries m)) := (L.perm_of_get hs).map _
    have p1 : (vals (L.entries s'')).Perm (vals (FinMap.put (L.entries m) k u)) :=
      (L.perm_put hk fun k' hk' => (hne k' hk').trans (hs k')).map _
    have p2 := erase_perm hn k
    rw [hg, e0] at p2
    subst hL
    have hE := Ends.each (d := d) κ.hashFree [v] (w.st.add [.gave v])
    have hp := accounted_each d.traced [v] (.start (w.st.add [.gave v]))
    generalize hz : dropEach d.traced [v] (.start (w.st.add [.gave v])) = z at *
    have hz' : dropEach d.traced [v] (.start (w.st.add (.gave v :: List.map Ev.got []))) = z := hz
    rw [hz']
    split
    · rename_i hn'
      have hd : z.dropped = [v] ∧ z.leaked = [] := by
        obtain ⟨dr, lk, lost, hp⟩ := hp
        have e1 := (hp.exact rfl).1
        have e2 := hp.lost_nil (by rw [hn']; exact fun e => nomatch e)
        have e3 := (hp.exact rfl).2
        rw [e2, List.append_nil] at e3
        exact ⟨by rw [hp.dropped, e3]; rfl, by rw [hp.leaked, e1]; rfl⟩
      have ht := hE.trace
      rw [hd.1] at ht
      have hw : w.after (dropEach d.traced [] { z with st := z.st.add [.gave u] }) = w.after (.start (z.st.add [.gave u])) := by
        simp only [World.after, dropEach, hd.2, hn', Drops.start]; rfl
      rw [hw]
      refine sound_dropped h hx (evs := [.gave v, .dropped v, .gave u]) (vs := []) ?_ ?_
      · have := Ends.same (d := d) κ.hashFree (z.st.add [.gave u])
        have e1 : (z.st.add [.gave u]).2 = w.st.2 ++ [.gave v, .dropped v, .gave u] := by
          show z.st.2 ++ _ = _
          rw [ht]
          simp [Traced.add]
        rw [e1] at this
        exact this
      · refine .gave (.dropped (.refl _) (.gave (.nil ?_)))
        rw [List.append_nil]
        exact (p2.cons u).trans p1.symm
    · refine sound_dropped h hx (evs := [.gave v]) (vs := [v]) hE (.gave (.nil ?_))
      exact (p0.symm.cons v).trans (List.perm_append_comm (l₁ := [v]))

end

/-! ## Collecting a vector -/

/-- Forget the vector. -/
def Drops.proj {τ : Type} (x : Drops (σ × τ) V) : Drops σ V := ⟨x.st.1, x.fate, x.dropped, x.leaked⟩

theorem runDtors_beside {τ : Type} (z : τ) (l : List V) (st : σ) :
    runDtors d.beside l (st, z) = (((runDtors d l st).1, z), (runDtors d l st).2) := by
  induction l generalizing st with
  | nil => rfl
  | cons v l ih => simp [runDtors, Dtor.beside, ih]

theorem honest_beside {τ : Type} {z : τ} {np : Nat} {st : σ} {x : Drops σ V} (h : x.HonestFrom np d st) :
    (⟨(x.st, z), x.fate, x.dropped, x.leaked⟩ : Drops (σ × τ) V).HonestFrom np d.beside (st, z) := by
  refine ⟨?_, ?_, ?_⟩
  · simp only [runDtors_beside, ← h.st_eq]
  · simp only [runDtors_beside]; exact h.fate_eq
  · simp only [runDtors_beside]; exact h.stops

theorem honest_proj {τ : Type} {z : τ} {np : Nat} {st : σ} {x : Drops (σ × τ) V} (h : x.HonestFrom np d.beside (st, z)) :
    x.proj.HonestFrom np d st := by
  obtain ⟨h1, h2, h3⟩ := h
  simp only [runDtors_beside] at h1 h2 h3
  exact ⟨congrArg Prod.fst h1, h2, h3⟩

theorem accounted_proj {τ : Type} {z : σ × τ} {st : σ} {hf : Bool} {x : Drops (σ × τ) V} {vs : List V} (h : Accounted hf (.start z) x vs) :
    Accounted hf (.start st) x.proj vs := by
  obtain ⟨dr, lk, lost, h⟩ := h
  exact ⟨dr, lk, lost, h.le, h.dropped, h.leaked, h.perm, h.lost_nil, h.lk_nil, h.idle, h.exact⟩

theorem takeItems_honest {K E : Type} [DecidableEq K] (st0 : σ) : ∀ (l : List (K × V)) fuel items replaced (st : σ) t,
    takeItems (E := E) d.beside vecNext fuel items replaced (st, l) = some t → (⟨st, .normal, replaced, []⟩ : Drops σ V).Honest d st0 →
    (⟨t.st.1, t.stop.fate, t.replaced, []⟩ : Drops σ V).Honest d st0
  | _, 0, _, _, _, _, h, _ => by cases h
  | [], fuel + 1, items, replaced, st, t, h, g => by
    cases h
    exact g
  | p :: l, fuel + 1, items, replaced, st, t, h, g => by
    simp only [takeItems, vecNext] at h
    cases hg : FinMap.get items p.1 with
    | none =>
      rw [hg] at h
      exact takeItems_honest st0 l fuel _ _ st t h g
    | some old =>
      rw [hg] at h
      have g' := g.value old
      cases hd : (d st old).2 with
      | true =>
        simp only [Dtor.beside, hd, if_true] at h
        cases h
        simp only [Drops.value, hd, if_true] at g'
        exact g'
      | false =>
        simp only [Dtor.beside, hd, Bool.false_eq_true, if_false] at h
        simp only [Drops.value, hd, Bool.false_eq_true, if_false] at g'
        exact takeItems_honest st0 l fuel _ _ _ t h g'

theorem collect_sound (H : Hashbrown) (κ : KeyTy) (l : List (κ.Key × V)) (fuel : Nat) (hf : l.length < fuel) (st : Traced σ V) :
    ∃ out x, Map.collectFrom H.api d.traced.beside κ vecNext (vecDrop d.traced) fuel (st, l) = some (out, x) ∧
      match out with
      | .ok m => ∃ ds, Ends d κ.hashFree st.2 x.proj ds ∧ (vals ((mapCore H V κ).entries m) ++ ds).Perm (vals l)
      | .fail _ => False
      | .panicked => Ends d κ.hashFree st.2 x.proj (vals l) := by
  have h := collect_law H κ d.traced.beside (E := Empty) vecNext fuel [] [] (Map.new (mapStorage H.api V κ)) (st, l) (.start H κ)
  obtain ⟨t, h1, h2, h3⟩ := takeItems_vec κ d.traced (E := Empty) l fuel [] [] st hf
  have hh := takeItems_honest st l fuel [] [] st t h1 (honest_start _ st)
  rw [h1] at h
  obtain ⟨m, hm, hc⟩ := h
  have e : Map.collectFrom H.api d.traced.beside κ vecNext (vecDrop d.traced) fuel (st, l) = some (if (vecDrop d.traced t.drops).fate = .normal then
      (.ok m, vecDrop d.traced t.drops) else (.panicked, κ.dropD H.api d.traced.beside m (vecDrop d.traced t.drops))) := congrArg (Option.map _) hc
  have h2 : t.items.reverse ++ t.st.2 = l := h2
  have h0 : Accounted true (.start (st, ([] : List (κ.Key × V)))) { t.drops with st := (t.st.1, []) } t.replaced :=
    ⟨t.replaced, [], [], Nat.zero_le _, rfl, rfl, by simp, fun _ => rfl, fun _ => rfl, (fun e => nomatch e), fun _ => ⟨rfl, by simp⟩⟩
  have hy : Accounted true { t.drops with st := (t.st.1, []) } (vecDrop d.traced t.drops) (vals t.st.2) :=
    accounted_each (τ := Traced σ V × List (κ.Key × V)) d.traced.beside (t.st.2.map Prod.snd) { t.drops with st := (t.st.1, []) }
  have hy' := h0.append hy
  have hh' : (vecDrop d.traced t.drops).Honest d.traced.beside (st, ([] : List (κ.Key × V))) :=
    honest_each (e := d.traced.beside) (t.st.2.map Prod.snd) (honest_beside hh)
  have p2 := hm.vals
  have p3 : (vals t.items ++ vals t.st.2).Perm (vals l) := by
    rw [← h2, vals, vals, vals, List.map_append, List.map_reverse]
    exact (List.reverse_perm _).symm.append_right _
  by_cases hn : (vecDrop d.traced t.drops).fate = .normal
  · refine ⟨_, _, e.trans (congrArg some (if_pos hn)), t.replaced ++ vals t.st.2,
      .start (honest_proj hh') (accounted_proj (hy'.weaken fun _ => rfl)), ?_⟩
    rw [← List.append_assoc]
    exact (p2.append_right _).trans p3
  · refine ⟨_, _, e.trans (congrArg some (if_neg hn)), ?_⟩
    have ha := hy'.append (drop_accounted H d.traced.beside κ m (vecDrop d.traced t.drops))
    refine (Ends.start (honest_proj (drop_honest H d.traced.beside (st, []) κ m _ hh')) (accounted_proj ha)).reorder ?_
    refine .trans ?_ p3
    refine List.perm_append_comm.trans ?_
    rw [← List.append_assoc]
    exact p2.append_right _

/-! ## Statements -/

section
variable {H : Hashbrown} {κ : KeyTy} {R : (mapStorage H.api V κ).intoIter.I.St → List (κ.Key × V) → Prop}
  {w : World H.api κ σ V} {ms is : List V}

theorem sound_call (h : SoundWith R d w ms is []) (ha : w.aborted = false) {y : Nat} {m : (mapStorage H.api V κ).S}
    (hx : w.maps[y]? = some (some m)) (op : Op σ κ.Key V) : Sound R d (w.call d y m op) := by
  cases op with
  | clear =>
    obtain ⟨pre, post, h1, h2, h3, _⟩ := clear_law H d.traced κ m (.start w.st) rfl
    have he : Ends d κ.hashFree (w.st.2 ++ []) (κ.clearD H.api d.traced m (.start w.st)).2 (vals pre) := by
      rw [List.append_nil]
      exact .start (clear_honest H d.traced w.st κ m _ (honest_start _ w.st)) h3
    refine sound_dropped h hx (m' := (κ.clearD H.api d.traced m (.start w.st)).1) he ?_
    rw [h1, h2]
    refine .nil ?_
    simp only [vals, List.map_append]
    exact List.perm_append_comm
  | retain f st =>
    have hm := retainD_law H d.traced κ (tracedRetain f) m (st, w.st.2)
    obtain ⟨evs, h1, h2⟩ := retainRefD_traced (d := d) f ((mapCore H V κ).entries m) (st, w.st.2)
    obtain ⟨us, rest, g1, g2, g3⟩ := h.maps.set hx
    cases g1
    obtain ⟨ms', g4, g5⟩ := g3 (some (κ.retainD H.api d.traced (tracedRetain f) m (st, w.st.2)).s) _ rfl
    refine h.plain ha (evs := evs) ?_ rfl rfl rfl g4 h.iters (((h2.frame (rest ++ is)).left ?_).right ?_)
    · show (κ.retainD H.api d.traced (tracedRetain f) m (st, w.st.2)).st.2 = _
      rw [hm.st, h1]
    · rw [← List.append_assoc]
      exact g2.symm.append_right is
    · rw [← List.append_assoc]
      exact (((hm.entries.map Prod.snd).symm.append_right rest).trans g5.symm).append_right is
  | modifyOrInsert k v u => exact sound_modify h hx k v u
  | insert k v => exact sound_apiStep h hx (.insert k v)
  | remove k => exact sound_apiStep h hx (.remove k)
  | get k => exact sound_apiStep h hx (.get k)
  | containsKey k => exact sound_apiStep h hx (.containsKey k)
  | len => exact sound_apiStep h hx (.len)
  | isEmpty => exact sound_apiStep h hx (.isEmpty)
  | replace k v => exact sound_apiStep h hx (.replace k v)
  | iter => exact sound_apiStep h hx (.iter)
  | orInsert k v => exact sound_apiStep h hx (.orInsert k v)
  | orInsertWith k f st => exact sound_apiStep h hx (.orInsertWith k f st)
  | orInsertWithKey k f st => exact sound_apiStep h hx (.orInsertWithKey k f st)
  | orDefault k f st => exact sound_apiStep h hx (.orDefault k f st)
  | entryInsert k v => exact sound_apiStep h hx (.entryInsert k v)
  | entryRemove k => exact sound_apiStep h hx (.entryRemove k)
  | entryKey k => exact sound_apiStep h hx (.entryKey k)
  | updateAll f st => exact sound_apiStep h hx (.updateAll f st)

variable {held : HeldApi H.api V} {hc : TableCloneApi H.api V}

theorem sound_step (hR : OwningIter H κ held c d R) (hl : TableCloneLaw H V hc) (h : SoundWith R d w ms is []) (ha : w.aborted = false)
    (s : Stmt σ κ.Key V) : Sound R d (w.step held hc c d s) := by
  have hid : Sound R d w := h.sound
  cases s with
  | new =>
    refine h.plain ha (evs := []) (w' := w.newMap (Map.new _)) (by simp [World.newMap]) rfl rfl rfl (h.maps.push (us := []) ?_) h.iters ?_
    · refine (List.map_eq_nil_iff.mpr (List.eq_nil_iff_forall_not_mem.mpr fun p hp => ?_)).symm
      have := ((mapCore H V κ).mem_entries (Map.new (mapStorage H.api V κ)) p.1 p.2).mp hp
      rw [show (mapStorage H.api V κ).get (Map.new (mapStorage H.api V κ)) p.1 = none from (mapCore H V κ).get_empty p.1] at this
      cases this
    · exact .nil (by simp)
  | call x op =>
    simp only [World.step]
    split
    · rename_i m hx
      exact sound_call h ha hx _
    · exact hid
  | clone x =>
    simp only [World.step]
    split
    · rename_i m hx
      have := clonesSound_map (c := c) (d := d) H κ hl m w.st
      revert this
      cases Map.cloneD H.api hc κ c.traced d.traced m w.st with
      | ok st m' =>
        rintro ⟨us, vs, h1, h2, h3⟩
        refine h.plain ha (evs := us.map .gave) h1 rfl rfl rfl (h.maps.push h2) h.iters (.gives ?_)
        refine .trans ?_ (List.Perm.append_right is (h3.symm.append_left ms))
        rw [List.append_assoc, List.append_assoc]
        exact List.perm_append_comm.append_left ms
      | panicked x =>
        rintro ⟨us, h1⟩
        exact h.step h1 rfl rfl rfl h.bad h.maps h.iters (.gives (.refl _))
    · exact hid
  | cloneFrom x y =>
    simp only [World.step]
    split
    · rename_i m m' hx hy
      split
      · exact hid
      · have := clonesSound_map (c := c) (d := d) H κ hl m' w.st
        simp only [Map.cloneFromD]
        revert this
        cases Map.cloneD H.api hc κ c.traced d.traced m' w.st with
        | ok st m'' =>
          rintro ⟨us, vs, h1, h2, h3⟩
          cases h2
          have he : Ends d κ.hashFree st.2 (κ.dropD H.api d.traced m (.start st)) (vals ((mapCore H V κ).entries m)) :=
            .start (drop_honest H d.traced st κ m _ (honest_start _ st)) (drop_accounted H d.traced κ m (.start st))
          rw [h1] at he
          refine sound_dropped h hx he (.gives ?_)
          exact List.perm_append_comm.trans (h3.symm.append_right _)
        | panicked z =>
          rintro ⟨us, h1⟩
          exact sound_dropped h hx h1 (.gives (.refl _))
    · exact hid
  | collect l =>
    simp only [World.step]
    obtain ⟨out, x, h1, h2⟩ := collect_sound (d := d) H κ l (l.length + 1) (Nat.lt_succ_self _) (w.st.add (l.map fun p : κ.Key × V => .gave p.2))
    rw [h1]
    have he : (w.st.add (l.map fun p : κ.Key × V => .gave p.2)).2 = w.st.2 ++ (vals l).map .gave := by simp [Traced.add, vals]
    cases out with
    | ok m =>
      obtain ⟨ds, h2, h3⟩ := h2
      rw [he] at h2
      refine h.step h2 rfl rfl rfl h.bad (h.maps.push rfl) h.iters (.gives ?_)
      classical
      rw [List.perm_iff_count] at *
      intro a
      have := h3 a
      simp only [List.count_append] at *
      omega
    | fail e => exact h2.elim
    | panicked =>
      rw [he] at h2
      exact h.step h2 rfl rfl rfl h.bad h.maps h.iters (.gives (.refl _))
  | intoIter x =>
    simp only [World.step]
    split
    · rename_i m hx
      obtain ⟨us, rest, g1, g2, g3⟩ := h.maps.set hx
      cases g1
      obtain ⟨ms', g4, g5⟩ := g3 none [] rfl
      refine h.plain ha (evs := []) (by simp [World.newIter, World.setMap]) rfl rfl rfl g4 (h.iters.push ⟨_, hR.init m, rfl⟩) (.nil ?_)
      classical
      rw [List.perm_iff_count] at *
      intro a
      have := g2 a
      have := g5 a
      simp only [List.count_append, List.count_nil] at *
      omega
    · exact hid
  | next i dir =>
    simp only [World.step]
    split
    · rename_i it hx
      obtain ⟨us, rest, ⟨l, g1, rfl⟩, g2, g3⟩ := h.iters.set hx
      have key : ∀ (o : Option (κ.Key × V)) it' l', R it' l' → l.Perm (o.toList ++ l') → Sound R d
            ({ w with st := w.st.add (o.toList.map fun p : κ.Key × V => .got p.2) }.setIter i (some it')) := by
        intro o it' l' hr hp
        obtain ⟨is', g4, g5⟩ := g3 (some it') _ ⟨l', hr, rfl⟩
        have he : (o.toList.map fun p : κ.Key × V => Ev.got p.2) = (vals o.toList).map .got := by simp [vals]
        rw [he]
        refine h.plain ha (evs := (vals o.toList).map .got) rfl rfl rfl rfl h.maps g4 (.takes ?_)
        have hp : (vals l).Perm (vals o.toList ++ vals l') := by
          have := hp.map Prod.snd
          rwa [List.map_append] at this
        classical
        rw [List.perm_iff_count] at *
        intro a
        have := hp a
        have := g2 a
        have := g5 a
        simp only [List.count_append] at *
        omega
      cases dir with
      | front =>
        obtain ⟨e1, e2⟩ := hR.sim.next it l g1
        refine key _ _ _ e2 ?_
        show l.Perm (((mapStorage H.api V κ).intoIter.I.next it).1.toList ++ l.tail)
        rw [e1]
        cases l <;> simp
      | back =>
        have hs : (Map.intoIter (mapStorage H.api V κ)).I.step .back it = (mapStorage H.api V κ).intoIter.I.nextBack?.map fun nb => nb it := rfl
        rw [hs]
        cases hb : (mapStorage H.api V κ).intoIter.I.nextBack? with
        | none => exact hid
        | some nb =>
          obtain ⟨e1, e2⟩ := hR.sim.back nb hb it l g1
          refine key _ _ _ e2 ?_
          rw [e1]
          rcases List.eq_nil_or_concat l with rfl | ⟨l', a, rfl⟩
          · exact .refl _
          · rw [List.concat_eq_append, List.getLast?_concat, List.dropLast_concat]
            exact List.perm_append_comm
    · exact hid
  | cloneIter i =>
    simp only [World.step]
    split
    · rename_i it f hx hf
      obtain ⟨us, rest, ⟨l, g1, rfl⟩, g2, g3⟩ := h.iters.set hx
      have := hR.clone f hf it l g1 w.st
      revert this
      cases f it w.st with
      | ok st it' =>
        rintro ⟨us, vs, h1, h2, h3⟩
        refine h.plain ha (evs := us.map .gave) h1 rfl rfl rfl h.maps (h.iters.push h2) (.gives ?_)
        rw [← List.append_assoc]
        exact h3.symm.append_left _
      | panicked x =>
        rintro ⟨us, h1⟩
        exact h.step h1 rfl rfl rfl h.bad h.maps h.iters (.gives (.refl _))
    · exact hid
  | dropMap x =>
    simp only [World.step]
    split
    · rename_i m hx
      obtain ⟨us, rest, g1, g2, g3⟩ := h.maps.set hx
      cases g1
      obtain ⟨ms', g4, g5⟩ := g3 none [] rfl
      have he : Ends d κ.hashFree (w.st.2 ++ []) (κ.dropD H.api d.traced m (.start w.st)) (vals ((mapCore H V κ).entries m)) := by
        rw [List.append_nil]
        exact .start (drop_honest H d.traced w.st κ m _ (honest_start _ w.st)) (drop_accounted H d.traced κ m (.start w.st))
      refine h.step he rfl rfl rfl h.bad g4 h.iters (.nil ?_)
      classical
      rw [List.perm_iff_count] at *
      intro a
      have := g2 a
      have := g5 a
      simp only [List.count_append, List.count_nil] at *
      omega
    · exact hid
  | dropIter i =>
    simp only [World.step]
    split
    · rename_i it hx
      obtain ⟨us, rest, ⟨l, g1, rfl⟩, g2, g3⟩ := h.iters.set hx
      obtain ⟨is', g4, g5⟩ := g3 none [] rfl
      have he : Ends d κ.hashFree (w.st.2 ++ []) (κ.dropIntoIter H.api held d.traced it (.start w.st)) (vals l) := by
        rw [List.append_nil]
        exact .start (dropIntoIter_honest H.api held d.traced w.st κ it _ (honest_start _ w.st)) (hR.drop it l g1 (.start w.st))
      refine h.step he rfl rfl rfl h.bad h.maps g4 (.nil ?_)
      classical
      rw [List.perm_iff_count] at *
      intro a
      have := g2 a
      have := g5 a
      simp only [List.count_append, List.count_nil] at *
      omega
    · exact hid

theorem sound_start (st : σ) : SoundWith R d (World.start st) [] [] [] :=
  ⟨rfl, .nil, .nil, .nil (.refl _), fun _ => rfl, fun _ => rfl, fun _ => ⟨rfl, rfl⟩⟩

theorem sound_run (hR : OwningIter H κ held c d R) (hl : TableCloneLaw H V hc) : ∀ (p : List (Stmt σ κ.Key V)) (w : World H.api κ σ V),
    Sound R d w → Sound R d (w.run held hc c d p)
  | [], _, h => h
  | s :: p, w, h => by
    rw [World.run]
    cases ha : w.aborted with
    | true => exact h
    | false =>
      obtain ⟨ms, is, lost, h⟩ := h
      cases h.lost_nil ha
      exact sound_run hR hl p _ (sound_step hR hl h ha s)
end

end FixedMap
