import Verif.Proofs.IterClone
import Verif.Proofs.GenIter

/-! # The emitted `Clone` of the iterators -/

set_option autoImplicit false
set_option linter.unusedSimpArgs false

namespace FixedMap.Gen

variable {H : HashbrownApi} {V : Type}

/-! ## Structs with distinct names -/

theorem get_of_mem {S : IStruct H V} (hn : (S.map Prod.fst).Nodup) {p : String × ICell H V} (hp : p ∈ S) :
    S.get p.1 = some p.2 := by
  induction S with
  | nil => cases hp
  | cons a S ih =>
    rw [List.map_cons, List.nodup_cons] at hn
    simp only [IStruct.get] at ih ⊢
    rcases List.mem_cons.mp hp with e | h
    · rw [e, List.lookup_cons, beq_self_eq_true]
    · have hne : (p.1 == a.1) = false := by
        rw [beq_eq_false_iff_ne]
        intro e
        exact hn.1 (e ▸ List.mem_map_of_mem h)
      rw [List.lookup_cons, hne]
      exact ih hn.2 h

theorem mem_of_get {S : IStruct H V} {n : String} {x : ICell H V} (h : S.get n = some x) : (n, x) ∈ S := by
  induction S with
  | nil => cases h
  | cons a S ih =>
    obtain ⟨m, y⟩ := a
    simp only [IStruct.get, List.lookup_cons] at h ih
    cases e : n == m with
    | true =>
      rw [e] at h
      cases h
      rw [eq_of_beq e]
      exact List.mem_cons_self
    | false =>
      rw [e] at h
      exact List.mem_cons_of_mem _ (ih h)

theorem set_types {S : IStruct H V} (hn : (S.map Prod.fst).Nodup) {n : String} {x y : ICell H V} (h : S.get n = some x)
    (ht : y.ty = x.ty) : (S.set n y).map (fun p => (p.1, p.2.ty)) = S.map fun p => (p.1, p.2.ty) := by
  simp only [IStruct.set, List.map_map]
  refine List.map_congr_left fun p hp => ?_
  simp only [Function.comp]
  split
  · rename_i e
    have := get_of_mem hn hp
    rw [e, h] at this
    cases this
    rw [ht]
  · rfl

/-! ## Steps keep the type of a field, and no `&mut` appears -/

/-- No `&mut` in an `Option`. -/
def ICell.NoAddr : ICell H V → Prop
  | .opt (some (.addr _)) => False
  | _ => True

theorem StepFn.run_keeps {fn : StepFn} {x y : ICell H V} {o : Option (Item H V)} (h : fn.run x = some (o, y)) :
    y.ty = x.ty ∧ (x.NoAddr → y.NoAddr) := by
  cases fn <;> cases x <;> simp only [StepFn.run, Option.some.injEq, Prod.mk.injEq, reduceCtorEq, Option.map_eq_some_iff] at h
  · obtain ⟨-, rfl⟩ := h
    exact ⟨rfl, fun _ => trivial⟩
  · obtain ⟨-, rfl⟩ := h
    exact ⟨rfl, fun _ => trivial⟩
  · obtain ⟨-, rfl⟩ := h
    exact ⟨rfl, fun _ => trivial⟩
  · obtain ⟨-, rfl⟩ := h
    exact ⟨rfl, fun _ => trivial⟩
  · obtain ⟨nb, -, -, rfl⟩ := h
    exact ⟨rfl, fun _ => trivial⟩
  · obtain ⟨nb, -, -, rfl⟩ := h
    exact ⟨rfl, fun _ => trivial⟩

theorem IterArm.on_fn {a : IterArm} {x y : ICell H V} {o : Option (Out H V)} (h : a.on x = some (o, y)) :
    ∃ i, a.fn.run x = some (i, y) := by
  simp only [IterArm.on, Option.bind_eq_some_iff] at h
  obtain ⟨⟨_ | i, z⟩, h1, h2⟩ := h
  · cases h2
    exact ⟨none, h1⟩
  · simp only [Option.bind_eq_some_iff, Option.map_eq_some_iff, Prod.mk.injEq] at h2
    obtain ⟨_, -, _, -, -, rfl⟩ := h2
    exact ⟨some i, h1⟩

/-- The invariant of an iterator: the declared fields, without `&mut` in an `Option`. -/
structure Inv (decls : List (String × IterTy)) (S : IStruct H V) : Prop where
  types : S.map (fun p => (p.1, p.2.ty)) = decls
  noAddr : ∀ p ∈ S, p.2.NoAddr

theorem Inv.names {decls : List (String × IterTy)} {S : IStruct H V} (h : Inv decls S) :
    S.map Prod.fst = decls.map Prod.fst := by
  rw [← h.types, List.map_map]
  rfl

theorem Inv.set {decls : List (String × IterTy)} {S : IStruct H V} (h : Inv decls S) (hd : (decls.map Prod.fst).Nodup)
    {n : String} {x y : ICell H V} (hg : S.get n = some x) (ht : y.ty = x.ty) (hy : x.NoAddr → y.NoAddr) :
    Inv decls (S.set n y) where
  types := by rw [set_types (h.names ▸ hd) hg ht, h.types]
  noAddr p hp := by
    simp only [IStruct.set, List.mem_map] at hp
    obtain ⟨q, hq, rfl⟩ := hp
    split
    · exact hy (h.noAddr _ (mem_of_get hg))
    · exact h.noAddr q hq

theorem runArms_inv {decls : List (String × IterTy)} (hd : (decls.map Prod.fst).Nodup) {S T : IStruct H V}
    (h : Inv decls S) {i : Nat} {o : Option (Out H V)} : ∀ arms : List IterArm, runArms i S arms = some (.done o T) →
    Inv decls T := by
  intro arms
  induction arms with
  | nil => intro e; simp [runArms] at e
  | cons a arms ih =>
    intro e
    rw [runArms] at e
    split at e
    · simp only [Option.bind_eq_some_iff, Option.map_eq_some_iff] at e
      obtain ⟨x, hx, ⟨o', y⟩, h1, h2⟩ := e
      cases h2
      obtain ⟨_, h3⟩ := IterArm.on_fn h1
      exact h.set hd hx (StepFn.run_keeps h3).1 (StepFn.run_keeps h3).2
    · exact ih e

theorem runNext_inv {decls : List (String × IterTy)} (hd : (decls.map Prod.fst).Nodup) (arms : List IterArm) :
    ∀ (fuel : Nat) (it it' : IterVal H V) (o : Option (Out H V)), Inv decls it.fields →
      runNext arms fuel it = some (o, it') → Inv decls it'.fields := by
  intro fuel
  induction fuel with
  | zero => intro it it' o _ e; cases e
  | succ fuel ih =>
    intro it it' o h e
    rw [runNext] at e
    split at e
    · rw [Option.bind_eq_some_iff] at e
      obtain ⟨r, h1, h2⟩ := e
      rcases r with _ | ⟨_ | x, T⟩
      · cases h2
        exact h
      · exact ih _ _ _ (runArms_inv hd h arms h1) h2
      · cases h2
        exact runArms_inv hd h arms h1
    · cases e
      exact h

theorem runNextBack_inv {decls : List (String × IterTy)} (hd : (decls.map Prod.fst).Nodup) (arms : List IterArm) :
    ∀ (fuel : Nat) (it it' : IterVal H V) (o : Option (Out H V)), Inv decls it.fields →
      runNextBack arms fuel it = some (o, it') → Inv decls it'.fields := by
  intro fuel
  induction fuel with
  | zero => intro it it' o _ e; cases e
  | succ fuel ih =>
    intro it it' o h e
    rw [runNextBack] at e
    split at e
    · rw [Option.bind_eq_some_iff] at e
      obtain ⟨r, h1, h2⟩ := e
      rcases r with _ | ⟨_ | x, T⟩
      · cases h2
        exact h
      · exact ih _ _ _ (runArms_inv hd h arms h1) h2
      · cases h2
        exact runArms_inv hd h arms h1
    · cases e
      exact h

theorem runSt_inv (C : IterCode) (hd : (C.decls.map Prod.fst).Nodup) (fuel : Nat) :
    ∀ (ds : List Dir) (it it' : IterVal H V) (os : List (Option (Out H V))), Inv C.decls it.fields →
      C.runSt fuel ds it = some (os, it') → Inv C.decls it'.fields := by
  intro ds
  induction ds with
  | nil => intro it it' os h e; cases e; exact h
  | cons d ds ih =>
    intro it it' os h e
    simp only [IterCode.runSt, Option.bind_eq_some_iff, Option.map_eq_some_iff, Prod.mk.injEq] at e
    obtain ⟨⟨o, it1⟩, h1, ⟨os', it2⟩, h2, -, rfl⟩ := e
    refine ih it1 it2 os' ?_ h2
    cases d with
    | front => exact runNext_inv hd _ _ _ _ _ h h1
    | back =>
      simp only [IterCode.step] at h1
      split at h1
      · exact runNextBack_inv hd _ _ _ _ _ h h1
      · cases h1

/-! ## Initially -/

/-- Not `Option::as_mut`. -/
def IterInit.shared : IterInit → Bool
  | .asMut _ => false
  | _ => true

theorem IterInit.run_noAddr {S : Struct H V} {e : IterInit} (he : e.shared = true) {x : ICell H V} (h : e.run S = some x) :
    x.NoAddr := by
  cases e <;> simp only [IterInit.run] at h
  case asMut => cases he
  case isSome => split at h <;> cases h; trivial
  case asRef =>
    split at h <;> cases h
    rename_i o _
    cases o <;> trivial
  case move =>
    split at h <;> cases h
    · rename_i o _
      cases o <;> trivial
    · trivial
  case map =>
    simp only [Option.bind_eq_some_iff, Option.map_eq_some_iff] at h
    obtain ⟨_, _, _, _, rfl⟩ := h
    trivial
  case set =>
    simp only [Option.bind_eq_some_iff, Option.map_eq_some_iff] at h
    obtain ⟨_, _, _, _, rfl⟩ := h
    trivial

theorem runInits_noAddr {S : Struct H V} : ∀ (l : List (String × IterInit)) (T : IStruct H V),
    (∀ p ∈ l, p.2.shared = true) → runInits S l = some T → ∀ p ∈ T, p.2.NoAddr := by
  intro l
  induction l with
  | nil => intro T _ h; cases h; exact fun p hp => nomatch hp
  | cons a l ih =>
    intro T hl h
    simp only [runInits, Option.bind_eq_some_iff, Option.map_eq_some_iff] at h
    obtain ⟨x, h1, T', h2, rfl⟩ := h
    intro p hp
    rcases List.mem_cons.mp hp with rfl | hp
    · exact IterInit.run_noAddr (hl a List.mem_cons_self) h1
    · exact ih T' (fun p hp => hl p (List.mem_cons_of_mem _ hp)) h2 p hp

theorem make_inv {C : IterCode} (hs : ∀ p ∈ C.init, p.2.shared = true) {S : Struct H V} {it : IterVal H V}
    (h : C.make S = some it) : Inv C.decls it.fields := by
  simp only [IterCode.make, Option.bind_eq_some_iff] at h
  obtain ⟨T, h1, h2⟩ := h
  split at h2
  · rename_i e
    cases h2
    exact ⟨e, runInits_noAddr _ _ hs h1⟩
  · cases h2

/-- The iterators reached from a storage by `next` and `next_back`. -/
theorem reached_inv {C : IterCode} (hs : ∀ p ∈ C.init, p.2.shared = true) (hd : (C.decls.map Prod.fst).Nodup)
    {S : Struct H V} {fuel : Nat} {ds : List Dir} {os : List (Option (Out H V))} {it : IterVal H V}
    (h : (C.make S).bind (C.runSt fuel ds) = some (os, it)) : Inv C.decls it.fields := by
  rw [Option.bind_eq_some_iff] at h
  obtain ⟨it0, h0, h1⟩ := h
  exact runSt_inv C hd fuel ds it0 it os (make_inv hs h0) h1

/-! ## Cloning field by field -/

theorem cloneIterFields_eq (owned : Bool) (c : V → V) (S : IStruct H V) (f : ICell H V → ICell H V) :
    ∀ T : IStruct H V, (∀ p ∈ T, S.get p.1 = some p.2 ∧ p.2.clone owned c = some (f p.2)) →
      cloneIterFields owned c S ((T.map Prod.fst).map fun n => (n, n)) = some (T.map fun p => (p.1, f p.2)) := by
  intro T
  induction T with
  | nil => exact fun _ => rfl
  | cons a T ih =>
    intro h
    have h1 := h a List.mem_cons_self
    simp only [List.map_cons, cloneIterFields, h1.1, h1.2, Option.bind_some, ih fun p hp => h p (List.mem_cons_of_mem _ hp),
      Option.map_some]

theorem CloneCode.run_eq {K : CloneCode} {decls : List (String × IterTy)} (hk : K.start = .start ∧ K.stop = .stop)
    (hf : K.fields = (decls.map Prod.fst).map fun n => (n, n)) (hd : (decls.map Prod.fst).Nodup)
    (hb : K.bounds.all (IterTy.isClone H V) = true) (owned : Bool) (c : V → V) (f : ICell H V → ICell H V)
    (hty : ∀ x, (f x).ty = x.ty) {it : IterVal H V} (hi : Inv decls it.fields)
    (h : ∀ p ∈ it.fields, p.2.clone owned c = some (f p.2)) :
    K.run decls owned c it = some ⟨it.start, it.stop, it.fields.map fun p => (p.1, f p.2)⟩ := by
  have h1 := cloneIterFields_eq owned c it.fields f it.fields fun p hp => ⟨get_of_mem (hi.names ▸ hd) hp, h p hp⟩
  have h2 : (it.fields.map fun p => (p.1, f p.2)).map (fun p => (p.1, p.2.ty)) = decls := by
    rw [List.map_map, ← hi.types]
    refine List.map_congr_left fun p _ => ?_
    simp only [Function.comp, hty]
  simp only [CloneCode.run, hb, if_true, hf, ← hi.names, h1, Option.bind_some, h2, hk.1, hk.2, Bound.of]

theorem CloneCode.run_none {K : CloneCode} (decls : List (String × IterTy))
    (hb : K.bounds.all (IterTy.isClone H V) = false) (owned : Bool) (c : V → V) (it : IterVal H V) :
    K.run decls owned c it = none := by
  simp only [CloneCode.run, hb]
  rfl

/-! ## Owned values -/

def Ref.cloned (c : V → V) : Ref H V → Ref H V
  | .val v => .val (c v)
  | .addr a => .addr a

def Item.cloned (c : V → V) : Item H V → Item H V
  | .ref r => .ref (r.cloned c)
  | .pair κ k r => .pair κ k (r.cloned c)
  | x => x

def IVal.cloned (c : V → V) : IVal H V → IVal H V
  | .ref r => .ref (r.cloned c)
  | x => x

/-- The clone of a field. -/
def ICell.cloned (c : V → V) (x : ICell H V) : ICell H V := (x.clone true c).getD x

/-- Fields of the owning iterators that can be cloned. -/
def ICell.Owning : ICell H V → Prop
  | .flag _ => True
  | .opt o => ICell.NoAddr (.opt o : ICell H V)
  | .map κ q _ _ => q = .intoIter ∧ κ.hashFree = true
  | .set κ _ _ => κ.hashFree = true

theorem Owning.clone (c : V → V) {x : ICell H V} (h : x.Owning) : x.clone true c = some (x.cloned c) := by
  have : (x.clone true c).isSome = true := by
    match x, h with
    | .flag _, _ => rfl
    | .opt none, _ => rfl
    | .opt (some (.val _)), _ => rfl
    | .opt (some (.addr _)), h => exact h.elim
    | .map κ .intoIter src st, h => exact Option.isSome_map.trans ((cloneIntoIter_isSome H V c κ).trans h.2)
    | .map κ .iter _ _, h | .map κ .keys _ _, h | .map κ .values _ _, h | .map κ .iterMut _ _, h
    | .map κ .valuesMut _ _, h => exact nomatch h.1
    | .set κ .iter _, _ => rfl
    | .set κ .intoIter _, h =>
      simp only [ICell.clone, (setIntoIterClone_eq κ).trans h]
      rfl
  rw [ICell.cloned]
  obtain ⟨y, e⟩ := Option.isSome_iff_exists.mp this
  rw [e]
  rfl

theorem cloned_ty (c : V → V) (x : ICell H V) : (x.cloned c).ty = x.ty := by
  match x with
  | .flag _ => rfl
  | .opt none => rfl
  | .opt (some (.val _)) => rfl
  | .opt (some (.addr _)) => rfl
  | .map κ .intoIter src st =>
    simp only [ICell.cloned, ICell.clone]
    cases KeyTy.cloneIntoIter H V c κ <;> rfl
  | .map κ .iter _ _ | .map κ .keys _ _ | .map κ .values _ _ | .map κ .iterMut _ _ | .map κ .valuesMut _ _ => rfl
  | .set κ .iter _ => rfl
  | .set κ .intoIter _ =>
    simp only [ICell.cloned, ICell.clone]
    split <;> rfl

theorem fn_cloned (c : V → V) (fn : StepFn) {x : ICell H V} (h : x.Owning) :
    fn.run (x.cloned c) = (fn.run x).map fun p => (p.1.map (Item.cloned c), p.2.cloned c) := by
  match x, h with
  | .flag b, _ => cases fn <;> cases b <;> rfl
  | .opt none, _ => cases fn <;> rfl
  | .opt (some (.val v)), _ => cases fn <;> rfl
  | .opt (some (.addr _)), h => exact h.elim
  | .map κ q src st, ⟨hq, h⟩ =>
    subst hq
    obtain ⟨f, e⟩ := Option.isSome_iff_exists.mp ((cloneIntoIter_isSome H V c κ).trans h)
    have hc : ∀ st, (ICell.map κ .intoIter src st : ICell H V).cloned c = .map κ .intoIter src (f st) := by
      intro st
      simp only [ICell.cloned, ICell.clone, e]
      rfl
    have hm : Commutes (elemIter H V κ src .intoIter).I f (Item.cloned c) :=
      (cloneIntoIter_commutes H V c κ f e).map (fun p : κ.Key × V => (.pair κ p.1 (.val p.2) : Item H V)) (Item.cloned c)
        fun _ => rfl
    rw [hc]
    cases fn with
    | memTake => rfl
    | optTake => rfl
    | next =>
      show some (_, _) = some (_, _)
      rw [hm.next, hc]
    | nextBack =>
      show Option.map _ (elemIter H V κ src .intoIter).I.nextBack? =
        Option.map _ (Option.map _ (elemIter H V κ src .intoIter).I.nextBack?)
      cases hb : (elemIter H V κ src .intoIter).I.nextBack? with
      | none => rfl
      | some nb =>
        show some (_, _) = some (_, _)
        rw [hm.nextBack nb hb, hc]
  | .set κ q st, h =>
    have hc : ∀ st, (ICell.set κ q st : ICell H V).cloned c = .set κ q st := by
      intro st
      cases q with
      | iter => rfl
      | intoIter =>
        simp only [ICell.cloned, ICell.clone]
        split <;> rfl
    have hi : ∀ (o : Option κ.Key), (o.map fun k => (.elem κ k : Item H V)).map (Item.cloned c) = o.map fun k => .elem κ k := by
      intro o; cases o <;> rfl
    rw [hc]
    cases fn with
    | memTake => rfl
    | optTake => rfl
    | next =>
      show some (_, _) = some (_, _)
      rw [hc]
      cases q with
      | iter => exact congrArg some (Prod.ext (hi _).symm rfl)
      | intoIter => exact congrArg some (Prod.ext (hi _).symm rfl)
    | nextBack =>
      cases q with
      | iter =>
        show Option.map _ (Option.map _ (setStorage H κ).iter.I.nextBack?) =
          Option.map _ (Option.map _ (Option.map _ (setStorage H κ).iter.I.nextBack?))
        cases (setStorage H κ).iter.I.nextBack? with
        | none => rfl
        | some nb => exact congrArg some (Prod.ext (hi _).symm (hc _).symm)
      | intoIter =>
        show Option.map _ (Option.map _ (setStorage H κ).intoIter.I.nextBack?) =
          Option.map _ (Option.map _ (Option.map _ (setStorage H κ).intoIter.I.nextBack?))
        cases (setStorage H κ).intoIter.I.nextBack? with
        | none => rfl
        | some nb => exact congrArg some (Prod.ext (hi _).symm (hc _).symm)

theorem pat_cloned (c : V → V) (p : ItemPat) (x : Item H V) :
    p.bind (x.cloned c) = (p.bind x).map fun env => env.map fun q => (q.1, q.2.cloned c) := by
  cases p <;> cases x <;> rfl

theorem lookup_cloned (c : V → V) (env : List (String × IVal H V)) (x : String) :
    (env.map fun q => (q.1, q.2.cloned c)).lookup x = (env.lookup x).map (IVal.cloned c) := by
  induction env with
  | nil => rfl
  | cons a env ih =>
    obtain ⟨m, y⟩ := a
    simp only [List.map_cons, List.lookup_cons, ih]
    split <;> rfl

theorem keyExpr_cloned (c : V → V) (env : List (String × IVal H V)) (k : KeyExpr) :
    k.eval (env.map fun q => (q.1, q.2.cloned c)) = k.eval env := by
  cases k with
  | unit => rfl
  | of v x =>
    simp only [KeyExpr.eval, lookup_cloned]
    rcases env.lookup x with _ | ⟨_ | _⟩ <;> rfl

theorem ret_cloned (c : V → V) (env : List (String × IVal H V)) (r : RetExpr) :
    r.eval (env.map fun q => (q.1, q.2.cloned c)) = (r.eval env).map (Out.cloned c) := by
  cases r with
  | key k =>
    simp only [RetExpr.eval, keyExpr_cloned, Option.map_map]
    rfl
  | value x =>
    simp only [RetExpr.eval, lookup_cloned]
    rcases env.lookup x with _ | (_ | ⟨_ | _⟩) <;> rfl
  | entry k x =>
    simp only [RetExpr.eval, lookup_cloned, keyExpr_cloned]
    rcases env.lookup x with _ | (_ | ⟨_ | _⟩) <;> simp [Option.map_map, IVal.cloned, Ref.cloned, Out.cloned, Function.comp_def]

theorem arm_cloned (c : V → V) (a : IterArm) {x : ICell H V} (h : x.Owning) :
    a.on (x.cloned c) = (a.on x).map fun p => (p.1.map (Out.cloned c), p.2.cloned c) := by
  simp only [IterArm.on, fn_cloned c a.fn h]
  rcases a.fn.run x with _ | ⟨_ | i, y⟩
  · rfl
  · rfl
  · simp only [Option.map_some, Option.bind_some, pat_cloned]
    rcases a.pat.bind i with _ | env
    · rfl
    · simp only [Option.map_some, Option.bind_some, ret_cloned]
      cases a.ret.eval env <;> rfl

/-- The clone of all fields. -/
def clonedFields (c : V → V) (S : IStruct H V) : IStruct H V := S.map fun p => (p.1, p.2.cloned c)

theorem clonedFields_get (c : V → V) (S : IStruct H V) (n : String) :
    (clonedFields c S).get n = (S.get n).map (ICell.cloned c) := by
  induction S with
  | nil => rfl
  | cons a S ih =>
    obtain ⟨m, y⟩ := a
    simp only [clonedFields, IStruct.get] at ih
    simp only [clonedFields, IStruct.get, List.map_cons, List.lookup_cons, ih]
    split <;> rfl

theorem clonedFields_set (c : V → V) (S : IStruct H V) (n : String) (y : ICell H V) :
    clonedFields c (S.set n y) = (clonedFields c S).set n (y.cloned c) := by
  simp only [clonedFields, IStruct.set, List.map_map]
  refine List.map_congr_left fun p _ => ?_
  simp only [Function.comp]
  split <;> rfl

def ArmOut.cloned (c : V → V) : ArmOut H V → ArmOut H V
  | .brk => .brk
  | .done o S => .done (o.map (Out.cloned c)) (clonedFields c S)

theorem runArms_cloned (c : V → V) (i : Nat) {S : IStruct H V} (h : ∀ p ∈ S, p.2.Owning) : ∀ arms : List IterArm,
    runArms i (clonedFields c S) arms = (runArms i S arms).map (ArmOut.cloned c) := by
  intro arms
  induction arms with
  | nil => rfl
  | cons a arms ih =>
    simp only [runArms]
    split
    · rw [clonedFields_get]
      cases hg : S.get a.recv with
      | none => rfl
      | some x =>
        simp only [Option.map_some, Option.bind_some, arm_cloned c a (h _ (mem_of_get hg)), Option.map_map]
        congr 1
        funext p
        simp only [Function.comp, ArmOut.cloned, clonedFields_set]
    · exact ih

theorem keeps_owning {x y : ICell H V} (h : x.Owning) (ht : y.ty = x.ty) (hy : y.NoAddr) : y.Owning := by
  cases x <;> cases y <;> simp only [ICell.ty, reduceCtorEq, IterTy.map.injEq, IterTy.set.injEq] at ht
  · trivial
  · exact hy
  · obtain ⟨rfl, rfl⟩ := ht
    exact h
  · obtain ⟨rfl, rfl⟩ := ht
    exact h

theorem owning_noAddr {x : ICell H V} (h : x.Owning) : x.NoAddr := by
  cases x with
  | opt o => exact h
  | _ => trivial

theorem runArms_owning {S T : IStruct H V} (h : ∀ p ∈ S, p.2.Owning) {i : Nat} {o : Option (Out H V)} :
    ∀ arms : List IterArm, runArms i S arms = some (.done o T) → ∀ p ∈ T, p.2.Owning := by
  intro arms
  induction arms with
  | nil => intro e; simp [runArms] at e
  | cons a arms ih =>
    intro e
    rw [runArms] at e
    split at e
    · simp only [Option.bind_eq_some_iff, Option.map_eq_some_iff] at e
      obtain ⟨x, hx, ⟨o', y⟩, h1, h2⟩ := e
      cases h2
      obtain ⟨_, h3⟩ := IterArm.on_fn h1
      have hx' := h _ (mem_of_get hx)
      intro p hp
      simp only [IStruct.set, List.mem_map] at hp
      obtain ⟨q, hq, rfl⟩ := hp
      split
      · exact keeps_owning hx' (StepFn.run_keeps h3).1 ((StepFn.run_keeps h3).2 (owning_noAddr hx'))
      · exact h q hq
    · exact ih e

/-- The clone of an iterator. -/
def clonedVal (c : V → V) (it : IterVal H V) : IterVal H V := ⟨it.start, it.stop, clonedFields c it.fields⟩

theorem runNext_cloned (c : V → V) (arms : List IterArm) : ∀ (fuel : Nat) (it : IterVal H V), (∀ p ∈ it.fields, p.2.Owning) →
    runNext arms fuel (clonedVal c it) = (runNext arms fuel it).map (fun p => (p.1.map (Out.cloned c), clonedVal c p.2)) ∧
    ∀ o it', runNext arms fuel it = some (o, it') → ∀ p ∈ it'.fields, p.2.Owning := by
  intro fuel
  induction fuel with
  | zero => exact fun it _ => ⟨rfl, fun _ _ e => nomatch e⟩
  | succ fuel ih =>
    intro it h
    simp only [runNext, clonedVal, runArms_cloned c _ h]
    split
    · cases hr : runArms it.start it.fields arms with
      | none => exact ⟨rfl, fun _ _ e => nomatch e⟩
      | some r =>
        rcases r with _ | ⟨_ | x, T⟩
        · exact ⟨rfl, fun o it' e => by cases e; exact h⟩
        · exact ih ⟨min (it.start + 1) it.stop, it.stop, T⟩ (runArms_owning h arms hr)
        · exact ⟨rfl, fun o it' e => by cases e; exact runArms_owning h arms hr⟩
    · exact ⟨rfl, fun o it' e => by cases e; exact h⟩

theorem runNextBack_cloned (c : V → V) (arms : List IterArm) : ∀ (fuel : Nat) (it : IterVal H V),
    (∀ p ∈ it.fields, p.2.Owning) →
    runNextBack arms fuel (clonedVal c it) =
      (runNextBack arms fuel it).map (fun p => (p.1.map (Out.cloned c), clonedVal c p.2)) ∧
    ∀ o it', runNextBack arms fuel it = some (o, it') → ∀ p ∈ it'.fields, p.2.Owning := by
  intro fuel
  induction fuel with
  | zero => exact fun it _ => ⟨rfl, fun _ _ e => nomatch e⟩
  | succ fuel ih =>
    intro it h
    simp only [runNextBack, clonedVal, runArms_cloned c _ h]
    split
    · cases hr : runArms (it.stop - 1) it.fields arms with
      | none => exact ⟨rfl, fun _ _ e => nomatch e⟩
      | some r =>
        rcases r with _ | ⟨_ | x, T⟩
        · exact ⟨rfl, fun o it' e => by cases e; exact h⟩
        · exact ih ⟨it.start, max (it.stop - 1) it.start, T⟩ (runArms_owning h arms hr)
        · exact ⟨rfl, fun o it' e => by cases e; exact runArms_owning h arms hr⟩
    · exact ⟨rfl, fun o it' e => by cases e; exact h⟩

theorem run_cloned (c : V → V) (C : IterCode) (fuel : Nat) : ∀ (ds : List Dir) (it : IterVal H V),
    (∀ p ∈ it.fields, p.2.Owning) →
    C.run fuel ds (clonedVal c it) = (C.run fuel ds it).map (List.map (Option.map (Out.cloned c))) := by
  intro ds
  induction ds with
  | nil => exact fun it _ => rfl
  | cons d ds ih =>
    intro it h
    have hs : C.step fuel d (clonedVal c it) =
        (C.step fuel d it).map (fun p => (p.1.map (Out.cloned c), clonedVal c p.2)) ∧
        ∀ o it', C.step fuel d it = some (o, it') → ∀ p ∈ it'.fields, p.2.Owning := by
      cases d with
      | front => exact runNext_cloned c C.next fuel it h
      | back =>
        simp only [IterCode.step]
        split
        · exact runNextBack_cloned c C.nextBack fuel it h
        · exact ⟨rfl, fun _ _ e => nomatch e⟩
    simp only [IterCode.run, hs.1]
    cases hr : C.step fuel d it with
    | none => rfl
    | some p =>
      simp only [Option.map_some, Option.bind_some, ih p.2 (hs.2 p.1 p.2 hr), Option.map_map]
      rfl

/-! ## The fields of a derive -/

theorem fieldsFrom_names_ge (vs : List Variant) : ∀ i n, n ∈ (fieldsFrom i vs).map (·.name) → ∃ j, i ≤ j ∧ n = fieldName j := by
  induction vs with
  | nil => intro i n h; cases h
  | cons v vs ih =>
    intro i n h
    simp only [fieldsFrom, List.map_cons, List.mem_cons] at h
    rcases h with rfl | h
    · exact ⟨i, Nat.le_refl _, rfl⟩
    · obtain ⟨j, h1, h2⟩ := ih (i + 1) n h
      exact ⟨j, by omega, h2⟩

theorem fieldsFrom_nodup (vs : List Variant) : ∀ i, ((fieldsFrom i vs).map (·.name)).Nodup := by
  induction vs with
  | nil => exact fun _ => List.nodup_nil
  | cons v vs ih =>
    intro i
    simp only [fieldsFrom, List.map_cons, List.nodup_cons]
    refine ⟨fun h => ?_, ih (i + 1)⟩
    obtain ⟨j, h1, h2⟩ := fieldsFrom_names_ge vs (i + 1) _ h
    have := fieldName_inj h2
    omega

theorem mapDecl_names (vs : List Variant) (q : MapIt) :
    (genMapIter (collect vs) q).decls.map Prod.fst = (collect vs).names := by
  simp only [genMapIter, FieldSet.names, List.map_map]
  refine List.map_congr_left fun f _ => ?_
  simp only [Function.comp, mapIterDecl]
  cases f.kind
  · cases q <;> rfl
  · rfl

theorem setDecl_names (vs : List Variant) (q : SetIt) :
    (genSetIter (collect vs) q).decls.map Prod.fst = (collect vs).names := by
  simp only [genSetIter, FieldSet.names, List.map_map]
  refine List.map_congr_left fun f _ => ?_
  simp only [Function.comp, setIterDecl]
  cases f.kind <;> rfl

theorem names_nodup (vs : List Variant) : (collect vs).names.Nodup := by
  rw [collect_names]
  exact fieldsFrom_nodup vs 0

theorem mapInit_shared (vs : List Variant) {q : MapIt} (hq : q ≠ .iterMut ∧ q ≠ .valuesMut) :
    ∀ p ∈ (genMapIter (collect vs) q).init, p.2.shared = true := by
  intro p hp
  obtain ⟨f, -, rfl⟩ := List.mem_map.mp hp
  simp only [mapIterInit]
  cases f.kind
  · cases q <;> first | rfl | simp at hq
  · rfl

theorem setInit_shared (vs : List Variant) (q : SetIt) :
    ∀ p ∈ (genSetIter (collect vs) q).init, p.2.shared = true := by
  intro p hp
  obtain ⟨f, -, rfl⟩ := List.mem_map.mp hp
  simp only [setIterInit]
  cases f.kind <;> rfl

/-- The types in the `where` clause of the `Clone` of the owning iterators. -/
theorem bounds_all (b : KeyTy → IterTy) (hb : ∀ κ, IterTy.isClone H V (b κ) = κ.hashFree) (vs : List Variant) :
    ∀ i, ((fieldsFrom i vs).filterMap fun f => f.kind.map b).all (IterTy.isClone H V) = (fieldsOf vs).hashFree := by
  induction vs with
  | nil => exact fun _ => rfl
  | cons v vs ih =>
    intro i
    obtain ⟨n, _ | κ⟩ := v
    · simp only [fieldsFrom, fieldAt, List.filterMap_cons, Option.map_none, ih, fieldsOf, Fields.hashFree]
    · simp only [fieldsFrom, fieldAt, List.filterMap_cons, Option.map_some, List.all_cons, ih, fieldsOf, Fields.hashFree, hb]

theorem payloads_hashFree (vs : List Variant) : ∀ i, (fieldsOf vs).hashFree = true → ∀ f ∈ fieldsFrom i vs, ∀ κ,
    f.kind = some κ → κ.hashFree = true := by
  induction vs with
  | nil => intro i _ f hf; cases hf
  | cons v vs ih =>
    intro i h f hf κ hk
    rw [fieldsFrom, List.mem_cons] at hf
    obtain ⟨n, _ | κ'⟩ := v
    · rcases hf with rfl | hf
      · cases hk
      · exact ih (i + 1) (by simpa [fieldsOf, Fields.hashFree] using h) f hf κ hk
    · have h' : κ'.hashFree = true ∧ (fieldsOf vs).hashFree = true := by simpa [fieldsOf, Fields.hashFree] using h
      rcases hf with rfl | hf
      · cases hk
        exact h'.1
      · exact ih (i + 1) h'.2 f hf κ hk

theorem Inv.cell {decls : List (String × IterTy)} {S : IStruct H V} (h : Inv decls S) {p : String × ICell H V} (hp : p ∈ S) :
    (p.1, p.2.ty) ∈ decls := by
  rw [← h.types]
  exact List.mem_map.mpr ⟨p, hp, rfl⟩

theorem owning_of_ty {x : ICell H V} (hn : x.NoAddr)
    (h : x.ty = .flag ∨ x.ty = .opt ∨ (∃ κ, x.ty = .map κ .intoIter ∧ κ.hashFree = true) ∨
      ∃ κ q, x.ty = .set κ q ∧ κ.hashFree = true) : x.Owning := by
  cases x with
  | flag => trivial
  | opt o => exact hn
  | map κ q src st =>
    simp only [ICell.ty, reduceCtorEq, IterTy.map.injEq, false_or, false_and, exists_false, or_false] at h
    obtain ⟨κ', ⟨rfl, rfl⟩, h⟩ := h
    exact ⟨rfl, h⟩
  | set κ q st =>
    simp only [ICell.ty, reduceCtorEq, IterTy.set.injEq, false_or, false_and, exists_false, or_false] at h
    obtain ⟨κ', q', ⟨rfl, rfl⟩, h⟩ := h
    exact h

theorem shared_of_ty (c : V → V) {x : ICell H V} (hn : x.NoAddr)
    (h : x.ty = .flag ∨ x.ty = .opt ∨ (∃ κ q, x.ty = .map κ q ∧ (q = .iter ∨ q = .keys ∨ q = .values)) ∨
      ∃ κ, x.ty = .set κ .iter) : x.clone false c = some x := by
  cases x with
  | flag => rfl
  | opt o =>
    match o, hn with
    | none, _ => rfl
    | some (.val _), _ => rfl
    | some (.addr _), h => exact h.elim
  | map κ q src st =>
    simp only [ICell.ty, reduceCtorEq, IterTy.map.injEq, false_or, false_and, exists_false, or_false] at h
    obtain ⟨κ', q', ⟨rfl, rfl⟩, rfl | rfl | rfl⟩ := h <;> rfl
  | set κ q st =>
    simp only [ICell.ty, reduceCtorEq, IterTy.set.injEq, false_or, false_and, exists_false, or_false] at h
    obtain ⟨κ', rfl, rfl⟩ := h
    rfl

theorem set_clone_self (c : V → V) (owned : Bool) {x : ICell H V}
    (h : x.ty = .flag ∨ ∃ κ q, x.ty = .set κ q ∧ (q = .iter ∨ κ.hashFree = true)) : x.clone owned c = some x := by
  cases x with
  | flag => rfl
  | opt o => simp [ICell.ty] at h
  | map κ q src st => simp [ICell.ty] at h
  | set κ q st =>
    simp only [ICell.ty, reduceCtorEq, IterTy.set.injEq, false_or] at h
    obtain ⟨κ', q', ⟨rfl, rfl⟩, h⟩ := h
    cases q with
    | iter => rfl
    | intoIter =>
      have h : κ.hashFree = true := by simpa using h
      simp only [ICell.clone, (setIntoIterClone_eq κ).trans h]
      rfl

theorem isClone_into (κ : KeyTy) : IterTy.isClone H V (.map κ .intoIter) = κ.hashFree := cloneIntoIter_isSome H V id κ

theorem isClone_set (κ : KeyTy) : IterTy.isClone H V (.set κ .intoIter) = κ.hashFree := setIntoIterClone_eq κ

end FixedMap.Gen
