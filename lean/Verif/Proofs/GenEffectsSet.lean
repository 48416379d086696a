import Verif.Proofs.GenEffects
import Verif.Proofs.GenSet

/-! # The emitted code of sets has no values, so nothing of the user's code runs -/

set_option autoImplicit false
set_option linter.unusedSimpArgs false

namespace FixedMap.Gen

variable {H : HashbrownApi} {σ V : Type}

/-- Fields of sets. -/
def Cell.Bare : Cell H V → Prop
  | .flag _ => True
  | .set _ _ => True
  | _ => False

theorem named_bare : ∀ (i : Nat) (l : List (Cell H V)), (∀ c ∈ l, c.Bare) → ∀ p ∈ named i l, p.2.Bare
  | _, [], _, p, hp => nomatch hp
  | i, c :: l, h, p, hp => by
    rcases List.mem_cons.1 hp with rfl | hp
    · exact h c (.head _)
    · exact named_bare (i + 1) l (fun c hc => h c (.tail _ hc)) p hp

theorem setCells_bare : ∀ (fs : Fields) (s : (setFields H fs).S), ∀ c ∈ setCells V fs s, c.Bare
  | .nil, _, c, h => nomatch h
  | .simple fs, (b, s), c, h => by
    rcases List.mem_cons.1 h with rfl | h
    · trivial
    · exact setCells_bare fs s c h
  | .complex κ fs, (m, s), c, h => by
    rcases List.mem_cons.1 h with rfl | h
    · trivial
    · exact setCells_bare fs s c h

theorem setStruct_bare (fs : Fields) (s : (setFields H fs).S) : ∀ p ∈ setStruct V fs s, p.2.Bare :=
  named_bare 0 _ (setCells_bare fs s)

theorem get_bare {S : Struct H V} (h : ∀ p ∈ S, p.2.Bare) {n : String} {c : Cell H V} (e : S.get n = some c) : c.Bare := by
  induction S with
  | nil => cases e
  | cons p S ih =>
    obtain ⟨m, x⟩ := p
    simp only [Struct.get, List.lookup_cons] at e
    split at e
    · cases e; exact h _ (.head _)
    · exact ih (fun p hp => h p (.tail _ hp)) e

theorem set_bare {S : Struct H V} (h : ∀ p ∈ S, p.2.Bare) (n : String) {c : Cell H V} (hc : c.Bare) : ∀ p ∈ S.set n c, p.2.Bare := by
  intro p hp
  obtain ⟨q, hq, rfl⟩ := List.mem_map.1 hp
  split
  · exact hc
  · exact h q hq

theorem bare_drop (d : Dtor σ V) : ∀ (S : Struct H V), (∀ p ∈ S, p.2.Bare) → ∀ x, Struct.drop d S x = x
  | [], _, _ => rfl
  | ⟨n, c⟩ :: S, h, x => by
    have hc : c.Bare := h _ (.head _)
    have ih := bare_drop d S (fun p hp => h p (.tail _ hp)) x
    cases c with
    | slot | map => exact hc.elim
    | flag | set => exact ih

theorem bare_stmtClear (d : Dtor σ V) {S : Struct H V} (h : ∀ p ∈ S, p.2.Bare) (x : Drops σ V) (s : Stmt) :
    (stmtClearD d S x s = none ∧ stmtClear S s = none) ∨
      ∃ S', stmtClearD d S x s = some (S', x) ∧ stmtClear S s = some (S', []) ∧ ∀ p ∈ S', p.2.Bare := by
  cases s with
  | mapClear κ n =>
    left
    simp only [stmtClearD, stmtClear]
    cases e : S.get n with
    | none => exact ⟨rfl, rfl⟩
    | some c =>
      have := get_bare h e
      cases c with
      | slot | map => exact this.elim
      | flag | set => exact ⟨rfl, rfl⟩
  | setClear κ n =>
    simp only [stmtClearD, stmtClear]
    cases e : S.get n with
    | none => exact .inl ⟨rfl, rfl⟩
    | some c =>
      simp only [Option.bind_some]
      cases e' : c.asSet κ with
      | none => exact .inl ⟨rfl, rfl⟩
      | some t => exact .inr ⟨_, rfl, rfl, set_bare h n (by trivial)⟩
  | assignNone n =>
    left
    simp only [stmtClearD, stmtClear]
    cases e : S.get n with
    | none => exact ⟨rfl, rfl⟩
    | some c =>
      have := get_bare h e
      cases c with
      | slot | map => exact this.elim
      | flag | set => exact ⟨rfl, rfl⟩
  | assignFalse n =>
    simp only [stmtClearD, stmtClear]
    cases e : S.get n with
    | none => exact .inl ⟨rfl, rfl⟩
    | some c =>
      cases c with
      | slot | map | set => exact .inl ⟨rfl, rfl⟩
      | flag => exact .inr ⟨_, rfl, rfl, set_bare h n (by trivial)⟩
  | _ => exact .inl ⟨rfl, rfl⟩

theorem bare_runClear (d : Dtor σ V) : ∀ (l : List Stmt) (S : Struct H V), (∀ p ∈ S, p.2.Bare) → ∀ x : Drops σ V, x.fate = .normal →
    runClearD d l S x = (runClear l S).map fun r => (r.1, x)
  | [], _, _, _, _ => rfl
  | s :: l, S, h, x, hx => by
    simp only [runClearD, runClear]
    rcases bare_stmtClear d h x s with ⟨e1, e2⟩ | ⟨S', e1, e2, h'⟩
    · simp only [e1, e2, Option.bind_none, Option.map_none]
    · simp only [e1, e2, Option.bind_some, hx, if_true, bare_runClear d l S' h' x hx, Option.map_map]
      rfl

theorem bare_ne (e : EqFn σ V) (veq : V → V → Bool) (st : σ) {a : Cell H V} (h : a.Bare) (b : Cell H V) :
    a.neD e st b = (a.ne veq b).map fun r => (st, some r) := by
  cases a with
  | slot | map => exact h.elim
  | flag x => cases b <;> rfl
  | set κ s => simp only [Cell.neD, Cell.ne, Option.map_map]; rfl

theorem bare_runEq (e : EqFn σ V) (veq : V → V → Bool) (S T : Struct H V) (h : ∀ p ∈ S, p.2.Bare) : ∀ (l : List String) (st : σ),
    runEqD e S T l st = (runEq veq S T l).map fun r => (st, some r)
  | [], _ => rfl
  | n :: l, st => by
    simp only [runEqD, runEq]
    cases e1 : S.get n with
    | none => rfl
    | some a =>
      cases e2 : T.get n with
      | none => rfl
      | some b =>
        simp only [bare_ne e veq st (get_bare h e1) b]
        cases a.ne veq b with
        | none => rfl
        | some r =>
          cases r with
          | true => rfl
          | false => exact bare_runEq e veq S T h l st

theorem bare_cloneFields (hc : TableCloneApi H V) (c : Cloner σ V) (d : Dtor σ V) (f : V → V) (S : Struct H V) (h : ∀ p ∈ S, p.2.Bare) :
    ∀ (l : List (String × String)) (done : Struct H V) (st : σ),
      cloneFieldsD hc c d S l done st = (cloneFields f S l).map fun r => .ok st (done.reverse ++ r)
  | [], done, st => by simp [cloneFieldsD, cloneFields]
  | (n, m) :: l, done, st => by
    simp only [cloneFieldsD, cloneFields]
    cases e : S.get m with
    | none => rfl
    | some x =>
      have hx := get_bare h e
      have ih := fun z => bare_cloneFields hc c d f S h l ((n, z) :: done) st
      cases x with
      | slot | map => exact hx.elim
      | flag b =>
        simp only [Option.bind_some, Cell.cloneD, Cell.clone, ih, Option.map_map]
        congr 1; funext r; simp
      | set κ s =>
        simp only [Option.bind_some, Cell.cloneD, Cell.clone, ih, Option.map_map]
        congr 1; funext r; simp

theorem bare_runClone (hc : TableCloneApi H V) (c : Cloner σ V) (d : Dtor σ V) (f : V → V) (decls : List (String × FieldTy)) (S : Struct H V)
    (h : ∀ p ∈ S, p.2.Bare) (l : List (String × String)) (st : σ) :
    runCloneD hc c d decls l S st = (runClone decls f l S).map (.ok st) := by
  simp only [runCloneD, runClone, bare_cloneFields hc c d f S h l [] st]
  cases cloneFields f S l with
  | none => rfl
  | some r => rfl

/-! ## Iterators of sets -/

/-- Fields of iterators of sets. -/
def ICell.Bare : ICell H V → Prop
  | .flag _ => True
  | .set _ _ _ => True
  | _ => False

theorem iget_bare {S : IStruct H V} (h : ∀ p ∈ S, p.2.Bare) {n : String} {c : ICell H V} (e : S.get n = some c) : c.Bare := by
  induction S with
  | nil => cases e
  | cons p S ih =>
    obtain ⟨m, x⟩ := p
    simp only [IStruct.get, List.lookup_cons] at e
    split at e
    · cases e; exact h _ (.head _)
    · exact ih (fun p hp => h p (.tail _ hp)) e

theorem bare_iterDrop (held : HeldApi H V) (d : Dtor σ V) : ∀ (S : IStruct H V), (∀ p ∈ S, p.2.Bare) → ∀ x : Drops σ V,
    S.foldl (fun x p => p.2.drop held d x) x = x
  | [], _, _ => rfl
  | ⟨n, c⟩ :: S, h, x => by
    have hc : c.Bare := h _ (.head _)
    have ih := bare_iterDrop held d S (fun p hp => h p (.tail _ hp)) x
    cases c with
    | opt | map => exact hc.elim
    | flag | set => exact ih

theorem bare_iclone (held : HeldApi H V) (c : Cloner σ V) (d : Dtor σ V) (st : σ) {x : ICell H V} (h : x.Bare) :
    x.cloneD held c d st = (x.clone true id).map (.ok st) := by
  cases x with
  | opt | map => exact h.elim
  | flag => rfl
  | set κ q s =>
    cases q with
    | iter => rfl
    | intoIter =>
      simp only [ICell.cloneD, ICell.clone]
      split <;> rfl

theorem bare_cloneIterFields (held : HeldApi H V) (c : Cloner σ V) (d : Dtor σ V) (S : IStruct H V) (h : ∀ p ∈ S, p.2.Bare) :
    ∀ (l : List (String × String)) (done : IStruct H V) (st : σ),
      cloneIterFieldsD held c d S l done st = (cloneIterFields true id S l).map fun r => .ok st (done.reverse ++ r)
  | [], done, st => by simp [cloneIterFieldsD, cloneIterFields]
  | (n, m) :: l, done, st => by
    simp only [cloneIterFieldsD, cloneIterFields]
    cases e : S.get m with
    | none => rfl
    | some x =>
      simp only [Option.bind_some, bare_iclone held c d st (iget_bare h e)]
      cases x.clone true id with
      | none => rfl
      | some z =>
        simp only [Option.map_some, Option.bind_some, bare_cloneIterFields held c d S h l ((n, z) :: done) st, Option.map_map]
        congr 1; funext r; simp

theorem bare_runD (held : HeldApi H V) (c : Cloner σ V) (d : Dtor σ V) (K : CloneCode) (decls : List (String × IterTy)) (it : IterVal H V)
    (h : ∀ p ∈ it.fields, p.2.Bare) (st : σ) : K.runD held c d decls it st = (K.run decls true id it).map (.ok st) := by
  simp only [CloneCode.runD, CloneCode.run]
  split
  · rw [bare_cloneIterFields held c d it.fields h]
    cases cloneIterFields true id it.fields K.fields with
    | none => rfl
    | some r =>
      simp only [Option.map_some, Option.bind_some, List.reverse_nil, List.nil_append]
      split <;> rfl
  · rfl

theorem setIter_bare (vs : List Variant) (S : Struct H V) (q : SetIt) (it : IterVal H V) (h : (genSetIter (collect vs) q).Reaches S it) :
    ∀ p ∈ it.fields, p.2.Bare := by
  obtain ⟨fuel, ds, outs, h⟩ := h
  have hd : ((genSetIter (collect vs) q).decls.map Prod.fst).Nodup := setDecl_names vs q ▸ names_nodup vs
  have hi := reached_inv (setInit_shared vs q) hd h
  intro p hp
  obtain ⟨f, -, e⟩ := List.mem_map.mp (hi.cell hp)
  have e : p.2.ty = (setIterDecl q f).2 := congrArg Prod.snd e.symm
  unfold setIterDecl at e
  obtain ⟨n, x⟩ := p
  cases x with
  | flag | set => trivial
  | opt | map => split at e <;> cases e

end FixedMap.Gen
