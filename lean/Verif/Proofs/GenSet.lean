import Verif.Proofs.Gen

/-!
# The generated set storage does what the variant-by-variant model says
-/

set_option autoImplicit false
set_option linter.unusedSimpArgs false

namespace FixedMap.Gen

variable {H : HashbrownApi} {V : Type}

/-- Evaluate the arm of the first variant. -/
local macro "gen_head " g:ident : tactic =>
  `(tactic| simp [$g:ident, atPos, setCells, dynKey, fieldsOf, patOf, Pat.bind, fieldAt, evalOn, evalArgs,
    evalArg, callFn, callSet, setFields, List.lookup_cons, Function.comp_def])

/-- Skip the arm of the first variant. -/
local macro "gen_tail " ih:ident h:ident : tactic =>
  `(tactic| simp [atPos, setCells, dynKey, fieldsOf, setFields, $ih:ident, $h:ident, Function.comp_def])

/-! ## Methods with a `match` on the key -/

def setInsertArm (f : Field) : Expr :=
  match f.kind with
  | some κ => .call (.set κ .insert) f.name [.var "v"]
  | none => .not (.call .memReplace f.name [.lit true])

theorem pos_setInsert (env : Env H V) :
    ∀ (vs : List Variant) (_ : Distinct vs) (i : Nat) (s : (setFields H (fieldsOf vs)).S)
      (k : (fieldsOf vs).Key),
      atPos setInsertArm env (dynKey vs k) i vs (setCells V (fieldsOf vs) s) =
        some (.bool ((setFields H (fieldsOf vs)).insert s k).1, setCells V (fieldsOf vs) ((setFields H (fieldsOf vs)).insert s k).2)
  | [], _, _, _, k => Empty.elim k
  | ⟨_, none⟩ :: vs, _, i, (b, s), .inl _ => by gen_head setInsertArm
  | ⟨_, none⟩ :: vs, hd, i, (b, s), .inr k => by
    have ih := pos_setInsert env vs hd.tail (i + 1) s k
    have h := hd.ne k
    gen_tail ih h
  | ⟨_, some _⟩ :: vs, _, i, (m, s), .inl _ => by gen_head setInsertArm
  | ⟨_, some _⟩ :: vs, hd, i, (m, s), .inr k => by
    have ih := pos_setInsert env vs hd.tail (i + 1) s k
    have h := hd.ne k
    gen_tail ih h

def setContainsArm (f : Field) : Expr :=
  match f.kind with
  | some κ => .call (.set κ .contains) f.name [.var "v"]
  | none => .place f.name

theorem pos_setContains (env : Env H V) :
    ∀ (vs : List Variant) (_ : Distinct vs) (i : Nat) (s : (setFields H (fieldsOf vs)).S)
      (k : (fieldsOf vs).Key),
      atPos setContainsArm env (dynKey vs k) i vs (setCells V (fieldsOf vs) s) =
        some (.bool ((setFields H (fieldsOf vs)).contains s k), setCells V (fieldsOf vs) s)
  | [], _, _, _, k => Empty.elim k
  | ⟨_, none⟩ :: vs, _, i, (b, s), .inl _ => by gen_head setContainsArm
  | ⟨_, none⟩ :: vs, hd, i, (b, s), .inr k => by
    have ih := pos_setContains env vs hd.tail (i + 1) s k
    have h := hd.ne k
    gen_tail ih h
  | ⟨_, some _⟩ :: vs, _, i, (m, s), .inl _ => by gen_head setContainsArm
  | ⟨_, some _⟩ :: vs, hd, i, (m, s), .inr k => by
    have ih := pos_setContains env vs hd.tail (i + 1) s k
    have h := hd.ne k
    gen_tail ih h

def setRemoveArm (f : Field) : Expr :=
  match f.kind with
  | some κ => .call (.set κ .remove) f.name [.var "v"]
  | none => .call .memReplace f.name [.lit false]

theorem pos_setRemove (env : Env H V) :
    ∀ (vs : List Variant) (_ : Distinct vs) (i : Nat) (s : (setFields H (fieldsOf vs)).S)
      (k : (fieldsOf vs).Key),
      atPos setRemoveArm env (dynKey vs k) i vs (setCells V (fieldsOf vs) s) =
        some (.bool ((setFields H (fieldsOf vs)).remove s k).1, setCells V (fieldsOf vs) ((setFields H (fieldsOf vs)).remove s k).2)
  | [], _, _, _, k => Empty.elim k
  | ⟨_, none⟩ :: vs, _, i, (b, s), .inl _ => by gen_head setRemoveArm
  | ⟨_, none⟩ :: vs, hd, i, (b, s), .inr k => by
    have ih := pos_setRemove env vs hd.tail (i + 1) s k
    have h := hd.ne k
    gen_tail ih h
  | ⟨_, some _⟩ :: vs, _, i, (m, s), .inl _ => by gen_head setRemoveArm
  | ⟨_, some _⟩ :: vs, hd, i, (m, s), .inr k => by
    have ih := pos_setRemove env vs hd.tail (i + 1) s k
    have h := hd.ne k
    gen_tail ih h

/-! ## Methods that visit every field -/

def setLenTerm (f : Field) : Expr :=
  match f.kind with
  | some κ => Expr.call (.set κ .len) f.name []
  | none => .usizeFrom (.place f.name)

theorem setLenTerm_only (f : Field) : (setLenTerm f).only f.name := by
  unfold setLenTerm; split <;> exact rfl

theorem eval_setLen : ∀ (vs : List Variant) (pre : List (Cell H V)) (s : (setFields H (fieldsOf vs)).S) (e : Expr)
    (n : Nat),
    eval [] e (named 0 (pre ++ setCells V (fieldsOf vs) s)) = some (.nat n, named 0 (pre ++ setCells V (fieldsOf vs) s)) →
    eval [] (((fieldsFrom pre.length vs).map setLenTerm).foldl .add e) (named 0 (pre ++ setCells V (fieldsOf vs) s)) =
      some (.nat (n + (setFields H (fieldsOf vs)).len s), named 0 (pre ++ setCells V (fieldsOf vs) s))
  | [], _, _, _, _, h => h
  | ⟨x, none⟩ :: vs, pre, (o, s), e, n, h => by
    have ht := eval_at [] pre (setCells V (fieldsOf vs) s) _ (.flag o) (setLenTerm_only (fieldAt pre.length ⟨x, none⟩))
    have ih := eval_setLen vs (pre ++ [.flag o]) s (.add e (setLenTerm (fieldAt pre.length ⟨x, none⟩))) (n + o.toNat)
    simp only [List.append_assoc, List.cons_append, List.nil_append, List.length_append, List.length_cons,
      List.length_nil] at ih
    simp only [fieldsFrom, List.map_cons, List.foldl_cons, setCells, setFields, fieldsOf] at h ⊢
    rw [← Nat.add_assoc]
    refine ih ?_
    simp [eval, h, ht]
    simp [setLenTerm, fieldAt, evalOn, evalArgs, callFn, callFn]
  | ⟨x, some κ⟩ :: vs, pre, (m, s), e, n, h => by
    have ht := eval_at [] pre (setCells V (fieldsOf vs) s) _ (.set κ m) (setLenTerm_only (fieldAt pre.length ⟨x, some κ⟩))
    have ih := eval_setLen vs (pre ++ [.set κ m]) s (.add e (setLenTerm (fieldAt pre.length ⟨x, some κ⟩)))
      (n + (setStorage H κ).len m)
    simp only [List.append_assoc, List.cons_append, List.nil_append, List.length_append, List.length_cons,
      List.length_nil] at ih
    simp only [fieldsFrom, List.map_cons, List.foldl_cons, setCells, setFields, fieldsOf] at h ⊢
    rw [← Nat.add_assoc]
    refine ih ?_
    simp [eval, h, ht]
    simp [setLenTerm, fieldAt, evalOn, evalArgs, callFn, callSet]

def setIsEmptyTerm (f : Field) : Expr :=
  match f.kind with
  | some κ => Expr.call (.set κ .isEmpty) f.name []
  | none => .not (.place f.name)

theorem setIsEmptyTerm_only (f : Field) : (setIsEmptyTerm f).only f.name := by
  unfold setIsEmptyTerm; split <;> exact rfl

theorem eval_setIsEmpty : ∀ (vs : List Variant) (pre : List (Cell H V)) (s : (setFields H (fieldsOf vs)).S) (e : Expr)
    (b : Bool),
    eval [] e (named 0 (pre ++ setCells V (fieldsOf vs) s)) = some (.bool b, named 0 (pre ++ setCells V (fieldsOf vs) s)) →
    eval [] (((fieldsFrom pre.length vs).map setIsEmptyTerm).foldl .and e) (named 0 (pre ++ setCells V (fieldsOf vs) s)) =
      some (.bool (b && (setFields H (fieldsOf vs)).isEmpty s), named 0 (pre ++ setCells V (fieldsOf vs) s))
  | [], _, _, _, b, h => by
    rw [show (b && (setFields H (fieldsOf [])).isEmpty _) = b from Bool.and_true b]
    exact h
  | ⟨x, none⟩ :: vs, pre, (o, s), e, b, h => by
    have ht := eval_at [] pre (setCells V (fieldsOf vs) s) _ (.flag o) (setIsEmptyTerm_only (fieldAt pre.length ⟨x, none⟩))
    have ih := eval_setIsEmpty vs (pre ++ [.flag o]) s (.and e (setIsEmptyTerm (fieldAt pre.length ⟨x, none⟩))) (b && !o)
    simp only [List.append_assoc, List.cons_append, List.nil_append, List.length_append, List.length_cons,
      List.length_nil] at ih
    simp only [fieldsFrom, List.map_cons, List.foldl_cons, setCells, setFields, fieldsOf] at h ⊢
    rw [← Bool.and_assoc]
    refine ih ?_
    cases b
    · simp [eval, h]
    · simp [eval, h, ht]
      simp [setIsEmptyTerm, fieldAt, evalOn, evalArgs, callFn, callFn]
  | ⟨x, some κ⟩ :: vs, pre, (m, s), e, b, h => by
    have ht := eval_at [] pre (setCells V (fieldsOf vs) s) _ (.set κ m)
      (setIsEmptyTerm_only (fieldAt pre.length ⟨x, some κ⟩))
    have ih := eval_setIsEmpty vs (pre ++ [.set κ m]) s (.and e (setIsEmptyTerm (fieldAt pre.length ⟨x, some κ⟩)))
      (b && (setStorage H κ).isEmpty m)
    simp only [List.append_assoc, List.cons_append, List.nil_append, List.length_append, List.length_cons,
      List.length_nil] at ih
    simp only [fieldsFrom, List.map_cons, List.foldl_cons, setCells, setFields, fieldsOf] at h ⊢
    rw [← Bool.and_assoc]
    refine ih ?_
    cases b
    · simp [eval, h]
    · simp [eval, h, ht]
      simp [setIsEmptyTerm, fieldAt, evalOn, evalArgs, callFn, callSet]

def setDecl (f : Field) : String × FieldTy :=
  match f.kind with
  | some κ => (f.name, .set κ)
  | none => (f.name, .flag)

theorem setCells_decls : ∀ (vs : List Variant) (i : Nat) (s : (setFields H (fieldsOf vs)).S),
    (named i (setCells V (fieldsOf vs) s)).map (fun p => (p.1, p.2.ty)) = (fieldsFrom i vs).map setDecl
  | [], _, _ => rfl
  | ⟨_, none⟩ :: vs, i, (o, s) => by
    simp [fieldsOf, setCells, named, fieldsFrom, setDecl, fieldAt, Cell.ty]
    exact setCells_decls vs (i + 1) s
  | ⟨_, some _⟩ :: vs, i, (m, s) => by
    simp [fieldsOf, setCells, named, fieldsFrom, setDecl, fieldAt, Cell.ty]
    exact setCells_decls vs (i + 1) s

theorem set_checkLit (vs : List Variant) (s : (setFields H (fieldsOf vs)).S) :
    checkLit ((collect vs).fields.map setDecl) (setStruct V (fieldsOf vs) s) = some (setStruct V (fieldsOf vs) s) := by
  rw [checkLit, if_pos]
  rw [collect_fields]
  exact setCells_decls vs 0 s

def setInit (f : Field) : Init :=
  match f.kind with
  | some κ => .setEmpty κ
  | none => .false

theorem set_inits : ∀ (vs : List Variant) (i : Nat),
    ((((fieldsFrom i vs).map (·.name)).zip ((fieldsFrom i vs).map setInit)).map fun p => (p.1, p.2.run)) =
      named i (setCells (H := H) V (fieldsOf vs) (setFields H (fieldsOf vs)).empty)
  | [], _ => rfl
  | ⟨_, none⟩ :: vs, i => by
    have ih := set_inits vs (i + 1)
    simp [fieldsOf, setCells, named, fieldsFrom, setInit, fieldAt, Init.run, setFields] at ih ⊢
    exact ih
  | ⟨_, some _⟩ :: vs, i => by
    have ih := set_inits vs (i + 1)
    simp [fieldsOf, setCells, named, fieldsFrom, setInit, fieldAt, Init.run, setFields] at ih ⊢
    exact ih

theorem set_cloneFields (c : V → V) : ∀ (vs : List Variant) (pre : List (Cell H V)) (s : (setFields H (fieldsOf vs)).S),
    cloneFields c (named 0 (pre ++ setCells V (fieldsOf vs) s))
      (((fieldsFrom pre.length vs).map (·.name)).map fun n => (n, n)) =
      some (named pre.length (setCells V (fieldsOf vs) ((setFields H (fieldsOf vs)).clone s)))
  | [], _, _ => rfl
  | ⟨_, none⟩ :: vs, pre, (o, s) => by
    have ih := set_cloneFields c vs (pre ++ [.flag o]) s
    have hg := named_get pre (setCells V (fieldsOf vs) s) (.flag o) 0
    simp only [Nat.zero_add, List.append_assoc, List.cons_append, List.nil_append, List.length_append, List.length_cons,
      List.length_nil] at ih hg
    simp [fieldsFrom, fieldAt, cloneFields, setCells, fieldsOf, hg, ih, named, Cell.clone, setFields] at ih ⊢
    simp [ih]
  | ⟨_, some κ⟩ :: vs, pre, (m, s) => by
    have ih := set_cloneFields c vs (pre ++ [.set κ m]) s
    have hg := named_get pre (setCells V (fieldsOf vs) s) (.set κ m) 0
    simp only [Nat.zero_add, List.append_assoc, List.cons_append, List.nil_append, List.length_append, List.length_cons,
      List.length_nil] at ih hg
    simp [fieldsFrom, fieldAt, cloneFields, setCells, fieldsOf, hg, ih, named, Cell.clone, setFields] at ih ⊢
    simp [ih]

theorem set_runEq (veq : V → V → Bool) : ∀ (vs : List Variant) (pre pre' : List (Cell H V)),
    pre.length = pre'.length → ∀ (s t : (setFields H (fieldsOf vs)).S),
    runEq veq (named 0 (pre ++ setCells V (fieldsOf vs) s)) (named 0 (pre' ++ setCells V (fieldsOf vs) t))
      ((fieldsFrom pre.length vs).map (·.name)) =
      some ((setFields H (fieldsOf vs)).eq s t)
  | [], _, _, _, _, _ => rfl
  | ⟨_, none⟩ :: vs, pre, pre', hl, (o, s), (o', t) => by
    have ih := set_runEq veq vs (pre ++ [.flag o]) (pre' ++ [.flag o']) (by simp [hl]) s t
    have hg := named_get pre (setCells V (fieldsOf vs) s) (.flag o) 0
    have hg' := named_get pre' (setCells V (fieldsOf vs) t) (.flag o') 0
    simp only [Nat.zero_add, List.append_assoc, List.cons_append, List.nil_append, List.length_append, List.length_cons,
      List.length_nil] at ih hg hg'
    rw [← hl] at hg'
    simp only [fieldsFrom, List.map_cons, fieldAt, runEq, setCells, fieldsOf, hg, hg', setFields, Cell.ne]
    cases o <;> cases o' <;> simp [ih]
  | ⟨_, some κ⟩ :: vs, pre, pre', hl, (m, s), (m', t) => by
    have ih := set_runEq veq vs (pre ++ [.set κ m]) (pre' ++ [.set κ m']) (by simp [hl]) s t
    have hg := named_get pre (setCells V (fieldsOf vs) s) (.set κ m) 0
    have hg' := named_get pre' (setCells V (fieldsOf vs) t) (.set κ m') 0
    simp only [Nat.zero_add, List.append_assoc, List.cons_append, List.nil_append, List.length_append, List.length_cons,
      List.length_nil] at ih hg hg'
    rw [← hl] at hg'
    simp only [fieldsFrom, List.map_cons, fieldAt, runEq, setCells, fieldsOf, hg, hg', setFields, Cell.ne,
      Cell.asSet_self, Option.map_some]
    cases h : (setStorage H κ).eq m m' <;> simp [h, ih]

def setRetainStmt (f : Field) : Stmt :=
  match f.kind with
  | some κ => .setRetain κ f.name f.var
  | none => .flagRetain f.name f.var

theorem retainFlag_key {K L σ : Type} (f : σ → K → σ × Option Bool) (g : σ → L → σ × Option Bool)
    (k : K) (l : L) (h : ∀ st, f st k = g st l) (o : Bool) (st : σ) :
    retainFlag f k o st = retainFlag g l o st := by
  cases o <;> simp [retainFlag, h]

theorem set_runSetRetain {σ : Type} (func : σ → DynKey → σ × Option Bool) : ∀ (vs : List Variant)
    (pre : List (Cell H V)) (s : (setFields H (fieldsOf vs)).S) (st : σ),
    runSetRetain func ((fieldsFrom pre.length vs).map setRetainStmt) (named 0 (pre ++ setCells V (fieldsOf vs) s)) st =
      some (((setFields H (fieldsOf vs)).retain (fun st k => func st (dynKey vs k)) s st).mapS
        fun s => named 0 (pre ++ setCells V (fieldsOf vs) s))
  | [], _, _, _ => rfl
  | ⟨x, none⟩ :: vs, pre, (o, s), st => by
    have hg := named_get pre (setCells V (fieldsOf vs) s) (.flag o) 0
    have hs := fun d => named_set pre (setCells V (fieldsOf vs) s) (.flag o) d 0
    have ih := fun o => set_runSetRetain func vs (pre ++ [.flag o]) s
    simp only [Nat.zero_add, List.append_assoc, List.cons_append, List.nil_append, List.length_append, List.length_cons,
      List.length_nil] at ih hg hs
    have hk : ∀ f : σ → Unit ⊕ (fieldsOf vs).Key → σ × Option Bool, (∀ st, f st (.inl ()) = func st ⟨x, none⟩) →
        retainFlag f (.inl ()) o st = retainFlag (fun st (_ : Unit) => func st ⟨x, none⟩) () o st :=
      fun f hf => retainFlag_key f _ _ _ hf o st
    simp only [fieldsFrom, List.map_cons, runSetRetain, setCells, fieldsOf, setRetainStmt, fieldAt, stmtSetRetain, hg,
      Option.bind_some]
    show _ = some ((SetRetainOut.andThen (retainFlag (T := Unit ⊕ (fieldsOf vs).Key) _ (.inl ()) o st) _ _).mapS _)
    erw [hk _ fun _ => rfl]
    unfold SetRetainOut.andThen
    generalize retainFlag (fun st (_ : Unit) => func st ⟨x, none⟩) () o st = r
    simp only [SetRetainOut.mapS, hs]
    cases r.panicked
    · simp only [Bool.false_eq_true, if_false, ih, Option.map_some, SetRetainOut.mapS]
      rfl
    · simp [setCells]
  | ⟨x, some κ⟩ :: vs, pre, (m, s), st => by
    have hg := named_get pre (setCells V (fieldsOf vs) s) (.set κ m) 0
    have hs := fun d => named_set pre (setCells V (fieldsOf vs) s) (.set κ m) d 0
    have ih := fun m => set_runSetRetain func vs (pre ++ [.set κ m]) s
    simp only [Nat.zero_add, List.append_assoc, List.cons_append, List.nil_append, List.length_append, List.length_cons,
      List.length_nil] at ih hg hs
    simp only [fieldsFrom, List.map_cons, runSetRetain, setCells, fieldsOf, setRetainStmt, fieldAt, stmtSetRetain, hg,
      Option.bind_some, Cell.asSet_self, Option.map_some]
    show _ = some ((SetRetainOut.andThen ((setStorage H κ).retain (fun st k => func st ⟨x, some ⟨κ, k⟩⟩) m st) _ _).mapS _)
    unfold SetRetainOut.andThen
    generalize (setStorage H κ).retain (fun st k => func st ⟨x, some ⟨κ, k⟩⟩) m st = r
    simp only [SetRetainOut.mapS, hs]
    cases r.panicked
    · simp only [Bool.false_eq_true, if_false, ih, Option.map_some, SetRetainOut.mapS]
      rfl
    · simp [setCells]

def setClearStmt (f : Field) : Stmt :=
  match f.kind with
  | some κ => .setClear κ f.name
  | none => .assignFalse f.name

theorem set_runClear : ∀ (vs : List Variant) (pre : List (Cell H V)) (s : (setFields H (fieldsOf vs)).S),
    runClear ((fieldsFrom pre.length vs).map setClearStmt) (named 0 (pre ++ setCells V (fieldsOf vs) s)) =
      some (named 0 (pre ++ setCells V (fieldsOf vs) ((setFields H (fieldsOf vs)).clear s)), [])
  | [], _, _ => rfl
  | ⟨_, none⟩ :: vs, pre, (o, s) => by
    have hg := named_get pre (setCells V (fieldsOf vs) s) (.flag o) 0
    have hs := fun d => named_set pre (setCells V (fieldsOf vs) s) (.flag o) d 0
    have ih := fun o => set_runClear vs (pre ++ [.flag o]) s
    simp only [Nat.zero_add, List.append_assoc, List.cons_append, List.nil_append, List.length_append, List.length_cons,
      List.length_nil] at ih hg hs
    simp [fieldsFrom, List.map_cons, runClear, setCells, fieldsOf, setClearStmt, fieldAt, stmtClear, hg, hs, ih,
      setFields]
  | ⟨_, some κ⟩ :: vs, pre, (m, s) => by
    have hg := named_get pre (setCells V (fieldsOf vs) s) (.set κ m) 0
    have hs := fun d => named_set pre (setCells V (fieldsOf vs) s) (.set κ m) d 0
    have ih := fun m => set_runClear vs (pre ++ [.set κ m]) s
    simp only [Nat.zero_add, List.append_assoc, List.cons_append, List.nil_append, List.length_append, List.length_cons,
      List.length_nil] at ih hg hs
    simp [fieldsFrom, List.map_cons, runClear, setCells, fieldsOf, setClearStmt, fieldAt, stmtClear, hg, hs, ih,
      setFields]

end FixedMap.Gen
