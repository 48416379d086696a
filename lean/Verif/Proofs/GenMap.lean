import Verif.Proofs.Gen

/-!
# The generated map storage does what the variant-by-variant model says
-/

set_option autoImplicit false
set_option linter.unusedSimpArgs false

namespace FixedMap.Gen

variable {H : HashbrownApi} {V : Type}

/-- Evaluate the arm of the first variant. -/
local macro "gen_head " g:ident : tactic =>
  `(tactic| simp [$g:ident, atPos, mapCells, dynKey, dynAddr, fieldsOf, patOf, Pat.bind, fieldAt, evalOn, evalArgs,
    evalArg, callFn, callOption, callMap, mapFields, List.lookup_cons, Function.comp_def])

/-- Skip the arm of the first variant. -/
local macro "gen_tail " ih:ident h:ident : tactic =>
  `(tactic| simp [atPos, mapCells, dynKey, dynAddr, fieldsOf, mapFields, $ih:ident, $h:ident, Function.comp_def])

theorem map_comp {α β γ : Type} (f : α → γ) (g : α → β) (h : β → γ) (hc : ∀ a, f a = h (g a)) (o : Option α) :
    o.map f = (o.map g).map h := by
  cases o <;> simp [hc]

/-! ## Methods with a `match` on the key -/

def insertArm (f : Field) : Expr :=
  match f.kind with
  | some κ => .call (.map κ .insert) f.name [.var "v", .var "value"]
  | none => .call (.option .replace) f.name [.var "value"]

theorem pos_insert (env : Env H V) (v : V) (hv : env.lookup "value" = some (.val v)) :
    ∀ (vs : List Variant) (_ : Distinct vs) (i : Nat) (s : (mapFields H V (fieldsOf vs)).S)
      (k : (fieldsOf vs).Key),
      atPos insertArm env (dynKey vs k) i vs (mapCells (fieldsOf vs) s) =
        some (.optVal ((mapFields H V (fieldsOf vs)).insert s k v).1, mapCells (fieldsOf vs) ((mapFields H V (fieldsOf vs)).insert s k v).2)
  | [], _, _, _, k => Empty.elim k
  | ⟨_, none⟩ :: vs, _, i, (o, s), .inl _ => by gen_head insertArm; simp [hv]
  | ⟨_, none⟩ :: vs, hd, i, (o, s), .inr k => by
    have ih := pos_insert env v hv vs hd.tail (i + 1) s k
    have h := hd.ne k
    gen_tail ih h
  | ⟨_, some _⟩ :: vs, _, i, (m, s), .inl _ => by gen_head insertArm; simp [hv]
  | ⟨_, some _⟩ :: vs, hd, i, (m, s), .inr k => by
    have ih := pos_insert env v hv vs hd.tail (i + 1) s k
    have h := hd.ne k
    gen_tail ih h

def containsKeyArm (f : Field) : Expr :=
  match f.kind with
  | some κ => .call (.map κ .containsKey) f.name [.var "v"]
  | none => .call (.option .isSome) f.name []

theorem pos_containsKey (env : Env H V) :
    ∀ (vs : List Variant) (_ : Distinct vs) (i : Nat) (s : (mapFields H V (fieldsOf vs)).S)
      (k : (fieldsOf vs).Key),
      atPos containsKeyArm env (dynKey vs k) i vs (mapCells (fieldsOf vs) s) =
        some (.bool ((mapFields H V (fieldsOf vs)).containsKey s k), mapCells (fieldsOf vs) s)
  | [], _, _, _, k => Empty.elim k
  | ⟨_, none⟩ :: vs, _, i, (o, s), .inl _ => by gen_head containsKeyArm
  | ⟨_, none⟩ :: vs, hd, i, (o, s), .inr k => by
    have ih := pos_containsKey env vs hd.tail (i + 1) s k
    have h := hd.ne k
    gen_tail ih h
  | ⟨_, some _⟩ :: vs, _, i, (m, s), .inl _ => by gen_head containsKeyArm
  | ⟨_, some _⟩ :: vs, hd, i, (m, s), .inr k => by
    have ih := pos_containsKey env vs hd.tail (i + 1) s k
    have h := hd.ne k
    gen_tail ih h

def getArm (f : Field) : Expr :=
  match f.kind with
  | some κ => .call (.map κ .get) f.name [.var "v"]
  | none => .call (.option .asRef) f.name []

theorem pos_get (env : Env H V) :
    ∀ (vs : List Variant) (_ : Distinct vs) (i : Nat) (s : (mapFields H V (fieldsOf vs)).S)
      (k : (fieldsOf vs).Key),
      atPos getArm env (dynKey vs k) i vs (mapCells (fieldsOf vs) s) =
        some (.optVal ((mapFields H V (fieldsOf vs)).get s k), mapCells (fieldsOf vs) s)
  | [], _, _, _, k => Empty.elim k
  | ⟨_, none⟩ :: vs, _, i, (o, s), .inl _ => by gen_head getArm
  | ⟨_, none⟩ :: vs, hd, i, (o, s), .inr k => by
    have ih := pos_get env vs hd.tail (i + 1) s k
    have h := hd.ne k
    gen_tail ih h
  | ⟨_, some _⟩ :: vs, _, i, (m, s), .inl _ => by gen_head getArm
  | ⟨_, some _⟩ :: vs, hd, i, (m, s), .inr k => by
    have ih := pos_get env vs hd.tail (i + 1) s k
    have h := hd.ne k
    gen_tail ih h

def getMutArm (f : Field) : Expr :=
  match f.kind with
  | some κ => .call (.map κ .getMut) f.name [.var "v"]
  | none => .call (.option .asMut) f.name []

theorem pos_getMut (env : Env H V) :
    ∀ (vs : List Variant) (_ : Distinct vs) (i : Nat) (s : (mapFields H V (fieldsOf vs)).S)
      (k : (fieldsOf vs).Key),
      atPos getMutArm env (dynKey vs k) i vs (mapCells (fieldsOf vs) s) =
        some (.optAddr (((mapFields H V (fieldsOf vs)).getMut s k).map (dynAddr i (fieldsOf vs))), mapCells (fieldsOf vs) s)
  | [], _, _, _, k => Empty.elim k
  | ⟨_, none⟩ :: vs, _, i, (o, s), .inl _ => by gen_head getMutArm; exact map_comp _ _ _ (fun a => by rfl) _
  | ⟨_, none⟩ :: vs, hd, i, (o, s), .inr k => by
    have ih := pos_getMut env vs hd.tail (i + 1) s k
    have h := hd.ne k
    gen_tail ih h; exact map_comp _ _ _ (fun a => by rfl) _
  | ⟨_, some _⟩ :: vs, _, i, (m, s), .inl _ => by gen_head getMutArm; exact map_comp _ _ _ (fun a => by rfl) _
  | ⟨_, some _⟩ :: vs, hd, i, (m, s), .inr k => by
    have ih := pos_getMut env vs hd.tail (i + 1) s k
    have h := hd.ne k
    gen_tail ih h; exact map_comp _ _ _ (fun a => by rfl) _

def removeArm (f : Field) : Expr :=
  match f.kind with
  | some κ => .call (.map κ .remove) f.name [.var "v"]
  | none => .call (.option .take) f.name []

theorem pos_remove (env : Env H V) :
    ∀ (vs : List Variant) (_ : Distinct vs) (i : Nat) (s : (mapFields H V (fieldsOf vs)).S)
      (k : (fieldsOf vs).Key),
      atPos removeArm env (dynKey vs k) i vs (mapCells (fieldsOf vs) s) =
        some (.optVal ((mapFields H V (fieldsOf vs)).remove s k).1, mapCells (fieldsOf vs) ((mapFields H V (fieldsOf vs)).remove s k).2)
  | [], _, _, _, k => Empty.elim k
  | ⟨_, none⟩ :: vs, _, i, (o, s), .inl _ => by gen_head removeArm
  | ⟨_, none⟩ :: vs, hd, i, (o, s), .inr k => by
    have ih := pos_remove env vs hd.tail (i + 1) s k
    have h := hd.ne k
    gen_tail ih h
  | ⟨_, some _⟩ :: vs, _, i, (m, s), .inl _ => by gen_head removeArm
  | ⟨_, some _⟩ :: vs, hd, i, (m, s), .inr k => by
    have ih := pos_remove env vs hd.tail (i + 1) s k
    have h := hd.ne k
    gen_tail ih h

/-! ## Methods that visit every field -/

def lenTerm (f : Field) : Expr :=
  match f.kind with
  | some κ => Expr.call (.map κ .len) f.name []
  | none => .usizeFrom (.call (.option .isSome) f.name [])

theorem lenTerm_only (f : Field) : (lenTerm f).only f.name := by
  unfold lenTerm; split <;> exact rfl

theorem eval_len : ∀ (vs : List Variant) (pre : List (Cell H V)) (s : (mapFields H V (fieldsOf vs)).S) (e : Expr)
    (n : Nat),
    eval [] e (named 0 (pre ++ mapCells (fieldsOf vs) s)) = some (.nat n, named 0 (pre ++ mapCells (fieldsOf vs) s)) →
    eval [] (((fieldsFrom pre.length vs).map lenTerm).foldl .add e) (named 0 (pre ++ mapCells (fieldsOf vs) s)) =
      some (.nat (n + (mapFields H V (fieldsOf vs)).len s), named 0 (pre ++ mapCells (fieldsOf vs) s))
  | [], _, _, _, _, h => h
  | ⟨x, none⟩ :: vs, pre, (o, s), e, n, h => by
    have ht := eval_at [] pre (mapCells (fieldsOf vs) s) _ (.slot o) (lenTerm_only (fieldAt pre.length ⟨x, none⟩))
    have ih := eval_len vs (pre ++ [.slot o]) s (.add e (lenTerm (fieldAt pre.length ⟨x, none⟩))) (n + o.isSome.toNat)
    simp only [List.append_assoc, List.cons_append, List.nil_append, List.length_append, List.length_cons,
      List.length_nil] at ih
    simp only [fieldsFrom, List.map_cons, List.foldl_cons, mapCells, mapFields, fieldsOf] at h ⊢
    rw [← Nat.add_assoc]
    refine ih ?_
    simp [eval, h, ht]
    simp [lenTerm, fieldAt, evalOn, evalArgs, callFn, callOption]
  | ⟨x, some κ⟩ :: vs, pre, (m, s), e, n, h => by
    have ht := eval_at [] pre (mapCells (fieldsOf vs) s) _ (.map κ m) (lenTerm_only (fieldAt pre.length ⟨x, some κ⟩))
    have ih := eval_len vs (pre ++ [.map κ m]) s (.add e (lenTerm (fieldAt pre.length ⟨x, some κ⟩)))
      (n + (mapStorage H V κ).len m)
    simp only [List.append_assoc, List.cons_append, List.nil_append, List.length_append, List.length_cons,
      List.length_nil] at ih
    simp only [fieldsFrom, List.map_cons, List.foldl_cons, mapCells, mapFields, fieldsOf] at h ⊢
    rw [← Nat.add_assoc]
    refine ih ?_
    simp [eval, h, ht]
    simp [lenTerm, fieldAt, evalOn, evalArgs, callFn, callMap]

def isEmptyTerm (f : Field) : Expr :=
  match f.kind with
  | some κ => Expr.call (.map κ .isEmpty) f.name []
  | none => .call (.option .isNone) f.name []

theorem isEmptyTerm_only (f : Field) : (isEmptyTerm f).only f.name := by
  unfold isEmptyTerm; split <;> exact rfl

theorem eval_isEmpty : ∀ (vs : List Variant) (pre : List (Cell H V)) (s : (mapFields H V (fieldsOf vs)).S) (e : Expr)
    (b : Bool),
    eval [] e (named 0 (pre ++ mapCells (fieldsOf vs) s)) = some (.bool b, named 0 (pre ++ mapCells (fieldsOf vs) s)) →
    eval [] (((fieldsFrom pre.length vs).map isEmptyTerm).foldl .and e) (named 0 (pre ++ mapCells (fieldsOf vs) s)) =
      some (.bool (b && (mapFields H V (fieldsOf vs)).isEmpty s), named 0 (pre ++ mapCells (fieldsOf vs) s))
  | [], _, _, _, b, h => by
    rw [show (b && (mapFields H V (fieldsOf [])).isEmpty _) = b from Bool.and_true b]
    exact h
  | ⟨x, none⟩ :: vs, pre, (o, s), e, b, h => by
    have ht := eval_at [] pre (mapCells (fieldsOf vs) s) _ (.slot o) (isEmptyTerm_only (fieldAt pre.length ⟨x, none⟩))
    have ih := eval_isEmpty vs (pre ++ [.slot o]) s (.and e (isEmptyTerm (fieldAt pre.length ⟨x, none⟩))) (b && o.isNone)
    simp only [List.append_assoc, List.cons_append, List.nil_append, List.length_append, List.length_cons,
      List.length_nil] at ih
    simp only [fieldsFrom, List.map_cons, List.foldl_cons, mapCells, mapFields, fieldsOf] at h ⊢
    rw [← Bool.and_assoc]
    refine ih ?_
    cases b
    · simp [eval, h]
    · simp [eval, h, ht]
      simp [isEmptyTerm, fieldAt, evalOn, evalArgs, callFn, callOption]
  | ⟨x, some κ⟩ :: vs, pre, (m, s), e, b, h => by
    have ht := eval_at [] pre (mapCells (fieldsOf vs) s) _ (.map κ m)
      (isEmptyTerm_only (fieldAt pre.length ⟨x, some κ⟩))
    have ih := eval_isEmpty vs (pre ++ [.map κ m]) s (.and e (isEmptyTerm (fieldAt pre.length ⟨x, some κ⟩)))
      (b && (mapStorage H V κ).isEmpty m)
    simp only [List.append_assoc, List.cons_append, List.nil_append, List.length_append, List.length_cons,
      List.length_nil] at ih
    simp only [fieldsFrom, List.map_cons, List.foldl_cons, mapCells, mapFields, fieldsOf] at h ⊢
    rw [← Bool.and_assoc]
    refine ih ?_
    cases b
    · simp [eval, h]
    · simp [eval, h, ht]
      simp [isEmptyTerm, fieldAt, evalOn, evalArgs, callFn, callMap]

def mapDecl (f : Field) : String × FieldTy :=
  match f.kind with
  | some κ => (f.name, .map κ)
  | none => (f.name, .slot)

theorem mapCells_decls : ∀ (vs : List Variant) (i : Nat) (s : (mapFields H V (fieldsOf vs)).S),
    (named i (mapCells (fieldsOf vs) s)).map (fun p => (p.1, p.2.ty)) = (fieldsFrom i vs).map mapDecl
  | [], _, _ => rfl
  | ⟨_, none⟩ :: vs, i, (o, s) => by
    simp [fieldsOf, mapCells, named, fieldsFrom, mapDecl, fieldAt, Cell.ty]
    exact mapCells_decls vs (i + 1) s
  | ⟨_, some _⟩ :: vs, i, (m, s) => by
    simp [fieldsOf, mapCells, named, fieldsFrom, mapDecl, fieldAt, Cell.ty]
    exact mapCells_decls vs (i + 1) s

theorem map_checkLit (vs : List Variant) (s : (mapFields H V (fieldsOf vs)).S) :
    checkLit ((collect vs).fields.map mapDecl) (mapStruct (fieldsOf vs) s) = some (mapStruct (fieldsOf vs) s) := by
  rw [checkLit, if_pos]
  rw [collect_fields]
  exact mapCells_decls vs 0 s

def mapInit (f : Field) : Init :=
  match f.kind with
  | some κ => .mapEmpty κ
  | none => .none

theorem map_inits : ∀ (vs : List Variant) (i : Nat),
    ((((fieldsFrom i vs).map (·.name)).zip ((fieldsFrom i vs).map mapInit)).map fun p => (p.1, p.2.run)) =
      named i (mapCells (H := H) (V := V) (fieldsOf vs) (mapFields H V (fieldsOf vs)).empty)
  | [], _ => rfl
  | ⟨_, none⟩ :: vs, i => by
    have ih := map_inits vs (i + 1)
    simp [fieldsOf, mapCells, named, fieldsFrom, mapInit, fieldAt, Init.run, mapFields] at ih ⊢
    exact ih
  | ⟨_, some _⟩ :: vs, i => by
    have ih := map_inits vs (i + 1)
    simp [fieldsOf, mapCells, named, fieldsFrom, mapInit, fieldAt, Init.run, mapFields] at ih ⊢
    exact ih

theorem map_cloneFields (c : V → V) : ∀ (vs : List Variant) (pre : List (Cell H V)) (s : (mapFields H V (fieldsOf vs)).S),
    cloneFields c (named 0 (pre ++ mapCells (fieldsOf vs) s))
      (((fieldsFrom pre.length vs).map (·.name)).map fun n => (n, n)) =
      some (named pre.length (mapCells (fieldsOf vs) ((mapFields H V (fieldsOf vs)).clone c s)))
  | [], _, _ => rfl
  | ⟨_, none⟩ :: vs, pre, (o, s) => by
    have ih := map_cloneFields c vs (pre ++ [.slot o]) s
    have hg := named_get pre (mapCells (fieldsOf vs) s) (.slot o) 0
    simp only [Nat.zero_add, List.append_assoc, List.cons_append, List.nil_append, List.length_append, List.length_cons,
      List.length_nil] at ih hg
    simp [fieldsFrom, fieldAt, cloneFields, mapCells, fieldsOf, hg, ih, named, Cell.clone, mapFields] at ih ⊢
    simp [ih]
  | ⟨_, some κ⟩ :: vs, pre, (m, s) => by
    have ih := map_cloneFields c vs (pre ++ [.map κ m]) s
    have hg := named_get pre (mapCells (fieldsOf vs) s) (.map κ m) 0
    simp only [Nat.zero_add, List.append_assoc, List.cons_append, List.nil_append, List.length_append, List.length_cons,
      List.length_nil] at ih hg
    simp [fieldsFrom, fieldAt, cloneFields, mapCells, fieldsOf, hg, ih, named, Cell.clone, mapFields] at ih ⊢
    simp [ih]

theorem map_runEq (veq : V → V → Bool) : ∀ (vs : List Variant) (pre pre' : List (Cell H V)),
    pre.length = pre'.length → ∀ (s t : (mapFields H V (fieldsOf vs)).S),
    runEq veq (named 0 (pre ++ mapCells (fieldsOf vs) s)) (named 0 (pre' ++ mapCells (fieldsOf vs) t))
      ((fieldsFrom pre.length vs).map (·.name)) =
      some ((mapFields H V (fieldsOf vs)).eq veq s t)
  | [], _, _, _, _, _ => rfl
  | ⟨_, none⟩ :: vs, pre, pre', hl, (o, s), (o', t) => by
    have ih := map_runEq veq vs (pre ++ [.slot o]) (pre' ++ [.slot o']) (by simp [hl]) s t
    have hg := named_get pre (mapCells (fieldsOf vs) s) (.slot o) 0
    have hg' := named_get pre' (mapCells (fieldsOf vs) t) (.slot o') 0
    simp only [Nat.zero_add, List.append_assoc, List.cons_append, List.nil_append, List.length_append, List.length_cons,
      List.length_nil] at ih hg hg'
    rw [← hl] at hg'
    simp only [fieldsFrom, List.map_cons, fieldAt, runEq, mapCells, fieldsOf, hg, hg', mapFields, Cell.ne]
    cases h : optBeq veq o o' <;> simp [h, ih]
  | ⟨_, some κ⟩ :: vs, pre, pre', hl, (m, s), (m', t) => by
    have ih := map_runEq veq vs (pre ++ [.map κ m]) (pre' ++ [.map κ m']) (by simp [hl]) s t
    have hg := named_get pre (mapCells (fieldsOf vs) s) (.map κ m) 0
    have hg' := named_get pre' (mapCells (fieldsOf vs) t) (.map κ m') 0
    simp only [Nat.zero_add, List.append_assoc, List.cons_append, List.nil_append, List.length_append, List.length_cons,
      List.length_nil] at ih hg hg'
    rw [← hl] at hg'
    simp only [fieldsFrom, List.map_cons, fieldAt, runEq, mapCells, fieldsOf, hg, hg', mapFields, Cell.ne,
      Cell.asMap_self, Option.map_some]
    cases h : (mapStorage H V κ).eq veq m m' <;> simp [h, ih]

def mapRetainStmt (f : Field) : Stmt :=
  match f.kind with
  | some κ => .mapRetain κ f.name f.var
  | none => .slotRetain f.name f.var

theorem retainSlot_key {K L σ : Type} (f : σ → K → V → σ × V × Option Bool) (g : σ → L → V → σ × V × Option Bool)
    (k : K) (l : L) (h : ∀ st v, f st k v = g st l v) (o : Option V) (st : σ) :
    retainSlot f k o st = retainSlot g l o st := by
  cases o <;> simp [retainSlot, h]

theorem map_runRetain {σ : Type} (func : σ → DynKey → V → σ × V × Option Bool) : ∀ (vs : List Variant)
    (pre : List (Cell H V)) (s : (mapFields H V (fieldsOf vs)).S) (st : σ),
    runRetain func ((fieldsFrom pre.length vs).map mapRetainStmt) (named 0 (pre ++ mapCells (fieldsOf vs) s)) st =
      some (((mapFields H V (fieldsOf vs)).retain (fun st k v => func st (dynKey vs k) v) s st).mapS
        fun s => named 0 (pre ++ mapCells (fieldsOf vs) s))
  | [], _, _, _ => rfl
  | ⟨x, none⟩ :: vs, pre, (o, s), st => by
    have hg := named_get pre (mapCells (fieldsOf vs) s) (.slot o) 0
    have hs := fun d => named_set pre (mapCells (fieldsOf vs) s) (.slot o) d 0
    have ih := fun o => map_runRetain func vs (pre ++ [.slot o]) s
    simp only [Nat.zero_add, List.append_assoc, List.cons_append, List.nil_append, List.length_append, List.length_cons,
      List.length_nil] at ih hg hs
    have hk : ∀ f : σ → Unit ⊕ (fieldsOf vs).Key → V → σ × V × Option Bool, (∀ st v, f st (.inl ()) v = func st ⟨x, none⟩ v) →
        retainSlot f (.inl ()) o st = retainSlot (fun st (_ : Unit) v => func st ⟨x, none⟩ v) () o st :=
      fun f hf => retainSlot_key f _ _ _ hf o st
    simp only [fieldsFrom, List.map_cons, runRetain, mapCells, fieldsOf, mapRetainStmt, fieldAt, stmtRetain, hg,
      Option.bind_some]
    show _ = some ((RetainOut.andThen (retainSlot (K := Unit ⊕ (fieldsOf vs).Key) _ (.inl ()) o st) _ _).mapS _)
    erw [hk _ fun _ _ => rfl]
    unfold RetainOut.andThen
    generalize retainSlot (fun st (_ : Unit) v => func st ⟨x, none⟩ v) () o st = r
    simp only [RetainOut.mapS, hs]
    cases r.panicked
    · simp only [Bool.false_eq_true, if_false, ih, Option.map_some, RetainOut.mapS]
      rfl
    · simp [mapCells]
  | ⟨x, some κ⟩ :: vs, pre, (m, s), st => by
    have hg := named_get pre (mapCells (fieldsOf vs) s) (.map κ m) 0
    have hs := fun d => named_set pre (mapCells (fieldsOf vs) s) (.map κ m) d 0
    have ih := fun m => map_runRetain func vs (pre ++ [.map κ m]) s
    simp only [Nat.zero_add, List.append_assoc, List.cons_append, List.nil_append, List.length_append, List.length_cons,
      List.length_nil] at ih hg hs
    simp only [fieldsFrom, List.map_cons, runRetain, mapCells, fieldsOf, mapRetainStmt, fieldAt, stmtRetain, hg,
      Option.bind_some, Cell.asMap_self, Option.map_some]
    show _ = some ((RetainOut.andThen ((mapStorage H V κ).retain (fun st k v => func st ⟨x, some ⟨κ, k⟩⟩ v) m st) _ _).mapS _)
    unfold RetainOut.andThen
    generalize (mapStorage H V κ).retain (fun st k v => func st ⟨x, some ⟨κ, k⟩⟩ v) m st = r
    simp only [RetainOut.mapS, hs]
    cases r.panicked
    · simp only [Bool.false_eq_true, if_false, ih, Option.map_some, RetainOut.mapS]
      rfl
    · simp [mapCells]

def mapClearStmt (f : Field) : Stmt :=
  match f.kind with
  | some κ => .mapClear κ f.name
  | none => .assignNone f.name

theorem map_runClear : ∀ (vs : List Variant) (pre : List (Cell H V)) (s : (mapFields H V (fieldsOf vs)).S),
    runClear ((fieldsFrom pre.length vs).map mapClearStmt) (named 0 (pre ++ mapCells (fieldsOf vs) s)) =
      some (named 0 (pre ++ mapCells (fieldsOf vs) ((mapFields H V (fieldsOf vs)).clear s).1),
        ((mapFields H V (fieldsOf vs)).clear s).2)
  | [], _, _ => rfl
  | ⟨_, none⟩ :: vs, pre, (o, s) => by
    have hg := named_get pre (mapCells (fieldsOf vs) s) (.slot o) 0
    have hs := fun d => named_set pre (mapCells (fieldsOf vs) s) (.slot o) d 0
    have ih := fun o => map_runClear vs (pre ++ [.slot o]) s
    simp only [Nat.zero_add, List.append_assoc, List.cons_append, List.nil_append, List.length_append, List.length_cons,
      List.length_nil] at ih hg hs
    simp [fieldsFrom, List.map_cons, runClear, mapCells, fieldsOf, mapClearStmt, fieldAt, stmtClear, hg, hs, ih,
      mapFields]
  | ⟨_, some κ⟩ :: vs, pre, (m, s) => by
    have hg := named_get pre (mapCells (fieldsOf vs) s) (.map κ m) 0
    have hs := fun d => named_set pre (mapCells (fieldsOf vs) s) (.map κ m) d 0
    have ih := fun m => map_runClear vs (pre ++ [.map κ m]) s
    simp only [Nat.zero_add, List.append_assoc, List.cons_append, List.nil_append, List.length_append, List.length_cons,
      List.length_nil] at ih hg hs
    simp [fieldsFrom, List.map_cons, runClear, mapCells, fieldsOf, mapClearStmt, fieldAt, stmtClear, hg, hs, ih,
      mapFields]

end FixedMap.Gen
