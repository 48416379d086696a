import Std.Data.String.ToNat
import Verif.Spec.Gen

/-!
# Lemmas about the generated code: names, structs, `match` dispatch
-/

set_option autoImplicit false
set_option linter.unusedSimpArgs false

namespace FixedMap.Gen

variable {H : HashbrownApi} {V : Type}

/-! ## Names -/

theorem fieldName_inj {i j : Nat} (h : fieldName i = fieldName j) : i = j := by
  unfold fieldName at h
  exact Nat.repr_injective ((String.append_right_inj (s := "_")).1 h)

@[simp] theorem fieldName_eq (i j : Nat) : fieldName i = fieldName j ↔ i = j :=
  ⟨fieldName_inj, fun h => h ▸ rfl⟩

theorem named_get_ge (cs : List (Cell H V)) : ∀ i j, j < i → (named i cs).get (fieldName j) = none := by
  induction cs with
  | nil => intro i j _; rfl
  | cons c cs ih =>
    intro i j h
    have hne : (fieldName j == fieldName i) = false := by
      simp; omega
    simp only [named, Struct.get, List.lookup_cons, hne]
    exact ih (i + 1) j (by omega)

theorem named_get (pre cs : List (Cell H V)) (c : Cell H V) :
    ∀ i, (named i (pre ++ c :: cs)).get (fieldName (i + pre.length)) = some c := by
  induction pre with
  | nil => intro i; simp [named, Struct.get]
  | cons a pre ih =>
    intro i
    have hne : (fieldName (i + (a :: pre).length) == fieldName i) = false := by
      simp
    have := ih (i + 1)
    simp only [List.cons_append, named, Struct.get, List.lookup_cons, hne] at this ⊢
    rw [show i + (a :: pre).length = i + 1 + pre.length by simp; omega]
    exact this

theorem named_set_lt (cs : List (Cell H V)) (c : Cell H V) :
    ∀ i j, j < i → (named i cs).set (fieldName j) c = named i cs := by
  induction cs with
  | nil => intro i j _; rfl
  | cons a cs ih =>
    intro i j h
    have hne : ¬ fieldName i = fieldName j := by simp; omega
    have := ih (i + 1) j (by omega)
    simp only [Struct.set] at this
    simp only [named, Struct.set, List.map_cons, hne, if_false, this]

theorem named_set (pre cs : List (Cell H V)) (c d : Cell H V) :
    ∀ i, (named i (pre ++ c :: cs)).set (fieldName (i + pre.length)) d = named i (pre ++ d :: cs) := by
  induction pre with
  | nil =>
    intro i
    have := named_set_lt cs d (i + 1) i (by omega)
    simp only [Struct.set] at this
    simp [named, Struct.set, this]
  | cons a pre ih =>
    intro i
    have hne : ¬ fieldName i = fieldName (i + (a :: pre).length) := by simp
    have := ih (i + 1)
    rw [show i + 1 + pre.length = i + (a :: pre).length by simp; omega] at this
    simp only [Struct.set] at this
    simp only [List.cons_append, named, Struct.set, List.map_cons, hne, if_false, this]

/-! ## The collected fields -/

def patOf (v : Variant) : Pat :=
  match v.elem with
  | none => .path v.ident
  | some _ => .tuple v.ident "v"

def fieldAt (i : Nat) (v : Variant) : Field := ⟨i, fieldName i, v.ident, v.elem⟩

def fieldsFrom : Nat → List Variant → List Field
  | _, [] => []
  | i, v :: vs => fieldAt i v :: fieldsFrom (i + 1) vs

theorem collectGo_eq (vs : List Variant) : ∀ i F,
    collectGo i vs F = ⟨F.fields ++ fieldsFrom i vs, F.patterns ++ vs.map patOf⟩ := by
  induction vs with
  | nil => intro i F; simp [collectGo, fieldsFrom]
  | cons v vs ih =>
    intro i F
    obtain ⟨x, e⟩ := v
    cases e <;> simp [collectGo, ih, fieldsFrom, fieldAt, patOf]

theorem collect_fields (vs : List Variant) : (collect vs).fields = fieldsFrom 0 vs := by
  simp [collect, collectGo_eq]

theorem collect_patterns (vs : List Variant) : (collect vs).patterns = vs.map patOf := by
  simp [collect, collectGo_eq]

theorem collect_names (vs : List Variant) : (collect vs).names = (fieldsFrom 0 vs).map (·.name) := by
  simp [FieldSet.names, collect_fields]

@[simp] theorem patOf_variant (v : Variant) : (patOf v).variant = v.ident := by
  unfold patOf; split <;> rfl

/-! ## Locality: an expression about one field -/

/-- The expression refers to no field but `n`. -/
def Expr.only (n : String) : Expr → Prop
  | .zero => True
  | .tt => True
  | .place m => m = n
  | .call _ m _ => m = n
  | .usizeFrom e => e.only n
  | .not e => e.only n
  | .add a b => a.only n ∧ b.only n
  | .and a b => a.only n ∧ b.only n

/-- Evaluation of an expression that refers to one field only. -/
def evalOn (env : Env H V) (n : String) : Expr → Cell H V → Option (Val H V × Cell H V)
  | .zero, c => some (.nat 0, c)
  | .tt, c => some (.bool true, c)
  | .place _, c =>
    match c with
    | .flag b => some (.bool b, c)
    | _ => none
  | .call f _ args, c => (evalArgs env args).bind fun vs => callFn n f c vs
  | .usizeFrom e, c =>
    match evalOn env n e c with
    | some (.bool b, c) => some (.nat b.toNat, c)
    | _ => none
  | .not e, c =>
    match evalOn env n e c with
    | some (.bool b, c) => some (.bool !b, c)
    | _ => none
  | .add a b, c =>
    match evalOn env n a c with
    | some (.nat x, c) =>
      match evalOn env n b c with
      | some (.nat y, c) => some (.nat (x + y), c)
      | _ => none
    | _ => none
  | .and a b, c =>
    match evalOn env n a c with
    | some (.bool false, c) => some (.bool false, c)
    | some (.bool true, c) =>
      match evalOn env n b c with
      | some (.bool b, c) => some (.bool b, c)
      | _ => none
    | _ => none

theorem eval_at (env : Env H V) (pre cs : List (Cell H V)) (e : Expr) :
    ∀ c, e.only (fieldName pre.length) →
      eval env e (named 0 (pre ++ c :: cs)) =
        (evalOn env (fieldName pre.length) e c).map fun p => (p.1, named 0 (pre ++ p.2 :: cs)) := by
  have hget := fun c => named_get pre cs c 0
  have hset := fun c d => named_set pre cs c d 0
  simp only [Nat.zero_add] at hget hset
  induction e with
  | zero => intro c _; rfl
  | tt => intro c _; rfl
  | place m =>
    intro c h
    cases h
    simp only [eval, hget, evalOn]
    cases c <;> rfl
  | call f m args =>
    intro c h
    cases h
    simp only [eval, hget, evalOn, Option.bind_some]
    cases evalArgs env args with
    | none => rfl
    | some vs =>
      simp only [Option.bind_some]
      cases callFn (fieldName pre.length) f c vs with
      | none => rfl
      | some p => simp [hset]
  | usizeFrom e ih =>
    intro c h
    simp only [eval, ih c h, evalOn]
    rcases evalOn env (fieldName pre.length) e c with _ | ⟨v, c'⟩
    · rfl
    · cases v <;> rfl
  | not e ih =>
    intro c h
    simp only [eval, ih c h, evalOn]
    rcases evalOn env (fieldName pre.length) e c with _ | ⟨v, c'⟩
    · rfl
    · cases v <;> rfl
  | add a b iha ihb =>
    intro c h
    simp only [eval, iha c h.1, evalOn]
    rcases evalOn env (fieldName pre.length) a c with _ | ⟨v, c'⟩
    · rfl
    · cases v <;> simp only [Option.map_some, Option.map_none]
      simp only [ihb c' h.2]
      rcases evalOn env (fieldName pre.length) b c' with _ | ⟨w, c''⟩
      · rfl
      · cases w <;> rfl
  | and a b iha ihb =>
    intro c h
    simp only [eval, iha c h.1, evalOn]
    rcases evalOn env (fieldName pre.length) a c with _ | ⟨v, c'⟩
    · rfl
    · cases v <;> simp only [Option.map_some, Option.map_none]
      rename_i x
      cases x
      · rfl
      · simp only [ihb c' h.2]
        rcases evalOn env (fieldName pre.length) b c' with _ | ⟨w, c''⟩
        · rfl
        · cases w <;> rfl

/-! ## Dispatch by position -/

/-- What a generated `match key` does, by position of the variant instead of by names. -/
def atPos (g : Field → Expr) (env : Env H V) (key : DynKey) :
    Nat → List Variant → List (Cell H V) → Option (Val H V × List (Cell H V))
  | i, v :: vs, c :: cs =>
    if v.ident = key.var then
      ((patOf v).bind key).bind fun b =>
        (evalOn (b ++ env) (fieldName i) (g (fieldAt i v)) c).map fun p => (p.1, p.2 :: cs)
    else (atPos g env key (i + 1) vs cs).map fun p => (p.1, c :: p.2)
  | _, _, _ => none

theorem evalMatch_eq (g : Field → Expr) (hg : ∀ f, (g f).only f.name) (env : Env H V) (key : DynKey)
    (vs : List Variant) : ∀ (i : Nat) (pre cs : List (Cell H V)), pre.length = i → cs.length = vs.length →
      evalMatch env key ((vs.map patOf).zip ((fieldsFrom i vs).map g)) (named 0 (pre ++ cs)) =
        (atPos g env key i vs cs).map fun p => (p.1, named 0 (pre ++ p.2)) := by
  induction vs with
  | nil => intro i pre cs _ _; simp [fieldsFrom, evalMatch, atPos]
  | cons v vs ih =>
    intro i pre cs hi hl
    match cs, hl with
    | c :: cs, hl =>
      simp only [fieldsFrom, List.map_cons, List.zip_cons_cons, evalMatch, patOf_variant, atPos]
      split
      · cases (patOf v).bind (H := H) (V := V) key with
        | none => rfl
        | some b =>
          subst hi
          simp only [Option.bind_some]
          rw [eval_at _ _ _ _ _ (hg (fieldAt pre.length v))]
          simp [Function.comp_def]
      · have := ih (i + 1) (pre ++ [c]) cs (by simp [hi]) (by simpa using hl)
        simp only [List.append_assoc, List.cons_append, List.nil_append] at this
        rw [this]
        simp [Function.comp_def]

theorem mapCells_length : ∀ (vs : List Variant) (s : (mapFields H V (fieldsOf vs)).S),
    (mapCells (fieldsOf vs) s).length = vs.length
  | [], _ => rfl
  | ⟨_, none⟩ :: vs, s => congrArg (· + 1) (mapCells_length vs s.2)
  | ⟨_, some _⟩ :: vs, s => congrArg (· + 1) (mapCells_length vs s.2)

theorem setCells_length : ∀ (vs : List Variant) (s : (setFields H (fieldsOf vs)).S),
    (setCells V (fieldsOf vs) s).length = vs.length
  | [], _ => rfl
  | ⟨_, none⟩ :: vs, s => congrArg (· + 1) (setCells_length vs s.2)
  | ⟨_, some _⟩ :: vs, s => congrArg (· + 1) (setCells_length vs s.2)

/-- A generated method with `match` on its argument, on a struct with the given field values. -/
theorem run_eq (g : Field → Expr) (hg : ∀ f, (g f).only f.name) (params : List String) (scrut : String)
    (args : List (Val H V)) (key : DynKey) (vs : List Variant) (cs : List (Cell H V))
    (hk : (params.zip args).lookup scrut = some (.key key)) (hn : params.length = args.length)
    (hl : cs.length = vs.length) :
    (MatchFn.mk params scrut ((collect vs).patterns.zip ((collect vs).fields.map g))).run args (named 0 cs) =
      (atPos g (params.zip args) key 0 vs cs).map fun p => (p.1, named 0 p.2) := by
  have := evalMatch_eq g hg (params.zip args) key vs 0 [] cs rfl hl
  simp only [MatchFn.run, hk, hn, if_true, collect_fields, collect_patterns]
  simpa using this

/-! ## Keys -/

theorem dynKey_mem : ∀ (vs : List Variant) (k : (fieldsOf vs).Key), (dynKey vs k).var ∈ vs.map (·.ident)
  | [], k => Empty.elim k
  | ⟨_, none⟩ :: _, .inl _ => List.mem_cons_self
  | ⟨_, none⟩ :: vs, .inr k => List.mem_cons_of_mem _ (dynKey_mem vs k)
  | ⟨_, some _⟩ :: _, .inl _ => List.mem_cons_self
  | ⟨_, some _⟩ :: vs, .inr k => List.mem_cons_of_mem _ (dynKey_mem vs k)

theorem Distinct.tail {v : Variant} {vs : List Variant} (h : Distinct (v :: vs)) : Distinct vs :=
  (List.nodup_cons.1 h).2

theorem Distinct.ne {v : Variant} {vs : List Variant} (h : Distinct (v :: vs)) (k : (fieldsOf vs).Key) :
    ¬ v.ident = (dynKey vs k).var :=
  fun e => (List.nodup_cons.1 h).1 (by show v.ident ∈ _; rw [e]; exact dynKey_mem vs k)

/-! ## Casts -/

@[simp] theorem Cell.asMap_self (κ : KeyTy) (s : (mapStorage H V κ).S) :
    (Cell.map κ s : Cell H V).asMap κ = some s := by
  simp [Cell.asMap]

@[simp] theorem Cell.asSet_self (κ : KeyTy) (s : (setStorage H κ).S) :
    (Cell.set κ s : Cell H V).asSet κ = some s := by
  simp [Cell.asSet]

@[simp] theorem Val.asElem_self (κ : KeyTy) (k : κ.Key) : (Val.elem κ k : Val H V).asElem κ = some k := by
  simp [Val.asElem]

end FixedMap.Gen
