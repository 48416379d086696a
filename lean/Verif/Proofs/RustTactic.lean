import Verif.Proofs.RustIter

/-!
# Tactics for running the interpreter

`kernel_rfl` (RustSyntax.lean) runs the interpreter when nothing unknown is inspected. When the program inspects an unknown value (the answer of the caller's closure, say),
the computation is stuck there: `kgen` finds the place and names the value. Everything that these tactics do is checked by the kernel.
-/

set_option autoImplicit false

namespace FixedMap.Rust

open Lean Elab Tactic in
/-- Compute until the computation is stuck, and say where; stop where `stop` says what to put there. -/
def kexposeExpr (env : Environment) (lctx : LocalContext) (stop : Lean.Expr → MetaM (Option Lean.Expr)) : Nat → Lean.Expr → MetaM Lean.Expr
  | 0, e => return e
  | fuel + 1, e => do
  if let some e ← stop e then return e
  let e ← match Kernel.whnf env lctx e with
    | .ok e => pure e
    | .error _ => throwError "kexpose: kernel error"
  match e with
  | .proj s i b => return .proj s i (← kexposeExpr env lctx stop fuel b)
  | _ =>
    match e.getAppFn with
    | .proj s i b => return mkAppN (.proj s i (← kexposeExpr env lctx stop fuel b)) e.getAppArgs
    | .const n _ =>
      match env.find? n with
      | some (.recInfo r) =>
        let args := e.getAppArgs
        let j := r.numParams + r.numMotives + r.numMinors + r.numIndices
        if h : j < args.size then
          let m ← kexposeExpr env lctx stop fuel args[j]
          return mkAppN e.getAppFn (args.set! j m)
        else return e
      | _ => return e
    | _ => return e

open Lean in
def kdefeq (env : Environment) (lctx : LocalContext) (a b : Lean.Expr) : Bool :=
  match Kernel.isDefEq env lctx a b with
  | .ok b => b
  | .error _ => false

open Lean in
/-- Whether `e` may be an instance of the same function as `t`. -/
def kcandidate (env : Environment) (t e : Lean.Expr) : Bool :=
  match t.getAppFn, e.getAppFn with
  | .fvar x, .fvar y => x == y && t.getAppNumArgs == e.getAppNumArgs
  | .const x _, .const y _ => x == y && t.getAppNumArgs == e.getAppNumArgs
  | .const x _, .proj s i _ =>
    match env.getProjectionFnInfo? x with
    | some info => info.ctorName.getPrefix == s && info.i == i && t.getAppNumArgs == e.getAppNumArgs + info.numParams + 1
    | none => false
  | _, _ => false

open Lean Elab Tactic in
/-- `kgen h : t with r`: compute the left side of the equation until the computation is stuck, and replace everything that computes to `t` by a new variable `r`; `h : t = r`. -/
elab "kgen " h:ident " : " t:term " with " x:ident : tactic => withMainContext do
  let g ← getMainGoal
  let ty := (← instantiateMVars (← g.getType)).consumeMData.headBeta
  let some (_, a, b) := ty.eq? | throwError "kgen: not an equation"
  let t ← instantiateMVars (← Tactic.elabTerm t none)
  let env ← getEnv
  let lctx ← instantiateLCtxMVars (← getLCtx)
  let α ← Meta.inferType t
  let met ← IO.mkRef #[t]
  let a ← kexposeExpr env lctx (fun e => do
    if (← Meta.inferType e) == α && kdefeq env lctx e t then
      met.modify (·.push e)
      return some t
    else return none) 100 a
  let met ← met.get
  let goal ← Meta.withLocalDeclD x.getId α fun r => do
    let sub (e : Lean.Expr) : Lean.Expr := e.replace fun e =>
      if e.isApp && !e.hasLooseBVars && (met.contains e || kcandidate env t e && kdefeq env lctx e t) then some r else none
    let a' := sub a
    unless a'.containsFVar r.fvarId! do throwError "kgen: not there"
    Meta.mkForallFVars #[r] (← mkArrow (← Meta.mkEq t r) (← Meta.mkEq a' b))
  let g' ← Meta.mkFreshExprSyntheticOpaqueMVar goal
  g.assign (mkApp2 (mkConst ``id [.zero]) ty (mkApp2 g' t (← Meta.mkEqRefl t)))
  let (_, g') ← g'.mvarId!.intro x.getId
  let (_, g') ← g'.intro h.getId
  replaceMainGoal [g']

open Lean Elab Tactic in
/-- `kgen_fn h : c with g`: compute the left side of the equation until the computation is stuck, and replace the first application of the constant `c` by a new variable `g`. -/
elab "kgen_fn " h:ident " : " c:ident " with " x:ident : tactic => withMainContext do
  let g ← getMainGoal
  let ty := (← instantiateMVars (← g.getType)).consumeMData.headBeta
  let some (_, a, b) := ty.eq? | throwError "kgen_fn: not an equation"
  let c ← realizeGlobalConstNoOverload c
  let env ← getEnv
  let lctx ← instantiateLCtxMVars (← getLCtx)
  let a ← kexposeExpr env lctx (fun _ => return none) 100 a
  let some t := a.find? fun e => e.isApp && !e.hasLooseBVars && e.getAppFn.isConstOf c | throwError "kgen_fn: not there"
  let α ← Meta.inferType t
  let goal ← Meta.withLocalDeclD x.getId α fun r => do
    let a' := a.replace fun e => if e == t then some r else none
    Meta.mkForallFVars #[r] (← mkArrow (← Meta.mkEq t r) (← Meta.mkEq a' b))
  let g' ← Meta.mkFreshExprSyntheticOpaqueMVar goal
  g.assign (mkApp2 (mkConst ``id [.zero]) ty (mkApp2 g' t (← Meta.mkEqRefl t)))
  let (_, g') ← g'.mvarId!.intro x.getId
  let (_, g') ← g'.intro h.getId
  replaceMainGoal [g']

open Lean Elab Tactic in
/-- `kernel_rfl`, but fail now if the equation does not hold by computation. -/
elab "krfl" : tactic => withMainContext do
  let g ← getMainGoal
  let t := (← instantiateMVars (← g.getType)).consumeMData.headBeta
  let some (_, a, b) := t.eq? | throwError "krfl: not an equation"
  unless kdefeq (← getEnv) (← instantiateLCtxMVars (← getLCtx)) a b do throwError "krfl: not by computation"
  g.assign (mkApp2 (mkConst ``id [.zero]) t (← Meta.mkEqRefl a))
  replaceMainGoal []

/-! ## The iterators that the programs return -/

variable {X σ α : Type}

/-- The result of a method. -/
def valOf : Obs X σ → Val X
  | .ok v _ _ _ => v
  | _ => .unit

/-- A part of an iterator. -/
def arg (v : Val X) (i : Nat) : Val X :=
  match v with
  | .con _ _ l => l.getD i .unit
  | _ => .unit

theorem of_obs {a : Ans X σ} {v w : Val X} {u : σ} {d : List X} (h : obs a = .ok v (some w) u d) : result a = v ∧ cell0 a = w := by
  cases a with
  | ok v' st =>
    simp only [obs, Obs.ok.injEq] at h
    obtain ⟨rfl, h, -⟩ := h
    refine ⟨rfl, ?_⟩
    show st.mem.headD .unit = w
    generalize st.mem = l at h
    cases l with
    | nil => cases h
    | cons a l => exact Option.some.inj h
  | _ => cases h

theorem unOpt_optV {β : Type} (g : β → Val X) (o : Option β) : unOpt (optV g o) = o.map g := by cases o <;> rfl

theorem optV_map {β γ : Type} (g : γ → Val X) (h : β → γ) (o : Option β) : optV g (o.map h) = optV (fun a => g (h a)) o := by cases o <;> rfl

theorem SameIter.of_eq {enc : α → Val X} {i i' : AnyIter (Val X)} {J : IterImpl α} {t : J.St} (h : i' = i) (hi : SameIter enc i J t) : SameIter enc i' J t := h ▸ hi

end FixedMap.Rust
