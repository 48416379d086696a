import Verif.Model.DeriveSem

/-!
# Loops over the fields of an enum

The loops of the derive push to vectors. If one pass pushes to known vectors, the whole loop pushes a list that is a `map` or `filterMap` over the fields.
-/

set_option autoImplicit false
set_option linter.unusedSimpArgs false

namespace FixedMap.DeriveText

open Emit (Toks Cx Complex Field)

/-- A heap of `n` cells. -/
def cellsFrom (x : Nat → List Toks) : Nat → Nat → List (List Toks)
  | _, 0 => []
  | i, n + 1 => x i :: cellsFrom x (i + 1) n

def heapOf (n : Nat) (x : Nat → List Toks) (F : Emit.Fields) (e : List String) : Heap := ⟨cellsFrom x 0 n, F, e⟩

def cellsOf (h : Heap) (i : Nat) : List Toks := h.get i

def blank (n : Nat) : Heap := heapOf n (fun _ => []) ⟨[], []⟩ []

/-- What a pass pushes to cell `i`, if it always pushes one. -/
def pushed (body : Body) (n i : Nat) (f : Field) : Toks := body Toks (fun _ => []) f (blank n) fun h => (h.get i).headD []

/-- … if it pushes one for tuple variants, which depends on the payload only. -/
def pushedFor (body : Body) (n i : Nat) (c : Complex) : Toks := body Toks (fun _ => []) ⟨0, [], [], some c⟩ (blank n) fun h => (h.get i).headD []

/-- … if it pushes one or none. -/
def pushedOpt (body : Body) (n i : Nat) (f : Field) : Option Toks := body (Option Toks) (fun _ => none) f (blank n) fun h => (h.get i).head?

/-- The cells after a pass: `T1`, `T2` and `T3` are the cells of the three kinds. -/
def afterOne (body : Body) (n : Nat) (T1 T2 T3 : List Nat) (f : Field) (x : Nat → List Toks) (i : Nat) : List Toks :=
  if T1.contains i then x i ++ [pushed body n i f]
  else if T2.contains i then
    match f.kind with
    | none => x i
    | some c => x i ++ [pushedFor body n i c]
  else if T3.contains i then
    match pushedOpt body n i f with
    | none => x i
    | some t => x i ++ [t]
  else x i

/-- The cells after the loop. -/
def afterAll (body : Body) (n : Nat) (T1 T2 T3 : List Nat) (fs : List Field) (x : Nat → List Toks) (i : Nat) : List Toks :=
  if T1.contains i then x i ++ fs.map (pushed body n i)
  else if T2.contains i then x i ++ (fs.filterMap (·.kind)).map (pushedFor body n i)
  else if T3.contains i then x i ++ fs.filterMap (pushedOpt body n i)
  else x i

theorem afterAll_nil (body : Body) (n : Nat) (T1 T2 T3 : List Nat) (x : Nat → List Toks) : afterAll body n T1 T2 T3 [] x = x := by
  funext i
  simp [afterAll]

theorem afterAll_cons (body : Body) (n : Nat) (T1 T2 T3 : List Nat) (f : Field) (fs : List Field) (x : Nat → List Toks) :
    afterAll body n T1 T2 T3 fs (afterOne body n T1 T2 T3 f x) = afterAll body n T1 T2 T3 (f :: fs) x := by
  funext i
  unfold afterAll afterOne
  generalize T1.contains i = b1
  generalize T2.contains i = b2
  generalize T3.contains i = b3
  rcases f with ⟨j, name, var, kind⟩
  generalize hp : pushedOpt body n i ⟨j, name, var, kind⟩ = p
  cases b1 <;> cases b2 <;> cases b3 <;> cases kind <;> cases p <;> simp [hp]

/-- The rule for loops. -/
theorem loop_rule {loops : Loops} (hL : loops = ⟨forLoop, forVariants⟩) (n : Nat) (T1 T2 T3 : List Nat) {R : Type} {err : Stop → R} {body : Body} {fs : List Field} {h : Heap} {k : Heap → R} {r : R}
    (hh : h = heapOf n (cellsOf h) h.flds h.errs)
    (hstep : ∀ (f : Field) (x : Nat → List Toks) (F : Emit.Fields) (e : List String) (k : Heap → R),
      body R err f (heapOf n x F e) k = k (heapOf n (afterOne body n T1 T2 T3 f x) F e))
    (hk : k (heapOf n (afterAll body n T1 T2 T3 fs (cellsOf h)) h.flds h.errs) = r) : loops.fields R err body fs h k = r := by
  subst hL
  have key : ∀ (fs : List Field) (x : Nat → List Toks), forLoop R err body fs (heapOf n x h.flds h.errs) k = k (heapOf n (afterAll body n T1 T2 T3 fs x) h.flds h.errs) := by
    intro fs
    induction fs with
    | nil => intro x; rw [afterAll_nil]; rfl
    | cons f fs ih =>
      intro x
      show body R err f (heapOf n x h.flds h.errs) (fun h => forLoop R err body fs h k) = _
      rw [hstep, ih, afterAll_cons]
  refine (congrArg (fun h => forLoop R err body fs h k) hh).trans ?_
  exact (key fs _).trans hk

/-- The rule for loops over the variants: `H` says what the heap is after some of them. -/
theorem variants_rule {loops : Loops} (hL : loops = ⟨forLoop, forVariants⟩) (H : List Emit.Macro.Variant → Heap) {R : Type} {err : Stop → R} {body : VariantBody} {vs : List Emit.Macro.Variant} {h : Heap}
    {k : Heap → R} {r : R} (hh : h = H [])
    (hstep : ∀ (pre : List Emit.Macro.Variant) (v : Emit.Macro.Variant) (k : Heap → R), body R err pre.length v (H pre) k = k (H (pre ++ [v])))
    (hk : k (H vs) = r) : loops.variants R err body vs h k = r := by
  subst hL hh
  have key : ∀ vs pre : List Emit.Macro.Variant, forVariantsFrom R err body k pre.length vs (H pre) = k (H (pre ++ vs)) := by
    intro vs
    induction vs with
    | nil => intro pre; rw [List.append_nil]; rfl
    | cons v vs ih =>
      intro pre
      show body R err pre.length v (H pre) (fun h => forVariantsFrom R err body k (pre.length + 1) vs h) = _
      have := ih (pre ++ [v])
      rw [List.length_append, List.append_assoc] at this
      rw [hstep]
      exact this
  exact (key vs []).trans hk

/-- One pass of the loop of `implement`. -/
def loopOne (cx : Cx) (index : Nat) (v : Emit.Macro.Variant) (F : Emit.Fields) (errs : List String) : Option (Emit.Fields × List String) :=
  match v.fields with
  | .unit => some (⟨F.fields ++ [⟨index, Emit.fieldName index, [v.ident], none⟩], F.patterns ++ [Emit.buildTupleStructPat cx.ident [v.ident] none]⟩, errs)
  | .unnamed [] => none
  | .unnamed [element] =>
    some (⟨F.fields ++ [⟨index, Emit.fieldName index, [v.ident], some (Emit.complexOf cx element)⟩], F.patterns ++ [Emit.buildTupleStructPat cx.ident [v.ident] (some ["v"])]⟩, errs)
  | .unnamed (_ :: _ :: _) => some (F, errs ++ ["unnamed variants must have a single field"])
  | .named _ => some (F, errs ++ ["named fields are not supported"])

theorem loop_cons (cx : Cx) (i : Nat) (v : Emit.Macro.Variant) (vs : List Emit.Macro.Variant) (F : Emit.Fields) (e : List String) :
    Emit.Macro.loop cx i (v :: vs) F e = match loopOne cx i v F e with | some (F, e) => Emit.Macro.loop cx (i + 1) vs F e | none => none := by
  rcases v with ⟨ident, _ | (_ | ⟨a, _ | ⟨b, l⟩⟩) | fs⟩
  · rfl
  · rfl
  · rfl
  · rw [Emit.Macro.loop]
    simp [loopOne]
  · rfl

/-- The rule for the loop of `implement`. -/
theorem implement_rule {loops : Loops} (hL : loops = ⟨forLoop, forVariants⟩) (cx : Cx) (F : Emit.Fields) (e : List String) {R : Type} {err : Stop → R} {body : VariantBody}
    {vs : List Emit.Macro.Variant} {h : Heap} {k : Heap → R} {r : R} (hh : h = ⟨[], F, e⟩)
    (hstep : ∀ (i : Nat) (v : Emit.Macro.Variant) (F : Emit.Fields) (e : List String) (k : Heap → R),
      body R err i v ⟨[], F, e⟩ k = match loopOne cx i v F e with | some (F, e) => k ⟨[], F, e⟩ | none => err .panic)
    (hk : (match Emit.Macro.loop cx 0 vs F e with | some (F, e) => k ⟨[], F, e⟩ | none => err .panic) = r) : loops.variants R err body vs h k = r := by
  subst hL hh
  have key : ∀ (vs : List Emit.Macro.Variant) (i : Nat) (F : Emit.Fields) (e : List String),
      forVariantsFrom R err body k i vs ⟨[], F, e⟩ = match Emit.Macro.loop cx i vs F e with | some (F, e) => k ⟨[], F, e⟩ | none => err .panic := by
    intro vs
    induction vs with
    | nil => intro i F e; rfl
    | cons v vs ih =>
      intro i F e
      show body R err i v ⟨[], F, e⟩ (fun h => forVariantsFrom R err body k (i + 1) vs h) = _
      rw [hstep, loop_cons]
      cases loopOne cx i v F e with
      | none => rfl
      | some p => exact ih (i + 1) p.1 p.2
  exact (key vs 0 F e).trans hk

/-- The rule for a loop that returns `false` at the first variant with a payload. -/
theorem all_rule {loops : Loops} (hL : loops = ⟨forLoop, forVariants⟩) {R : Type} {err : Stop → R} {body : VariantBody} {vs : List Emit.Macro.Variant} {h : Heap} {k : Heap → R} {r : R}
    (hstep : ∀ (i : Nat) (v : Emit.Macro.Variant) (k : Heap → R), body R err i v h k = match v.fields with | .unit => k h | _ => err (.ret (.bool false) h))
    (hT : Emit.Macro.isAllUnitVariants vs = true → k h = r) (hF : Emit.Macro.isAllUnitVariants vs = false → err (.ret (.bool false) h) = r) : loops.variants R err body vs h k = r := by
  subst hL
  have key : ∀ (vs : List Emit.Macro.Variant) (i : Nat),
      forVariantsFrom R err body k i vs h = if Emit.Macro.isAllUnitVariants vs then k h else err (.ret (.bool false) h) := by
    intro vs
    induction vs with
    | nil => intro i; rfl
    | cons v vs ih =>
      intro i
      show body R err i v h (fun h => forVariantsFrom R err body k (i + 1) vs h) = _
      rw [hstep, Emit.Macro.isAllUnitVariants]
      cases v.fields with
      | unit => exact ih (i + 1)
      | unnamed _ => rfl
      | named _ => rfl
  refine (key vs 0).trans ?_
  cases e : Emit.Macro.isAllUnitVariants vs with
  | true => exact hT e
  | false => exact hF e

open Lean Elab Tactic in
/-- Compute the left side of the equation until the computation stops. -/
elab "dexpose" : tactic => withMainContext do
  let g ← getMainGoal
  let ty := (← instantiateMVars (← g.getType)).consumeMData.headBeta
  let some (_, a, b) := ty.eq? | throwError "dexpose: not an equation"
  let .ok a' := Kernel.whnf (← getEnv) (← instantiateLCtxMVars (← getLCtx)) a | throwError "dexpose: kernel error"
  let goal ← Meta.mkEq a' b
  let g' ← Meta.mkFreshExprSyntheticOpaqueMVar goal
  g.assign (mkApp2 (mkConst ``id [.zero]) ty g')
  replaceMainGoal [g'.mvarId!]

/-- A loop, with the cells to which it pushes. -/
macro "dloop " hL:ident n:num T1:term:max T2:term:max T3:term:max : tactic =>
  `(tactic| (dexpose
             refine loop_rule $hL $n $T1 $T2 $T3 (by derive_rfl) (by rintro ⟨i, name, var, kind⟩ x F e k; cases kind <;> derive_rfl) ?_))

end FixedMap.DeriveText
