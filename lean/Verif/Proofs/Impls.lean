import Verif.Spec.Impls
import Verif.Proofs.ImplsRead
import Verif.Proofs.TokenNamesUnits
import Lean

/-! # Reading impls off tokens: lemmas and tactics -/

set_option autoImplicit false
set_option linter.unusedSimpArgs false
set_option linter.unusedVariables false

namespace FixedMap.Impls

open FixedMap.Emit (Toks sepBy whereClause)

/-- Reading from `s` ends in `R`. -/
def Reads (R s : State) (ts : Toks) : Prop := run s ts = R

section
variable {R : State}

theorem reads_step {s s' : State} {t : String} (h : step s t = s') (r : Toks) : Reads R s (t :: r) = Reads R s' r := by
  subst h; rfl

theorem reads_nil (s : State) : Reads R s [] = (s = R) := rfl

/-! Tokens that change nothing -/

def Mode.quiet : Mode → Bool
  | .out | .bounds | .inner _ => true
  | _ => false

def Mode.pushes : Mode → Bool
  | .sig | .type => true
  | _ => false

theorem reads_calm {t : String} (h : t ∉ ["impl", "{", "}"]) {m : Mode} (hm : m.quiet = true) (D : List Impl) (H : Toks) (I : List Toks) (J r : Toks) :
    Reads R ⟨m, D, H, I, J⟩ (t :: r) = Reads R ⟨m, D, H, I, J⟩ r := by
  refine reads_step ?_ r
  simp only [List.mem_cons, List.not_mem_nil, or_false, not_or] at h
  cases m <;> first | (cases hm; done) | simp [step, h]

theorem reads_calms {e : Toks} (h : Calm e) {m : Mode} (hm : m.quiet = true) (D : List Impl) (H : Toks) (I : List Toks) (J r : Toks) :
    Reads R ⟨m, D, H, I, J⟩ (e ++ r) = Reads R ⟨m, D, H, I, J⟩ r := by
  induction e with
  | nil => rfl
  | cons t e ih =>
    rw [List.cons_append, reads_calm (h t (List.mem_cons_self ..)) hm]
    exact ih fun t ht => h t (List.mem_cons_of_mem _ ht)

/-! Names -/

theorem calm_of {t : String} (h : t ∉ special) : t ∉ ["impl", "{", "}"] := by
  simp only [special, List.mem_cons, List.not_mem_nil, or_false, not_or] at h ⊢
  exact ⟨h.1, h.2.1, h.2.2.1⟩

theorem reads_header {t : String} (h : t ∉ special) (D : List Impl) (H : Toks) (I : List Toks) (J r : Toks) :
    Reads R ⟨.header, D, H, I, J⟩ (t :: r) = Reads R ⟨.header, D, t :: H, I, J⟩ r := by
  refine reads_step ?_ r
  simp only [special, List.mem_cons, List.not_mem_nil, or_false, not_or] at h
  simp [step, h]

theorem reads_push {t : String} (h : t ∉ special) {m : Mode} (hm : m.pushes = true) (D : List Impl) (H : Toks) (I : List Toks) (J r : Toks) :
    Reads R ⟨m, D, H, I, J⟩ (t :: r) = Reads R ⟨m, D, H, I, t :: J⟩ r := by
  refine reads_step ?_ r
  simp only [special, List.mem_cons, List.not_mem_nil, or_false, not_or] at h
  cases m <;> first | (cases hm; done) | simp [step, h]

theorem quiet_out : Mode.quiet .out = true := by decide
theorem quiet_bounds : Mode.quiet .bounds = true := by decide
theorem quiet_inner (d : Nat) : Mode.quiet (.inner d) = true := id rfl
theorem pushes_sig : Mode.pushes .sig = true := by decide
theorem pushes_type : Mode.pushes .type = true := by decide

theorem field_special (i : Nat) : ("_" ++ Nat.repr i) ∉ special := by
  intro h
  have hk : ∀ k ∈ special, Emit.numbered k = false := by decide
  have := hk _ h
  rw [Emit.numbered_field] at this
  cases this

theorem digit_special {t : String} {c : Char} {l : List Char} (h : t.toList = c :: l) (hd : c.isDigit = true) : t ∉ special := by
  intro hm
  have hk : ∀ k ∈ special, (k.toList.head?.map Char.isDigit) = some false := by decide
  have := hk _ hm
  rw [h] at this
  simp [hd] at this

theorem count_special (i : Nat) : (Nat.repr i ++ "usize") ∉ special := by
  obtain ⟨c, l, h, hd⟩ := Emit.repr_toList i
  exact digit_special (l := l ++ "usize".toList) (by simp [String.toList_append, h]) hd

theorem number_special (i : Nat) : Nat.repr i ∉ special := by
  obtain ⟨c, l, h, hd⟩ := Emit.repr_toList i
  exact digit_special h hd

theorem reads_field (i : Nat) {m : Mode} (hm : m.quiet = true) (D : List Impl) (H : Toks) (I : List Toks) (J r : Toks) :
    Reads R ⟨m, D, H, I, J⟩ (("_" ++ Nat.repr i) :: r) = Reads R ⟨m, D, H, I, J⟩ r := reads_calm (calm_of (field_special i)) hm D H I J r
theorem reads_count (i : Nat) {m : Mode} (hm : m.quiet = true) (D : List Impl) (H : Toks) (I : List Toks) (J r : Toks) :
    Reads R ⟨m, D, H, I, J⟩ ((Nat.repr i ++ "usize") :: r) = Reads R ⟨m, D, H, I, J⟩ r := reads_calm (calm_of (count_special i)) hm D H I J r
theorem reads_number (i : Nat) {m : Mode} (hm : m.quiet = true) (D : List Impl) (H : Toks) (I : List Toks) (J r : Toks) :
    Reads R ⟨m, D, H, I, J⟩ (Nat.repr i :: r) = Reads R ⟨m, D, H, I, J⟩ r := reads_calm (calm_of (number_special i)) hm D H I J r
theorem reads_count_push (i : Nat) {m : Mode} (hm : m.pushes = true) (D : List Impl) (H : Toks) (I : List Toks) (J r : Toks) :
    Reads R ⟨m, D, H, I, J⟩ ((Nat.repr i ++ "usize") :: r) = Reads R ⟨m, D, H, I, (Nat.repr i ++ "usize") :: J⟩ r := reads_push (count_special i) hm D H I J r

/-! ## Repetitions -/

variable {α : Type}

theorem reads_rep {s : State} (l : List α) {f : α → Toks} {r : Toks} (hr : Reads R s r) (h : ∀ x ∈ l, ∀ r, Reads R s r → Reads R s (f x ++ r)) :
    Reads R s (l.flatMap f ++ r) := by
  induction l with
  | nil => simpa using hr
  | cons x l ih =>
    rw [List.flatMap_cons, List.append_assoc]
    exact h x (List.mem_cons_self ..) _ (ih fun y hy => h y (List.mem_cons_of_mem _ hy))

theorem reads_sep {s : State} (l : List α) {f : α → Toks} {r : Toks} (hr : Reads R s r)
    (h : ∀ x ∈ l, ∀ r, Reads R s r → Reads R s (f x ++ r)) (hc : ∀ r, Reads R s r → Reads R s ("," :: r)) :
    Reads R s (sepBy [","] (l.map f) ++ r) := by
  induction l with
  | nil => simpa [sepBy] using hr
  | cons x l ih =>
    have ih := ih fun y hy => h y (List.mem_cons_of_mem _ hy)
    cases l with
    | nil => simpa [sepBy] using h x (List.mem_cons_self ..) r hr
    | cons y l =>
      rw [List.map_cons, List.map_cons, sepBy, List.append_assoc, List.append_assoc, List.singleton_append]
      exact h x (List.mem_cons_self ..) _ (hc _ ih)

/-- The `where` clause of an impl. -/
theorem reads_where {D : List Impl} {H : Toks} {I : List Toks} {J : Toks} (l : List α) {k : α → Option Toks} {r : Toks} (hr : Reads R ⟨.body, D, H, I, J⟩ r)
    (h : ∀ x ∈ l, ∀ r, Reads R ⟨.bounds, D, H, I, J⟩ r → Reads R ⟨.bounds, D, H, I, J⟩ ((k x).elim [] id ++ r)) :
    Reads R ⟨.header, D, H, I, J⟩ (whereClause (l.filterMap k) ++ "{" :: r) := by
  unfold whereClause
  split
  · exact hr
  · rw [List.cons_append, reads_step (s' := ⟨.bounds, D, H, I, J⟩) rfl, ← List.map_id (l.filterMap k)]
    refine reads_sep _ (by rw [reads_step (s' := ⟨.body, D, H, I, J⟩) rfl]; exact hr) (fun t ht r' hr' => ?_) fun r' h' => by rw [reads_step (s' := ⟨.bounds, D, H, I, J⟩) rfl]; exact h'
    obtain ⟨x, hx, hk⟩ := List.mem_filterMap.mp ht
    have := h x hx r' hr'
    rwa [hk] at this

end

/-! ## Literal tokens -/

section
open Lean Meta Simp

private def list? : Nat → Expr → Option (List Expr)
  | 0, _ => none
  | n + 1, e => match_expr e with
    | List.nil _ => some []
    | List.cons _ a l => do return a :: (← list? n l)
    | _ => none

private def nat? (e : Expr) : Option Nat :=
  match e.nat? with
  | some n => some n
  | none => match e with
    | .lit (.natVal n) => some n
    | _ => none

private def mode? (e : Expr) : Option Mode := match_expr e with
  | Mode.out => some .out
  | Mode.header => some .header
  | Mode.bounds => some .bounds
  | Mode.body => some .body
  | Mode.attr => some .attr
  | Mode.sig => some .sig
  | Mode.type => some .type
  | Mode.inner d => do return .inner (← nat? d)
  | _ => none

deriving instance ToExpr for Mode

/-- Read literal tokens, as far as they go. -/
simproc_decl readLit (Reads _ _ _) := fun e => do
  let_expr Reads R s l := e | return .continue
  let_expr State.mk mE D₀ H₀ I₀ J₀ := s | return .continue
  let some m₀ := mode? mE | return .continue
  let mut toks : Array (Expr × String) := #[]
  let mut rest := l
  repeat
    match_expr rest with
    | List.cons _ t r =>
      let .lit (.strVal x) := t | break
      toks := toks.push (t, x)
      rest := r
    | _ => break
  if toks.isEmpty then return .continue
  let str := mkConst ``String
  let toksTy := mkApp (mkConst ``List [.zero]) str
  let implTy := mkConst ``Impl
  let stTy := mkConst ``State
  let prop := mkSort .zero
  let nilS := mkApp (mkConst ``List.nil [.zero]) str
  let nilT := mkApp (mkConst ``List.nil [.zero]) toksTy
  let consS := mkApp (mkConst ``List.cons [.zero]) str
  let consT := mkApp (mkConst ``List.cons [.zero]) toksTy
  let consI := mkApp (mkConst ``List.cons [.zero]) implTy
  let mut rests : Array Expr := #[rest]
  for i in [0:toks.size] do
    rests := rests.push (mkApp2 consS toks[toks.size - 1 - i]!.1 rests[i]!)
  let restAt (i : Nat) : Expr := rests[toks.size - i]!
  let reverse (nil cons e : Expr) : Option Expr := do return (← list? 1000 e).foldl (fun acc x => mkApp2 cons x acc) nil
  let mut m := m₀
  let mut D := D₀
  let mut H := H₀
  let mut I := I₀
  let mut J := J₀
  let mut curE := s
  let mut proof? : Option Expr := none
  let mut k := 0
  for i in [0:toks.size] do
    let (t, x) := toks[i]!
    let mut ok := true
    match m with
    | .out => if x = "impl" then m := .header
    | .header => if x = "{" then m := .body else if x = "where" then m := .bounds else H := mkApp2 consS t H
    | .bounds => if x = "{" then m := .body
    | .body =>
      if x = "fn" then
        m := .sig
        J := mkApp2 consS t nilS
      else if x = "type" then
        m := .type
        J := mkApp2 consS t nilS
      else if x = "#" then m := .attr
      else if x = "}" then
        match reverse nilS consS H, reverse nilT consT I with
        | some h, some i =>
          m := .out
          D := mkApp2 consI (mkApp2 (mkConst ``Impl.mk) h i) D
          H := nilS
          I := nilT
          J := nilS
        | _, _ => ok := false
      else I := mkApp2 consT (mkApp2 consS t nilS) I
    | .attr => if x = "]" then m := .body
    | .sig =>
      if x = "{" then
        match reverse nilS consS J with
        | some j =>
          m := .inner 0
          I := mkApp2 consT j I
          J := nilS
        | none => ok := false
      else J := mkApp2 consS t J
    | .type =>
      if x = ";" then
        match reverse nilS consS J with
        | some j =>
          m := .body
          I := mkApp2 consT j I
          J := nilS
        | none => ok := false
      else J := mkApp2 consS t J
    | .inner d =>
      if x = "{" then m := .inner (d + 1)
      else if x = "}" then m := if d = 0 then .body else .inner (d - 1)
    unless ok do break
    let nextE := mkApp5 (mkConst ``State.mk) (toExpr m) D H I J
    let r := restAt (i + 1)
    let p := mkAppN (mkConst ``reads_step) #[R, curE, nextE, t, mkApp2 (mkConst ``Eq.refl [.succ .zero]) stTy nextE, r]
    proof? := match proof? with
      | none => some p
      | some q => some (mkAppN (mkConst ``Eq.trans [.succ .zero]) #[prop, e, mkAppN (mkConst ``Reads) #[R, curE, restAt i], mkAppN (mkConst ``Reads) #[R, nextE, r], q, p])
    curE := nextE
    k := i + 1
  match proof? with
  | none => return .continue
  | some p => return .visit { expr := mkAppN (mkConst ``Reads) #[R, curE, restAt k], proof? := some p }

end

example (R : State) (D : List Impl) (E : String) (hE : E ∉ special) (r : Toks) :
    Reads R ⟨.out, D, [], [], []⟩ ("impl" :: "::" :: "core" :: "::" :: "clone" :: "::" :: "Clone" :: "for" :: E :: "{" :: "#" :: "[" :: "inline" :: "]" :: "fn" :: "f" :: "(" :: ")" :: "{" :: "{" :: "}" :: "}" :: "}" :: r) =
    Reads R ⟨.out, ⟨["::", "core", "::", "clone", "::", "Clone", "for", E], [["fn", "f", "(", ")"]]⟩ :: D, [], [], []⟩ r := by
  simp only [readLit, reads_header hE]

end FixedMap.Impls
