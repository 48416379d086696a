import Verif.Spec.Paths
import Verif.Proofs.TokenNamesUnits
import Lean

/-! # Reading paths off tokens: lemmas and tactics -/

set_option autoImplicit false
set_option linter.unusedSimpArgs false
set_option linter.unusedVariables false

namespace FixedMap.Paths

open FixedMap.Emit (Toks sepBy whereClause keywords)

/-! ## `Good` is decided -/

def isTrait : Entity → Bool
  | .trait _ => true
  | _ => false

def isType : Entity → Bool
  | .trait _ | .type _ => true
  | _ => false

def good (feat : String → Bool) : Use → Bool
  | .path place segs next => match resolve feat (next == "!" || place == .derive) segs with
    | some e => (!(place == .impl || place == .qualified) || isTrait e) && (!(next == "(") || e == .fn || e == .assoc .fn) && (!(next == "<") || isType e) &&
        (!(next == "!" || place == .derive) || e == .mac) && !(e == .mod)
    | none => false
  | .assoc tr name => match resolve feat false tr with
    | some (.trait a) => a.any fun x => x.1 == name
    | _ => false
  | .bad => false

theorem good_iff (feat : String → Bool) (u : Use) : good feat u = true ↔ Good feat u := by
  cases u with
  | bad => simp [good, Good]
  | assoc tr name =>
    simp only [good, Good]
    cases h : resolve feat false tr with
    | none => simp
    | some e =>
      cases e <;> simp
  | path place segs next =>
    simp only [good, Good]
    cases h : resolve feat (next == "!" || place == .derive) segs with
    | none => simp
    | some e =>
      simp only [Option.some.injEq, exists_eq_left', Bool.and_eq_true, Bool.or_eq_true, Bool.not_eq_true', beq_iff_eq, beq_eq_false_iff_ne, Bool.or_eq_false_iff, ne_eq]
      have h1 : isTrait e = true ↔ ∃ a, e = .trait a := by cases e <;> simp [isTrait]
      have h2 : isType e = true ↔ (∃ a, e = .type a) ∨ (∃ a, e = .trait a) := by cases e <;> simp [isType]
      rw [h1, h2]
      have imp : ∀ p q : Prop, (¬p ∨ q) ↔ (p → q) := fun p q => ⟨fun h hp => h.resolve_left (not_not_intro hp), fun h => (Classical.em p).elim (fun hp => .inr (h hp)) .inl⟩
      rw [← not_or, ← not_or, or_assoc, imp, imp, imp, imp]
      constructor
      · rintro ⟨⟨⟨⟨a, b⟩, c⟩, d⟩, e⟩; exact ⟨a, b, c, d, e⟩
      · rintro ⟨a, b, c, d, e⟩; exact ⟨⟨⟨⟨a, b⟩, c⟩, d⟩, e⟩

/-! ## Reading -/

/-- What is read after `s` is good, or the user's. -/
def Ok (feat : String → Bool) (U : Use → Prop) (s : State) (ts : Toks) : Prop := ∀ u ∈ (run s ts).1, good feat u = true ∨ U u

section
variable {feat : String → Bool} {U : Use → Prop}

theorem run_cons (s : State) (t : String) (l : Toks) : run s (t :: l) = ((step s t).1 ++ (run (step s t).2 l).1, (run (step s t).2 l).2) := rfl

theorem run_append (a b : Toks) : ∀ s, run s (a ++ b) = ((run s a).1 ++ (run (run s a).2 b).1, (run (run s a).2 b).2) := by
  induction a with
  | nil => intro s; rfl
  | cons t a ih => intro s; rw [List.cons_append, run_cons, run_cons, ih]; simp

theorem ok_nil (s : State) : Ok feat U s [] = True := by simp [Ok, run]

theorem ok_cons (s : State) (t : String) (r : Toks) : Ok feat U s (t :: r) ↔ (∀ u ∈ (step s t).1, good feat u = true ∨ U u) ∧ Ok feat U (step s t).2 r := by
  simp [Ok, run_cons, or_imp, forall_and]

theorem ok_step0 {s s' : State} {t : String} (h : step s t = ([], s')) (r : Toks) : Ok feat U s (t :: r) = Ok feat U s' r := by
  rw [eq_iff_iff, ok_cons, h]; simp

theorem ok_step1 {s s' : State} {t : String} {u : Use} (h : step s t = ([u], s')) (hu : good feat u = true) (r : Toks) : Ok feat U s (t :: r) = Ok feat U s' r := by
  rw [eq_iff_iff, ok_cons, h]; simp [hu]

/-! Words and numbers -/

def Mode.free : Mode → Bool
  | .other | .word | .rel | .impl | .args | .params => true
  | _ => false

theorem ok_word {t : String} (h : cls t = .word) {m : Mode} (hm : m.free = true) (st : List Frame) (r : Toks) : Ok feat U ⟨m, st⟩ (t :: r) = Ok feat U ⟨.word, st⟩ r := by
  refine ok_step0 ?_ r
  cases m <;> first | (cases hm; done) | simp [step, idle, h]

theorem ok_dot {t : String} (h : cls t = .word) (st : List Frame) (r : Toks) : Ok feat U ⟨.dot, st⟩ (t :: r) = Ok feat U ⟨.field, st⟩ r := by
  refine ok_step0 ?_ r
  simp [step, idle, h]

theorem ok_other {t : String} (h : cls t = .other) {m : Mode} (hm : m.free = true) (st : List Frame) (r : Toks) : Ok feat U ⟨m, st⟩ (t :: r) = Ok feat U ⟨.other, st⟩ r := by
  refine ok_step0 ?_ r
  cases m <;> first | (cases hm; done) | simp [step, idle, h]

theorem cls_field (i : Nat) : cls ("_" ++ Nat.repr i) = .word := by
  have h := Emit.numbered_field i
  have hk : ∀ k ∈ keywords ++ ["impl", "as", "derive"], Emit.numbered k = false := by decide
  have ne : ∀ k ∈ keywords ++ ["impl", "as", "derive"], "_" ++ Nat.repr i ≠ k := by
    intro k hk' e
    rw [e, hk k hk'] at h
    cases h
  have h1 : keywords.contains ("_" ++ Nat.repr i) = false := by
    rw [← Bool.not_eq_true, List.contains_iff_mem]
    exact fun hc => ne _ (List.mem_append_left _ hc) rfl
  have h3 : ("_" ++ Nat.repr i).toList = '_' :: (Nat.repr i).toList := by simp [String.toList_append]
  rw [cls, h3]
  simp only [h1, ne "impl" (by simp), ne "as" (by simp), ne "derive" (by simp), if_false, Bool.false_and, Bool.false_eq_true]
  rfl

theorem digit_cls {t : String} {c : Char} {l : List Char} (h : t.toList = c :: l) (hd : c.isDigit = true) : cls t = .other := by
  have ha : c.isAlpha = false ∧ (c == '_') = false := by
    simp only [Char.isDigit, Bool.and_eq_true, decide_eq_true_eq] at hd
    simp only [Char.isAlpha, Char.isUpper, Char.isLower, Bool.or_eq_false_iff, Bool.and_eq_false_iff, decide_eq_false_iff_not, beq_eq_false_iff_ne]
    refine ⟨⟨fun h' => ?_, .inl fun h' => ?_⟩, ?_⟩
    · exact absurd (UInt32.le_trans h'.1 hd.2) (by decide)
    · exact absurd (UInt32.le_trans h' hd.2) (by decide)
    · rintro rfl; exact absurd hd.2 (by decide)
  have ne : ∀ k ∈ ["::", "<", ">", ".", "(", ")"], t ≠ k := by
    have hk : ∀ k ∈ ["::", "<", ">", ".", "(", ")"], (k.toList.head?.map Char.isDigit) = some false := by decide
    rintro k hk' rfl
    have := hk _ hk'
    rw [h] at this
    simp [hd] at this
  rw [cls, h]
  simp only [ha.1, ha.2, Bool.or_self, Bool.false_eq_true, if_false, ne "::" (by simp), ne "<" (by simp), ne ">" (by simp), ne "." (by simp), ne "(" (by simp), ne ")" (by simp)]

theorem cls_count (i : Nat) : cls (Nat.repr i ++ "usize") = .other := by
  obtain ⟨c, l, h, hd⟩ := Emit.repr_toList i
  exact digit_cls (l := l ++ "usize".toList) (by simp [String.toList_append, h]) hd

theorem cls_number (i : Nat) : cls (Nat.repr i) = .other := by
  obtain ⟨c, l, h, hd⟩ := Emit.repr_toList i
  exact digit_cls h hd

theorem free_other : Mode.free .other = true := by decide
theorem free_word : Mode.free .word = true := by decide
theorem free_rel : Mode.free .rel = true := by decide
theorem free_impl : Mode.free .impl = true := by decide
theorem free_args : Mode.free .args = true := by decide
theorem free_params : Mode.free .params = true := by decide

theorem ok_field (i : Nat) {m : Mode} (hm : m.free = true) (st : List Frame) (r : Toks) : Ok feat U ⟨m, st⟩ (("_" ++ Nat.repr i) :: r) = Ok feat U ⟨.word, st⟩ r := ok_word (cls_field i) hm st r
theorem ok_dot_field (i : Nat) (st : List Frame) (r : Toks) : Ok feat U ⟨.dot, st⟩ (("_" ++ Nat.repr i) :: r) = Ok feat U ⟨.field, st⟩ r := ok_dot (cls_field i) st r
theorem ok_count (i : Nat) {m : Mode} (hm : m.free = true) (st : List Frame) (r : Toks) : Ok feat U ⟨m, st⟩ ((Nat.repr i ++ "usize") :: r) = Ok feat U ⟨.other, st⟩ r := ok_other (cls_count i) hm st r
theorem ok_number (i : Nat) {m : Mode} (hm : m.free = true) (st : List Frame) (r : Toks) : Ok feat U ⟨m, st⟩ (Nat.repr i :: r) = Ok feat U ⟨.other, st⟩ r := ok_other (cls_number i) hm st r

/-! ## What the user wrote -/

def NoDerive (st : List Frame) : Prop := ∀ st', st ≠ .derive :: st'

theorem step_within {m : Mode} {s st : List Frame} {t : String} (hst : NoDerive st) (ho : outer ⟨m, s⟩ t = false) (hb : .bad ∉ (step ⟨m, s⟩ t).1) :
    step ⟨m, s ++ st⟩ t = ((step ⟨m, s⟩ t).1, ⟨(step ⟨m, s⟩ t).2.mode, (step ⟨m, s⟩ t).2.stack ++ st⟩) := by
  have idleL : ∀ m s, (s = [] → cls t ≠ .gt ∧ cls t ≠ .as) → .bad ∉ (idle m s t).1 → idle m (s ++ st) t = ((idle m s t).1, ⟨(idle m s t).2.mode, (idle m s t).2.stack ++ st⟩) := by
    intro m s hs hb
    unfold idle at hb ⊢
    have hd : (s ++ st).head? = some .derive ↔ s.head? = some .derive := by
      cases s with
      | nil =>
        cases st with
        | nil => simp
        | cons f st => simp; rintro rfl; exact hst st rfl
      | cons f s => simp
    cases hc : cls t with
    | sep =>
      rw [hc] at hb
      change .bad ∉ (readSep m s).1 at hb
      change readSep m (s ++ st) = ((readSep m s).1, ⟨(readSep m s).2.mode, (readSep m s).2.stack ++ st⟩)
      cases m <;> first | (simp only [readSep, hd]; done) | (simp [readSep] at hb; done)
    | lt => cases m <;> rfl
    | gt =>
      rw [hc] at hb
      cases s with
      | nil => exact absurd hc (hs rfl).1
      | cons f s =>
        cases f with
        | qualified tr => cases tr <;> rfl
        | derive => exact absurd (List.mem_cons_self ..) hb
        | _ => rfl
    | closing =>
      simp only [hd]
      cases s with
      | nil => simp
      | cons f s => by_cases hf : f = .derive <;> simp [hf]
    | opening => by_cases hm : m = .derive <;> simp [hm]
    | «as» =>
      cases s with
      | nil => exact absurd hc (hs rfl).2
      | cons f s => simp
    | _ => rfl
  have hs : s = [] → cls t ≠ .gt ∧ cls t ≠ .as ∧ ∀ segs, m ≠ .abs .qualified segs := by
    rintro rfl
    simp only [outer, List.isEmpty_nil, Bool.true_and, Bool.or_eq_false_iff, beq_eq_false_iff_ne] at ho
    refine ⟨ho.1.1, ho.1.2, ?_⟩
    rintro segs rfl
    cases ho.2
  have hs' : s = [] → cls t ≠ .gt ∧ cls t ≠ .as := fun h => ⟨(hs h).1, (hs h).2.1⟩
  cases m with
  | sep place segs => simp only [step]; split <;> rfl
  | qualified tr => simp only [step]; split <;> rfl
  | item tr => simp only [step]; split <;> rfl
  | abs place segs =>
    simp only [step] at hb ⊢
    split
    · rfl
    · rename_i hsep
      simp only [hsep, if_false] at hb
      have hset : (if place = .qualified then setTrait segs (s ++ st) else s ++ st) = (if place = .qualified then setTrait segs s else s) ++ st := by
        split
        · rename_i hp
          subst hp
          cases s with
          | nil => exact absurd rfl ((hs rfl).2.2 segs)
          | cons f s =>
            cases f with
            | qualified tr => cases tr <;> rfl
            | _ => rfl
        · rfl
      have hne : (if place = .qualified then setTrait segs s else s) = [] → s = [] := by
        split
        · cases s with
          | nil => exact fun h => h
          | cons f s =>
            cases f with
            | qualified tr => cases tr <;> (intro h; cases h)
            | _ => intro h; cases h
        · exact id
      rw [hset, idleL .word _ (fun h => hs' (hne h)) (fun h => hb (List.mem_cons_of_mem _ h))]
  | _ => exact idleL _ s hs' hb

theorem run_within {st : List Frame} (hst : NoDerive st) (e : Toks) : ∀ (m : Mode) (s : List Frame) (us : List Use) (s' : State), within ⟨m, s⟩ e = some (us, s') → .bad ∉ us →
    run ⟨m, s ++ st⟩ e = (us, ⟨s'.mode, s'.stack ++ st⟩) ∧ run ⟨m, s⟩ e = (us, s') := by
  induction e with
  | nil => intro m s us s' h _; cases h; exact ⟨rfl, rfl⟩
  | cons t e ih =>
    intro m s us s' h hb
    rw [within] at h
    split at h
    · cases h
    · rename_i ho
      split at h
      · rename_i vs s'' hw
        cases h
        simp only [List.mem_append, not_or] at hb
        have h1 := step_within hst (by simpa using ho) hb.1
        obtain ⟨h2, h3⟩ := ih _ _ _ _ hw hb.2
        rw [run_cons, h1, run_cons]
        exact ⟨by rw [h2], by rw [h3]⟩
      · cases h

/-- Can come after a type or a visibility. -/
def follows (n : String) : Bool := cls n == .gt || cls n == .as || cls n == .other

theorem step_ended {m : Mode} (hm : m.ended = true) {n : String} (hn : follows n = true) (st : List Frame) :
    ∃ o, step ⟨m, st⟩ n = (o ++ (step ⟨.word, st⟩ n).1, (step ⟨.word, st⟩ n).2) ∧ (∀ u ∈ o, ∃ segs, m = .abs .plain segs ∧ u = .path .plain segs n) := by
  have h : cls n = .gt ∨ cls n = .as ∨ cls n = .other := by simpa [follows, or_assoc] using hn
  have hi : ∀ m', idle m' st n = idle .word st n := fun m' => by rcases h with h | h | h <;> simp [idle, h]
  cases m with
  | abs place segs =>
    have hp : place = .plain := by cases place <;> first | rfl | cases hm
    subst hp
    refine ⟨[.path .plain segs n], ?_, by simp⟩
    have : cls n ≠ .sep := by rcases h with h | h | h <;> simp [h]
    simp [step, this]
  | other => exact ⟨[], by simp [step, hi .other], by simp⟩
  | word => exact ⟨[], by simp [step], by simp⟩
  | args => exact ⟨[], by simp [step, hi .args], by simp⟩
  | _ => cases hm

theorem ok_closed {e : Toks} (he : Closed e) (hU : ∀ u, Own e u → U u) {n : String} (hn : follows n = true) {st : List Frame} (hst : NoDerive st) (r : Toks) :
    Ok feat U ⟨.other, st⟩ (e ++ n :: r) = Ok feat U ⟨.word, st⟩ (n :: r) := by
  obtain ⟨us, m, hw, hm, hb⟩ := he
  obtain ⟨h1, h2⟩ := run_within hst e .other [] us ⟨m, []⟩ hw hb
  simp only [List.nil_append] at h1
  obtain ⟨o, h3, h4⟩ := step_ended hm hn st
  have own : ∀ u, u ∈ us → U u := fun u hu => hU u ⟨fun h => hb (h ▸ hu), "", by
    rw [uses, run_append, start, h2]; exact List.mem_append_left _ hu⟩
  have own' : ∀ u ∈ o, U u := by
    intro u hu
    obtain ⟨segs, rfl, rfl⟩ := h4 u hu
    refine hU _ ⟨by simp, n, ?_⟩
    rw [uses, run_append, start, h2]
    refine List.mem_append_right _ ?_
    have : cls n ≠ .sep := by
      have h : cls n = .gt ∨ cls n = .as ∨ cls n = .other := by simpa [follows, or_assoc] using hn
      rcases h with h | h | h <;> simp [h]
    simp [run_cons, step, this]
  rw [eq_iff_iff]
  unfold Ok
  rw [run_append, h1, run_cons, run_cons, h3]
  simp only [List.mem_append, or_imp, forall_and]
  constructor
  · rintro ⟨_, ⟨_, a⟩, b⟩; exact ⟨a, b⟩
  · rintro ⟨a, b⟩; exact ⟨fun u hu => .inr (own u hu), ⟨fun u hu => .inr (own' u hu), a⟩, b⟩

/-! ## Repetitions -/

variable {α : Type}

theorem ok_rep {s : State} (l : List α) {f : α → Toks} {r : Toks} (hr : Ok feat U s r) (h : ∀ x ∈ l, ∀ r, Ok feat U s r → Ok feat U s (f x ++ r)) :
    Ok feat U s (l.flatMap f ++ r) := by
  induction l with
  | nil => simpa using hr
  | cons x l ih =>
    rw [List.flatMap_cons, List.append_assoc]
    exact h x (List.mem_cons_self ..) _ (ih fun y hy => h y (List.mem_cons_of_mem _ hy))

/-- Repetitions that can end in another mode. -/
theorem ok_rep_mode (m : Mode) {st : List Frame} (l : List α) {f : α → Toks} {r : Toks} (hr : Ok feat U ⟨.other, st⟩ r ∧ Ok feat U ⟨m, st⟩ r)
    (h : ∀ x ∈ l, ∀ r, Ok feat U ⟨.other, st⟩ r ∧ Ok feat U ⟨m, st⟩ r → Ok feat U ⟨.other, st⟩ (f x ++ r) ∧ Ok feat U ⟨m, st⟩ (f x ++ r)) :
    Ok feat U ⟨.other, st⟩ (l.flatMap f ++ r) := by
  suffices Ok feat U ⟨.other, st⟩ (l.flatMap f ++ r) ∧ Ok feat U ⟨m, st⟩ (l.flatMap f ++ r) from this.1
  induction l with
  | nil => simpa using hr
  | cons x l ih =>
    rw [List.flatMap_cons, List.append_assoc]
    exact h x (List.mem_cons_self ..) _ (ih fun y hy => h y (List.mem_cons_of_mem _ hy))

/-- With separators; `n` comes after the last one. -/
theorem ok_sep {s : State} (l : List α) {f : α → Toks} {n : String} {r : Toks} (hr : Ok feat U s (n :: r))
    (h : ∀ x ∈ l, ∀ k ∈ [",", n], ∀ r, Ok feat U s (k :: r) → Ok feat U s (f x ++ k :: r)) (hc : ∀ r, Ok feat U s r → Ok feat U s ("," :: r)) :
    Ok feat U s (sepBy [","] (l.map f) ++ n :: r) := by
  induction l with
  | nil => simpa [sepBy] using hr
  | cons x l ih =>
    have ih := ih fun y hy => h y (List.mem_cons_of_mem _ hy)
    cases l with
    | nil => simpa [sepBy] using h x (List.mem_cons_self ..) n (by simp) r hr
    | cons y l =>
      rw [List.map_cons, List.map_cons, sepBy, List.append_assoc, List.append_assoc, List.singleton_append]
      exact h x (List.mem_cons_self ..) "," (by simp) _ (hc _ ih)

theorem ok_where_filter {m : Mode} {st : List Frame} (l : List α) {k : α → Option Toks} {r : Toks} (hm : m.free = true) (hr : Ok feat U ⟨.other, st⟩ r)
    (h : ∀ x ∈ l, ∀ n ∈ [",", "{"], ∀ r, Ok feat U ⟨.other, st⟩ r → Ok feat U ⟨.other, st⟩ ((k x).elim [] id ++ n :: r)) :
    Ok feat U ⟨m, st⟩ (whereClause (l.filterMap k) ++ "{" :: r) := by
  have brace : ∀ {m : Mode} {r : Toks}, m.free = true → Ok feat U ⟨m, st⟩ ("{" :: r) = Ok feat U ⟨.other, st⟩ r := fun hm => ok_other (by decide) hm st _
  have comma : ∀ {m : Mode} {r : Toks}, m.free = true → Ok feat U ⟨m, st⟩ ("," :: r) = Ok feat U ⟨.other, st⟩ r := fun hm => ok_other (by decide) hm st _
  unfold whereClause
  split
  · rw [List.nil_append, brace hm]; exact hr
  · rw [List.cons_append, ok_other (by decide) hm, ← List.map_id (l.filterMap k)]
    refine ok_sep _ (by rw [brace rfl]; exact hr) (fun t ht n hn r' hr' => ?_) fun r' h' => by rw [comma rfl]; exact h'
    obtain ⟨x, hx, hk⟩ := List.mem_filterMap.mp ht
    have hr'' : Ok feat U ⟨.other, st⟩ r' := by
      simp only [List.mem_cons, List.not_mem_nil, or_false] at hn
      rcases hn with rfl | rfl
      · rwa [comma rfl] at hr'
      · rwa [brace rfl] at hr'
    have := h x hx n hn r' hr''
    rwa [hk] at this

theorem noDerive_nil : NoDerive [] := fun _ h => nomatch h
theorem noDerive_args (st : List Frame) : NoDerive (.args :: st) := fun _ h => nomatch h
theorem noDerive_qualified (o : Option (List String)) (st : List Frame) : NoDerive (.qualified o :: st) := fun _ h => nomatch h

end

/-! ## Literal tokens -/

section
open Lean Meta Simp

deriving instance ToExpr for Place
deriving instance ToExpr for Frame
deriving instance ToExpr for Mode
deriving instance ToExpr for State
deriving instance ToExpr for Use

def listOf? {α : Type} (f : Expr → Option α) (e : Expr) : Option (List α) := go 1000 e
where go : Nat → Expr → Option (List α)
  | 0, _ => none
  | n + 1, e => match_expr e with
    | List.nil _ => some []
    | List.cons _ a l => do return (← f a) :: (← go n l)
    | _ => none

def str? : Expr → Option String
  | .lit (.strVal s) => some s
  | _ => none

def strs? : Expr → Option (List String) := listOf? str?

def place? (e : Expr) : Option Place := match_expr e with
  | Place.plain => some .plain
  | Place.impl => some .impl
  | Place.qualified => some .qualified
  | Place.derive => some .derive
  | _ => none

def frame? (e : Expr) : Option Frame := match_expr e with
  | Frame.args => some .args
  | Frame.impl => some .impl
  | Frame.derive => some .derive
  | Frame.qualified o => match_expr o with
    | Option.none _ => some (.qualified none)
    | Option.some _ l => do return .qualified (some (← strs? l))
    | _ => none
  | _ => none

def mode? (e : Expr) : Option Mode := match_expr e with
  | Mode.other => some .other
  | Mode.word => some .word
  | Mode.rel => some .rel
  | Mode.dot => some .dot
  | Mode.field => some .field
  | Mode.impl => some .impl
  | Mode.as => some .as
  | Mode.derive => some .derive
  | Mode.args => some .args
  | Mode.params => some .params
  | Mode.sep p l => do return .sep (← place? p) (← strs? l)
  | Mode.abs p l => do return .abs (← place? p) (← strs? l)
  | Mode.qualified l => do return .qualified (← strs? l)
  | Mode.item l => do return .item (← strs? l)
  | _ => none

def state? (e : Expr) : Option State := match_expr e with
  | State.mk m st => do return ⟨← mode? m, ← listOf? frame? st⟩
  | _ => none

/-- Read paths off literal tokens, as far as they go. -/
simproc_decl okLit (Ok _ _ _ _) := fun e => do
  let_expr Ok feat U s l := e | return .continue
  let some s₀ := state? s | return .continue
  let mut toks : Array (Expr × String) := #[]
  let mut rest := l
  repeat
    match_expr rest with
    | List.cons _ t r =>
      let .lit (.strVal x) := t | break
      toks := toks.push (t, x)
      rest := r
    | _ => break
  if toks.isEmpty then return .continue
  let str := mkConst ``String
  let useTy := mkConst ``Use
  let stTy := mkConst ``State
  let listUse := mkApp (mkConst ``List [.zero]) useTy
  let pairTy := mkApp2 (mkConst ``Prod [.zero, .zero]) listUse stTy
  let nil := mkApp (mkConst ``List.nil [.zero]) useTy
  let prop := mkSort .zero
  -- what is left after each token
  let mut rests : Array Expr := #[rest]
  for i in [0:toks.size] do
    rests := rests.push (mkApp3 (mkConst ``List.cons [.zero]) str toks[toks.size - 1 - i]!.1 rests[i]!)
  let restAt (i : Nat) : Expr := rests[toks.size - i]!
  let mut cur := s₀
  let mut curE := s
  let mut proof? : Option Expr := none
  let mut k := 0
  for i in [0:toks.size] do
    let (t, x) := toks[i]!
    let (us, next) := step cur x
    let nextE := toExpr next
    let r := restAt (i + 1)
    let p? : Option Expr := match us with
      | [] =>
        let rhs := mkApp4 (mkConst ``Prod.mk [.zero, .zero]) listUse stTy nil nextE
        some (mkAppN (mkConst ``ok_step0) #[feat, U, curE, nextE, t, mkApp2 (mkConst ``Eq.refl [.succ .zero]) pairTy rhs, r])
      | [u] =>
        if good (fun _ => false) u then
          let uE := toExpr u
          let rhs := mkApp4 (mkConst ``Prod.mk [.zero, .zero]) listUse stTy (mkApp3 (mkConst ``List.cons [.zero]) useTy uE nil) nextE
          some (mkAppN (mkConst ``ok_step1) #[feat, U, curE, nextE, t, uE, mkApp2 (mkConst ``Eq.refl [.succ .zero]) pairTy rhs,
            mkApp2 (mkConst ``Eq.refl [.succ .zero]) (mkConst ``Bool) (mkConst ``true), r])
        else none
      | _ => none
    match p? with
    | none => break
    | some p =>
      proof? := match proof? with
        | none => some p
        | some q => some (mkAppN (mkConst ``Eq.trans [.succ .zero]) #[prop, e, mkAppN (mkConst ``Ok) #[feat, U, curE, restAt i], mkAppN (mkConst ``Ok) #[feat, U, nextE, r], q, p])
      cur := next
      curE := nextE
      k := i + 1
  match proof? with
  | none => return .continue
  | some p => return .visit { expr := mkAppN (mkConst ``Ok) #[feat, U, curE, restAt k], proof? := some p }

simproc_decl followsLit (follows _) := fun e => do
  let_expr follows t := e | return .continue
  let .lit (.strVal s) := t | return .continue
  let b := toExpr (follows s)
  return .done { expr := b, proof? := some (mkApp2 (mkConst ``id [.zero]) (mkApp3 (mkConst ``Eq [.succ .zero]) (mkConst ``Bool) e b)
    (mkApp2 (mkConst ``Eq.refl [.succ .zero]) (mkConst ``Bool) b)) }

end

example (feat : String → Bool) (U : Use → Prop) (r : Toks) : Ok feat U start ("impl" :: "<" :: "V" :: ">" :: "::" :: "core" :: "::" :: "clone" :: "::" :: "Clone" :: "for" :: "X" :: r) =
    Ok feat U ⟨.word, []⟩ r := by
  simp only [okLit, start]

end FixedMap.Paths
