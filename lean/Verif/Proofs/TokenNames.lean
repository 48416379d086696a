import Verif.Spec.TokenNames

/-! # Reading names off tokens: lemmas and tactics -/

set_option autoImplicit false
set_option linter.unusedSimpArgs false
set_option linter.unusedVariables false

namespace FixedMap.Emit

theorem looked_ident {t : String} (h : ident t = false) (p n : String) : looked p t n = false := by simp [looked, h]
theorem looked_after {p : String} (h : after p = true) (t n : String) : looked p t n = false := by simp [looked, h]

theorem scan_nil (p : String) : scan p [] = [] := rfl

theorem scan_skip {t : String} (h : ident t = false) (p : String) (r : Toks) : scan p (t :: r) = scan t r := by
  simp [scan, looked_ident h]

theorem scan_snoc {n : String} (h : ident n = false) (a r : Toks) : ∀ p, scan p (a ++ n :: r) = scan p (a ++ [n]) ++ scan n r := by
  induction a with
  | nil => intro p; simp [scan_skip h, scan_nil]
  | cons t a ih =>
    intro p
    have hd : (a ++ n :: r).headD "" = (a ++ [n]).headD "" := by cases a <;> rfl
    simp only [List.cons_append, scan, hd, ih]
    split <;> rfl

/-- The token does not matter, whatever comes after it. -/
def quiet (p t : String) : Bool := !ident t || after p

/-- The names in a list of tokens, and its last token, if the last token does not matter. -/
def chunk : String → Toks → Option (List String × String)
  | p, [] => some ([], p)
  | p, [t] => if quiet p t then some ([], t) else none
  | p, t :: u :: l => match chunk t (u :: l) with
    | some (o, q) => some (if looked p t u then t :: o else o, q)
    | none => none

theorem scan_chunk (l r : Toks) : ∀ (p : String) (o : List String) (q : String), chunk p l = some (o, q) → scan p (l ++ r) = o ++ scan q r := by
  induction l with
  | nil => intro p o q h; cases h; rfl
  | cons t l ih =>
    intro p o q h
    cases l with
    | nil =>
      simp only [chunk] at h
      split at h
      · rename_i hq
        cases h
        have : ∀ n, looked p t n = false := fun n => by
          simp only [quiet, Bool.or_eq_true, Bool.not_eq_true'] at hq
          exact hq.elim (fun h => looked_ident h p n) (fun h => looked_after h t n)
        simp [scan, this]
      · cases h
    | cons u l =>
      cases hc : chunk t (u :: l) with
      | none => simp [chunk, hc] at h
      | some oq =>
        obtain ⟨o', q'⟩ := oq
        simp only [chunk, hc, Option.some.injEq, Prod.mk.injEq] at h
        obtain ⟨rfl, rfl⟩ := h
        have := ih t o' q' hc
        simp only [List.cons_append] at this ⊢
        rw [scan, this]
        simp only [List.headD_cons]
        by_cases hl : looked p t u = true <;> simp [hl]

/-- The same if nothing is known of the token before. -/
theorem scan_chunk_any (t : String) (l r : Toks) (p : String) (o : List String) (q : String) (ht : ident t = false) (h : chunk "" (t :: l) = some (o, q)) :
    scan p (t :: l ++ r) = o ++ scan q r := by
  rw [← scan_chunk (t :: l) r "" o q h, List.cons_append, scan_skip ht, scan_skip ht]

open Lean Meta Simp in
/-- Read names off literal tokens, as far as they go. -/
simproc_decl scanLit (scan _ _) := fun e => do
  let_expr scan p l := e | return .continue
  let mut toks : Array (Expr × String) := #[]
  let mut rest := l
  repeat
    match_expr rest with
    | List.cons _ t r =>
      let .lit (.strVal s) := t | break
      toks := toks.push (t, s)
      rest := r
    | _ => break
  if toks.isEmpty then return .continue
  let known? : Option String := match p with
    | .lit (.strVal s) => some s
    | _ => none
  if known?.isNone && ident toks[0]!.2 then return .continue
  let prev (i : Nat) : String := if i = 0 then known?.getD "" else toks[i - 1]!.2
  -- the longest prefix whose last token does not matter
  let mut k := toks.size
  while k > 0 && !quiet (prev (k - 1)) toks[k - 1]!.2 do
    k := k - 1
  if k = 0 then return .continue
  let str := mkConst ``String
  let mkList (a : Array Expr) (tail : Expr) : Expr := a.foldr (fun x acc => mkApp3 (mkConst ``List.cons [.zero]) str x acc) tail
  let nil := mkApp (mkConst ``List.nil [.zero]) str
  let mut out : Array Expr := #[]
  for i in [0:k] do
    let n := if i + 1 < toks.size then toks[i + 1]!.2 else ""
    if looked (prev i) toks[i]!.2 n then out := out.push toks[i]!.1
  let r := mkList ((toks.extract k toks.size).map (·.1)) rest
  let lits := (toks.extract 0 k).map (·.1)
  let q := lits[k - 1]!
  let outE := mkList out nil
  let pair := mkApp4 (mkConst ``Prod.mk [.zero, .zero]) (mkApp (mkConst ``List [.zero]) str) str outE q
  let pairTy := mkApp2 (mkConst ``Prod [.zero, .zero]) (mkApp (mkConst ``List [.zero]) str) str
  let some' := mkApp2 (mkConst ``Option.some [.zero]) pairTy pair
  let hChunk := mkApp2 (mkConst ``Eq.refl [.succ .zero]) (mkApp (mkConst ``Option [.zero]) pairTy) some'
  let rhs := mkList out (mkApp2 (mkConst ``scan) q r)
  let proof := match known? with
    | some _ => mkAppN (mkConst ``scan_chunk) #[mkList lits nil, r, p, outE, q, hChunk]
    | none => mkAppN (mkConst ``scan_chunk_any) #[lits[0]!, mkList (lits.extract 1 k) nil, r, p, outE, q,
        mkApp2 (mkConst ``Eq.refl [.succ .zero]) (mkConst ``Bool) (mkConst ``false), hChunk]
  let ty := mkApp3 (mkConst ``Eq [.succ .zero]) (mkApp (mkConst ``List [.zero]) str) e rhs
  return .visit { expr := rhs, proof? := some (mkApp2 (mkConst ``id [.zero]) ty proof) }

example (r : Toks) : scan "" ("let" :: "x" :: "=" :: "y" :: "::" :: "z" :: r) = "x" :: "y" :: scan "z" r := by
  simp only [scanLit]

example (p : String) (r : Toks) : scan p ("(" :: "x" :: "," :: r) = "x" :: scan "," r := by
  simp only [scanLit]

/-! ## Tokens that are not literal -/

/-- After `::` and `.`, no matter what it is. -/
theorem scan_path (x : String) (r : Toks) : scan "::" (x :: r) = scan x r := by
  rw [scan, looked_after (by decide), if_neg (by decide)]
theorem scan_dot (x : String) (r : Toks) : scan "." (x :: r) = scan x r := by
  rw [scan, looked_after (by decide), if_neg (by decide)]

theorem repr_toList (i : Nat) : ∃ c l, (Nat.repr i).toList = c :: l ∧ c.isDigit = true := by
  have h1 : (Nat.repr i).toList = Nat.toDigits 10 i := by simp [Nat.repr]
  cases hd : Nat.toDigits 10 i with
  | nil => exact absurd hd (by simp)
  | cons c l => exact ⟨c, l, h1.trans hd, Nat.isDigit_of_mem_toDigits (by decide) (by decide) (hd ▸ List.mem_cons_self ..)⟩

theorem numbered_field (i : Nat) : numbered ("_" ++ Nat.repr i) = true := by
  obtain ⟨c, l, h, hd⟩ := repr_toList i
  simp [numbered, String.toList_append, h, hd]

theorem ident_count (i : Nat) : ident (Nat.repr i ++ "usize") = false := by
  obtain ⟨c, l, h, hd⟩ := repr_toList i
  have : c.isAlpha = false ∧ (c == '_') = false := by
    simp only [Char.isDigit, Bool.and_eq_true, decide_eq_true_eq] at hd
    simp only [Char.isAlpha, Char.isUpper, Char.isLower, Bool.or_eq_false_iff, Bool.and_eq_false_iff, decide_eq_false_iff_not, beq_eq_false_iff_ne]
    refine ⟨⟨fun h' => ?_, .inl fun h' => ?_⟩, ?_⟩
    · exact absurd (UInt32.le_trans h'.1 hd.2) (by decide)
    · exact absurd (UInt32.le_trans h' hd.2) (by decide)
    · rintro rfl; exact absurd hd.2 (by decide)
  simp [ident, String.toList_append, h, this.1, this.2]

theorem scan_count {n : String} (h : ident n = false) (i : Nat) (p : String) (r : Toks) : scan p ((Nat.repr i ++ "usize") :: n :: r) = scan n r := by
  rw [scan_skip (ident_count i), scan_skip h]

theorem scan_field_open (i : Nat) (r : Toks) : scan "{" (("_" ++ Nat.repr i) :: ":" :: r) = scan ":" r := by
  have : looked "{" ("_" ++ Nat.repr i) ":" = false := by simp [looked, field]
  rw [scan, List.headD_cons, this, if_neg (by decide), scan_skip (by decide)]

theorem scan_field_comma (i : Nat) (r : Toks) : scan "," (("_" ++ Nat.repr i) :: ":" :: r) = scan ":" r := by
  have : looked "," ("_" ++ Nat.repr i) ":" = false := by simp [looked, field, numbered_field]
  rw [scan, List.headD_cons, this, if_neg (by decide), scan_skip (by decide)]

theorem scan_variant_comma (i : Nat) (r : Toks) : scan "," (("_" ++ Nat.repr i) :: "(" :: r) = scan "(" r := by
  have : looked "," ("_" ++ Nat.repr i) "(" = false := by simp [looked, variantDecl, numbered_field]
  rw [scan, List.headD_cons, this, if_neg (by decide), scan_skip (by decide)]

/-- The name of the enum is looked up wherever it is written. -/
def plainly (p n : String) : Bool := !after p && n != ":" && n != "(" && n != "=" && !ident n

theorem scan_enum {E : String} (hE : ident E = true) {p n : String} (h : plainly p n = true) (r : Toks) : scan p (E :: n :: r) = E :: scan n r := by
  simp only [plainly, Bool.and_eq_true, Bool.not_eq_true', bne_iff_ne] at h
  obtain ⟨⟨⟨⟨h1, h2⟩, h3⟩, h4⟩, h5⟩ := h
  have : looked p E n = true := by simp [looked, field, variantDecl, hE, h1, h2, h3, h4]
  rw [scan, List.headD_cons, this, if_pos rfl, scan_skip h5]

def between (p n : String) : Bool := ["<", ","].contains p && ["as", ",", ">"].contains n

theorem scan_payload {e : Toks} (h : Payload e) {p n : String} (hb : between p n = true) (r : Toks) :
    scan p (e ++ n :: r) = namesIn e ++ scan n r := by
  simp only [between, Bool.and_eq_true, List.contains_iff_mem] at hb
  obtain ⟨hp, hn⟩ := hb
  have hi : ident n = false := by
    simp only [List.mem_cons, List.not_mem_nil, or_false] at hn
    rcases hn with rfl | rfl | rfl <;> decide
  rw [scan_snoc hi, h p hp n hn]

theorem scan_vis_struct {cx : Cx} {E : String} (h : Plain cx E) (p : String) (r : Toks) : scan p (cx.vis ++ "struct" :: r) = scan "struct" r := by
  rw [scan_snoc (by decide), h.vis p _ (by simp), List.nil_append]
theorem scan_vis_enum {cx : Cx} {E : String} (h : Plain cx E) (p : String) (r : Toks) : scan p (cx.vis ++ "enum" :: r) = scan "enum" r := by
  rw [scan_snoc (by decide), h.vis p _ (by simp), List.nil_append]

open Lean Meta Simp in
simproc_decl identLit (ident _) := fun e => do
  let_expr ident t := e | return .continue
  let .lit (.strVal s) := t | return .continue
  let b := toExpr (ident s)
  return .done { expr := b, proof? := some (mkApp2 (mkConst ``id [.zero]) (mkApp3 (mkConst ``Eq [.succ .zero]) (mkConst ``Bool) e b)
    (mkApp2 (mkConst ``Eq.refl [.succ .zero]) (mkConst ``Bool) b)) }

open Lean Meta Simp in
simproc_decl plainlyLit (plainly _ _) := fun e => do
  let_expr plainly p n := e | return .continue
  let .lit (.strVal s) := p | return .continue
  let .lit (.strVal t) := n | return .continue
  let b := toExpr (plainly s t)
  return .done { expr := b, proof? := some (mkApp2 (mkConst ``id [.zero]) (mkApp3 (mkConst ``Eq [.succ .zero]) (mkConst ``Bool) e b)
    (mkApp2 (mkConst ``Eq.refl [.succ .zero]) (mkConst ``Bool) b)) }

open Lean Meta Simp in
simproc_decl betweenLit (between _ _) := fun e => do
  let_expr between p n := e | return .continue
  let .lit (.strVal s) := p | return .continue
  let .lit (.strVal t) := n | return .continue
  let b := toExpr (between s t)
  return .done { expr := b, proof? := some (mkApp2 (mkConst ``id [.zero]) (mkApp3 (mkConst ``Eq [.succ .zero]) (mkConst ``Bool) e b)
    (mkApp2 (mkConst ``Eq.refl [.succ .zero]) (mkConst ``Bool) b)) }

/-! ## Repetitions -/

section
variable {α : Type}

theorem scan_rep (l : List α) {f : α → Toks} {g : α → List String} {r : Toks} {s : List String}
    (h : ∀ x ∈ l, ∀ p r s, (∀ q, scan q r = s) → scan p (f x ++ r) = g x ++ s) (hr : ∀ p, scan p r = s) (p : String) :
    scan p (l.flatMap f ++ r) = l.flatMap g ++ s := by
  suffices ∀ p, scan p (l.flatMap f ++ r) = l.flatMap g ++ s from this p
  induction l with
  | nil => simpa using hr
  | cons x l ih =>
    intro p
    rw [List.flatMap_cons, List.flatMap_cons, List.append_assoc, List.append_assoc]
    exact h x (List.mem_cons_self ..) p _ _ (ih fun y hy => h y (List.mem_cons_of_mem _ hy))

/-- Repetitions that begin with a name; `S` are the tokens that can come before. -/
theorem scan_list (S : List String) (l : List α) {f : α → Toks} {g : α → List String} {r : Toks} {s : List String}
    (h : ∀ x ∈ l, ∀ p ∈ S, ∀ r s, (∀ q ∈ S, scan q r = s) → scan p (f x ++ r) = g x ++ s) (hr : ∀ q ∈ S, scan q r = s)
    (p : String) (hp : p ∈ S) : scan p (l.flatMap f ++ r) = l.flatMap g ++ s := by
  suffices ∀ p ∈ S, scan p (l.flatMap f ++ r) = l.flatMap g ++ s from this p hp
  clear hp p
  induction l with
  | nil => simpa using hr
  | cons x l ih =>
    intro p hp
    rw [List.flatMap_cons, List.flatMap_cons, List.append_assoc, List.append_assoc]
    exact h x (List.mem_cons_self ..) p hp _ _ (ih fun y hy => h y (List.mem_cons_of_mem _ hy))

theorem scan_sep (l : List α) {f : α → Toks} {g : α → List String} {r : Toks} {s : List String}
    (h : ∀ x ∈ l, ∀ p r s, (∀ q, scan q r = s) → scan p (f x ++ r) = g x ++ s) (hr : ∀ p, scan p r = s) (p : String) :
    scan p (sepBy [","] (l.map f) ++ r) = l.flatMap g ++ s := by
  suffices ∀ p, scan p (sepBy [","] (l.map f) ++ r) = l.flatMap g ++ s from this p
  induction l with
  | nil => simpa [sepBy] using hr
  | cons x l ih =>
    intro p
    have ih := ih fun y hy => h y (List.mem_cons_of_mem _ hy)
    cases l with
    | nil => simpa [sepBy] using h x (List.mem_cons_self ..) p _ _ hr
    | cons y l =>
      rw [List.map_cons, List.map_cons, sepBy, List.append_assoc, List.append_assoc, List.flatMap_cons, List.append_assoc]
      refine h x (List.mem_cons_self ..) p _ _ fun q => ?_
      rw [List.singleton_append, scan_skip (by decide)]
      exact ih ","

theorem scan_where (l : List α) {f : α → Toks} {g : α → List String} {r : Toks} {s : List String}
    (h : ∀ x ∈ l, ∀ p r s, (∀ q, scan q r = s) → scan p (f x ++ r) = g x ++ s) (hr : ∀ p, scan p r = s) (p : String) :
    scan p (whereClause (l.map f) ++ r) = l.flatMap g ++ s := by
  cases l with
  | nil => simpa [whereClause] using hr p
  | cons x l =>
    rw [whereClause, if_neg (by simp), List.cons_append, scan_skip (by decide)]
    exact scan_sep (x :: l) h hr _

theorem where_filter_cons {β : Type} (l : List α) (k : α → Option β) (f : β → Toks) (g : α → List String) {r : Toks} {s : List String}
    (h : ∀ x ∈ l, ∀ y, k x = some y → ∀ p r s, (∀ q, scan q r = s) → scan p (f y ++ r) = g x ++ s) (hn : ∀ x ∈ l, k x = none → g x = []) (hr : ∀ p, scan p r = s) (p : String) :
    scan p (whereClause ((l.filterMap k).map f) ++ r) = l.flatMap g ++ s := by
  have : ∀ l' : List α, (∀ x ∈ l', x ∈ l) → l'.flatMap g = (l'.filterMap fun x => (k x).map fun y => (x, y)).flatMap fun z => g z.1 := by
    intro l' hl
    induction l' with
    | nil => rfl
    | cons x l' ih =>
      have ih := ih fun y hy => hl y (List.mem_cons_of_mem _ hy)
      cases hk : k x with
      | none => simp [List.filterMap_cons, hk, ih, hn x (hl x (List.mem_cons_self ..)) hk]
      | some y => simp [List.filterMap_cons, hk, ih]
  rw [this l fun _ h => h]
  have h2 : (l.filterMap k).map f = (l.filterMap fun x => (k x).map fun y => (x, y)).map fun z => f z.2 := by
    rw [List.map_filterMap, List.map_filterMap]
    congr 1
    funext x
    cases k x <;> rfl
  rw [h2]
  refine scan_where _ (fun z hz => ?_) hr p
  obtain ⟨x, hx, hxz⟩ := List.mem_filterMap.mp hz
  cases hk : k x with
  | none => simp [hk] at hxz
  | some y =>
    simp only [hk, Option.map_some, Option.some.injEq] at hxz
    subst hxz
    exact h x hx y hk

theorem sepBy_snoc (l : List α) (f : α → Toks) (x : Toks) : sepBy [","] (l.map f ++ [x]) = (l.flatMap fun y => f y ++ [","]) ++ x := by
  induction l with
  | nil => rfl
  | cons y l ih =>
    have : (l.map f ++ [x]) ≠ [] := by simp
    obtain ⟨z, m, hm⟩ := List.exists_cons_of_ne_nil this
    rw [List.map_cons, List.cons_append, hm, sepBy, ← hm, ih, List.flatMap_cons]
    simp

theorem where_snoc (l : List α) (f : α → Toks) (x : Toks) : whereClause (l.map f ++ [x]) = "where" :: ((l.flatMap fun y => f y ++ [","]) ++ x) := by
  rw [whereClause, if_neg (by simp), sepBy_snoc]

theorem flatMap_filterMap {β : Type} (l : List α) (f : α → Option β) (b : β → Toks) : (l.filterMap f).flatMap b = l.flatMap fun x => (f x).elim [] b := by
  induction l with
  | nil => rfl
  | cons a l ih => cases h : f a <;> simp [List.filterMap_cons, h, ih]

theorem where_snoc_filter (l : List α) (g : α → Option Toks) (x : Toks) :
    whereClause (l.filterMap g ++ [x]) = "where" :: ((l.flatMap fun y => (g y).elim [] fun t => t ++ [","]) ++ x) := by
  rw [← List.map_id (l.filterMap g), where_snoc, flatMap_filterMap]
  rfl

theorem flatMap_idx (l : List α) (g : α → List String) : l.flatMap g = l.zipIdx.flatMap fun x => g x.1 := by
  conv => lhs; rw [← List.zipIdx_map_fst 0 l]
  rw [List.flatMap_map]

theorem scan_rep_idx (l : List α) {f : α × Nat → Toks} {g : α → List String} {r : Toks} {s : List String}
    (h : ∀ x ∈ l, ∀ i p r s, (∀ q, scan q r = s) → scan p (f (x, i) ++ r) = g x ++ s) (hr : ∀ p, scan p r = s) (p : String) :
    scan p (l.zipIdx.flatMap f ++ r) = l.flatMap g ++ s := by
  rw [flatMap_idx l g]
  exact scan_rep _ (fun x hx => h x.1 (List.fst_mem_of_mem_zipIdx hx) x.2) hr p

theorem scan_list_idx (S : List String) (l : List α) {f : α × Nat → Toks} {g : α → List String} {r : Toks} {s : List String}
    (h : ∀ x ∈ l, ∀ i, ∀ p ∈ S, ∀ r s, (∀ q ∈ S, scan q r = s) → scan p (f (x, i) ++ r) = g x ++ s) (hr : ∀ q ∈ S, scan q r = s)
    (p : String) (hp : p ∈ S) : scan p (l.zipIdx.flatMap f ++ r) = l.flatMap g ++ s := by
  rw [flatMap_idx l g]
  exact scan_list S _ (fun x hx => h x.1 (List.fst_mem_of_mem_zipIdx hx) x.2) hr p hp

/-! For tactics: first `t` is found, then it is compared. -/

theorem find_list (S : List String) (l : List α) {f : α → Toks} {g : α → List String} {r : Toks} {s t : List String}
    (hr : ∀ q ∈ S, scan q r = t) {p : String} (hp : p ∈ S)
    (h : ∀ x ∈ l, ∀ p ∈ S, ∀ r s, (∀ q ∈ S, scan q r = s) → scan p (f x ++ r) = g x ++ s)
    (ht : t = s) : scan p (l.flatMap f ++ r) = l.flatMap g ++ s :=
  scan_list S l h (ht ▸ hr) p hp

theorem find_list_idx (S : List String) (l : List α) {f : α × Nat → Toks} {g : α → List String} {r : Toks} {s t : List String}
    (hr : ∀ q ∈ S, scan q r = t) {p : String} (hp : p ∈ S)
    (h : ∀ x ∈ l, ∀ i, ∀ p ∈ S, ∀ r s, (∀ q ∈ S, scan q r = s) → scan p (f (x, i) ++ r) = g x ++ s)
    (ht : t = s) : scan p (l.zipIdx.flatMap f ++ r) = l.flatMap g ++ s :=
  scan_list_idx S l h (ht ▸ hr) p hp

/-- Repetitions without names. -/
theorem find_none_idx (S : List String) (l : List α) {f : α × Nat → Toks} {r : Toks} {s t : List String}
    (hr : ∀ q ∈ S, scan q r = t) {p : String} (hp : p ∈ S)
    (h : ∀ x ∈ l, ∀ i, ∀ p ∈ S, ∀ r s, (∀ q ∈ S, scan q r = s) → scan p (f (x, i) ++ r) = s)
    (ht : t = s) : scan p (l.zipIdx.flatMap f ++ r) = s := by
  rw [find_list_idx S l (g := fun _ => []) hr hp h ht]
  simp

theorem find_rep (l : List α) {f : α → Toks} {g : α → List String} {r : Toks} {s t : List String} (hr : ∀ p, scan p r = t)
    (h : ∀ x ∈ l, ∀ p r s, (∀ q, scan q r = s) → scan p (f x ++ r) = g x ++ s) (ht : t = s) (p : String) :
    scan p (l.flatMap f ++ r) = l.flatMap g ++ s := scan_rep l h (ht ▸ hr) p

theorem find_sep (l : List α) {f : α → Toks} {g : α → List String} {r : Toks} {s t : List String} (hr : ∀ p, scan p r = t)
    (h : ∀ x ∈ l, ∀ p r s, (∀ q, scan q r = s) → scan p (f x ++ r) = g x ++ s) (ht : t = s) (p : String) :
    scan p (sepBy [","] (l.map f) ++ r) = l.flatMap g ++ s := scan_sep l h (ht ▸ hr) p

theorem find_where (l : List α) {f : α → Toks} {g : α → List String} {r : Toks} {s t : List String} (hr : ∀ p, scan p r = t)
    (h : ∀ x ∈ l, ∀ p r s, (∀ q, scan q r = s) → scan p (f x ++ r) = g x ++ s) (ht : t = s) (p : String) :
    scan p (whereClause (l.map f) ++ r) = l.flatMap g ++ s := scan_where l h (ht ▸ hr) p

theorem find_where_filter (l : List α) {k : α → Option Toks} {g : α → List String} {r : Toks} {s t : List String} (hr : ∀ p, scan p r = t)
    (h : ∀ x ∈ l, ∀ p r s, (∀ q, scan q r = s) → scan p ((k x).elim [] id ++ r) = g x ++ s) (ht : t = s) (p : String) :
    scan p (whereClause (l.filterMap k) ++ r) = l.flatMap g ++ s := by
  rw [← List.map_id (l.filterMap k)]
  refine where_filter_cons l k id g (fun x hx y hy p r s hr => ?_) (fun x hx hy => ?_) (ht ▸ hr) p
  · have := h x hx p r s hr
    rwa [hy] at this
  · have := h x hx "" [] [] fun q => rfl
    rw [hy] at this
    simpa [scan] using this.symm

theorem find_rep_idx (l : List α) {f : α × Nat → Toks} {g : α → List String} {r : Toks} {s t : List String} (hr : ∀ p, scan p r = t)
    (h : ∀ x ∈ l, ∀ i p r s, (∀ q, scan q r = s) → scan p (f (x, i) ++ r) = g x ++ s) (ht : t = s) (p : String) :
    scan p (l.zipIdx.flatMap f ++ r) = l.flatMap g ++ s := scan_rep_idx l h (ht ▸ hr) p

end

end FixedMap.Emit
