import Verif.Spec.RustCmp
import Verif.Model.RustProgs
import Verif.Proofs.RustTactic

/-!
# The text of src/macro_support.rs
-/

set_option autoImplicit false
set_option linter.unusedSimpArgs false

namespace FixedMap.Rust

section
variable {V R σ : Type} (meth : String) (of : Ordering → R) (isEq : R → Bool) (c : CmpFn σ V R)

theorem filterMap_loop1 (n : Nat) (k : Cont (CX V R) σ) (x0 x1 x2 x3 x4 : Val (CX V R)) (u : σ) (l : List (Nat × Option V)) : ∀ acc,
    filterMapCall (sem (cmpForeign meth of isEq c) Progs.macroSupport (n + 20)).call (.fn ["flatten"]) k l acc ⟨[x0, x1, x2, x3, x4], u, []⟩ =
      k (.ext (.items (acc ++ l.filterMap flattenEntry))) ⟨[x0, x1, x2, x3, x4], u, []⟩ := by
  induction l with
  | nil => intro acc; rw [List.filterMap_nil, List.append_nil]; rfl
  | cons q l ih =>
    intro acc
    obtain ⟨i, _ | v⟩ := q
    · refine Eq.trans ?_ (ih acc)
      kernel_rfl
    · refine Eq.trans ?_ ((ih (acc ++ [(i, v)])).trans ?_)
      · kernel_rfl
      · rw [List.append_assoc]; rfl

theorem filter_loop1 (n : Nat) (k : Cont (CX V R) σ) (x0 x1 x2 x3 x4 : Val (CX V R)) (u : σ) (l : List (Nat × Bool)) : ∀ acc,
    filterCall (sem (cmpForeign meth of isEq c) Progs.macroSupport (n + 20)).call (.fn ["filter_bool"]) k l acc ⟨[x0, x1, x2, x3, x4], u, []⟩ =
      k (.ext (.numberedBools (acc ++ l.filter filterBool))) ⟨[x0, x1, x2, x3, x4], u, []⟩ := by
  induction l with
  | nil => intro acc; rw [List.filter_nil, List.append_nil]; rfl
  | cons q l ih =>
    intro acc
    obtain ⟨i, _ | _⟩ := q
    · refine Eq.trans ?_ (ih acc)
      kernel_rfl
    · refine Eq.trans ?_ ((ih (acc ++ [(i, true)])).trans ?_)
      · kernel_rfl
      · rw [List.append_assoc]; rfl

theorem filterMap_loop2 (n : Nat) (k : Cont (CX V R) σ) (x0 x1 x2 x3 x4 x5 x6 x7 : Val (CX V R)) (u : σ) (l : List (Nat × Option V)) : ∀ acc,
    filterMapCall (sem (cmpForeign meth of isEq c) Progs.macroSupport (n + 20)).call (.fn ["flatten"]) k l acc ⟨[x0, x1, x2, x3, x4, x5, x6, x7], u, []⟩ =
      k (.ext (.items (acc ++ l.filterMap flattenEntry))) ⟨[x0, x1, x2, x3, x4, x5, x6, x7], u, []⟩ := by
  induction l with
  | nil => intro acc; rw [List.filterMap_nil, List.append_nil]; rfl
  | cons q l ih =>
    intro acc
    obtain ⟨i, _ | v⟩ := q
    · refine Eq.trans ?_ (ih acc)
      kernel_rfl
    · refine Eq.trans ?_ ((ih (acc ++ [(i, v)])).trans ?_)
      · kernel_rfl
      · rw [List.append_assoc]; rfl

theorem filter_loop2 (n : Nat) (k : Cont (CX V R) σ) (x0 x1 x2 x3 x4 x5 x6 x7 : Val (CX V R)) (u : σ) (l : List (Nat × Bool)) : ∀ acc,
    filterCall (sem (cmpForeign meth of isEq c) Progs.macroSupport (n + 20)).call (.fn ["filter_bool"]) k l acc ⟨[x0, x1, x2, x3, x4, x5, x6, x7], u, []⟩ =
      k (.ext (.numberedBools (acc ++ l.filter filterBool))) ⟨[x0, x1, x2, x3, x4, x5, x6, x7], u, []⟩ := by
  induction l with
  | nil => intro acc; rw [List.filter_nil, List.append_nil]; rfl
  | cons q l ih =>
    intro acc
    obtain ⟨i, _ | _⟩ := q
    · refine Eq.trans ?_ (ih acc)
      kernel_rfl
    · refine Eq.trans ?_ ((ih (acc ++ [(i, true)])).trans ?_)
      · kernel_rfl
      · rw [List.append_assoc]; rfl

end

section
variable {V R σ : Type} (of : Ordering → R) (isEq : R → Bool) (c : CmpFn σ V R)

/-- The last expression of the functions. -/
def cmpTail (name : String) : Expr :=
  match Progs.macroSupport.fns.find? fun f => f.name == name with
  | some ⟨_, _, _, _, _, .letIn _ _ (.letIn _ _ e)⟩ => e
  | _ => .unit

def cmpTail1 (name : String) : Expr :=
  match Progs.macroSupport.fns.find? fun f => f.name == name with
  | some ⟨_, _, _, _, _, .letIn _ _ e⟩ => e
  | _ => .unit


theorem text_partial_cmp (n : Nat) (u : σ) (a b : List (Option V)) :
    obs (run (cmpForeign "partial_cmp" of isEq c) Progs.macroSupport (n + 40) "" "" "__storage_iterator_partial_cmp" [.ext (.slots a), .ext (.slots b)] ⟨[.unit], u, []⟩) =
      cmpObs (some .unit) (storageIteratorCmpD of isEq c a b u) := by
  let F := cmpForeign "partial_cmp" of isEq c
  let kf : Cont (CX V R) σ := fun v st => .ok v (cut 1 (dropVars F st [("b", 2), ("a", 1)]))
  let k1 : Cont (CX V R) σ := fun v st => (sem F Progs.macroSupport (n + 39)).val ⟨"", [("a", st.mem.length), ("b", 2), ("a", 1)]⟩ kf (cmpTail1 "__storage_iterator_partial_cmp") (alloc st v) kf
  let k2 : Cont (CX V R) σ := fun v st => (sem F Progs.macroSupport (n + 38)).val ⟨"", [("b", st.mem.length), ("a", 5), ("b", 2), ("a", 1)]⟩ kf (cmpTail "__storage_iterator_partial_cmp") (alloc st v) kf
  have h1 := filterMap_loop1 "partial_cmp" of isEq c (n + 18) k1 .unit (.ext (.slots a)) (.ext (.slots b)) (.ext (.slots a)) (.ext (.numbered (enumerate a))) u (enumerate a) []
  have h2 := filterMap_loop2 "partial_cmp" of isEq c (n + 17) k2 .unit (.ext (.slots a)) (.ext (.slots b)) (.ext (.slots a)) (.ext (.numbered (enumerate a))) (.ext (.items ((enumerate a).filterMap flattenEntry)))
    (.ext (.slots b)) (.ext (.numbered (enumerate b))) u (enumerate b) []
  refine Eq.trans (b := obs (filterMapCall (sem F Progs.macroSupport (n + 38)).call (.fn ["flatten"]) k1 (enumerate a) [] ⟨[.unit, .ext (.slots a), .ext (.slots b), .ext (.slots a), .ext (.numbered (enumerate a))], u, []⟩)) ?_ ?_
  · kernel_rfl
  refine Eq.trans (congrArg obs h1) ?_
  refine Eq.trans (b := obs (filterMapCall (sem F Progs.macroSupport (n + 37)).call (.fn ["flatten"]) k2 (enumerate b) [] ⟨[.unit, .ext (.slots a), .ext (.slots b), .ext (.slots a), .ext (.numbered (enumerate a)), .ext (.items ((enumerate a).filterMap flattenEntry)), .ext (.slots b), .ext (.numbered (enumerate b))], u, []⟩)) ?_ ?_
  · kernel_rfl
  refine Eq.trans (congrArg obs h2) ?_
  rw [List.nil_append]
  show _ = cmpObs _ (iterCmpD of isEq c ((enumerate a).filterMap flattenEntry) ((enumerate b).filterMap flattenEntry) u)
  generalize ((enumerate a).filterMap flattenEntry) = x
  generalize ((enumerate b).filterMap flattenEntry) = y
  generalize hR : iterCmpD of isEq _ x y u = R
  kgen h : iterCmpD of isEq c x y u with r
  rw [hR] at h; subst h
  obtain ⟨u', _ | r⟩ := R
  · kernel_rfl
  · kernel_rfl

theorem text_cmp (n : Nat) (u : σ) (a b : List (Option V)) :
    obs (run (cmpForeign "cmp" of isEq c) Progs.macroSupport (n + 40) "" "" "__storage_iterator_cmp" [.ext (.slots a), .ext (.slots b)] ⟨[.unit], u, []⟩) =
      cmpObs (some .unit) (storageIteratorCmpD of isEq c a b u) := by
  let F := cmpForeign "cmp" of isEq c
  let kf : Cont (CX V R) σ := fun v st => .ok v (cut 1 (dropVars F st [("b", 2), ("a", 1)]))
  let k1 : Cont (CX V R) σ := fun v st => (sem F Progs.macroSupport (n + 39)).val ⟨"", [("a", st.mem.length), ("b", 2), ("a", 1)]⟩ kf (cmpTail1 "__storage_iterator_cmp") (alloc st v) kf
  let k2 : Cont (CX V R) σ := fun v st => (sem F Progs.macroSupport (n + 38)).val ⟨"", [("b", st.mem.length), ("a", 5), ("b", 2), ("a", 1)]⟩ kf (cmpTail "__storage_iterator_cmp") (alloc st v) kf
  have h1 := filterMap_loop1 "cmp" of isEq c (n + 18) k1 .unit (.ext (.slots a)) (.ext (.slots b)) (.ext (.slots a)) (.ext (.numbered (enumerate a))) u (enumerate a) []
  have h2 := filterMap_loop2 "cmp" of isEq c (n + 17) k2 .unit (.ext (.slots a)) (.ext (.slots b)) (.ext (.slots a)) (.ext (.numbered (enumerate a))) (.ext (.items ((enumerate a).filterMap flattenEntry)))
    (.ext (.slots b)) (.ext (.numbered (enumerate b))) u (enumerate b) []
  refine Eq.trans (b := obs (filterMapCall (sem F Progs.macroSupport (n + 38)).call (.fn ["flatten"]) k1 (enumerate a) [] ⟨[.unit, .ext (.slots a), .ext (.slots b), .ext (.slots a), .ext (.numbered (enumerate a))], u, []⟩)) ?_ ?_
  · kernel_rfl
  refine Eq.trans (congrArg obs h1) ?_
  refine Eq.trans (b := obs (filterMapCall (sem F Progs.macroSupport (n + 37)).call (.fn ["flatten"]) k2 (enumerate b) [] ⟨[.unit, .ext (.slots a), .ext (.slots b), .ext (.slots a), .ext (.numbered (enumerate a)), .ext (.items ((enumerate a).filterMap flattenEntry)), .ext (.slots b), .ext (.numbered (enumerate b))], u, []⟩)) ?_ ?_
  · kernel_rfl
  refine Eq.trans (congrArg obs h2) ?_
  rw [List.nil_append]
  show _ = cmpObs _ (iterCmpD of isEq c ((enumerate a).filterMap flattenEntry) ((enumerate b).filterMap flattenEntry) u)
  generalize ((enumerate a).filterMap flattenEntry) = x
  generalize ((enumerate b).filterMap flattenEntry) = y
  generalize hR : iterCmpD of isEq _ x y u = R
  kgen h : iterCmpD of isEq c x y u with r
  rw [hR] at h; subst h
  obtain ⟨u', _ | r⟩ := R
  · kernel_rfl
  · kernel_rfl

theorem text_partial_cmp_bool (n : Nat) (u : σ) (a b : List (Bool)) :
    obs (run (cmpForeign "partial_cmp" of isEq c) Progs.macroSupport (n + 40) "" "" "__storage_iterator_partial_cmp_bool" [.ext (.bools a), .ext (.bools b)] ⟨[.unit], u, []⟩) =
      cmpObs (some .unit) (iterCmpD of isEq (fun u x y => (u, some (of (boolCmp x y)))) ((enumerate a).filter filterBool) ((enumerate b).filter filterBool) u) := by
  let F := cmpForeign "partial_cmp" of isEq c
  let kf : Cont (CX V R) σ := fun v st => .ok v (cut 1 (dropVars F st [("b", 2), ("a", 1)]))
  let k1 : Cont (CX V R) σ := fun v st => (sem F Progs.macroSupport (n + 39)).val ⟨"", [("a", st.mem.length), ("b", 2), ("a", 1)]⟩ kf (cmpTail1 "__storage_iterator_partial_cmp_bool") (alloc st v) kf
  let k2 : Cont (CX V R) σ := fun v st => (sem F Progs.macroSupport (n + 38)).val ⟨"", [("b", st.mem.length), ("a", 5), ("b", 2), ("a", 1)]⟩ kf (cmpTail "__storage_iterator_partial_cmp_bool") (alloc st v) kf
  have h1 := filter_loop1 "partial_cmp" of isEq c (n + 18) k1 .unit (.ext (.bools a)) (.ext (.bools b)) (.ext (.bools a)) (.ext (.numberedBools (enumerate a))) u (enumerate a) []
  have h2 := filter_loop2 "partial_cmp" of isEq c (n + 17) k2 .unit (.ext (.bools a)) (.ext (.bools b)) (.ext (.bools a)) (.ext (.numberedBools (enumerate a))) (.ext (.numberedBools ((enumerate a).filter filterBool)))
    (.ext (.bools b)) (.ext (.numberedBools (enumerate b))) u (enumerate b) []
  refine Eq.trans (b := obs (filterCall (sem F Progs.macroSupport (n + 38)).call (.fn ["filter_bool"]) k1 (enumerate a) [] ⟨[.unit, .ext (.bools a), .ext (.bools b), .ext (.bools a), .ext (.numberedBools (enumerate a))], u, []⟩)) ?_ ?_
  · kernel_rfl
  refine Eq.trans (congrArg obs h1) ?_
  refine Eq.trans (b := obs (filterCall (sem F Progs.macroSupport (n + 37)).call (.fn ["filter_bool"]) k2 (enumerate b) [] ⟨[.unit, .ext (.bools a), .ext (.bools b), .ext (.bools a), .ext (.numberedBools (enumerate a)), .ext (.numberedBools ((enumerate a).filter filterBool)), .ext (.bools b), .ext (.numberedBools (enumerate b))], u, []⟩)) ?_ ?_
  · kernel_rfl
  refine Eq.trans (congrArg obs h2) ?_
  rw [List.nil_append]
  skip
  generalize ((enumerate a).filter filterBool) = x
  generalize ((enumerate b).filter filterBool) = y
  generalize hR : iterCmpD of isEq _ x y u = R
  kgen h : iterCmpD of isEq (fun u x y => (u, some (of (boolCmp x y)))) x y u with r
  rw [hR] at h; subst h
  obtain ⟨u', _ | r⟩ := R
  · kernel_rfl
  · kernel_rfl

theorem text_cmp_bool (n : Nat) (u : σ) (a b : List (Bool)) :
    obs (run (cmpForeign "cmp" of isEq c) Progs.macroSupport (n + 40) "" "" "__storage_iterator_cmp_bool" [.ext (.bools a), .ext (.bools b)] ⟨[.unit], u, []⟩) =
      cmpObs (some .unit) (iterCmpD of isEq (fun u x y => (u, some (of (boolCmp x y)))) ((enumerate a).filter filterBool) ((enumerate b).filter filterBool) u) := by
  let F := cmpForeign "cmp" of isEq c
  let kf : Cont (CX V R) σ := fun v st => .ok v (cut 1 (dropVars F st [("b", 2), ("a", 1)]))
  let k1 : Cont (CX V R) σ := fun v st => (sem F Progs.macroSupport (n + 39)).val ⟨"", [("a", st.mem.length), ("b", 2), ("a", 1)]⟩ kf (cmpTail1 "__storage_iterator_cmp_bool") (alloc st v) kf
  let k2 : Cont (CX V R) σ := fun v st => (sem F Progs.macroSupport (n + 38)).val ⟨"", [("b", st.mem.length), ("a", 5), ("b", 2), ("a", 1)]⟩ kf (cmpTail "__storage_iterator_cmp_bool") (alloc st v) kf
  have h1 := filter_loop1 "cmp" of isEq c (n + 18) k1 .unit (.ext (.bools a)) (.ext (.bools b)) (.ext (.bools a)) (.ext (.numberedBools (enumerate a))) u (enumerate a) []
  have h2 := filter_loop2 "cmp" of isEq c (n + 17) k2 .unit (.ext (.bools a)) (.ext (.bools b)) (.ext (.bools a)) (.ext (.numberedBools (enumerate a))) (.ext (.numberedBools ((enumerate a).filter filterBool)))
    (.ext (.bools b)) (.ext (.numberedBools (enumerate b))) u (enumerate b) []
  refine Eq.trans (b := obs (filterCall (sem F Progs.macroSupport (n + 38)).call (.fn ["filter_bool"]) k1 (enumerate a) [] ⟨[.unit, .ext (.bools a), .ext (.bools b), .ext (.bools a), .ext (.numberedBools (enumerate a))], u, []⟩)) ?_ ?_
  · kernel_rfl
  refine Eq.trans (congrArg obs h1) ?_
  refine Eq.trans (b := obs (filterCall (sem F Progs.macroSupport (n + 37)).call (.fn ["filter_bool"]) k2 (enumerate b) [] ⟨[.unit, .ext (.bools a), .ext (.bools b), .ext (.bools a), .ext (.numberedBools (enumerate a)), .ext (.numberedBools ((enumerate a).filter filterBool)), .ext (.bools b), .ext (.numberedBools (enumerate b))], u, []⟩)) ?_ ?_
  · kernel_rfl
  refine Eq.trans (congrArg obs h2) ?_
  rw [List.nil_append]
  skip
  generalize ((enumerate a).filter filterBool) = x
  generalize ((enumerate b).filter filterBool) = y
  generalize hR : iterCmpD of isEq _ x y u = R
  kgen h : iterCmpD of isEq (fun u x y => (u, some (of (boolCmp x y)))) x y u with r
  rw [hR] at h; subst h
  obtain ⟨u', _ | r⟩ := R
  · kernel_rfl
  · kernel_rfl

end

theorem iterCmpD_partial {V σ : Type} (g : V → V → Option Ordering) (u : σ) : ∀ (a b : List (Nat × V)),
    iterCmpD (some : Ordering → Option Ordering) (· == some .eq) (fun u x y => (u, some (g x y))) a b u = (u, some (iterPartialCmp (pairPartialCmp g) a b))
  | [], [] | [], _ :: _ | _ :: _, [] => rfl
  | p :: a, q :: b => by
    rw [iterCmpD, iterPartialCmp, pairCmpD, pairPartialCmp]
    cases hc : compare p.1 q.1 with
    | lt => rfl
    | gt => rfl
    | eq =>
      rw [if_pos (show (some Ordering.eq == some .eq) = true from rfl)]
      rcases hg : g p.2 q.2 with _ | _ | _ | _ <;> simp only
      · rfl
      · rfl
      · exact iterCmpD_partial g u a b
      · rfl

theorem iterCmpD_total {V σ : Type} (g : V → V → Ordering) (u : σ) : ∀ (a b : List (Nat × V)),
    iterCmpD (id : Ordering → Ordering) (· == .eq) (fun u x y => (u, some (g x y))) a b u = (u, some (iterCmp (pairCmp g) a b))
  | [], [] | [], _ :: _ | _ :: _, [] => rfl
  | p :: a, q :: b => by
    rw [iterCmpD, iterCmp, pairCmpD, pairCmp]
    cases hc : compare p.1 q.1 with
    | lt => rfl
    | gt => rfl
    | eq =>
      rw [if_pos (show (id Ordering.eq == .eq) = true from rfl)]
      rcases hg : g p.2 q.2 with _ | _ | _ <;> simp only
      · rfl
      · exact iterCmpD_total g u a b
      · rfl

end FixedMap.Rust
