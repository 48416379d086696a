import Verif.Spec.GenIter
import Verif.Proofs.Gen

/-!
# The generated iterators do what the variant-by-variant model says
-/

set_option autoImplicit false
set_option linter.unusedSimpArgs false

namespace FixedMap.Gen

variable {H : HashbrownApi} {V : Type}

/-! ## Iterator structs -/

theorem inamed_get (pre cs : List (ICell H V)) (c : ICell H V) :
    ∀ i, (inamed i (pre ++ c :: cs)).get (fieldName (i + pre.length)) = some c := by
  induction pre with
  | nil => intro i; simp [inamed, IStruct.get]
  | cons a pre ih =>
    intro i
    have hne : (fieldName (i + (a :: pre).length) == fieldName i) = false := by
      simp
    have := ih (i + 1)
    simp only [List.cons_append, inamed, IStruct.get, List.lookup_cons, hne] at this ⊢
    rw [show i + (a :: pre).length = i + 1 + pre.length by simp; omega]
    exact this

theorem inamed_set_lt (cs : List (ICell H V)) (c : ICell H V) :
    ∀ i j, j < i → (inamed i cs).set (fieldName j) c = inamed i cs := by
  induction cs with
  | nil => intro i j _; rfl
  | cons a cs ih =>
    intro i j h
    have hne : ¬ fieldName i = fieldName j := by simp; omega
    have := ih (i + 1) j (by omega)
    simp only [IStruct.set] at this
    simp only [inamed, IStruct.set, List.map_cons, hne, if_false, this]

theorem inamed_set (pre cs : List (ICell H V)) (c d : ICell H V) :
    ∀ i, (inamed i (pre ++ c :: cs)).set (fieldName (i + pre.length)) d = inamed i (pre ++ d :: cs) := by
  induction pre with
  | nil =>
    intro i
    have := inamed_set_lt cs d (i + 1) i (by omega)
    simp only [IStruct.set] at this
    simp [inamed, IStruct.set, this]
  | cons a pre ih =>
    intro i
    have hne : ¬ fieldName i = fieldName (i + (a :: pre).length) := by simp
    have := ih (i + 1)
    rw [show i + 1 + pre.length = i + (a :: pre).length by simp; omega] at this
    simp only [IStruct.set] at this
    simp only [List.cons_append, inamed, IStruct.set, List.map_cons, hne, if_false, this]

/-! ## The emitted pieces of one iterator -/

/-- The token streams pushed for one field. -/
structure Piece where
  decl : Field → String × IterTy
  init : Field → String × IterInit
  next : Field → IterArm
  nextBack : Field → IterArm
  bound : Field → Option IterTy

def Piece.code (P : Piece) (fs : List Field) : IterCode :=
  ⟨fs.map P.decl, fs.map P.init, fs.length, fs.map P.next, fs.map P.nextBack, fs.filterMap P.bound⟩

/-- The arms are labelled with the index of their field, and use it. -/
structure Piece.Ok (P : Piece) : Prop where
  decl : ∀ f, (P.decl f).1 = f.name
  init : ∀ f, (P.init f).1 = f.name
  next : ∀ f, (P.next f).index = f.index ∧ (P.next f).recv = f.name
  nextBack : ∀ f, (P.nextBack f).index = f.index ∧ (P.nextBack f).recv = f.name

/-- What the arms do, by position. -/
def atIdx (a : Field → IterArm) : Nat → List Variant → List (ICell H V) → Nat →
    Option (Option (Option (Out H V) × List (ICell H V)))
  | i, v :: _, c :: cs, 0 => ((a (fieldAt i v)).on c).map fun p => some (p.1, p.2 :: cs)
  | i, _ :: vs, c :: cs, j + 1 => (atIdx a (i + 1) vs cs j).map fun r => r.map fun p => (p.1, c :: p.2)
  | _, _, _, _ => some none

/-- From positions to names. -/
def toArmOut (r : Option (Option (Out H V) × List (ICell H V))) : ArmOut H V :=
  match r with
  | none => .brk
  | some p => .done p.1 (inamed 0 p.2)

theorem runArms_eq (a : Field → IterArm) (ha : ∀ f, (a f).index = f.index ∧ (a f).recv = f.name)
    (vs : List Variant) : ∀ (pre cs : List (ICell H V)) (j : Nat), cs.length = vs.length →
      runArms (pre.length + j) (inamed 0 (pre ++ cs)) ((fieldsFrom pre.length vs).map a) =
        (atIdx a pre.length vs cs j).map fun r => toArmOut (r.map fun p => (p.1, pre ++ p.2)) := by
  induction vs with
  | nil => intro pre cs j h; cases cs <;> simp_all [fieldsFrom, runArms, atIdx, toArmOut]
  | cons v vs ih =>
    intro pre cs j hl
    match cs, hl with
    | c :: cs, hl =>
      simp only [fieldsFrom, List.map_cons, runArms, (ha _).1, (ha _).2]
      cases j with
      | zero =>
        have hg := inamed_get pre cs c 0
        have hs := fun d => inamed_set pre cs c d 0
        simp only [Nat.zero_add] at hg hs
        simp only [fieldAt, Nat.add_zero, if_true, hg, Option.bind_some, hs, atIdx]
        cases (a ⟨pre.length, fieldName pre.length, v.ident, v.elem⟩).on c with
        | none => rfl
        | some p => rfl
      | succ j =>
        have hne : ¬ (fieldAt pre.length v).index = pre.length + (j + 1) := by simp [fieldAt]
        have := ih (pre ++ [c]) cs j (by simpa using hl)
        simp only [List.length_append, List.length_cons, List.length_nil, List.append_assoc, List.cons_append,
          List.nil_append] at this
        rw [if_neg hne, show pre.length + (j + 1) = pre.length + (0 + 1) + j by omega, this, atIdx]
        cases atIdx a (pre.length + 1) vs cs j with
        | none => simp
        | some r => cases r <;> simp [toArmOut]

/-- The generated iterator (fields from `i` on) and `F` agree; `rep` shows how a state of `F` appears as
field values, `out` how its items appear. -/
structure Sim (P : Piece) {S α : Type} (i : Nat) (vs : List Variant) (cells : S → List (Cell H V))
    (F : StepOf S α) (out : α → Out H V) (rep : F.St → List (ICell H V)) : Prop where
  length : ∀ st, (rep st).length = vs.length
  count : F.count = vs.length
  types : ∀ st, (inamed i (rep st)).map (fun p => (p.1, p.2.ty)) = (fieldsFrom i vs).map P.decl
  init : ∀ (pre : List (Cell H V)) (s : S), pre.length = i →
    runInits (named 0 (pre ++ cells s)) ((fieldsFrom i vs).map P.init) = some (inamed i (rep (F.init s)))
  next : ∀ j st, atIdx P.next i vs (rep st) j =
    some ((F.next j st).map fun p => (p.1.map out, rep p.2))
  nextBack : ∀ nb, F.nextBack? = some nb → ∀ j st, atIdx P.nextBack i vs (rep st) j =
    some ((nb j st).map fun p => (p.1.map out, rep p.2))
  bounds : F.nextBack?.isSome = ((fieldsFrom i vs).filterMap P.bound).all (IterTy.doubleEnded H V)

theorem Sim.nil (P : Piece) {S α : Type} (i : Nat) (cells : S → List (Cell H V)) (out : α → Out H V) :
    Sim P i [] cells (StepOf.nil S α) out (fun _ => []) where
  length _ := rfl
  count := rfl
  types _ := rfl
  init _ _ _ := rfl
  next j st := by cases j <;> rfl
  nextBack nb h j st := by cases h; cases j <;> rfl
  bounds := rfl

theorem cons_congr {α : Type} {a b : α} {l m : List α} (h : a = b) (h' : l = m) : a :: l = b :: m := by
  rw [h, h']

theorem map_aux {α β X : Type} (g : α → β) (out : β → Out H V) (rep : X → List (ICell H V))
    (o : Option (Option α × X)) :
    (o.map fun p => (p.1.map fun a => out (g a), rep p.2)) =
      (o.map fun p => (p.1.map g, p.2)).map fun p => (p.1.map out, rep p.2) := by
  cases o <;> simp [Function.comp_def]

theorem Sim.map {P : Piece} {S α β : Type} {i : Nat} {vs : List Variant} {cells : S → List (Cell H V)}
    {F : StepOf S α} {out : β → Out H V} {rep : F.St → List (ICell H V)} (g : α → β)
    (h : Sim P i vs cells F (fun a => out (g a)) rep) : Sim P i vs cells (F.map g) out rep where
  length := h.length
  count := h.count
  types := h.types
  init := h.init
  next j st := (h.next j st).trans (congrArg some (map_aux g out rep (F.next j st)))
  nextBack nb hnb j st := by
    obtain ⟨nb', h', rfl⟩ := Option.map_eq_some_iff.1 hnb
    exact (h.nextBack nb' h' j st).trans (congrArg some (map_aux g out rep (nb' j st)))
  bounds := by rw [← h.bounds]; simp [StepOf.map]

/-- What is needed of the field in front. -/
structure Head (P : Piece) {S α : Type} (i : Nat) (v : Variant) (cell : S → Cell H V) (it : IterOf S α)
    (out : α → Out H V) (hrep : it.I.St → ICell H V) : Prop where
  ty : ∀ st, (hrep st).ty = (P.decl (fieldAt i v)).2
  init : ∀ (S : Struct H V) s, S.get (fieldName i) = some (cell s) →
    (P.init (fieldAt i v)).2.run S = some (hrep (it.init s))
  next : ∀ st, (P.next (fieldAt i v)).on (hrep st) = some ((it.I.next st).1.map out, hrep (it.I.next st).2)
  nextBack : ∀ nb, it.I.nextBack? = some nb → ∀ st,
    (P.nextBack (fieldAt i v)).on (hrep st) = some ((nb st).1.map out, hrep (nb st).2)
  bound : it.I.nextBack?.isSome = ((P.bound (fieldAt i v)).toList.all (IterTy.doubleEnded H V))

theorem Sim.cons {P : Piece} (hP : P.Ok) {S T α : Type} {i : Nat} {v : Variant} {vs : List Variant}
    {cell : S → Cell H V} {cells : T → List (Cell H V)} {it : IterOf S α} {F : StepOf T α} {out : α → Out H V}
    {hrep : it.I.St → ICell H V} {rep : F.St → List (ICell H V)}
    (hh : Head P i v cell it out hrep) (h : Sim P (i + 1) vs cells F out rep) :
    Sim P i (v :: vs) (fun s : S × T => cell s.1 :: cells s.2)
      (StepOf.cons (it.comap Prod.fst) (F.comap Prod.snd)) out (fun st => hrep st.1 :: rep st.2) where
  length st := congrArg (· + 1) (h.length st.2)
  count := by simp [StepOf.cons, StepOf.comap, h.count]
  types st := cons_congr (Prod.ext (hP.decl (fieldAt i v)).symm (hh.ty _)) (h.types st.2)
  init pre s hi := by
    have := h.init (pre ++ [cell s.1]) s.2 (by simp [hi])
    have hg := named_get pre (cells s.2) (cell s.1) 0
    simp only [Nat.zero_add, hi] at hg
    simp only [List.append_assoc, List.cons_append, List.nil_append] at this
    have hn : P.init (fieldAt i v) = (fieldName i, (P.init (fieldAt i v)).2) := Prod.ext (hP.init _) rfl
    simp only [fieldsFrom, List.map_cons]
    rw [hn]
    simp [runInits, hh.init _ _ hg, this, inamed, StepOf.cons, StepOf.comap, IterOf.comap]
  next j st := by
    cases j with
    | zero => simp [atIdx, hh.next, StepOf.cons, IterOf.comap]
    | succ j =>
      have := h.next j st.2
      simp only [atIdx, this, StepOf.cons, StepOf.comap]
      cases F.next j st.2 <;> simp
  nextBack nb hnb j st := by
    simp only [StepOf.cons, StepOf.comap, IterOf.comap] at hnb
    split at hnb
    · rename_i ib fb hi hf
      cases hnb
      cases j with
      | zero =>
        exact congrArg (Option.map fun p => some (p.1, p.2 :: rep st.2)) (hh.nextBack ib hi st.1)
      | succ j =>
        refine (congrArg (Option.map fun r => r.map fun p => (p.1, hrep st.1 :: p.2)) (h.nextBack fb hf j st.2)).trans ?_
        show (some ((fb j st.2).map _)).map _ = some (((fb j st.2).map _).map _)
        cases fb j st.2 <;> rfl
    · cases hnb
  bounds := by
    have h1 := hh.bound
    have h2 := h.bounds
    have h3 : (StepOf.cons (it.comap Prod.fst) (F.comap (Prod.snd : S × T → T))).nextBack?.isSome =
        (it.I.nextBack?.isSome && F.nextBack?.isSome) := by
      simp only [StepOf.cons, IterOf.comap, StepOf.comap]
      cases it.I.nextBack? <;> cases F.nextBack? <;> rfl
    rw [h3, h1, h2, fieldsFrom, List.filterMap_cons]
    cases P.bound (fieldAt i v) <;> simp

end FixedMap.Gen
