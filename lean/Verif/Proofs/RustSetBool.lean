import Verif.Proofs.RustTactic

/-!
# src/set/storage/boolean.rs does what `boolSet` does
-/

set_option autoImplicit false
set_option linter.unusedSimpArgs false

namespace FixedMap.Rust

variable {T σ : Type} (M : SetStorage T)

section
variable (n : Nat) (f : σ → Bool → σ × Option Bool) (d : Val (SX M)) (u : σ)

theorem setBool_retain (s : BitVec 8) : meth (setForeign M d decBool f) Progs.setBoolean (n + 40) "retain" ((boolSetRep M).store s) [] [.user] u =
    (let r := boolSet.retain f s u
     if r.panicked then .panic (some ((boolSetRep M).store r.s)) r.st [] else .ok .unit (some ((boolSetRep M).store r.s)) r.st []) := by
  generalize hR : boolSet.retain f s u = R
  simp only [boolSet, boolRetainStep, boolTest, boolToBits] at hR
  kgen h : (s &&& TRUE_BIT != 0) with r
  cases r with
  | false =>
    kgen h2 : (s &&& FALSE_BIT != 0) with r
    cases r with
    | false => simp_all; subst hR; kernel_rfl
    | true =>
      kgen h3 : f u false with r
      cases r with | mk u1 o =>
      cases o with
      | none => simp_all; subst hR; kernel_rfl
      | some b => cases b <;> (simp_all; subst hR; kernel_rfl)
  | true =>
    kgen h1 : f u true with r
    cases r with | mk u1 o =>
    cases o with
    | none => simp_all; subst hR; kernel_rfl
    | some b =>
      cases b with
      | true =>
        kgen h2 : (s &&& FALSE_BIT != 0) with r
        cases r with
        | false => simp_all; subst hR; kernel_rfl
        | true =>
          kgen h3 : f u1 false with r
          cases r with | mk u2 o =>
          cases o with
          | none => simp_all; subst hR; kernel_rfl
          | some b => cases b <;> (simp_all; subst hR; kernel_rfl)
      | false =>
        kgen h2 : (s &&& ~~~TRUE_BIT &&& FALSE_BIT != 0) with r
        cases r with
        | false => simp_all; subst hR; kernel_rfl
        | true =>
          kgen h3 : f u1 false with r
          cases r with | mk u2 o =>
          cases o with
          | none => simp_all; subst hR; kernel_rfl
          | some b => cases b <;> (simp_all; subst hR; kernel_rfl)

/-- `next` of `Iter`. -/
theorem setBool_next (b : BitVec 8) :
    obs (iterRun (setForeign M d decBool f) Progs.setBoolean (n + 40) u "Iter" "Iterator" "next" (.struct "Iter" [("bits", .u8 b)])) =
      .ok (optV .bool (boolBitsNext b).1) (some (.struct "Iter" [("bits", .u8 (boolBitsNext b).2)])) u [] := by
  generalize hR : boolBitsNext b = R
  unfold boolBitsNext at hR
  kgen h : (b &&& TRUE_BIT != 0) with r
  cases r
  · kgen h' : (b &&& FALSE_BIT != 0) with r
    cases r <;> (simp_all; subst hR; kernel_rfl)
  · simp_all; subst hR; kernel_rfl

/-- `next_back` of `Iter`. -/
theorem setBool_nextBack (b : BitVec 8) :
    obs (iterRun (setForeign M d decBool f) Progs.setBoolean (n + 40) u "Iter" "DoubleEndedIterator" "next_back" (.struct "Iter" [("bits", .u8 b)])) =
      .ok (optV .bool (boolBitsNextBack b).1) (some (.struct "Iter" [("bits", .u8 (boolBitsNextBack b).2)])) u [] := by
  generalize hR : boolBitsNextBack b = R
  unfold boolBitsNextBack at hR
  kgen h : (b &&& FALSE_BIT != 0) with r
  cases r
  · kgen h' : (b &&& TRUE_BIT != 0) with r
    cases r <;> (simp_all; subst hR; kernel_rfl)
  · simp_all; subst hR; kernel_rfl

/-- `Iter` goes through its bits as `boolBitsIter` does. -/
theorem setBool_iter (b : BitVec 8) : SameIter Val.bool ⟨ownIter (setForeign M d decBool f) Progs.setBoolean (n + 40) u "Iter", .struct "Iter" [("bits", .u8 b)]⟩ boolBitsIter b := by
  refine ⟨fun v b => v = .struct "Iter" [("bits", .u8 b)], rfl, ?_⟩
  rintro _ b rfl
  have h := of_obs (setBool_next M n f d u b)
  have h' := of_obs (setBool_nextBack M n f d u b)
  refine ⟨⟨(congrArg unOpt h.1).trans (unOpt_optV _ _), h.2⟩, ?_, ?_⟩
  · kernel_rfl
  · have e : (ownIter (setForeign M d decBool f) Progs.setBoolean (n + 40) u "Iter").nextBack? = some fun v =>
        (unOpt (result (iterRun (setForeign M d decBool f) Progs.setBoolean (n + 40) u "Iter" "DoubleEndedIterator" "next_back" v)), cell0 (iterRun (setForeign M d decBool f) Progs.setBoolean (n + 40) u "Iter" "DoubleEndedIterator" "next_back" v)) := by kernel_rfl
    show BackEq _ _ (ownIter (setForeign M d decBool f) Progs.setBoolean (n + 40) u "Iter").nextBack? boolBitsIter.nextBack? _ _
    rw [e]
    exact ⟨(congrArg unOpt h'.1).trans (unOpt_optV _ _), h'.2⟩

end

theorem setBoolText (n : Nat) (f : σ → Bool → σ × Option Bool) (d : Val (SX M)) :
    SetText Progs.setBoolean (n + 40) boolSet (boolSetRep M) (setForeign M d decBool f) (setIters M) f where
  empty u := by kernel_rfl
  len u s := by kernel_rfl
  is_empty u s := by kernel_rfl
  insert u s k := by cases k <;> kernel_rfl
  contains u s k := by cases k <;> kernel_rfl
  remove u s k := by cases k <;> kernel_rfl
  retain := setBool_retain M n f d
  clear u s := by kernel_rfl
  eq u s t := by
    generalize hR : boolSet.eq s t = R
    kgen h : (s == t) with r
    cases r <;> (simp [h] at hR; subst hR; kernel_rfl)
  clone u s := by kernel_rfl
  iter u s := by
    refine ⟨.struct "Iter" [("bits", .u8 s)], ?_, ?_⟩
    · kernel_rfl
    · exact .of_eq (by kernel_rfl) (setBool_iter M n f d u s)
  into_iter u s := by
    refine ⟨.struct "Iter" [("bits", .u8 s)], ?_, ?_⟩
    · kernel_rfl
    · exact .of_eq (by kernel_rfl) (setBool_iter M n f d u s)

end FixedMap.Rust
