import Verif.Proofs.RustTactic

/-!
# src/set/storage/option.rs does what `optSet` does

Over any storage `M` for the element type inside of the `Option`.
-/

set_option autoImplicit false
set_option linter.unusedSimpArgs false

namespace FixedMap.Rust

variable {T σ : Type} (M : SetStorage T)

section
variable (n : Nat) (f : σ → Option T → σ × Option Bool) (d : Val (SX M)) (u : σ)

theorem setOpt_retain (s : OptSetSt M.S) : meth (setForeign M d (decOptSet M) f) Progs.setOption (n + 40) "retain" ((optSetRep M).store s) [] [.user] u =
    (let r := (optSet M).retain f s u
     if r.panicked then .panic (some ((optSetRep M).store r.s)) r.st [] else .ok .unit (some ((optSetRep M).store r.s)) r.st []) := by
  generalize hR : (optSet M).retain f s u = R
  obtain ⟨sm, nn⟩ := s
  kgen_fn hg : setClosureFn with g
  have e : g = fun st v => f st (some v) := by
    rw [← hg]
    funext u' k
    kgen h : f u' (some k) with r
    refine Eq.trans ?_ h.symm
    cases r with | mk u' o =>
    cases o with | none => kernel_rfl | some b => kernel_rfl
  subst e
  clear hg
  kgen h : M.retain (fun st v => f st (some v)) sm u with r
  cases r with | mk s1 u1 p1 =>
  cases p1 with
  | true => cases nn <;> (simp [SetRetainOut.andThen, SetRetainOut.mapS, h] at hR; subst hR; kernel_rfl)
  | false =>
    cases nn with
    | false => simp [SetRetainOut.andThen, SetRetainOut.mapS, retainFlag, h] at hR; subst hR; kernel_rfl
    | true =>
      kgen h' : f u1 none with r
      cases r with | mk u2 o =>
      cases o <;> (simp [SetRetainOut.andThen, SetRetainOut.mapS, retainFlag, h, h'] at hR; subst hR; kernel_rfl)

end

theorem setOptText (n : Nat) (f : σ → Option T → σ × Option Bool) (d : Val (SX M)) :
    SetText Progs.setOption (n + 40) (optSet M) (optSetRep M) (setForeign M d (decOptSet M) f) (setIters M) f where
  empty u := by kernel_rfl
  len u := fun ⟨sm, nn⟩ => by cases nn <;> kernel_rfl
  is_empty u := fun ⟨sm, nn⟩ => by
    generalize hR : (optSet M).isEmpty ⟨sm, nn⟩ = R
    kgen h : M.isEmpty sm with r
    cases r <;> (simp [h] at hR; subst hR; kernel_rfl)
  insert u := fun ⟨sm, nn⟩ k => by cases k <;> kernel_rfl
  contains u := fun ⟨sm, nn⟩ k => by cases k <;> kernel_rfl
  remove u := fun ⟨sm, nn⟩ k => by cases k <;> kernel_rfl
  retain := setOpt_retain M n f d
  clear u s := by kernel_rfl
  eq u := fun ⟨sm, nn⟩ ⟨sm', nn'⟩ => by
    generalize hR : (optSet M).eq ⟨sm, nn⟩ ⟨sm', nn'⟩ = R
    cases nn <;> cases nn' <;> first
      | (subst hR; krfl)
      | (kgen h : M.eq sm sm' with r
         cases r <;> (simp [h] at hR; subst hR; krfl))
  clone u s := by kernel_rfl
  iter u := fun ⟨sm, nn⟩ => by
    refine ⟨valOf (meth (setForeign M d (decOptSet M) f) Progs.setOption (n + 40) "iter" ((optSetRep M).store ⟨sm, nn⟩) [] [] u), ?_, ?_⟩
    · cases nn <;> kernel_rfl
    · refine .of_eq (i := AnyIter.chain (AnyIter.map (app (setForeign M d (decOptSet M) f) Progs.setOption (n + 40) u (arg (arg (valOf (meth (setForeign M d (decOptSet M) f) Progs.setOption (n + 40) "iter" ((optSetRep M).store ⟨sm, nn⟩) [] [] u)) 0) 0)) (setIters M ⟨0, [.field "some"]⟩ (.iter (M.iter.init sm))))
          ⟨optionIter _, if nn then some (optV (fun k => .ext (.key k)) none) else none⟩) ?_ ?_
      · cases nn <;> kernel_rfl
      · refine .chain (.map .mapEq fun a => ?_) (.option ?_)
        · cases nn <;> kernel_rfl
        · cases nn <;> rfl
  into_iter u := fun ⟨sm, nn⟩ => by
    refine ⟨valOf (meth (setForeign M d (decOptSet M) f) Progs.setOption (n + 40) "into_iter" ((optSetRep M).store ⟨sm, nn⟩) [] [] u), ?_, ?_⟩
    · cases nn <;> kernel_rfl
    · refine .of_eq (i := AnyIter.chain (AnyIter.map (app (setForeign M d (decOptSet M) f) Progs.setOption (n + 40) u (arg (arg (valOf (meth (setForeign M d (decOptSet M) f) Progs.setOption (n + 40) "into_iter" ((optSetRep M).store ⟨sm, nn⟩) [] [] u)) 0) 0)) (setIters M ⟨0, [.field "some"]⟩ (.into (M.intoIter.init sm))))
          ⟨optionIter _, if nn then some (optV (fun k => .ext (.key k)) none) else none⟩) ?_ ?_
      · cases nn <;> kernel_rfl
      · refine .chain (.map .mapEq fun a => ?_) (.option ?_)
        · cases nn <;> kernel_rfl
        · cases nn <;> rfl

end FixedMap.Rust
