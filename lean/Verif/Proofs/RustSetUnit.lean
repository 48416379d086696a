import Verif.Proofs.RustTactic

/-!
# src/set/storage/singleton.rs does what `unitSet` does

At the element type `()`, the only one that uses it, whose default is `()`.
-/

set_option autoImplicit false
set_option linter.unusedSimpArgs false

namespace FixedMap.Rust

variable {T σ : Type} (M : SetStorage T)

theorem setUnit_retain (n : Nat) (f : σ → Unit → σ × Option Bool) (u : σ) (s : Bool) : meth (setForeign M .unit decUnit f) Progs.setSingleton (n + 40) "retain" ((unitSetRep M).store s) [] [.user] u =
    (let r := unitSet.retain f s u
     if r.panicked then .panic (some ((unitSetRep M).store r.s)) r.st [] else .ok .unit (some ((unitSetRep M).store r.s)) r.st []) := by
  generalize hR : unitSet.retain f s u = R
  kgen h : f u () with r
  cases r with | mk u1 o =>
  cases o <;> (simp [h] at hR; subst hR; kernel_rfl)

theorem setUnitText (n : Nat) (f : σ → Unit → σ × Option Bool) :
    SetText Progs.setSingleton (n + 40) unitSet (unitSetRep M) (setForeign M .unit decUnit f) (setIters M) f where
  empty u := by kernel_rfl
  len u s := by cases s <;> kernel_rfl
  is_empty u s := by cases s <;> kernel_rfl
  insert u s k := by cases s <;> kernel_rfl
  contains u s k := by cases s <;> kernel_rfl
  remove u s k := by cases s <;> kernel_rfl
  retain := setUnit_retain M n f
  clear u s := by cases s <;> kernel_rfl
  eq u s t := by cases s <;> cases t <;> kernel_rfl
  clone u s := by cases s <;> kernel_rfl
  iter u s := by
    refine ⟨valOf (meth (setForeign M .unit decUnit f) Progs.setSingleton (n + 40) "iter" ((unitSetRep M).store s) [] [] u), ?_, ?_⟩
    · cases s <;> kernel_rfl
    · refine .of_eq (i := ⟨optionIter _, if s then some .unit else none⟩) ?_ (.option ?_)
      · cases s <;> kernel_rfl
      · cases s <;> rfl
  into_iter u s := by
    refine ⟨valOf (meth (setForeign M .unit decUnit f) Progs.setSingleton (n + 40) "into_iter" ((unitSetRep M).store s) [] [] u), ?_, ?_⟩
    · cases s <;> kernel_rfl
    · refine .of_eq (i := ⟨optionIter _, if s then some .unit else none⟩) ?_ (.option ?_)
      · cases s <;> kernel_rfl
      · cases s <;> rfl

end FixedMap.Rust
