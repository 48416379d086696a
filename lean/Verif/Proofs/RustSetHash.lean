import Verif.Proofs.RustTactic

/-!
# src/set/storage/hashbrown.rs does what `hashSet` does

Over any table that the model allows.
-/

set_option autoImplicit false
set_option linter.unusedSimpArgs false

namespace FixedMap.Rust

variable {T σ : Type} (A : HashMapApi T Unit)

theorem setHash_retain (n : Nat) (f : σ → T → σ × Option Bool) (u : σ) (s : A.Table) : meth (hashSetForeign A f) Progs.setHashbrown (n + 40) "retain" ((hashSetRep A).store s) [] [.user] u =
    (let r := (hashSet A).retain f s u
     if r.panicked then .panic (some ((hashSetRep A).store r.s)) r.st [] else .ok .unit (some ((hashSetRep A).store r.s)) r.st []) := by
  generalize hR : (hashSet A).retain f s u = R
  simp only [hashSet] at hR
  kgen_fn hg : hashSetFn with g
  have e : g = fun st k v => ((f st k).1, v, (f st k).2) := by
    rw [← hg]
    funext u' k v
    kgen_fn h1 : hashSetClosureFn with q
    have e : q = f u' k := by
      rw [← h1]
      kgen h : f u' k with r
      refine Eq.trans ?_ h.symm
      cases r with | mk u' o =>
      cases o with | none => kernel_rfl | some b => kernel_rfl
    subst e
    rfl
  subst e
  clear hg
  kgen h : A.retain (fun st k v => ((f st k).1, v, (f st k).2)) s u with r
  cases r with | mk s1 u1 p1 d1 =>
  cases p1 <;> (simp [h] at hR; subst hR; kernel_rfl)

theorem setHashText (n : Nat) (f : σ → T → σ × Option Bool) :
    SetText Progs.setHashbrown (n + 40) (hashSet A) (hashSetRep A) (hashSetForeign A f) (hashSetIters A) f where
  empty u := by kernel_rfl
  len u s := by kernel_rfl
  is_empty u s := by kernel_rfl
  insert u s k := by kernel_rfl
  contains u s k := by kernel_rfl
  remove u s k := by kernel_rfl
  retain := setHash_retain A n f
  clear u s := by kernel_rfl
  eq u s t := by kernel_rfl
  clone u s := by kernel_rfl
  iter u s := by
    refine ⟨valOf (meth (hashSetForeign A f) Progs.setHashbrown (n + 40) "iter" ((hashSetRep A).store s) [] [] u), ?_, ?_⟩
    · kernel_rfl
    · refine .of_eq (i := AnyIter.map unshare (hashSetIters A ⟨0, [.field "inner"]⟩ (.it "iter" s))) ?_ ?_
      · kernel_rfl
      · exact .map .mapEq fun a => by kernel_rfl
  into_iter u s := by
    refine ⟨valOf (meth (hashSetForeign A f) Progs.setHashbrown (n + 40) "into_iter" ((hashSetRep A).store s) [] [] u), ?_, ?_⟩
    · kernel_rfl
    · refine .of_eq (i := (hashSetIters A ⟨0, [.field "inner"]⟩ (.it "into_iter" s))) ?_ ?_
      · kernel_rfl
      · exact .mapMap fun a => rfl

end FixedMap.Rust
