import Verif.Proofs.RustTactic

/-!
# src/map/storage/hashbrown.rs does what `hashMap` does

Over any table that the model allows.
-/

set_option autoImplicit false
set_option linter.unusedSimpArgs false

namespace FixedMap.Rust

variable {K V σ : Type} (A : HashMapApi K V)

theorem mapHash_retain (n : Nat) (c : V → V) (veq : V → V → Bool) (f : σ → K → V → σ × V × Option Bool) (u : σ) (s : A.Table) :
    meth (hashForeign A c veq f) Progs.mapHashbrown (n + 40) "retain" ((hashRep A).store s) [] [.user] u =
    (let r := (hashMap A).retain f s u
     if r.panicked then .panic (some ((hashRep A).store r.s)) r.st (r.dropped.map (hashRep A).dropped)
     else .ok .unit (some ((hashRep A).store r.s)) r.st (r.dropped.map (hashRep A).dropped)) := by
  generalize hR : (hashMap A).retain f s u = R
  kgen_fn hg : hashClosureFn with g
  have e : g = f := by
    rw [← hg]
    funext u' k v
    kgen h : f u' k v with r
    refine Eq.trans ?_ h.symm
    cases r with | mk u' r => cases r with | mk v' o =>
    cases o with | none => kernel_rfl | some b => kernel_rfl
  subst e
  clear hg
  kgen h : A.retain g s u with r
  cases r with | mk s1 u1 p1 d1 =>
  cases p1 <;> (simp [h] at hR; subst hR; kernel_rfl)

theorem mapHashText (n : Nat) (c : V → V) (veq : V → V → Bool) (f : σ → K → V → σ × V × Option Bool) :
    MapText Progs.mapHashbrown (n + 40) (hashMap A) (hashRep A) (hashForeign A c veq f) (hashIters A) c veq f where
  empty u := by kernel_rfl
  len u s := by kernel_rfl
  is_empty u s := by kernel_rfl
  insert u s k v := by kernel_rfl
  contains_key u s k := by kernel_rfl
  get u s k := by kernel_rfl
  get_mut u s k := by kernel_rfl
  read s a := by
    generalize hR : (hashMap A).read s a = R
    kgen h : A.read s a with r
    cases r <;> (simp [h] at hR; subst hR; kernel_rfl)
  write s a v w h := by
    kgen h' : A.read s a with r
    cases h.symm.trans h'
    kernel_rfl
  remove u s k := by kernel_rfl
  retain := mapHash_retain A n c veq f
  clear u s := by kernel_rfl
  entry u s k := by
    generalize hR : (hashMap A).entry s k = R
    kgen h : A.entry s k with r
    cases r with | mk e s' =>
    cases e <;> (simp [h] at hR; subst hR; kernel_rfl)
  occ_key u s e := by kernel_rfl
  occ_get u s e := by
    generalize hR : (hashMap A).occGet e s = R
    kgen h : A.occ_get e s with r
    cases r <;> (simp [h] at hR; subst hR; kernel_rfl)
  occ_get_mut u s e := by
    generalize hR : (hashMap A).occGetMut e s = R
    kgen h : A.occ_get_mut e s with r
    cases r <;> (simp [h] at hR; subst hR; kernel_rfl)
  occ_into_mut u s e := by
    generalize hR : (hashMap A).occIntoMut e s = R
    kgen h : A.occ_into_mut e s with r
    cases r <;> (simp [h] at hR; subst hR; kernel_rfl)
  occ_insert u s e v := by
    generalize hR : (hashMap A).occInsert e s v = R
    kgen h : A.occ_insert e s v with r
    cases r <;> (simp [h] at hR; subst hR; kernel_rfl)
  occ_remove u s e := by
    generalize hR : (hashMap A).occRemove e s = R
    kgen h : A.occ_remove e s with r
    cases r <;> (simp [h] at hR; subst hR; kernel_rfl)
  vac_key u s e := by kernel_rfl
  vac_insert u s e v := by
    generalize hR : (hashMap A).vacInsert e s v = R
    kgen h : A.vac_insert e s v with r
    cases r <;> (simp [h] at hR; subst hR; kernel_rfl)
  eq u s t := by kernel_rfl
  clone u s := by kernel_rfl
  iter u s := by
    refine ⟨valOf (meth (hashForeign A c veq f) Progs.mapHashbrown (n + 40) "iter" ((hashRep A).store s) [] [] u), ?_, ?_⟩
    · kernel_rfl
    · refine .of_eq (i := AnyIter.map (app (hashForeign A c veq f) Progs.mapHashbrown (n + 40) u (arg (valOf (meth (hashForeign A c veq f) Progs.mapHashbrown (n + 40) "iter" ((hashRep A).store s) [] [] u)) 0)) (hashIters A ⟨0, [.field "inner"]⟩ (.it "iter" s))) ?_ ?_
      · kernel_rfl
      · exact .map .mapEq fun a => by kernel_rfl
  keys u s := by
    refine ⟨valOf (meth (hashForeign A c veq f) Progs.mapHashbrown (n + 40) "keys" ((hashRep A).store s) [] [] u), ?_, ?_⟩
    · kernel_rfl
    · refine .of_eq (i := AnyIter.map unshare (hashIters A ⟨0, [.field "inner"]⟩ (.it "keys" s))) ?_ ?_
      · kernel_rfl
      · exact .map .mapEq fun a => by kernel_rfl
  values u s := by
    refine ⟨valOf (meth (hashForeign A c veq f) Progs.mapHashbrown (n + 40) "values" ((hashRep A).store s) [] [] u), ?_, ?_⟩
    · kernel_rfl
    · refine .of_eq (i := (hashIters A ⟨0, [.field "inner"]⟩ (.it "values" s))) ?_ ?_
      · kernel_rfl
      · exact .mapEq
  iter_mut u s := by
    refine ⟨valOf (meth (hashForeign A c veq f) Progs.mapHashbrown (n + 40) "iter_mut" ((hashRep A).store s) [] [] u), ?_, ?_⟩
    · kernel_rfl
    · refine .of_eq (i := AnyIter.map (app (hashForeign A c veq f) Progs.mapHashbrown (n + 40) u (arg (valOf (meth (hashForeign A c veq f) Progs.mapHashbrown (n + 40) "iter_mut" ((hashRep A).store s) [] [] u)) 0)) (hashIters A ⟨0, [.field "inner"]⟩ (.it "iter_mut" s))) ?_ ?_
      · kernel_rfl
      · exact .map .mapEq fun a => by kernel_rfl
  values_mut u s := by
    refine ⟨valOf (meth (hashForeign A c veq f) Progs.mapHashbrown (n + 40) "values_mut" ((hashRep A).store s) [] [] u), ?_, ?_⟩
    · kernel_rfl
    · refine .of_eq (i := (hashIters A ⟨0, [.field "inner"]⟩ (.it "values_mut" s))) ?_ ?_
      · kernel_rfl
      · exact .mapEq
  into_iter u s := by
    refine ⟨valOf (meth (hashForeign A c veq f) Progs.mapHashbrown (n + 40) "into_iter" ((hashRep A).store s) [] [] u), ?_, ?_⟩
    · kernel_rfl
    · refine .of_eq (i := (hashIters A ⟨0, [.field "inner"]⟩ (.it "into_iter" s))) ?_ ?_
      · kernel_rfl
      · exact .mapEq

end FixedMap.Rust
