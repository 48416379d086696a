import Verif.Proofs.RustTactic

/-!
# src/map/storage/singleton.rs does what `unitMap` does

At the key type `()`, the only one that uses it (src/key.rs), whose default is `()`.
-/

set_option autoImplicit false
set_option linter.unusedSimpArgs false

namespace FixedMap.Rust

variable {K V σ : Type} (M : MapStorage K V)

/-- singleton.rs and option_bucket.rs. -/
def mapUnitProg : Prog := Progs.mapSingleton.and Progs.optionBucket

section
variable (n : Nat) (c : V → V) (veq : V → V → Bool) (f : σ → Unit → V → σ × V × Option Bool) (u : σ) (s : Option V)

theorem mapUnit_retain : meth (mapForeign M c veq .unit decUnit f) mapUnitProg (n + 40) "retain" ((unitRep M).store s) [] [.user] u =
    (let r := (unitMap V).retain f s u
     if r.panicked then .panic (some ((unitRep M).store r.s)) r.st (r.dropped.map (unitRep M).dropped)
     else .ok .unit (some ((unitRep M).store r.s)) r.st (r.dropped.map (unitRep M).dropped)) := by
  generalize hR : (unitMap V).retain f s u = R
  cases s with
  | none => subst hR; kernel_rfl
  | some v =>
    kgen h : f u () v with r
    cases r with | mk u' r => cases r with | mk v' o =>
    cases o with | none => (simp [retainSlot, h] at hR; subst hR; kernel_rfl) | some b => cases b <;> (simp [retainSlot, h] at hR; subst hR; kernel_rfl)

theorem mapUnit_eq (t : Option V) : meth (mapForeign M c veq .unit decUnit f) mapUnitProg (n + 40) "eq" ((unitRep M).store s) [(unitRep M).store t] [.ref ⟨1, []⟩] u =
    .ok (.bool ((unitMap V).eq veq s t)) (some ((unitRep M).store s)) u [] := by
  generalize hR : (unitMap V).eq veq s t = R
  rcases s with _ | a <;> rcases t with _ | b
  all_goals first
    | (subst hR; krfl)
    | (kgen h : veq a b with r
       cases r <;> (simp [optBeq, h] at hR; subst hR; krfl))

end

theorem mapUnitText (n : Nat) (c : V → V) (veq : V → V → Bool) (f : σ → Unit → V → σ × V × Option Bool) :
    MapText mapUnitProg (n + 40) (unitMap V) (unitRep M) (mapForeign M c veq .unit decUnit f) (mapIters M) c veq f where
  empty u := by kernel_rfl
  len u s := by cases s <;> kernel_rfl
  is_empty u s := by cases s <;> kernel_rfl
  insert u s k v := by cases s <;> kernel_rfl
  contains_key u s k := by cases s <;> kernel_rfl
  get u s k := by cases s <;> kernel_rfl
  get_mut u s k := by cases s <;> kernel_rfl
  read s a := by cases s <;> kernel_rfl
  write s a v w h := by
    cases s
    · cases h
    · kernel_rfl
  remove u s k := by cases s <;> kernel_rfl
  retain := mapUnit_retain M n c veq f
  clear u s := by cases s <;> kernel_rfl
  entry u s k := by cases s <;> kernel_rfl
  occ_key u s e := by kernel_rfl
  occ_get u s e := by cases s <;> kernel_rfl
  occ_get_mut u s e := by cases s <;> kernel_rfl
  occ_into_mut u s e := by cases s <;> kernel_rfl
  occ_insert u s e v := by cases s <;> kernel_rfl
  occ_remove u s e := by cases s <;> kernel_rfl
  vac_key u s e := by kernel_rfl
  vac_insert u s e v := by cases s <;> kernel_rfl
  eq u s t := mapUnit_eq M n c veq f u s t
  clone u s := by cases s <;> kernel_rfl
  iter u s := by
    refine ⟨valOf (meth (mapForeign M c veq .unit decUnit f) mapUnitProg (n + 40) "iter" ((unitRep M).store s) [] [] u), ?_, ?_⟩
    · cases s <;> kernel_rfl
    · refine .of_eq (i := ⟨optionIter _, s.map fun v => pair .unit (.shared (vl v))⟩) ?_ (.option ?_)
      · cases s <;> kernel_rfl
      · cases s <;> rfl
  keys u s := by
    refine ⟨valOf (meth (mapForeign M c veq .unit decUnit f) mapUnitProg (n + 40) "keys" ((unitRep M).store s) [] [] u), ?_, ?_⟩
    · cases s <;> kernel_rfl
    · refine .of_eq (i := ⟨optionIter _, some .unit⟩) ?_ (.option ?_)
      · cases s <;> kernel_rfl
      · cases s <;> rfl
  values u s := by
    refine ⟨valOf (meth (mapForeign M c veq .unit decUnit f) mapUnitProg (n + 40) "values" ((unitRep M).store s) [] [] u), ?_, ?_⟩
    · cases s <;> kernel_rfl
    · refine .of_eq (i := ⟨optionIter _, s.map fun v => .shared (vl v)⟩) ?_ (.option ?_)
      · cases s <;> kernel_rfl
      · cases s <;> rfl
  iter_mut u s := by
    refine ⟨valOf (meth (mapForeign M c veq .unit decUnit f) mapUnitProg (n + 40) "iter_mut" ((unitRep M).store s) [] [] u), ?_, ?_⟩
    · cases s <;> kernel_rfl
    · refine .of_eq (i := ⟨optionIter _, s.map fun _ => pair .unit (.ref ⟨0, [.field "inner", .arg 0]⟩)⟩) ?_ (.option ?_)
      · cases s <;> kernel_rfl
      · cases s <;> rfl
  values_mut u s := by
    refine ⟨valOf (meth (mapForeign M c veq .unit decUnit f) mapUnitProg (n + 40) "values_mut" ((unitRep M).store s) [] [] u), ?_, ?_⟩
    · cases s <;> kernel_rfl
    · refine .of_eq (i := ⟨optionIter _, s.map fun _ => .ref ⟨0, [.field "inner", .arg 0]⟩⟩) ?_ (.option ?_)
      · cases s <;> kernel_rfl
      · cases s <;> rfl
  into_iter u s := by
    refine ⟨valOf (meth (mapForeign M c veq .unit decUnit f) mapUnitProg (n + 40) "into_iter" ((unitRep M).store s) [] [] u), ?_, ?_⟩
    · cases s <;> kernel_rfl
    · refine .of_eq (i := ⟨optionIter _, s.map fun v => pair .unit (vl v)⟩) ?_ (.option ?_)
      · cases s <;> kernel_rfl
      · cases s <;> rfl

end FixedMap.Rust
