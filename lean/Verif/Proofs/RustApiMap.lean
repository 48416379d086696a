import Verif.Proofs.RustTactic
import Verif.Spec.RustApi

/-!
# src/map.rs does what MapApi.lean says

Over any storage `M` for the key type.
-/

set_option autoImplicit false
set_option linter.unusedSimpArgs false

namespace FixedMap.Rust

variable {K V σ : Type} (M : MapStorage K V)

section
variable (n : Nat) (c : V → V) (veq : V → V → Bool) (f : σ → K → V → σ × V × Option Bool) (d : Val (MX M))

theorem mapApi_retain (u : σ) (s : M.S) : meth (mapForeign M c veq d (decKey M) f) Progs.map (n + 40) "retain" ((apiRep M).store s) [] [.user] u =
    (let r := M.retain f s u
     if r.panicked then .panic (some ((apiRep M).store r.s)) r.st (r.dropped.map (apiRep M).dropped)
     else .ok .unit (some ((apiRep M).store r.s)) r.st (r.dropped.map (apiRep M).dropped)) := by
  generalize hR : M.retain f s u = R
  kgen_fn hg : closureFn with g
  have e : g = f := by
    rw [← hg]
    funext u' k v
    kgen h : f u' k v with r
    cases r with | mk u' r => cases r with | mk v' o =>
    refine Eq.trans ?_ h.symm
    cases o with | none => kernel_rfl | some b => kernel_rfl
  subst e
  clear hg
  kgen h : M.retain g s u with r
  cases r with | mk s1 u1 p1 d1 =>
  cases p1 with
  | true => rw [h] at hR; subst hR; kernel_rfl
  | false => rw [h] at hR; subst hR; kernel_rfl

/-- The loop of `from_iter`. -/
def fromIterLoop (P : Prog) (ty : String) : Expr :=
  match P.fns.find? fun f => f.name == "from_iter" && f.ty == ty with
  | some f => match f.body with
    | .letIn _ _ (.seq (.letIn _ _ l) _) => l
    | _ => .unit
  | none => .unit

/-- What a round of the loop does with the map and the dropped values. -/
def insertStep (acc : M.S × List V) (p : K × V) : M.S × List V := ((Map.insert M acc.1 p.1 p.2).2, acc.2 ++ (Map.insert M acc.1 p.1 p.2).1.toList)

theorem mapApi_loop (u : σ) (ret k : Cont (MX M) σ) (a b : Val (MX M)) (q : Place (MX M)) (l : List (K × V)) : ∀ (m : Nat) (acc : M.S × List V), l.length + 25 ≤ m →
    (sem (mapForeign M c veq d (decKey M) f) Progs.map m).val ⟨"Map", [("for", 3), ("map", 1), ("iter", 0)]⟩ ret (fromIterLoop Progs.map "Map")
      ⟨[a, mapV (.ext (.store acc.1)), b, .handle q (.pairs l)], u, acc.2.map .val⟩ k =
    k .unit ⟨[a, mapV (.ext (.store (l.foldl (insertStep M) acc).1)), b, .handle q (.pairs [])], u, (l.foldl (insertStep M) acc).2.map .val⟩ := by
  induction l with
  | nil =>
    intro m acc hm
    obtain ⟨m, rfl⟩ := Nat.exists_eq_add_of_le hm
    rw [Nat.add_comm]
    kernel_rfl
  | cons p l ih =>
    intro m acc hm
    obtain ⟨m, rfl⟩ : ∃ m', m = m' + 25 + 1 := ⟨m - 26, by simp only [List.length_cons] at hm; omega⟩
    refine Eq.trans ?_ (ih (m + 25) (insertStep M acc p) (by simp only [List.length_cons] at hm; omega))
    generalize hR : insertStep M acc p = R
    kgen h : M.insert acc.1 p.1 p.2 with r
    cases r with | mk o s' =>
    cases o with
    | none => simp [insertStep, Map.insert, h] at hR; subst hR; kernel_rfl
    | some w =>
      simp [insertStep, Map.insert, h] at hR; subst hR
      simp only [List.map_append, List.map_cons, List.map_nil]
      kernel_rfl

theorem mapApi_from_iter (u : σ) (l : List (K × V)) :
    obs (run (mapForeign M c veq d (decKey M) f) Progs.map (n + 40 + l.length) "Map" "FromIterator" "from_iter" [.handle ⟨0, []⟩ (.pairs l)] ⟨[], u, []⟩) =
      .ok ((apiRep M).store (Map.fromIter M l).1) none u ((Map.fromIter M l).2.map .val) := by
  rw [show n + 40 + l.length = n + l.length + 40 from by omega]
  let kf : Cont (MX M) σ := fun v st => .ok v (cut 0 (dropVars (mapForeign M c veq d (decKey M) f) st [("iter", 0)]))
  let F := mapForeign M c veq d (decKey M) f
  refine Eq.trans (b := obs ((sem F Progs.map (n + l.length + 37)).val ⟨"Map", [("for", 3), ("map", 1), ("iter", 0)]⟩ kf (fromIterLoop Progs.map "Map")
    ⟨[.handle ⟨0, []⟩ (.pairs l), mapV (.ext (.store M.empty)), .handle ⟨0, []⟩ (.pairs l), .handle ⟨0, []⟩ (.pairs l)], u, []⟩
    fun v st => (sem F Progs.map (n + l.length + 38)).val ⟨"Map", [("map", 1), ("iter", 0)]⟩ kf (.path ["map"]) (addDropped st (dropVal F v)) kf)) ?_ ?_
  · kernel_rfl
  · refine Eq.trans (congrArg obs (mapApi_loop M c veq f d u _ _ _ _ _ l (n + l.length + 37) (M.empty, []) (by omega))) ?_
    kernel_rfl

theorem mapApiText : MapApiText M Progs.map (n + 40) (mapForeign M c veq d (decKey M) f) c veq f where
  len u s := by kernel_rfl
  is_empty u s := by kernel_rfl
  insert u s k v := by kernel_rfl
  contains_key u s k := by kernel_rfl
  get u s k := by kernel_rfl
  get_mut u s k := by kernel_rfl
  read s a := by
    generalize hR : M.read s a = R
    kgen h : M.read s a with r
    rw [h] at hR; subst hR
    cases r <;> kernel_rfl
  write s a v w h := by
    kgen h' : M.read s a with r
    cases h.symm.trans h'
    kernel_rfl
  remove u s k := by kernel_rfl
  retain u s := mapApi_retain M n c veq f d u s
  clear u s := by kernel_rfl
  entry u s k := by
    generalize hR : M.entry s k = R
    kgen h : M.entry s k with r
    rw [h] at hR; subst hR
    cases r with
    | ok r => cases r with | mk e s' => cases e <;> kernel_rfl
    | panic => kernel_rfl
    | ub => kernel_rfl
  eq u s t := by kernel_rfl
  clone u s := by kernel_rfl
  iter u s := ⟨valOf (meth (mapForeign M c veq d (decKey M) f) Progs.map (n + 40) "iter" ((apiRep M).store s) [] [] u), by kernel_rfl,
    .of_eq (i := mapIters M ⟨0, [.field "storage"]⟩ (.iter (M.iter.init s))) (by kernel_rfl) .mapEq⟩
  keys u s := ⟨valOf (meth (mapForeign M c veq d (decKey M) f) Progs.map (n + 40) "keys" ((apiRep M).store s) [] [] u), by kernel_rfl,
    .of_eq (i := mapIters M ⟨0, [.field "storage"]⟩ (.it "keys" s)) (by kernel_rfl) .mapEq⟩
  values u s := ⟨valOf (meth (mapForeign M c veq d (decKey M) f) Progs.map (n + 40) "values" ((apiRep M).store s) [] [] u), by kernel_rfl,
    .of_eq (i := mapIters M ⟨0, [.field "storage"]⟩ (.it "values" s)) (by kernel_rfl) .mapEq⟩
  iter_mut u s := ⟨valOf (meth (mapForeign M c veq d (decKey M) f) Progs.map (n + 40) "iter_mut" ((apiRep M).store s) [] [] u), by kernel_rfl,
    .of_eq (i := mapIters M ⟨0, [.field "storage"]⟩ (.it "iter_mut" s)) (by kernel_rfl) .mapEq⟩
  values_mut u s := ⟨valOf (meth (mapForeign M c veq d (decKey M) f) Progs.map (n + 40) "values_mut" ((apiRep M).store s) [] [] u), by kernel_rfl,
    .of_eq (i := mapIters M ⟨0, [.field "storage"]⟩ (.it "values_mut" s)) (by kernel_rfl) .mapEq⟩
  into_iter u s := ⟨valOf (meth (mapForeign M c veq d (decKey M) f) Progs.map (n + 40) "into_iter" ((apiRep M).store s) [] [] u), by kernel_rfl,
    .of_eq (i := mapIters M ⟨0, [.field "storage"]⟩ (.it "into_iter" s)) (by kernel_rfl) .mapEq⟩
  new u := by kernel_rfl
  default u := by kernel_rfl
  ref_into_iter u s := ⟨.handle ⟨0, [.field "storage"]⟩ (.iter (M.iter.init s)), by kernel_rfl,
    .of_eq (i := mapIters M ⟨0, [.field "storage"]⟩ (.iter (M.iter.init s))) (by kernel_rfl) .mapEq⟩
  mut_into_iter u s := ⟨.handle ⟨0, [.field "storage"]⟩ (.it "iter_mut" s), by kernel_rfl,
    .of_eq (i := mapIters M ⟨0, [.field "storage"]⟩ (.it "iter_mut" s)) (by kernel_rfl) .mapEq⟩
  from_iter u l := mapApi_from_iter M n c veq f d u l

end

end FixedMap.Rust
