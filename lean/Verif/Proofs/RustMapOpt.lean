import Verif.Proofs.RustTactic

/-!
# src/map/storage/option.rs does what `optMap` does

Over any storage `M` for the key type inside of the `Option`.
-/

set_option autoImplicit false
set_option linter.unusedSimpArgs false

namespace FixedMap.Rust

variable {K V σ : Type} (M : MapStorage K V)

/-- option.rs and option_bucket.rs. -/
def mapOptProg : Prog := Progs.mapOption.and Progs.optionBucket

section
variable (n : Nat) (c : V → V) (veq : V → V → Bool) (f : σ → Option K → V → σ × V × Option Bool) (d : Val (MX M)) (u : σ) (sm : M.S) (nn : Option V)

theorem mapOpt_is_empty : meth (mapForeign M c veq d (decOpt M) f) mapOptProg (n + 40) "is_empty" ((optRep M).store ⟨sm, nn⟩) [] [] u =
    .ok (.bool ((optMap M).isEmpty ⟨sm, nn⟩)) (some ((optRep M).store ⟨sm, nn⟩)) u [] := by
  generalize hR : (optMap M).isEmpty ⟨sm, nn⟩ = R
  cases nn <;> (kgen h : M.isEmpty sm with r; cases r <;> (simp [h] at hR; subst hR; kernel_rfl))

theorem mapOpt_retain : meth (mapForeign M c veq d (decOpt M) f) mapOptProg (n + 40) "retain" ((optRep M).store ⟨sm, nn⟩) [] [.user] u =
    (let r := (optMap M).retain f ⟨sm, nn⟩ u
     if r.panicked then .panic (some ((optRep M).store r.s)) r.st (r.dropped.map (optRep M).dropped)
     else .ok .unit (some ((optRep M).store r.s)) r.st (r.dropped.map (optRep M).dropped)) := by
  generalize hR : (optMap M).retain f ⟨sm, nn⟩ u = R
  kgen_fn hg : closureFn with g
  have e : g = fun st k v => f st (some k) v := by
    rw [← hg]
    funext u' k v
    kgen h : f u' (some k) v with r
    cases r with | mk u' r => cases r with | mk v' o =>
    refine Eq.trans ?_ h.symm
    cases o with | none => kernel_rfl | some b => kernel_rfl
  subst e
  clear hg
  kgen h : M.retain (fun st k v => f st (some k) v) sm u with r
  cases r with | mk s1 u1 p1 d1 =>
  cases p1 with
  | true => simp [RetainOut.andThen, RetainOut.mapS, h] at hR; subst hR; kernel_rfl
  | false =>
    cases nn with
    | none => simp [RetainOut.andThen, RetainOut.mapS, retainSlot, h] at hR; subst hR; kernel_rfl
    | some v =>
      kgen h' : f u1 none v with r
      cases r with | mk u' r => cases r with | mk v' o =>
      cases o with
      | none => simp [RetainOut.andThen, RetainOut.mapS, retainSlot, h, h'] at hR; subst hR; kernel_rfl
      | some b =>
        cases b with
        | true => simp [RetainOut.andThen, RetainOut.mapS, retainSlot, h, h'] at hR; subst hR; kernel_rfl
        | false =>
          simp [RetainOut.andThen, RetainOut.mapS, retainSlot, h, h'] at hR
          subst hR
          refine Eq.trans (b := .ok .unit (some ((optRep M).store ⟨s1, none⟩)) u' (d1.map MX.val ++ [MX.val v'])) ?_ ?_
          · kernel_rfl
          · simp [optRep]

theorem mapOpt_eq (sm' : M.S) (nn' : Option V) : meth (mapForeign M c veq d (decOpt M) f) mapOptProg (n + 40) "eq" ((optRep M).store ⟨sm, nn⟩) [(optRep M).store ⟨sm', nn'⟩] [.ref ⟨1, []⟩] u =
    .ok (.bool ((optMap M).eq veq ⟨sm, nn⟩ ⟨sm', nn'⟩)) (some ((optRep M).store ⟨sm, nn⟩)) u [] := by
  generalize hR : (optMap M).eq veq ⟨sm, nn⟩ ⟨sm', nn'⟩ = R
  rcases nn with _ | a <;> rcases nn' with _ | b
  all_goals first
    | (subst hR; krfl)
    | (kgen h : M.eq veq sm sm' with r
       cases r <;> (simp [optBeq, h] at hR; subst hR; krfl))
    | (kgen h : veq a b with r
       cases r <;> first
         | (simp [optBeq, h] at hR; subst hR; krfl)
         | (kgen h' : M.eq veq sm sm' with r
            cases r <;> (simp [optBeq, h, h'] at hR; subst hR; krfl)))

end

theorem mapOptText (n : Nat) (c : V → V) (veq : V → V → Bool) (f : σ → Option K → V → σ × V × Option Bool) (d : Val (MX M)) :
    MapText mapOptProg (n + 40) (optMap M) (optRep M) (mapForeign M c veq d (decOpt M) f) (mapIters M) c veq f where
  empty u := by kernel_rfl
  len u := fun ⟨sm, nn⟩ => by cases nn <;> kernel_rfl
  is_empty u := fun ⟨sm, nn⟩ => mapOpt_is_empty M n c veq f d u sm nn
  insert u := fun ⟨sm, nn⟩ k v => by cases k <;> cases nn <;> kernel_rfl
  contains_key u := fun ⟨sm, nn⟩ k => by cases k <;> cases nn <;> kernel_rfl
  get u := fun ⟨sm, nn⟩ k => by cases k <;> cases nn <;> kernel_rfl
  get_mut u := fun ⟨sm, nn⟩ k => by
    cases k with
    | none => cases nn <;> kernel_rfl
    | some k =>
      refine Eq.trans (b := .ok (optV (fun a => .ref ⟨0, (optRep M).addr (some a)⟩) (M.getMut sm k)) (some ((optRep M).store ⟨sm, nn⟩)) u []) ?_ ?_
      · kernel_rfl
      · simp [optV_map]
  read := fun ⟨sm, nn⟩ a => by
    cases a with
    | none => cases nn <;> kernel_rfl
    | some a =>
      generalize hR : (optMap M).read ⟨sm, nn⟩ (some a) = R
      kgen h : M.read sm a with r
      cases r <;> (simp [h] at hR; subst hR; kernel_rfl)
  write := fun ⟨sm, nn⟩ a v w h => by
    cases a with
    | none =>
      cases nn
      · cases h
      · kernel_rfl
    | some a =>
      kgen h' : M.read sm a with r
      cases h.symm.trans h'
      kernel_rfl
  remove u := fun ⟨sm, nn⟩ k => by cases k <;> cases nn <;> kernel_rfl
  retain u := fun ⟨sm, nn⟩ => mapOpt_retain M n c veq f d u sm nn
  clear u := fun ⟨sm, nn⟩ => by
    refine Eq.trans (b := .ok .unit (some ((optRep M).store ⟨(M.clear sm).1, none⟩)) u ((M.clear sm).2.map MX.val ++ (dropSlot nn).map MX.val)) ?_ ?_
    · cases nn
      · simp only [dropSlot, Option.toList_none, List.map_nil, List.append_nil]; kernel_rfl
      · kernel_rfl
    · simp [optRep]
  entry u := fun ⟨sm, nn⟩ k => by
    cases k with
    | none => cases nn <;> kernel_rfl
    | some k =>
      generalize hR : (optMap M).entry ⟨sm, nn⟩ (some k) = R
      kgen h : M.entry sm k with r
      cases r with
      | ok r =>
        cases r with | mk e s' =>
        cases e <;> (simp [OptMapSt.entry, Res.map, h] at hR; subst hR; kernel_rfl)
      | panic => simp [OptMapSt.entry, Res.map, h] at hR; subst hR; kernel_rfl
      | ub => simp [OptMapSt.entry, Res.map, h] at hR; subst hR; kernel_rfl
  occ_key u s e := by cases e <;> kernel_rfl
  occ_get u := fun ⟨sm, nn⟩ e => by
    cases e with
    | none => cases nn <;> kernel_rfl
    | some e =>
      generalize hR : (optMap M).occGet (.some e) ⟨sm, nn⟩ = R
      kgen h : M.occGet e sm with r
      cases r <;> (simp [Res.map, h] at hR; subst hR; kernel_rfl)
  occ_get_mut u := fun ⟨sm, nn⟩ e => by
    cases e with
    | none => cases nn <;> kernel_rfl
    | some e =>
      generalize hR : (optMap M).occGetMut (.some e) ⟨sm, nn⟩ = R
      kgen h : M.occGetMut e sm with r
      cases r <;> (simp [Res.map, h] at hR; subst hR; kernel_rfl)
  occ_into_mut u := fun ⟨sm, nn⟩ e => by
    cases e with
    | none => cases nn <;> kernel_rfl
    | some e =>
      generalize hR : (optMap M).occIntoMut (.some e) ⟨sm, nn⟩ = R
      kgen h : M.occIntoMut e sm with r
      cases r <;> (simp [Res.map, h] at hR; subst hR; kernel_rfl)
  occ_insert u := fun ⟨sm, nn⟩ e v => by
    cases e with
    | none => cases nn <;> kernel_rfl
    | some e =>
      generalize hR : (optMap M).occInsert (.some e) ⟨sm, nn⟩ v = R
      kgen h : M.occInsert e sm v with r
      cases r <;> (simp [Res.map, h] at hR; subst hR; kernel_rfl)
  occ_remove u := fun ⟨sm, nn⟩ e => by
    cases e with
    | none => cases nn <;> kernel_rfl
    | some e =>
      generalize hR : (optMap M).occRemove (.some e) ⟨sm, nn⟩ = R
      kgen h : M.occRemove e sm with r
      cases r <;> (simp [Res.map, h] at hR; subst hR; kernel_rfl)
  vac_key u s e := by cases e <;> kernel_rfl
  vac_insert u := fun ⟨sm, nn⟩ e v => by
    cases e with
    | none => cases nn <;> kernel_rfl
    | some e =>
      generalize hR : (optMap M).vacInsert (.some e) ⟨sm, nn⟩ v = R
      kgen h : M.vacInsert e sm v with r
      cases r <;> (simp [Res.map, h] at hR; subst hR; kernel_rfl)
  eq u := fun ⟨sm, nn⟩ ⟨sm', nn'⟩ => mapOpt_eq M n c veq f d u sm nn sm' nn'
  clone u := fun ⟨sm, nn⟩ => by cases nn <;> kernel_rfl
  iter u := fun ⟨sm, nn⟩ => by
    refine ⟨valOf (meth (mapForeign M c veq d (decOpt M) f) mapOptProg (n + 40) "iter" ((optRep M).store ⟨sm, nn⟩) [] [] u), ?_, ?_⟩
    · cases nn <;> kernel_rfl
    · refine .of_eq (i := AnyIter.chain (AnyIter.map (app (mapForeign M c veq d (decOpt M) f) mapOptProg (n + 40) u (arg (arg (valOf (meth (mapForeign M c veq d (decOpt M) f) mapOptProg (n + 40) "iter" ((optRep M).store ⟨sm, nn⟩) [] [] u)) 0) 0)) (mapIters M ⟨0, [.field "some"]⟩ (.iter (M.iter.init sm)))) (AnyIter.map (app (mapForeign M c veq d (decOpt M) f) mapOptProg (n + 40) u (arg (arg (valOf (meth (mapForeign M c veq d (decOpt M) f) mapOptProg (n + 40) "iter" ((optRep M).store ⟨sm, nn⟩) [] [] u)) 1) 0)) ⟨optionIter _, nn.map fun v => .shared (vl v)⟩)) ?_ ?_
      · cases nn <;> kernel_rfl
      · refine .chain (.map .mapEq fun a => ?_) (.map (.option rfl) fun a => ?_)
        · cases nn <;> kernel_rfl
        · cases nn <;> kernel_rfl
  keys u := fun ⟨sm, nn⟩ => by
    refine ⟨valOf (meth (mapForeign M c veq d (decOpt M) f) mapOptProg (n + 40) "keys" ((optRep M).store ⟨sm, nn⟩) [] [] u), ?_, ?_⟩
    · cases nn <;> kernel_rfl
    · refine .of_eq (i := AnyIter.chain (AnyIter.map (app (mapForeign M c veq d (decOpt M) f) mapOptProg (n + 40) u (arg (arg (valOf (meth (mapForeign M c veq d (decOpt M) f) mapOptProg (n + 40) "keys" ((optRep M).store ⟨sm, nn⟩) [] [] u)) 0) 0)) (mapIters M ⟨0, [.field "some"]⟩ (.it "keys" sm))) ⟨optionIter _, if nn.isSome then some (optV ky none) else none⟩) ?_ ?_
      · cases nn <;> kernel_rfl
      · refine .chain (.map .mapEq fun a => ?_) (.option ?_)
        · cases nn <;> kernel_rfl
        · cases nn <;> rfl
  values u := fun ⟨sm, nn⟩ => by
    refine ⟨valOf (meth (mapForeign M c veq d (decOpt M) f) mapOptProg (n + 40) "values" ((optRep M).store ⟨sm, nn⟩) [] [] u), ?_, ?_⟩
    · cases nn <;> kernel_rfl
    · refine .of_eq (i := AnyIter.chain (mapIters M ⟨0, [.field "some"]⟩ (.it "values" sm)) ⟨optionIter _, nn.map fun v => .shared (vl v)⟩) ?_ ?_
      · cases nn <;> kernel_rfl
      · exact .chain .mapEq (.option rfl)
  iter_mut u := fun ⟨sm, nn⟩ => by
    refine ⟨valOf (meth (mapForeign M c veq d (decOpt M) f) mapOptProg (n + 40) "iter_mut" ((optRep M).store ⟨sm, nn⟩) [] [] u), ?_, ?_⟩
    · cases nn <;> kernel_rfl
    · refine .of_eq (i := AnyIter.chain (AnyIter.map (app (mapForeign M c veq d (decOpt M) f) mapOptProg (n + 40) u (arg (arg (valOf (meth (mapForeign M c veq d (decOpt M) f) mapOptProg (n + 40) "iter_mut" ((optRep M).store ⟨sm, nn⟩) [] [] u)) 0) 0)) (mapIters M ⟨0, [.field "some"]⟩ (.it "iter_mut" sm))) (AnyIter.map (app (mapForeign M c veq d (decOpt M) f) mapOptProg (n + 40) u (arg (arg (valOf (meth (mapForeign M c veq d (decOpt M) f) mapOptProg (n + 40) "iter_mut" ((optRep M).store ⟨sm, nn⟩) [] [] u)) 1) 0)) ⟨optionIter _, (nn.map fun _ => none).map fun a => .ref ⟨0, (optRep M).addr a⟩⟩)) ?_ ?_
      · cases nn <;> kernel_rfl
      · refine .chain (.map .mapEq fun a => ?_) (.map (.option rfl) fun a => ?_)
        · cases nn <;> kernel_rfl
        · cases nn <;> kernel_rfl
  values_mut u := fun ⟨sm, nn⟩ => by
    refine ⟨valOf (meth (mapForeign M c veq d (decOpt M) f) mapOptProg (n + 40) "values_mut" ((optRep M).store ⟨sm, nn⟩) [] [] u), ?_, ?_⟩
    · cases nn <;> kernel_rfl
    · refine .of_eq (i := AnyIter.chain (mapIters M ⟨0, [.field "some"]⟩ (.it "values_mut" sm)) ⟨optionIter _, (nn.map fun _ => none).map fun a => .ref ⟨0, (optRep M).addr a⟩⟩) ?_ ?_
      · cases nn <;> kernel_rfl
      · exact .chain (.mapMap fun _ => rfl) (.option rfl)
  into_iter u := fun ⟨sm, nn⟩ => by
    refine ⟨valOf (meth (mapForeign M c veq d (decOpt M) f) mapOptProg (n + 40) "into_iter" ((optRep M).store ⟨sm, nn⟩) [] [] u), ?_, ?_⟩
    · cases nn <;> kernel_rfl
    · refine .of_eq (i := AnyIter.chain (AnyIter.map (app (mapForeign M c veq d (decOpt M) f) mapOptProg (n + 40) u (arg (arg (valOf (meth (mapForeign M c veq d (decOpt M) f) mapOptProg (n + 40) "into_iter" ((optRep M).store ⟨sm, nn⟩) [] [] u)) 0) 0)) (mapIters M ⟨0, [.field "some"]⟩ (.it "into_iter" sm))) (AnyIter.map (app (mapForeign M c veq d (decOpt M) f) mapOptProg (n + 40) u (arg (arg (valOf (meth (mapForeign M c veq d (decOpt M) f) mapOptProg (n + 40) "into_iter" ((optRep M).store ⟨sm, nn⟩) [] [] u)) 1) 0)) ⟨optionIter _, nn.map vl⟩)) ?_ ?_
      · cases nn <;> kernel_rfl
      · refine .chain (.map .mapEq fun a => ?_) (.map (.option rfl) fun a => ?_)
        · cases nn <;> kernel_rfl
        · cases nn <;> kernel_rfl

end FixedMap.Rust
