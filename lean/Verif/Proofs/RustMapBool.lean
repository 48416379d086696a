import Verif.Proofs.RustTactic

/-!
# src/map/storage/boolean.rs does what `boolMap` does
-/

set_option autoImplicit false
set_option linter.unusedSimpArgs false

namespace FixedMap.Rust

variable {K V σ : Type} (M : MapStorage K V)

/-- boolean.rs and option_bucket.rs. -/
def mapBoolProg : Prog := Progs.mapBoolean.and Progs.optionBucket

section
variable (n : Nat) (c : V → V) (veq : V → V → Bool) (f : σ → Bool → V → σ × V × Option Bool) (d : Val (MX M)) (u : σ) (s : BoolMapSt V)

theorem mapBool_retain : meth (mapForeign M c veq d decBool f) mapBoolProg (n + 40) "retain" ((boolRep M).store s) [] [.user] u =
    (let r := (boolMap V).retain f s u
     if r.panicked then .panic (some ((boolRep M).store r.s)) r.st (r.dropped.map (boolRep M).dropped)
     else .ok .unit (some ((boolRep M).store r.s)) r.st (r.dropped.map (boolRep M).dropped)) := by
  generalize hR : (boolMap V).retain f s u = R
  obtain ⟨t, fl⟩ := s
  cases t <;> cases fl
  · subst hR; kernel_rfl
  · rename_i v
    kgen h : f u false v with r
    cases r with | mk u' r => cases r with | mk v' o =>
    cases o with | none => (simp [retainSlot, RetainOut.andThen, RetainOut.mapS, h] at hR; subst hR; kernel_rfl) | some b => cases b <;> (simp [retainSlot, RetainOut.andThen, RetainOut.mapS, h] at hR; subst hR; kernel_rfl)
  · rename_i v
    kgen h : f u true v with r
    cases r with | mk u' r => cases r with | mk v' o =>
    cases o with | none => (simp [retainSlot, RetainOut.andThen, RetainOut.mapS, h] at hR; subst hR; kernel_rfl) | some b => cases b <;> (simp [retainSlot, RetainOut.andThen, RetainOut.mapS, h] at hR; subst hR; kernel_rfl)
  · rename_i v w
    kgen h : f u true v with r
    cases r with | mk u' r => cases r with | mk v' o =>
    cases o with | none => (simp [retainSlot, RetainOut.andThen, RetainOut.mapS, h] at hR; subst hR; kernel_rfl) | some b =>
    cases b
    all_goals
      kgen h' : f u' false w with r
      cases r with | mk u' r => cases r with | mk v' o =>
      cases o with | none => (simp [retainSlot, RetainOut.andThen, RetainOut.mapS, h, h'] at hR; subst hR; kernel_rfl) | some b => cases b <;> (simp [retainSlot, RetainOut.andThen, RetainOut.mapS, h, h'] at hR; subst hR; kernel_rfl)

theorem mapBool_eq (t : BoolMapSt V) : meth (mapForeign M c veq d decBool f) mapBoolProg (n + 40) "eq" ((boolRep M).store s) [(boolRep M).store t] [.ref ⟨1, []⟩] u =
    .ok (.bool ((boolMap V).eq veq s t)) (some ((boolRep M).store s)) u [] := by
  generalize hR : (boolMap V).eq veq s t = R
  obtain ⟨s1, s2⟩ := s
  obtain ⟨t1, t2⟩ := t
  rcases s1 with _ | a <;> rcases t1 with _ | a' <;> rcases s2 with _ | b <;> rcases t2 with _ | b'
  all_goals first
    | (subst hR; krfl)
    | (kgen h : veq a a' with r
       cases r <;> first
         | (simp [optBeq, h] at hR; subst hR; krfl)
         | (kgen h' : veq b b' with r
            cases r <;> (simp [optBeq, h, h'] at hR; subst hR; krfl)))
    | (kgen h : veq b b' with r
       cases r <;> (simp [optBeq, h] at hR; subst hR; krfl))

/-- `next` of `Keys`. -/
theorem mapBool_next (b : BitVec 8) :
    obs (iterRun (mapForeign M c veq d decBool f) mapBoolProg (n + 40) u "Keys" "Iterator" "next" (.struct "Keys" [("bits", .u8 b)])) =
      .ok (optV .bool (boolBitsNext b).1) (some (.struct "Keys" [("bits", .u8 (boolBitsNext b).2)])) u [] := by
  generalize hR : boolBitsNext b = R
  unfold boolBitsNext at hR
  kgen h : (b &&& TRUE_BIT != 0) with r
  cases r
  · kgen h' : (b &&& FALSE_BIT != 0) with r
    cases r <;> (simp_all; subst hR; kernel_rfl)
  · simp_all; subst hR; kernel_rfl

/-- `next_back` of `Keys`. -/
theorem mapBool_nextBack (b : BitVec 8) :
    obs (iterRun (mapForeign M c veq d decBool f) mapBoolProg (n + 40) u "Keys" "DoubleEndedIterator" "next_back" (.struct "Keys" [("bits", .u8 b)])) =
      .ok (optV .bool (boolBitsNextBack b).1) (some (.struct "Keys" [("bits", .u8 (boolBitsNextBack b).2)])) u [] := by
  generalize hR : boolBitsNextBack b = R
  unfold boolBitsNextBack at hR
  kgen h : (b &&& FALSE_BIT != 0) with r
  cases r
  · kgen h' : (b &&& TRUE_BIT != 0) with r
    cases r <;> (simp_all; subst hR; kernel_rfl)
  · simp_all; subst hR; kernel_rfl

/-- `Keys` goes through its bits as `boolBitsIter` does. -/
theorem mapBool_keys (b : BitVec 8) :
    SameIter Val.bool ⟨ownIter (mapForeign M c veq d decBool f) mapBoolProg (n + 40) u "Keys", .struct "Keys" [("bits", .u8 b)]⟩ boolBitsIter b := by
  refine ⟨fun v b => v = .struct "Keys" [("bits", .u8 b)], rfl, ?_⟩
  rintro _ b rfl
  have h := of_obs (mapBool_next M n c veq f d u b)
  have h' := of_obs (mapBool_nextBack M n c veq f d u b)
  refine ⟨⟨(congrArg unOpt h.1).trans (unOpt_optV _ _), h.2⟩, ?_, ?_⟩
  · kernel_rfl
  · have e : (ownIter (mapForeign M c veq d decBool f) mapBoolProg (n + 40) u "Keys").nextBack? = some fun v =>
        (unOpt (result (iterRun (mapForeign M c veq d decBool f) mapBoolProg (n + 40) u "Keys" "DoubleEndedIterator" "next_back" v)),
          cell0 (iterRun (mapForeign M c veq d decBool f) mapBoolProg (n + 40) u "Keys" "DoubleEndedIterator" "next_back" v)) := by kernel_rfl
    show BackEq _ _ (ownIter (mapForeign M c veq d decBool f) mapBoolProg (n + 40) u "Keys").nextBack? boolBitsIter.nextBack? _ _
    rw [e]
    exact ⟨(congrArg unOpt h'.1).trans (unOpt_optV _ _), h'.2⟩

end

theorem mapBoolText (n : Nat) (c : V → V) (veq : V → V → Bool) (f : σ → Bool → V → σ × V × Option Bool) (d : Val (MX M)) :
    MapText mapBoolProg (n + 40) (boolMap V) (boolRep M) (mapForeign M c veq d decBool f) (mapIters M) c veq f where
  empty u := by kernel_rfl
  len u s := by obtain ⟨t, fl⟩ := s; cases t <;> cases fl <;> kernel_rfl
  is_empty u s := by obtain ⟨t, fl⟩ := s; cases t <;> cases fl <;> kernel_rfl
  insert u s k v := by obtain ⟨t, fl⟩ := s; cases k <;> cases t <;> cases fl <;> kernel_rfl
  contains_key u s k := by obtain ⟨t, fl⟩ := s; cases k <;> cases t <;> cases fl <;> kernel_rfl
  get u s k := by obtain ⟨t, fl⟩ := s; cases k <;> cases t <;> cases fl <;> kernel_rfl
  get_mut u s k := by obtain ⟨t, fl⟩ := s; cases k <;> cases t <;> cases fl <;> kernel_rfl
  read s a := by obtain ⟨t, fl⟩ := s; cases a <;> cases t <;> cases fl <;> kernel_rfl
  write s a v w h := by
    obtain ⟨t, fl⟩ := s
    cases a <;> cases t <;> cases fl <;> first | (cases h; done) | kernel_rfl
  remove u s k := by obtain ⟨t, fl⟩ := s; cases k <;> cases t <;> cases fl <;> kernel_rfl
  retain := mapBool_retain M n c veq f d
  clear u s := by obtain ⟨t, fl⟩ := s; cases t <;> cases fl <;> kernel_rfl
  entry u s k := by obtain ⟨t, fl⟩ := s; cases k <;> cases t <;> cases fl <;> kernel_rfl
  occ_key u s e := by obtain ⟨k, i⟩ := e; cases i <;> kernel_rfl
  occ_get u s e := by obtain ⟨t, fl⟩ := s; obtain ⟨k, i⟩ := e; cases i <;> cases t <;> cases fl <;> kernel_rfl
  occ_get_mut u s e := by obtain ⟨t, fl⟩ := s; obtain ⟨k, i⟩ := e; cases i <;> cases t <;> cases fl <;> kernel_rfl
  occ_into_mut u s e := by obtain ⟨t, fl⟩ := s; obtain ⟨k, i⟩ := e; cases i <;> cases t <;> cases fl <;> kernel_rfl
  occ_insert u s e v := by obtain ⟨t, fl⟩ := s; obtain ⟨k, i⟩ := e; cases i <;> cases t <;> cases fl <;> kernel_rfl
  occ_remove u s e := by obtain ⟨t, fl⟩ := s; obtain ⟨k, i⟩ := e; cases i <;> cases t <;> cases fl <;> kernel_rfl
  vac_key u s e := by obtain ⟨k, i⟩ := e; cases i <;> kernel_rfl
  vac_insert u s e v := by obtain ⟨t, fl⟩ := s; obtain ⟨k, i⟩ := e; cases i <;> cases t <;> cases fl <;> kernel_rfl
  eq u s t := mapBool_eq M n c veq f d u s t
  clone u s := by obtain ⟨t, fl⟩ := s; cases t <;> cases fl <;> kernel_rfl
  iter u s := by
    refine ⟨valOf (meth (mapForeign M c veq d decBool f) mapBoolProg (n + 40) "iter" ((boolRep M).store s) [] [] u), ?_, ?_⟩
    all_goals obtain ⟨t, fl⟩ := s
    · cases t <;> cases fl <;> kernel_rfl
    · refine .of_eq (i := AnyIter.chain (AnyIter.map (app (mapForeign M c veq d decBool f) mapBoolProg (n + 40) u (arg (arg (valOf (meth (mapForeign M c veq d decBool f) mapBoolProg (n + 40) "iter" ((boolRep M).store ⟨t, fl⟩) [] [] u)) 0) 0)) ⟨optionIter _, t.map fun v => .shared (vl v)⟩) (AnyIter.map (app (mapForeign M c veq d decBool f) mapBoolProg (n + 40) u (arg (arg (valOf (meth (mapForeign M c veq d decBool f) mapBoolProg (n + 40) "iter" ((boolRep M).store ⟨t, fl⟩) [] [] u)) 1) 0)) ⟨optionIter _, fl.map fun v => .shared (vl v)⟩)) ?_ ?_
      · cases t <;> cases fl <;> kernel_rfl
      · refine .chain (.map (.option rfl) fun a => ?_) (.map (.option rfl) fun a => ?_)
        · cases t <;> cases fl <;> kernel_rfl
        · cases t <;> cases fl <;> kernel_rfl
  keys u s := by
    refine ⟨.struct "Keys" [("bits", .u8 ((boolMap V).keys.init s))], ?_, ?_⟩
    · obtain ⟨t, fl⟩ := s
      cases t <;> cases fl <;> kernel_rfl
    · exact .of_eq (by kernel_rfl) (mapBool_keys M n c veq f d u ((boolMap V).keys.init s))
  values u s := by
    refine ⟨valOf (meth (mapForeign M c veq d decBool f) mapBoolProg (n + 40) "values" ((boolRep M).store s) [] [] u), ?_, ?_⟩
    all_goals obtain ⟨t, fl⟩ := s
    · cases t <;> cases fl <;> kernel_rfl
    · refine .of_eq (i := AnyIter.chain ⟨optionIter _, t.map fun v => .shared (vl v)⟩ ⟨optionIter _, fl.map fun v => .shared (vl v)⟩) ?_ ?_
      · cases t <;> cases fl <;> kernel_rfl
      · refine .chain (.option ?_) (.option ?_)
        · cases t <;> rfl
        · cases fl <;> rfl
  iter_mut u s := by
    refine ⟨valOf (meth (mapForeign M c veq d decBool f) mapBoolProg (n + 40) "iter_mut" ((boolRep M).store s) [] [] u), ?_, ?_⟩
    all_goals obtain ⟨t, fl⟩ := s
    · cases t <;> cases fl <;> kernel_rfl
    · refine .of_eq (i := AnyIter.chain (AnyIter.map (app (mapForeign M c veq d decBool f) mapBoolProg (n + 40) u (arg (arg (valOf (meth (mapForeign M c veq d decBool f) mapBoolProg (n + 40) "iter_mut" ((boolRep M).store ⟨t, fl⟩) [] [] u)) 0) 0)) ⟨optionIter _, (t.map fun _ => true).map fun a => .ref ⟨0, (boolRep M).addr a⟩⟩) (AnyIter.map (app (mapForeign M c veq d decBool f) mapBoolProg (n + 40) u (arg (arg (valOf (meth (mapForeign M c veq d decBool f) mapBoolProg (n + 40) "iter_mut" ((boolRep M).store ⟨t, fl⟩) [] [] u)) 1) 0)) ⟨optionIter _, (fl.map fun _ => false).map fun a => .ref ⟨0, (boolRep M).addr a⟩⟩)) ?_ ?_
      · cases t <;> cases fl <;> kernel_rfl
      · refine .chain (.map (.option rfl) fun a => ?_) (.map (.option rfl) fun a => ?_)
        · cases t <;> cases fl <;> kernel_rfl
        · cases t <;> cases fl <;> kernel_rfl
  values_mut u s := by
    refine ⟨valOf (meth (mapForeign M c veq d decBool f) mapBoolProg (n + 40) "values_mut" ((boolRep M).store s) [] [] u), ?_, ?_⟩
    all_goals obtain ⟨t, fl⟩ := s
    · cases t <;> cases fl <;> kernel_rfl
    · refine .of_eq (i := AnyIter.chain ⟨optionIter _, (t.map fun _ => true).map fun a => .ref ⟨0, (boolRep M).addr a⟩⟩ ⟨optionIter _, (fl.map fun _ => false).map fun a => .ref ⟨0, (boolRep M).addr a⟩⟩) ?_ ?_
      · cases t <;> cases fl <;> kernel_rfl
      · refine .chain (.option ?_) (.option ?_)
        · cases t <;> rfl
        · cases fl <;> rfl
  into_iter u s := by
    refine ⟨valOf (meth (mapForeign M c veq d decBool f) mapBoolProg (n + 40) "into_iter" ((boolRep M).store s) [] [] u), ?_, ?_⟩
    all_goals obtain ⟨t, fl⟩ := s
    · cases t <;> cases fl <;> kernel_rfl
    · refine .of_eq (i := AnyIter.chain (AnyIter.map (app (mapForeign M c veq d decBool f) mapBoolProg (n + 40) u (arg (arg (valOf (meth (mapForeign M c veq d decBool f) mapBoolProg (n + 40) "into_iter" ((boolRep M).store ⟨t, fl⟩) [] [] u)) 0) 0)) ⟨optionIter _, t.map vl⟩) (AnyIter.map (app (mapForeign M c veq d decBool f) mapBoolProg (n + 40) u (arg (arg (valOf (meth (mapForeign M c veq d decBool f) mapBoolProg (n + 40) "into_iter" ((boolRep M).store ⟨t, fl⟩) [] [] u)) 1) 0)) ⟨optionIter _, fl.map vl⟩)) ?_ ?_
      · cases t <;> cases fl <;> kernel_rfl
      · refine .chain (.map (.option rfl) fun a => ?_) (.map (.option rfl) fun a => ?_)
        · cases t <;> cases fl <;> kernel_rfl
        · cases t <;> cases fl <;> kernel_rfl

end FixedMap.Rust
