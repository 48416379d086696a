import Verif.Proofs.RustSerde

/-!
# src/set.rs and src/set/intersection.rs do what SetApi.lean says; operators and `Debug`
-/

set_option autoImplicit false
set_option linter.unusedSimpArgs false

namespace FixedMap.Rust

section
variable {T σ : Type} (M : SetStorage T) (n : Nat) (f : σ → T → σ × Option Bool) (d : Val (SX M))

theorem setApi_retain (u : σ) (s : M.S) : meth (setForeign M d (decElem M) f) Progs.set (n + 40) "retain" ((setRep M).store s) [] [.user] u =
    (let r := M.retain f s u
     if r.panicked then .panic (some ((setRep M).store r.s)) r.st [] else .ok .unit (some ((setRep M).store r.s)) r.st []) := by
  generalize hR : M.retain f s u = R
  kgen_fn hg : setClosureFn with g
  have e : g = f := by
    rw [← hg]
    funext u' k
    rcases hf : f u' k with ⟨u1, _ | b⟩
    · kgen h : f u' k with r
      rw [hf] at h; subst h
      kernel_rfl
    · kgen h : f u' k with r
      rw [hf] at h; subst h
      kernel_rfl
  subst e
  clear hg
  kgen h : M.retain g s u with r
  cases r with | mk s1 u1 p1 =>
  cases p1 with
  | true => rw [h] at hR; subst hR; kernel_rfl
  | false => rw [h] at hR; subst hR; kernel_rfl

theorem setApi_loop (u : σ) (ret k : Cont (SX M) σ) (a b : Val (SX M)) (q : Place (SX M)) (l : List T) : ∀ (m : Nat) (s : M.S), l.length + 25 ≤ m →
    (sem (setForeign M d (decElem M) f) Progs.set m).val ⟨"Set", [("for", 3), ("set", 1), ("iter", 0)]⟩ ret (loopOf Progs.set "Set" "from_iter")
      ⟨[a, setV (.ext (.store s)), b, .handle q (.elems l)], u, []⟩ k =
    k .unit ⟨[a, setV (.ext (.store (l.foldl (fun s v => (FSet.insert M s v).2) s))), b, .handle q (.elems [])], u, []⟩ := by
  induction l with
  | nil =>
    intro m s hm
    obtain ⟨m, rfl⟩ := Nat.exists_eq_add_of_le hm
    rw [Nat.add_comm]
    kernel_rfl
  | cons p l ih =>
    intro m s hm
    obtain ⟨m, rfl⟩ : ∃ m', m = m' + 25 + 1 := ⟨m - 26, by simp only [List.length_cons] at hm; omega⟩
    refine Eq.trans ?_ (ih (m + 25) (FSet.insert M s p).2 (by simp only [List.length_cons] at hm; omega))
    kgen h : M.insert s p with r
    subst h
    kernel_rfl

theorem setApi_from_iter (u : σ) (l : List T) :
    obs (run (setForeign M d (decElem M) f) Progs.set (n + 40 + l.length) "Set" "FromIterator" "from_iter" [.handle ⟨0, []⟩ (.elems l)] ⟨[], u, []⟩) =
      .ok ((setRep M).store (FSet.fromIter M l)) none u [] := by
  rw [show n + 40 + l.length = n + l.length + 40 from by omega]
  let F := setForeign M d (decElem M) f
  let kf : Cont (SX M) σ := fun v st => .ok v (cut 0 (dropVars F st [("iter", 0)]))
  refine Eq.trans (b := obs ((sem F Progs.set (n + l.length + 37)).val ⟨"Set", [("for", 3), ("set", 1), ("iter", 0)]⟩ kf (loopOf Progs.set "Set" "from_iter")
    ⟨[.handle ⟨0, []⟩ (.elems l), setV (.ext (.store M.empty)), .handle ⟨0, []⟩ (.elems l), .handle ⟨0, []⟩ (.elems l)], u, []⟩
    fun v st => (sem F Progs.set (n + l.length + 38)).val ⟨"Set", [("set", 1), ("iter", 0)]⟩ kf (.path ["set"]) (addDropped st (dropVal F v)) kf)) ?_ ?_
  · kernel_rfl
  · refine Eq.trans (congrArg obs (setApi_loop M f d u _ _ _ _ _ l (n + l.length + 37) M.empty (by omega))) ?_
    kernel_rfl

/-- The same loop with another cell in front: `from` calls `from_iter`. -/
theorem setApi_loop' (u : σ) (ret k : Cont (SX M) σ) (z a b : Val (SX M)) (q : Place (SX M)) (l : List T) : ∀ (m : Nat) (s : M.S), l.length + 25 ≤ m →
    (sem (setForeign M d (decElem M) f) Progs.set m).val ⟨"Set", [("for", 4), ("set", 2), ("iter", 1)]⟩ ret (loopOf Progs.set "Set" "from_iter")
      ⟨[z, a, setV (.ext (.store s)), b, .handle q (.elems l)], u, []⟩ k =
    k .unit ⟨[z, a, setV (.ext (.store (l.foldl (fun s v => (FSet.insert M s v).2) s))), b, .handle q (.elems [])], u, []⟩ := by
  induction l with
  | nil =>
    intro m s hm
    obtain ⟨m, rfl⟩ := Nat.exists_eq_add_of_le hm
    rw [Nat.add_comm]
    kernel_rfl
  | cons p l ih =>
    intro m s hm
    obtain ⟨m, rfl⟩ : ∃ m', m = m' + 25 + 1 := ⟨m - 26, by simp only [List.length_cons] at hm; omega⟩
    refine Eq.trans ?_ (ih (m + 25) (FSet.insert M s p).2 (by simp only [List.length_cons] at hm; omega))
    kgen h : M.insert s p with r
    subst h
    kernel_rfl

theorem setApi_from (u : σ) {N : Nat} (arr : Vector T N) :
    obs (run (setForeign M d (decElem M) f) Progs.set (n + 40 + N) "Set" "From" "from" [.handle ⟨0, []⟩ (.elems arr.toList)] ⟨[], u, []⟩) =
      .ok ((setRep M).store (FSet.fromArray M arr)) none u [] := by
  rw [show FSet.fromArray M arr = FSet.fromIter M arr.toList from rfl]
  have hN : arr.toList.length = N := arr.length_toList
  generalize arr.toList = l at hN
  subst hN
  rw [show n + 40 + l.length = n + l.length + 40 from by omega]
  let F := setForeign M d (decElem M) f
  let k0 : Cont (SX M) σ := fun v st => .ok v (cut 0 (dropVars F st [("arr", 0)]))
  let kf : Cont (SX M) σ := fun v st => k0 v (cut 1 (dropVars F st [("iter", 1)]))
  refine Eq.trans (b := obs ((sem F Progs.set (n + l.length + 36)).val ⟨"Set", [("for", 4), ("set", 2), ("iter", 1)]⟩ kf (loopOf Progs.set "Set" "from_iter")
    ⟨[.handle ⟨0, []⟩ (.elems l), .handle ⟨0, []⟩ (.elems l), setV (.ext (.store M.empty)), .handle ⟨0, []⟩ (.elems l), .handle ⟨0, []⟩ (.elems l)], u, []⟩
    fun v st => (sem F Progs.set (n + l.length + 37)).val ⟨"Set", [("set", 2), ("iter", 1)]⟩ kf (.path ["set"]) (addDropped st (dropVal F v)) kf)) ?_ ?_
  · kernel_rfl
  · refine Eq.trans (congrArg obs (setApi_loop' M f d u _ _ _ _ _ _ l (n + l.length + 36) M.empty (by omega))) ?_
    kernel_rfl

theorem setApiText : SetApiText M Progs.set (n + 40) (setForeign M d (decElem M) f) f where
  len u s := by kernel_rfl
  is_empty u s := by kernel_rfl
  insert u s k := by kernel_rfl
  contains u s k := by kernel_rfl
  remove u s k := by kernel_rfl
  retain u s := setApi_retain M n f d u s
  clear u s := by kernel_rfl
  eq u s t := by kernel_rfl
  clone u s := by kernel_rfl
  iter u s := ⟨valOf (meth (setForeign M d (decElem M) f) Progs.set (n + 40) "iter" ((setRep M).store s) [] [] u), by kernel_rfl,
    .of_eq (i := setIters M ⟨0, [.field "storage"]⟩ (.iter (M.iter.init s))) (by kernel_rfl) .mapEq⟩
  into_iter u s := ⟨valOf (meth (setForeign M d (decElem M) f) Progs.set (n + 40) "into_iter" ((setRep M).store s) [] [] u), by kernel_rfl,
    .of_eq (i := setIters M ⟨0, [.field "storage"]⟩ (.into (M.intoIter.init s))) (by kernel_rfl) .mapEq⟩
  new u := by kernel_rfl
  default u := by kernel_rfl
  ref_into_iter u s := ⟨.handle ⟨0, [.field "storage"]⟩ (.iter (M.iter.init s)), by kernel_rfl,
    .of_eq (i := setIters M ⟨0, [.field "storage"]⟩ (.iter (M.iter.init s))) (by kernel_rfl) .mapEq⟩
  from_iter u l := setApi_from_iter M n f d u l
  «from» u _ arr := setApi_from M n f d u arr
  intersection u a b := by
    show _ = Obs.ok (if M.len a ≤ M.len b then _ else _) _ _ _
    by_cases h : M.len a ≤ M.len b
    · rw [if_pos h]
      kgen h' : Nat.decLe (M.len a) (M.len b) with r
      cases r with
      | isTrue _ => kernel_rfl
      | isFalse g => exact absurd h g
    · rw [if_neg h]
      kgen h' : Nat.decLe (M.len a) (M.len b) with r
      cases r with
      | isTrue g => exact absurd g h
      | isFalse _ => kernel_rfl

end

/-! ## Intersections -/

/-- intersection.rs and set.rs. -/
def isectProg : Prog := Progs.setIntersection.and Progs.set

section
variable {T B σ : Type} (M : SetStorage T) (items : M.iter.I.St → List T) (f : B → T → B)

/-- The body of `next`. -/
def nextBody : Expr :=
  match Progs.setIntersection.fns.find? fun f => f.name == "next" with
  | some f => f.body
  | none => .unit

theorem isect_next_loop (u : σ) (ret k : Cont (IX B M) σ) (n : Nat) : ∀ (m : Nat) (st : Intersection M) (r : Option T × Intersection M), n + 30 ≤ m → Intersection.next M n st = some r →
    r.2.other = st.other ∧ ∃ rest,
    (sem (interForeign M items f) isectProg m).val ⟨"Intersection", [("self", 2)]⟩ ret nextBody ⟨[isectV M st, setV (.ext (.store st.other)), .ref ⟨0, []⟩], u, []⟩ k =
      ret (optV (fun x => .ext (.key x)) r.1) ⟨isectV M r.2 :: setV (.ext (.store st.other)) :: .ref ⟨0, []⟩ :: rest, u, []⟩ := by
  induction n with
  | zero => intro m st r _ h; cases h
  | succ n ih =>
    intro m st r hm hn
    obtain ⟨m, rfl⟩ : ∃ m', m = m' + 30 + 1 := ⟨m - 31, by omega⟩
    rw [Intersection.next] at hn
    rcases hi : M.iter.I.next st.iter with ⟨_ | x, i'⟩
    · rw [hi] at hn
      cases hn
      refine ⟨rfl, [], ?_⟩
      kgen h : M.iter.I.next st.iter with r
      rw [hi] at h; subst h
      kernel_rfl
    · rw [hi] at hn
      cases hc : FSet.contains M st.other x with
      | true =>
        simp only [hc, if_true] at hn
        cases hn
        replace hc : M.contains st.other x = true := hc
        refine ⟨rfl, [.ext (.key x)], ?_⟩
        kgen h : M.iter.I.next st.iter with r
        rw [hi] at h; subst h
        kgen h : M.contains st.other x with r
        rw [hc] at h; subst h
        kernel_rfl
      | false =>
        simp only [hc, if_false] at hn
        replace hc : M.contains st.other x = false := hc
        have ih := ih (m + 30) { st with iter := i' } r (by omega) hn
        refine ⟨ih.1, ?_⟩
        obtain ⟨-, rest, ih⟩ := ih
        refine ⟨rest, Eq.trans ?_ ih⟩
        kgen h : M.iter.I.next st.iter with r
        rw [hi] at h; subst h
        kgen h : M.contains st.other x with r
        rw [hc] at h; subst h
        kernel_rfl

/-- The closure that `fold` passes on. -/
def foldClo : Val (IX B M) :=
  match Progs.setIntersection.fns.find? fun f => f.name == "fold" with
  | some ⟨_, _, _, _, _, .method _ _ [_, .lambda ps body]⟩ => .closure ps body ⟨"Intersection", [("f", 4), ("init", 3), ("self", 2)]⟩
  | _ => .unit

theorem isect_fold_loop (u : σ) (n : Nat) (k : Cont (IX B M) σ) (st : Intersection M) (c : Val (IX B M)) (l : List T) : ∀ (b : B),
    foldCall M (sem (interForeign M items f) isectProg (n + 30)).call (foldClo M) k l (.ext (.acc b)) ⟨[isectV M st, setV (.ext (.store st.other)), isectV M st, c, .user], u, []⟩ =
      k (.ext (.acc (l.foldl (fun acc elt => if FSet.contains M st.other elt then f acc elt else acc) b))) ⟨[isectV M st, setV (.ext (.store st.other)), isectV M st, c, .user], u, []⟩ := by
  induction l with
  | nil => intro b; rfl
  | cons x l ih =>
    intro b
    refine Eq.trans ?_ (ih (if FSet.contains M st.other x then f b x else b))
    cases hc : FSet.contains M st.other x with
    | true =>
      replace hc : M.contains st.other x = true := hc
      kgen h : M.contains st.other x with r
      rw [hc] at h; subst h
      kernel_rfl
    | false =>
      replace hc : M.contains st.other x = false := hc
      kgen h : M.contains st.other x with r
      rw [hc] at h; subst h
      kernel_rfl

theorem intersectionText (n : Nat) : IntersectionText M isectProg (n + 40) items f σ where
  clone u st := by kernel_rfl
  next u st k r h := by
    obtain ⟨h1, rest, h2⟩ := isect_next_loop (σ := σ) M items f u (fun v st' => .ok v (cut 2 (dropVars (interForeign M items f) st' [("self", 2)])))
      (fun v st' => .ok v (cut 2 (dropVars (interForeign M items f) st' [("self", 2)]))) k (n + 40 + k) st r (by omega) h
    refine ⟨Eq.trans (congrArg obs h2) ?_, h1⟩
    kernel_rfl
  size_hint u st := by
    rcases hs : M.iter.I.sizeHint st.iter with ⟨lo, up⟩
    refine ⟨pair (.u8 0) (optV .nat up), ?_, ?_⟩
    · kgen h : M.iter.I.sizeHint st.iter with r
      rw [hs] at h; subst h
      cases up <;> kernel_rfl
    · rw [Intersection.sizeHint, hs]
      cases up <;> rfl
  fold u st b k l h hl := by
    refine ⟨_, by rw [Intersection.fold, h]; rfl, ?_⟩
    let kf : Cont (IX B M) σ := fun v st' => .ok v (cut 2 (dropVars (interForeign M items f) st' [("f", 4), ("init", 3), ("self", 2)]))
    have := isect_fold_loop (σ := σ) M items f u (n + 9) kf st .unit l b
    refine Eq.trans ?_ (Eq.trans (congrArg obs this) ?_)
    · kgen h : items st.iter with r
      rw [hl] at h; subst h
      kernel_rfl
    · kernel_rfl

end

/-! ## Operators -/

section
variable {S σ R : Type} (n : Nat) (cmp : String → S → S → Val (OX S)) (own : String → List S → Option S) (hash : S → σ → σ)

theorem mapOpText : OpText Progs.map (n + 40) mapV "Map" "debug_map" cmp own hash where
  partial_ord u a b m hm := by
    simp only [List.mem_cons, List.not_mem_nil, or_false] at hm
    rcases hm with rfl | rfl | rfl | rfl | rfl <;> kernel_rfl
  ord u a b := by kernel_rfl
  max_min u a b m hm := by
    simp only [List.mem_cons, List.not_mem_nil, or_false] at hm
    rcases hm with rfl | rfl
    · generalize hR : own "max" [a, b] = R
      kgen h : own "max" [a, b] with r
      rw [hR] at h; subst h
      cases R <;> kernel_rfl
    · generalize hR : own "min" [a, b] = R
      kgen h : own "min" [a, b] with r
      rw [hR] at h; subst h
      cases R <;> kernel_rfl
  clamp u a lo hi := by
    generalize hR : own "clamp" [a, lo, hi] = R
    kgen h : own "clamp" [a, lo, hi] with r
    rw [hR] at h; subst h
    cases R <;> kernel_rfl
  hashed u a := by kernel_rfl
  fmt u a := by kernel_rfl

theorem setOpText : OpText Progs.set (n + 40) setV "Set" "debug_set" cmp own hash where
  partial_ord u a b m hm := by
    simp only [List.mem_cons, List.not_mem_nil, or_false] at hm
    rcases hm with rfl | rfl | rfl | rfl | rfl <;> kernel_rfl
  ord u a b := by kernel_rfl
  max_min u a b m hm := by
    simp only [List.mem_cons, List.not_mem_nil, or_false] at hm
    rcases hm with rfl | rfl
    · generalize hR : own "max" [a, b] = R
      kgen h : own "max" [a, b] with r
      rw [hR] at h; subst h
      cases R <;> kernel_rfl
    · generalize hR : own "min" [a, b] = R
      kgen h : own "min" [a, b] with r
      rw [hR] at h; subst h
      cases R <;> kernel_rfl
  clamp u a lo hi := by
    generalize hR : own "clamp" [a, lo, hi] = R
    kgen h : own "clamp" [a, lo, hi] with r
    rw [hR] at h; subst h
    cases R <;> kernel_rfl
  hashed u a := by kernel_rfl
  fmt u a := by kernel_rfl

theorem isectDebugText : IsectDebugText isectProg (n + 40) cmp own hash := by
  intro u a b c
  kernel_rfl

theorem rawText (asRaw : S → R) (fromRaw : R → S) : RawText Progs.set (n + 40) asRaw fromRaw σ where
  as_raw u s := by kernel_rfl
  from_raw u r := by kernel_rfl

end

end FixedMap.Rust
