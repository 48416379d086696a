import Verif.Proofs.RustTactic
import Verif.Spec.RustApi

/-!
# The serde impls of src/map.rs and src/set.rs do what Text.lean says
-/

set_option autoImplicit false
set_option linter.unusedSimpArgs false

namespace FixedMap.Rust

/-- The loop of a function: the statement after the first `let`. -/
def loopOf (P : Prog) (ty name : String) : Expr :=
  match P.fns.find? fun f => f.name == name && f.ty == ty with
  | some f => match f.body with
    | .letIn _ _ (.seq (.letIn _ _ l) _) => l
    | .letIn _ _ (.seq l _) => l
    | _ => .unit
  | none => .unit

/-- What follows the loop. -/
def afterLoop (P : Prog) (ty name : String) : Expr :=
  match P.fns.find? fun f => f.name == name && f.ty == ty with
  | some f => match f.body with
    | .letIn _ _ (.seq _ e) => e
    | _ => .unit
  | none => .unit

section
variable {K V E Out σ : Type} (M : MapStorage K V)

/-! ## `visit_map` -/

theorem visitMap_loop (u : σ) (ret k : Cont (DX E M) σ) (a : Val (DX E M)) (l : List (Except E (K × V))) : ∀ (m : Nat) (s : M.S) (dr : List V), l.length + 25 ≤ m →
    match Map.visitMap.go M s dr l with
    | .ok r =>
      (sem (deForeign E M) Progs.map m).val ⟨"MapVisitor", [("map", 2), ("visitor", 1), ("self", 0)]⟩ ret (loopOf Progs.map "MapVisitor" "visit_map")
        ⟨[a, .ext (.calls l), mapV (.ext (.store s))], u, dr.map .val⟩ k = k .unit ⟨[a, .ext (.calls []), mapV (.ext (.store r.1))], u, r.2.map .val⟩
    | .error e => ∃ l' s' d',
      (sem (deForeign E M) Progs.map m).val ⟨"MapVisitor", [("map", 2), ("visitor", 1), ("self", 0)]⟩ ret (loopOf Progs.map "MapVisitor" "visit_map")
        ⟨[a, .ext (.calls l), mapV (.ext (.store s))], u, dr.map .val⟩ k = ret (.con "Result" "Err" [.ext (.err e)]) ⟨[a, .ext (.calls l'), mapV (.ext (.store s'))], u, d'⟩ := by
  induction l with
  | nil =>
    intro m s dr hm
    obtain ⟨m, rfl⟩ := Nat.exists_eq_add_of_le hm
    rw [Nat.add_comm]
    exact (by kernel_rfl : _ = _)
  | cons p l ih =>
    intro m s dr hm
    obtain ⟨m, rfl⟩ : ∃ m', m = m' + 25 + 1 := ⟨m - 26, by simp only [List.length_cons] at hm; omega⟩
    cases p with
    | error e =>
      simp only [Map.visitMap.go]
      refine ⟨l, s, dr.map .val, ?_⟩
      kernel_rfl
    | ok p =>
      simp only [Map.visitMap.go]
      have ih := ih (m + 25) (Map.insert M s p.1 p.2).2 (dr ++ (Map.insert M s p.1 p.2).1.toList) (by simp only [List.length_cons] at hm; omega)
      have e : (sem (deForeign E M) Progs.map (m + 25 + 1)).val ⟨"MapVisitor", [("map", 2), ("visitor", 1), ("self", 0)]⟩ ret (loopOf Progs.map "MapVisitor" "visit_map")
          ⟨[a, .ext (.calls (.ok p :: l)), mapV (.ext (.store s))], u, dr.map .val⟩ k =
        (sem (deForeign E M) Progs.map (m + 25)).val ⟨"MapVisitor", [("map", 2), ("visitor", 1), ("self", 0)]⟩ ret (loopOf Progs.map "MapVisitor" "visit_map")
          ⟨[a, .ext (.calls l), mapV (.ext (.store (Map.insert M s p.1 p.2).2))], u, (dr ++ (Map.insert M s p.1 p.2).1.toList).map .val⟩ k := by
        generalize hR : Map.insert M s p.1 p.2 = R
        kgen h : M.insert s p.1 p.2 with r
        cases r with | mk o s' =>
        cases o with
        | none =>
          simp only [Map.insert, h] at hR; subst hR
          simp only [Option.toList_none, List.append_nil]
          kernel_rfl
        | some w =>
          simp only [Map.insert, h] at hR; subst hR
          simp only [Option.toList_some, List.map_append, List.map_cons, List.map_nil]
          kernel_rfl
      rw [e]
      exact ih

theorem visitMapText (n : Nat) : VisitMapText M Progs.map (n + 40) E σ := by
  intro u l
  rw [show n + 40 + l.length = n + l.length + 40 from by omega]
  let F := deForeign (σ := σ) E M
  let kf : Cont (DX E M) σ := fun v st => .ok v (cut 0 (dropVars F st [("visitor", 1), ("self", 0)]))
  have e : obs (run F Progs.map (n + l.length + 40) "MapVisitor" "Visitor" "visit_map" [.unit, .ext (.calls l)] ⟨[], u, []⟩) =
      obs ((sem F Progs.map (n + l.length + 38)).val ⟨"MapVisitor", [("map", 2), ("visitor", 1), ("self", 0)]⟩ kf (loopOf Progs.map "MapVisitor" "visit_map")
        ⟨[.unit, .ext (.calls l), mapV (.ext (.store M.empty))], u, []⟩
        fun v st => (sem F Progs.map (n + l.length + 38)).val ⟨"MapVisitor", [("map", 2), ("visitor", 1), ("self", 0)]⟩ kf (afterLoop Progs.map "MapVisitor" "visit_map")
          (addDropped st (dropVal F v)) kf) := by kernel_rfl
  have h := visitMap_loop M u kf (fun v st => (sem F Progs.map (n + l.length + 38)).val ⟨"MapVisitor", [("map", 2), ("visitor", 1), ("self", 0)]⟩ kf (afterLoop Progs.map "MapVisitor" "visit_map")
          (addDropped st (dropVal F v)) kf) .unit l (n + l.length + 38) M.empty [] (by omega)
  rw [show Map.visitMap M l = Map.visitMap.go M M.empty [] l from rfl]
  generalize hg : Map.visitMap.go M M.empty [] l = g at h
  cases g with
  | ok r =>
    simp only [] at h ⊢
    refine e.trans ((congrArg obs h).trans ?_)
    kernel_rfl
  | error x =>
    obtain ⟨l', s', d', h⟩ := h
    exact ⟨d', e.trans ((congrArg obs h).trans (by kernel_rfl))⟩

/-! ## `serialize` -/

theorem serialize_loop (Z : MapSerializer K V E Out) (u : σ) (ret k : Cont (ZX M Z) σ) (a b c : Val (ZX M Z)) (q : Place (ZX M Z)) (n : Nat) :
    ∀ (m : Nat) (i : M.iter.I.St) (l : List (K × V)) (z : Z.St), n + 30 ≤ m → M.iter.I.drain n i = some l →
    match serializeEntries Z l z with
    | .ok z' => ∃ i',
      (sem (serForeign M Z) Progs.map m).val ⟨"Map", [("for", 4), ("map", 3), ("serializer", 2), ("self", 1)]⟩ ret (loopOf Progs.map "Map" "serialize")
        ⟨[a, b, c, .ext (.entries z), .handle q (.iter i)], u, []⟩ k = k .unit ⟨[a, b, c, .ext (.entries z'), .handle q (.iter i')], u, []⟩
    | .error e => ∃ z' i' p,
      (sem (serForeign M Z) Progs.map m).val ⟨"Map", [("for", 4), ("map", 3), ("serializer", 2), ("self", 1)]⟩ ret (loopOf Progs.map "Map" "serialize")
        ⟨[a, b, c, .ext (.entries z), .handle q (.iter i)], u, []⟩ k = ret (.con "Result" "Err" [.ext (.err e)]) ⟨[a, b, c, .ext (.entries z'), .handle q (.iter i'), .ext (.key (Prod.fst p)), .shared (.ext (.val p.2))], u, []⟩ := by
  induction n with
  | zero => intro m i l z _ h; cases h
  | succ n ih =>
    intro m i l z hm hd
    obtain ⟨m, rfl⟩ : ∃ m', m = m' + 30 + 1 := ⟨m - 31, by omega⟩
    rw [IterImpl.drain] at hd
    rcases hi : M.iter.I.next i with ⟨_ | p, i'⟩
    · rw [hi] at hd
      cases hd
      refine ⟨i', ?_⟩
      kgen h : M.iter.I.next i with r
      rw [hi] at h; subst h
      kernel_rfl
    · rw [hi] at hd
      obtain ⟨l', hl, rfl⟩ := Option.map_eq_some_iff.mp hd
      rcases hz : Z.serialize_entry z p.1 p.2 with e | z'
      · simp only [serializeEntries, hz]
        refine ⟨z, i', p, ?_⟩
        kgen h : M.iter.I.next i with r
        rw [hi] at h; subst h
        kgen h : Z.serialize_entry z p.1 p.2 with r
        rw [hz] at h; subst h
        kernel_rfl
      · simp only [serializeEntries, hz]
        have ih := ih (m + 30) i' l' z' (by omega) hl
        have e : (sem (serForeign M Z) Progs.map (m + 30 + 1)).val ⟨"Map", [("for", 4), ("map", 3), ("serializer", 2), ("self", 1)]⟩ ret (loopOf Progs.map "Map" "serialize")
            ⟨[a, b, c, .ext (.entries z), .handle q (.iter i)], u, []⟩ k =
          (sem (serForeign M Z) Progs.map (m + 30)).val ⟨"Map", [("for", 4), ("map", 3), ("serializer", 2), ("self", 1)]⟩ ret (loopOf Progs.map "Map" "serialize")
            ⟨[a, b, c, .ext (.entries z'), .handle q (.iter i')], u, []⟩ k := by
          kgen h : M.iter.I.next i with r
          rw [hi] at h; subst h
          kgen h : Z.serialize_entry z p.1 p.2 with r
          rw [hz] at h; subst h
          kernel_rfl
        rw [e]
        exact ih

theorem serializeText (Z : MapSerializer K V E Out) (n : Nat) : SerializeText M Progs.map (n + 40) Z σ := by
  intro u s n' r hs
  rw [show n + 40 + n' = n + n' + 40 from by omega]
  let F := serForeign (σ := σ) M Z
  unfold Map.serialize at hs
  cases hz : Z.serialize_map (some (Map.len M s)) with
  | error e =>
    rw [hz] at hs
    replace hz : Z.serialize_map (some (M.len s)) = .error e := hz
    cases hs
    kgen h : Z.serialize_map (some (M.len s)) with r
    rw [hz] at h; subst h
    kernel_rfl
  | ok z =>
    rw [hz] at hs
    replace hz : Z.serialize_map (some (M.len s)) = .ok z := hz
    obtain ⟨l, hl, rfl⟩ := Option.map_eq_some_iff.mp hs
    let kf : Cont (ZX M Z) σ := fun v st => .ok v (cut 1 (dropVars F st [("serializer", 2), ("self", 1)]))
    let kk : Cont (ZX M Z) σ := fun v st => (sem F Progs.map (n + n' + 38)).val ⟨"Map", [("map", 3), ("serializer", 2), ("self", 1)]⟩ kf (afterLoop Progs.map "Map" "serialize")
        (addDropped st (dropVal F v)) kf
    have e : obs (run F Progs.map (n + n' + 40) "Map" "Serialize" "serialize" [.ref self0, .ext .serializer] ⟨[mapV (.ext (.store s))], u, []⟩) =
        obs ((sem F Progs.map (n + n' + 37)).val ⟨"Map", [("for", 4), ("map", 3), ("serializer", 2), ("self", 1)]⟩ kf (loopOf Progs.map "Map" "serialize")
          ⟨[mapV (.ext (.store s)), .ref self0, .ext .serializer, .ext (.entries z), .handle ⟨0, [.field "storage"]⟩ (.iter (M.iter.init s))], u, []⟩ kk) := by
      kgen h : Z.serialize_map (some (M.len s)) with r
      rw [hz] at h; subst h
      kernel_rfl
    have h := serialize_loop M Z u kf kk (mapV (.ext (.store s))) (.ref self0) (.ext .serializer) ⟨0, [.field "storage"]⟩ n' (n + n' + 37) (M.iter.init s) l z (by omega) hl
    generalize hg : serializeEntries Z l z = g at h ⊢
    cases g with
    | ok z' =>
      obtain ⟨i', h⟩ := h
      refine e.trans ((congrArg obs h).trans ?_)
      show _ = Obs.ok (resultV _ _ (Z.finish z')) _ _ _
      generalize hR : Z.finish z' = R
      kgen h : Z.finish z' with r
      rw [h] at hR; subst hR
      cases r <;> kernel_rfl
    | error x =>
      obtain ⟨z', i', p, h⟩ := h
      exact e.trans ((congrArg obs h).trans (by kernel_rfl))

end

section
variable {T E Out σ : Type} (M : SetStorage T)

/-! ## `visit_seq` -/

theorem visitSeq_loop (u : σ) (ret k : Cont (SDX E M) σ) (a : Val (SDX E M)) (l : List (Except E T)) : ∀ (m : Nat) (s : M.S), l.length + 25 ≤ m →
    match FSet.visitSeq.go M s l with
    | .ok r =>
      (sem (setDeForeign E M) Progs.set m).val ⟨"SeqVisitor", [("set", 2), ("visitor", 1), ("self", 0)]⟩ ret (loopOf Progs.set "SeqVisitor" "visit_seq")
        ⟨[a, .ext (.calls l), setV (.ext (.store s))], u, []⟩ k = k .unit ⟨[a, .ext (.calls []), setV (.ext (.store r))], u, []⟩
    | .error e => ∃ l' s',
      (sem (setDeForeign E M) Progs.set m).val ⟨"SeqVisitor", [("set", 2), ("visitor", 1), ("self", 0)]⟩ ret (loopOf Progs.set "SeqVisitor" "visit_seq")
        ⟨[a, .ext (.calls l), setV (.ext (.store s))], u, []⟩ k = ret (.con "Result" "Err" [.ext (.err e)]) ⟨[a, .ext (.calls l'), setV (.ext (.store s'))], u, []⟩ := by
  induction l with
  | nil =>
    intro m s hm
    obtain ⟨m, rfl⟩ := Nat.exists_eq_add_of_le hm
    rw [Nat.add_comm]
    exact (by kernel_rfl : _ = _)
  | cons p l ih =>
    intro m s hm
    obtain ⟨m, rfl⟩ : ∃ m', m = m' + 25 + 1 := ⟨m - 26, by simp only [List.length_cons] at hm; omega⟩
    cases p with
    | error e =>
      simp only [FSet.visitSeq.go]
      refine ⟨l, s, ?_⟩
      kernel_rfl
    | ok p =>
      simp only [FSet.visitSeq.go]
      have ih := ih (m + 25) (FSet.insert M s p).2 (by simp only [List.length_cons] at hm; omega)
      have e : (sem (setDeForeign E M) Progs.set (m + 25 + 1)).val ⟨"SeqVisitor", [("set", 2), ("visitor", 1), ("self", 0)]⟩ ret (loopOf Progs.set "SeqVisitor" "visit_seq")
          ⟨[a, .ext (.calls (.ok p :: l)), setV (.ext (.store s))], u, []⟩ k =
        (sem (setDeForeign E M) Progs.set (m + 25)).val ⟨"SeqVisitor", [("set", 2), ("visitor", 1), ("self", 0)]⟩ ret (loopOf Progs.set "SeqVisitor" "visit_seq")
          ⟨[a, .ext (.calls l), setV (.ext (.store (FSet.insert M s p).2))], u, []⟩ k := by
        kgen h : M.insert s p with r
        subst h
        kernel_rfl
      rw [e]
      exact ih

theorem visitSeqText (n : Nat) : VisitSeqText M Progs.set (n + 40) E σ := by
  intro u l
  rw [show n + 40 + l.length = n + l.length + 40 from by omega]
  let F := setDeForeign (σ := σ) E M
  let kf : Cont (SDX E M) σ := fun v st => .ok v (cut 0 (dropVars F st [("visitor", 1), ("self", 0)]))
  have e : obs (run F Progs.set (n + l.length + 40) "SeqVisitor" "Visitor" "visit_seq" [.unit, .ext (.calls l)] ⟨[], u, []⟩) =
      obs ((sem F Progs.set (n + l.length + 38)).val ⟨"SeqVisitor", [("set", 2), ("visitor", 1), ("self", 0)]⟩ kf (loopOf Progs.set "SeqVisitor" "visit_seq")
        ⟨[.unit, .ext (.calls l), setV (.ext (.store M.empty))], u, []⟩
        fun v st => (sem F Progs.set (n + l.length + 38)).val ⟨"SeqVisitor", [("set", 2), ("visitor", 1), ("self", 0)]⟩ kf (afterLoop Progs.set "SeqVisitor" "visit_seq")
          (addDropped st (dropVal F v)) kf) := by kernel_rfl
  have h := visitSeq_loop M u kf (fun v st => (sem F Progs.set (n + l.length + 38)).val ⟨"SeqVisitor", [("set", 2), ("visitor", 1), ("self", 0)]⟩ kf (afterLoop Progs.set "SeqVisitor" "visit_seq")
          (addDropped st (dropVal F v)) kf) .unit l (n + l.length + 38) M.empty (by omega)
  rw [show FSet.visitSeq M l = FSet.visitSeq.go M M.empty l from rfl]
  generalize hg : FSet.visitSeq.go M M.empty l = g at h
  cases g with
  | ok r => exact e.trans ((congrArg obs h).trans (by kernel_rfl))
  | error x =>
    obtain ⟨l', s', h⟩ := h
    exact e.trans ((congrArg obs h).trans (by kernel_rfl))

/-! ## `serialize` -/

theorem setSerialize_loop (Z : SeqSerializer T E Out) (u : σ) (ret k : Cont (SZX M Z) σ) (a b c : Val (SZX M Z)) (q : Place (SZX M Z)) (n : Nat) :
    ∀ (m : Nat) (i : M.iter.I.St) (l : List T) (z : Z.St), n + 30 ≤ m → M.iter.I.drain n i = some l →
    match serializeElements Z l z with
    | .ok z' => ∃ i',
      (sem (setSerForeign M Z) Progs.set m).val ⟨"Set", [("for", 4), ("seq", 3), ("serializer", 2), ("self", 1)]⟩ ret (loopOf Progs.set "Set" "serialize")
        ⟨[a, b, c, .ext (.elems z), .handle q (.iter i)], u, []⟩ k = k .unit ⟨[a, b, c, .ext (.elems z'), .handle q (.iter i')], u, []⟩
    | .error e => ∃ z' i' p,
      (sem (setSerForeign M Z) Progs.set m).val ⟨"Set", [("for", 4), ("seq", 3), ("serializer", 2), ("self", 1)]⟩ ret (loopOf Progs.set "Set" "serialize")
        ⟨[a, b, c, .ext (.elems z), .handle q (.iter i)], u, []⟩ k = ret (.con "Result" "Err" [.ext (.err e)]) ⟨[a, b, c, .ext (.elems z'), .handle q (.iter i'), .ext (.key p)], u, []⟩ := by
  induction n with
  | zero => intro m i l z _ h; cases h
  | succ n ih =>
    intro m i l z hm hd
    obtain ⟨m, rfl⟩ : ∃ m', m = m' + 30 + 1 := ⟨m - 31, by omega⟩
    rw [IterImpl.drain] at hd
    rcases hi : M.iter.I.next i with ⟨_ | p, i'⟩
    · rw [hi] at hd
      cases hd
      refine ⟨i', ?_⟩
      kgen h : M.iter.I.next i with r
      rw [hi] at h; subst h
      kernel_rfl
    · rw [hi] at hd
      obtain ⟨l', hl, rfl⟩ := Option.map_eq_some_iff.mp hd
      rcases hz : Z.serialize_element z p with e | z'
      · simp only [serializeElements, hz]
        refine ⟨z, i', p, ?_⟩
        kgen h : M.iter.I.next i with r
        rw [hi] at h; subst h
        kgen h : Z.serialize_element z p with r
        rw [hz] at h; subst h
        kernel_rfl
      · simp only [serializeElements, hz]
        have ih := ih (m + 30) i' l' z' (by omega) hl
        have e : (sem (setSerForeign M Z) Progs.set (m + 30 + 1)).val ⟨"Set", [("for", 4), ("seq", 3), ("serializer", 2), ("self", 1)]⟩ ret (loopOf Progs.set "Set" "serialize")
            ⟨[a, b, c, .ext (.elems z), .handle q (.iter i)], u, []⟩ k =
          (sem (setSerForeign M Z) Progs.set (m + 30)).val ⟨"Set", [("for", 4), ("seq", 3), ("serializer", 2), ("self", 1)]⟩ ret (loopOf Progs.set "Set" "serialize")
            ⟨[a, b, c, .ext (.elems z'), .handle q (.iter i')], u, []⟩ k := by
          kgen h : M.iter.I.next i with r
          rw [hi] at h; subst h
          kgen h : Z.serialize_element z p with r
          rw [hz] at h; subst h
          kernel_rfl
        rw [e]
        exact ih

theorem setSerializeText (Z : SeqSerializer T E Out) (n : Nat) : SetSerializeText M Progs.set (n + 40) Z σ := by
  intro u s n' r hs
  rw [show n + 40 + n' = n + n' + 40 from by omega]
  let F := setSerForeign (σ := σ) M Z
  unfold FSet.serialize at hs
  cases hz : Z.serialize_seq (some (FSet.len M s)) with
  | error e =>
    rw [hz] at hs
    replace hz : Z.serialize_seq (some (M.len s)) = .error e := hz
    cases hs
    kgen h : Z.serialize_seq (some (M.len s)) with r
    rw [hz] at h; subst h
    kernel_rfl
  | ok z =>
    rw [hz] at hs
    replace hz : Z.serialize_seq (some (M.len s)) = .ok z := hz
    obtain ⟨l, hl, rfl⟩ := Option.map_eq_some_iff.mp hs
    let kf : Cont (SZX M Z) σ := fun v st => .ok v (cut 1 (dropVars F st [("serializer", 2), ("self", 1)]))
    let kk : Cont (SZX M Z) σ := fun v st => (sem F Progs.set (n + n' + 38)).val ⟨"Set", [("seq", 3), ("serializer", 2), ("self", 1)]⟩ kf (afterLoop Progs.set "Set" "serialize")
        (addDropped st (dropVal F v)) kf
    have e : obs (run F Progs.set (n + n' + 40) "Set" "Serialize" "serialize" [.ref self0, .ext .serializer] ⟨[setV (.ext (.store s))], u, []⟩) =
        obs ((sem F Progs.set (n + n' + 37)).val ⟨"Set", [("for", 4), ("seq", 3), ("serializer", 2), ("self", 1)]⟩ kf (loopOf Progs.set "Set" "serialize")
          ⟨[setV (.ext (.store s)), .ref self0, .ext .serializer, .ext (.elems z), .handle ⟨0, [.field "storage"]⟩ (.iter (M.iter.init s))], u, []⟩ kk) := by
      kgen h : Z.serialize_seq (some (M.len s)) with r
      rw [hz] at h; subst h
      kernel_rfl
    have h := setSerialize_loop M Z u kf kk (setV (.ext (.store s))) (.ref self0) (.ext .serializer) ⟨0, [.field "storage"]⟩ n' (n + n' + 37) (M.iter.init s) l z (by omega) hl
    generalize hg : serializeElements Z l z = g at h ⊢
    cases g with
    | ok z' =>
      obtain ⟨i', h⟩ := h
      refine e.trans ((congrArg obs h).trans ?_)
      show _ = Obs.ok (resultV _ _ (Z.finish z')) _ _ _
      generalize hR : Z.finish z' = R
      kgen h : Z.finish z' with r
      rw [h] at hR; subst hR
      cases r <;> kernel_rfl
    | error x =>
      obtain ⟨z', i', p, h⟩ := h
      exact e.trans ((congrArg obs h).trans (by kernel_rfl))

end

end FixedMap.Rust
