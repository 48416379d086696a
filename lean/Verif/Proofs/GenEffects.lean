import Verif.Proofs.GenMap
import Verif.Proofs.GenLoop
import Verif.Proofs.GenClone
import Verif.Proofs.GenUnits
import Verif.Spec.GenEffects

/-! # The emitted code with effects -/

set_option autoImplicit false
set_option linter.unusedSimpArgs false

namespace FixedMap.Gen

variable {H : HashbrownApi} {σ V : Type}

/-! ## Map storages -/

theorem map_drop (d : Dtor σ V) : ∀ (vs : List Variant) (i : Nat) (s : (mapFields H V (fieldsOf vs)).S) (x : Drops σ V),
    Struct.drop d (named i (mapCells (fieldsOf vs) s)) x = Fields.dropD H d (fieldsOf vs) s x
  | [], _, _, _ => rfl
  | ⟨_, none⟩ :: vs, i, (o, s), x => map_drop d vs (i + 1) s (x.slot d o)
  | ⟨_, some κ⟩ :: vs, i, (m, s), x => map_drop d vs (i + 1) s (κ.dropD H d m x)

theorem map_runClearD (d : Dtor σ V) : ∀ (vs : List Variant) (pre : List (Cell H V)) (s : (mapFields H V (fieldsOf vs)).S)
    (x : Drops σ V),
    runClearD d ((fieldsFrom pre.length vs).map mapClearStmt) (named 0 (pre ++ mapCells (fieldsOf vs) s)) x =
      some (named 0 (pre ++ mapCells (fieldsOf vs) (Fields.clearD H d (fieldsOf vs) s x).1),
        (Fields.clearD H d (fieldsOf vs) s x).2)
  | [], _, _, _ => rfl
  | ⟨_, none⟩ :: vs, pre, (o, s), x => by
    have hg := named_get pre (mapCells (fieldsOf vs) s) (.slot o) 0
    have hs := fun d => named_set pre (mapCells (fieldsOf vs) s) (.slot o) d 0
    have ih := map_runClearD d vs (pre ++ [.slot none]) s (x.slot d o)
    simp only [Nat.zero_add, List.append_assoc, List.cons_append, List.nil_append, List.length_append, List.length_cons,
      List.length_nil] at ih hg hs
    simp only [fieldsFrom, List.map_cons, runClearD, mapCells, fieldsOf, mapClearStmt, fieldAt, stmtClearD, hg, hs,
      Option.bind_some, Fields.clearD, Drops.next]
    split
    · exact ih
    · rfl
  | ⟨_, some κ⟩ :: vs, pre, (m, s), x => by
    have hg := named_get pre (mapCells (fieldsOf vs) s) (.map κ m) 0
    have hs := fun d => named_set pre (mapCells (fieldsOf vs) s) (.map κ m) d 0
    have ih := map_runClearD d vs (pre ++ [.map κ (κ.clearD H d m x).1]) s (κ.clearD H d m x).2
    simp only [Nat.zero_add, List.append_assoc, List.cons_append, List.nil_append, List.length_append, List.length_cons,
      List.length_nil] at ih hg hs
    simp only [fieldsFrom, List.map_cons, runClearD, mapCells, fieldsOf, mapClearStmt, fieldAt, stmtClearD, hg, hs,
      Option.bind_some, Cell.asMap_self, Option.map_some, Fields.clearD, Drops.next]
    split
    · exact ih
    · rfl

theorem retainSlotD_key {K L : Type} (d : Dtor σ V) (f : σ → K → V → σ × V × Option Bool) (g : σ → L → V → σ × V × Option Bool)
    (k : K) (l : L) (h : ∀ st v, f st k v = g st l v) (o : Option V) (st : σ) :
    retainSlotD d f k o st = retainSlotD d g l o st := by
  cases o <;> simp [retainSlotD, h]

theorem map_runRetainD (d : Dtor σ V) (func : σ → DynKey → V → σ × V × Option Bool) : ∀ (vs : List Variant)
    (pre : List (Cell H V)) (s : (mapFields H V (fieldsOf vs)).S) (st : σ),
    runRetainD d func ((fieldsFrom pre.length vs).map mapRetainStmt) (named 0 (pre ++ mapCells (fieldsOf vs) s)) st =
      some ((Fields.retainD H d (fieldsOf vs) (fun st k v => func st (dynKey vs k) v) s st).mapS
        fun s => named 0 (pre ++ mapCells (fieldsOf vs) s))
  | [], _, _, _ => rfl
  | ⟨x, none⟩ :: vs, pre, (o, s), st => by
    have hg := named_get pre (mapCells (fieldsOf vs) s) (.slot o) 0
    have hs := fun d => named_set pre (mapCells (fieldsOf vs) s) (.slot o) d 0
    have ih := fun o => map_runRetainD d func vs (pre ++ [.slot o]) s
    simp only [Nat.zero_add, List.append_assoc, List.cons_append, List.nil_append, List.length_append, List.length_cons,
      List.length_nil] at ih hg hs
    have hk : ∀ f : σ → Unit ⊕ (fieldsOf vs).Key → V → σ × V × Option Bool, (∀ st v, f st (.inl ()) v = func st ⟨x, none⟩ v) →
        retainSlotD d f (.inl ()) o st = retainSlotD d (fun st (_ : Unit) v => func st ⟨x, none⟩ v) () o st :=
      fun f hf => retainSlotD_key d f _ _ _ hf o st
    simp only [fieldsFrom, List.map_cons, runRetainD, mapCells, fieldsOf, mapRetainStmt, fieldAt, stmtRetainD, hg,
      Option.bind_some]
    show _ = some ((RetainOut.andThen (retainSlotD d (K := Unit ⊕ (fieldsOf vs).Key) _ (.inl ()) o st) _ _).mapS _)
    erw [hk _ fun _ _ => rfl]
    unfold RetainOut.andThen
    generalize retainSlotD d (fun st (_ : Unit) v => func st ⟨x, none⟩ v) () o st = r
    simp only [RetainOut.mapS, hs]
    cases r.panicked
    · simp only [Bool.false_eq_true, if_false, ih, Option.map_some, RetainOut.mapS]
      rfl
    · simp [mapCells]
  | ⟨x, some κ⟩ :: vs, pre, (m, s), st => by
    have hg := named_get pre (mapCells (fieldsOf vs) s) (.map κ m) 0
    have hs := fun d => named_set pre (mapCells (fieldsOf vs) s) (.map κ m) d 0
    have ih := fun m => map_runRetainD d func vs (pre ++ [.map κ m]) s
    simp only [Nat.zero_add, List.append_assoc, List.cons_append, List.nil_append, List.length_append, List.length_cons,
      List.length_nil] at ih hg hs
    simp only [fieldsFrom, List.map_cons, runRetainD, mapCells, fieldsOf, mapRetainStmt, fieldAt, stmtRetainD, hg,
      Option.bind_some, Cell.asMap_self, Option.map_some]
    show _ = some ((RetainOut.andThen (κ.retainD H d (fun st k v => func st ⟨x, some ⟨κ, k⟩⟩ v) m st) _ _).mapS _)
    unfold RetainOut.andThen
    generalize κ.retainD H d (fun st k v => func st ⟨x, some ⟨κ, k⟩⟩ v) m st = r
    simp only [RetainOut.mapS, hs]
    cases r.panicked
    · simp only [Bool.false_eq_true, if_false, ih, Option.map_some, RetainOut.mapS]
      rfl
    · simp [mapCells]

/-- The rest of a struct literal, after the operands `done`. -/
def Cloned.after {S : Type} (drop : Drops σ V → Drops σ V) (f : S → Struct H V) : Cloned σ V S → Cloned σ V (Struct H V)
  | .panicked x => .panicked (drop x)
  | .ok st s => .ok st (f s)

theorem map_cloneFieldsD (hc : TableCloneApi H V) (c : Cloner σ V) (d : Dtor σ V) : ∀ (vs : List Variant)
    (pre : List (Cell H V)) (s : (mapFields H V (fieldsOf vs)).S) (done : Struct H V) (st : σ),
    cloneFieldsD hc c d (named 0 (pre ++ mapCells (fieldsOf vs) s))
      (((fieldsFrom pre.length vs).map (·.name)).map fun n => (n, n)) done st =
      some (Cloned.after (done.drop d) (fun s => done.reverse ++ named pre.length (mapCells (fieldsOf vs) s))
        (Fields.cloneD H hc c d (fieldsOf vs) s st))
  | [], _, _, done, _ => by simp [fieldsFrom, cloneFieldsD, fieldsOf, Fields.cloneD, Cloned.after, mapCells, named]
  | ⟨_, none⟩ :: vs, pre, (o, s), done, st => by
    have ih := fun o' => map_cloneFieldsD hc c d vs (pre ++ [.slot o]) s ((fieldName pre.length, .slot o') :: done)
    have hg := named_get pre (mapCells (fieldsOf vs) s) (.slot o) 0
    simp only [Nat.zero_add, List.append_assoc, List.cons_append, List.nil_append, List.length_append, List.length_cons,
      List.length_nil, List.reverse_cons] at ih hg
    simp only [fieldsFrom, List.map_cons, fieldAt, cloneFieldsD, mapCells, fieldsOf, hg, Option.bind_some, Cell.cloneD,
      Fields.cloneD, Cloned.both]
    cases cloneSlot c o st with
    | panicked y => rfl
    | ok st' o' =>
      simp only [Cloned.map]
      rw [ih o' st']
      cases Fields.cloneD H hc c d (fieldsOf vs) s st' <;> rfl
  | ⟨_, some κ⟩ :: vs, pre, (m, s), done, st => by
    have ih := fun m' => map_cloneFieldsD hc c d vs (pre ++ [.map κ m]) s ((fieldName pre.length, .map κ m') :: done)
    have hg := named_get pre (mapCells (fieldsOf vs) s) (.map κ m) 0
    simp only [Nat.zero_add, List.append_assoc, List.cons_append, List.nil_append, List.length_append, List.length_cons,
      List.length_nil, List.reverse_cons] at ih hg
    simp only [fieldsFrom, List.map_cons, fieldAt, cloneFieldsD, mapCells, fieldsOf, hg, Option.bind_some, Cell.cloneD,
      Fields.cloneD, Cloned.both]
    cases κ.cloneD H hc c d m st with
    | panicked y => rfl
    | ok st' m' =>
      simp only [Cloned.map]
      rw [ih m' st']
      cases Fields.cloneD H hc c d (fieldsOf vs) s st' <;> rfl

theorem map_runEqD (e : EqFn σ V) : ∀ (vs : List Variant) (pre pre' : List (Cell H V)),
    pre.length = pre'.length → ∀ (s t : (mapFields H V (fieldsOf vs)).S) (st : σ),
    runEqD e (named 0 (pre ++ mapCells (fieldsOf vs) s)) (named 0 (pre' ++ mapCells (fieldsOf vs) t))
      ((fieldsFrom pre.length vs).map (·.name)) st =
      some (Fields.eqD H e (fieldsOf vs) s t st)
  | [], _, _, _, _, _, _ => rfl
  | ⟨_, none⟩ :: vs, pre, pre', hl, (o, s), (o', t), st => by
    have ih := map_runEqD e vs (pre ++ [.slot o]) (pre' ++ [.slot o']) (by simp [hl]) s t
    have hg := named_get pre (mapCells (fieldsOf vs) s) (.slot o) 0
    have hg' := named_get pre' (mapCells (fieldsOf vs) t) (.slot o') 0
    simp only [Nat.zero_add, List.append_assoc, List.cons_append, List.nil_append, List.length_append, List.length_cons,
      List.length_nil] at ih hg hg'
    rw [← hl] at hg'
    simp only [fieldsFrom, List.map_cons, fieldAt, runEqD, mapCells, fieldsOf, hg, hg', Fields.eqD, Cell.neD, unlessNe]
    rcases slotEqD e o o' st with ⟨st', _ | _ | _⟩ <;> first | rfl | exact ih st'
  | ⟨_, some κ⟩ :: vs, pre, pre', hl, (m, s), (m', t), st => by
    have ih := map_runEqD e vs (pre ++ [.map κ m]) (pre' ++ [.map κ m']) (by simp [hl]) s t
    have hg := named_get pre (mapCells (fieldsOf vs) s) (.map κ m) 0
    have hg' := named_get pre' (mapCells (fieldsOf vs) t) (.map κ m') 0
    simp only [Nat.zero_add, List.append_assoc, List.cons_append, List.nil_append, List.length_append, List.length_cons,
      List.length_nil] at ih hg hg'
    rw [← hl] at hg'
    simp only [fieldsFrom, List.map_cons, fieldAt, runEqD, mapCells, fieldsOf, hg, hg', Fields.eqD, Cell.neD, unlessNe,
      Cell.asMap_self, Option.map_some]
    rcases κ.eqD H e m m' st with ⟨st', _ | _ | _⟩ <;> first | rfl | exact ih st'

/-! ## Owning iterators -/

theorem sim_into : ∀ (vs : List Variant) (i : Nat), Sim (mapPiece .intoIter) i vs
    (mapCells (H := H) (V := V) (fieldsOf vs)) (mapFields H V (fieldsOf vs)).intoIter
    (fun p => .entry (dynKey vs p.1) (.val p.2)) (intoCells i (fieldsOf vs))
  | [], i => Sim.nil _ i _ _
  | ⟨x, none⟩ :: vs, i =>
    Sim.cons (mapPiece_ok .intoIter)
      (head_intoIter_slot i x .val id (fun o => by cases o <;> rfl) (fun v : V => ((.inl () : (fieldsOf (⟨x, none⟩ :: vs)).Key), v)) _ (fun _ => rfl))
      (Sim.map (fun p : (fieldsOf vs).Key × V => ((.inr p.1 : (fieldsOf (⟨x, none⟩ :: vs)).Key), p.2)) (sim_into vs (i + 1)))
  | ⟨x, some κ⟩ :: vs, i =>
    Sim.cons (mapPiece_ok .intoIter)
      (head_intoIter_elem i x κ (fun p : κ.Key × V => ((.inl p.1 : (fieldsOf (⟨x, some κ⟩ :: vs)).Key), p.2)) _ (fun _ => rfl))
      (Sim.map (fun p : (fieldsOf vs).Key × V => ((.inr p.1 : (fieldsOf (⟨x, some κ⟩ :: vs)).Key), p.2)) (sim_into vs (i + 1)))

theorem into_drop (held : HeldApi H V) (d : Dtor σ V) : ∀ (fs : Fields) (i : Nat) (st : (mapFields H V fs).intoIter.St)
    (x : Drops σ V),
    (inamed i (intoCells i fs st)).foldl (fun x p => p.2.drop held d x) x = Fields.dropIntoIter H held d fs st x
  | .nil, _, _, _ => rfl
  | .simple fs, i, (none, st), x => into_drop held d fs (i + 1) st x
  | .simple fs, i, (some v, st), x => into_drop held d fs (i + 1) st (x.value d v)
  | .complex κ fs, i, (m, st), x => into_drop held d fs (i + 1) st (κ.dropIntoIter H held d m x)

/-- As `Sim.does`, with the state after the calls. -/
theorem Sim.reaches {P : Piece} (hP : P.Ok) {S α : Type} {vs : List Variant} {cells : S → List (Cell H V)}
    {F : StepOf S α} {out : α → Out H V} {rep : F.St → List (ICell H V)} (h : Sim P 0 vs cells F out rep) (s : S) :
    ∃ n, ∀ fuel, n ≤ fuel → ∀ ds, ((P.code (collect vs).fields).make (named 0 (cells s))).bind
      ((P.code (collect vs).fields).runSt fuel ds) =
        (F.toIter.I.run ds (F.toIter.init s)).map fun r => (r.1.map (Option.map out), toVal rep r.2) := by
  have hlen : (fieldsFrom 0 vs).length = vs.length := by
    have : ∀ (vs : List Variant) i, (fieldsFrom i vs).length = vs.length := by
      intro vs; induction vs with
      | nil => intro i; rfl
      | cons v vs ih => intro i; simp [fieldsFrom, ih]
    exact this vs 0
  have hrun : ∀ (fuel : Nat) (ds : List Dir) (st : LoopSt F.St), st.stop - st.start < fuel →
      (P.code (fieldsFrom 0 vs)).runSt fuel ds (toVal rep st) =
        (F.toIter.I.run ds st).map fun r => (r.1.map (Option.map out), toVal rep r.2) := by
    intro fuel ds
    induction ds with
    | nil => intro st _; rfl
    | cons d ds ih =>
      intro st hf
      cases d with
      | front =>
        have h1 := runNext_sim ((fieldsFrom 0 vs).map P.next) F rep out
          (runArms_sim P.next hP.next vs rep out F.next h.length h.next) _ fuel st rfl hf
        have h2 := ih (F.loopNext (st.stop - st.start) st).2 (Nat.lt_of_le_of_lt (loopNext_le F _ st) hf)
        show ((runNext ((fieldsFrom 0 vs).map P.next) fuel (toVal rep st)).bind fun p => _) = _
        rw [h1, Option.bind_some]
        refine (congrArg (Option.map _) h2).trans ?_
        show Option.map _ (Option.map _ _) = Option.map _ (Option.map _ _)
        rw [Option.map_map, Option.map_map]
        rfl
      | back =>
        have hb := h.bounds
        cases hnb : F.nextBack? with
        | none =>
          have hd : (P.code (fieldsFrom 0 vs)).doubleEnded H V = false := by
            rw [hnb] at hb; exact hb.symm
          have h2 : F.toIter.I.step .back st = none := by
            simp only [IterImpl.step, StepOf.toIter, hnb, Option.map_none]
          simp only [IterCode.runSt, IterCode.step, hd, IterImpl.run]
          rw [h2]
          rfl
        | some nb =>
          have hd : (P.code (fieldsFrom 0 vs)).doubleEnded H V = true := by
            rw [hnb] at hb; exact hb.symm
          have h1 := runNextBack_sim ((fieldsFrom 0 vs).map P.nextBack) nb rep out
            (runArms_sim P.nextBack hP.nextBack vs rep out nb h.length (h.nextBack nb hnb)) _ fuel st rfl hf
          have h2 := ih (loopNextBack nb (st.stop - st.start) st).2 (Nat.lt_of_le_of_lt (loopNextBack_le nb _ st) hf)
          have h3 : F.toIter.I.step .back st = some (loopNextBack nb (st.stop - st.start) st) := by
            simp only [IterImpl.step, StepOf.toIter, hnb, Option.map_some]
          have h4 : (P.code (fieldsFrom 0 vs)).step fuel .back (toVal rep st) =
              runNextBack ((fieldsFrom 0 vs).map P.nextBack) fuel (toVal rep st) := by
            simp only [IterCode.step, hd, if_true]; rfl
          simp only [IterCode.runSt, h4, h1, Option.bind_some, IterImpl.run]
          rw [h3]
          refine (congrArg (Option.map _) h2).trans ?_
          show Option.map _ (Option.map _ _) = Option.map _ (Option.map _ _)
          rw [Option.map_map, Option.map_map]
          rfl
  refine ⟨vs.length + 1, fun fuel hf ds => ?_⟩
  have hi := h.init [] s rfl
  have ht := h.types (F.init s)
  rw [collect_fields]
  have hm : (P.code (fieldsFrom 0 vs)).make (named 0 (cells s)) = some (toVal rep (F.toIter.init s)) := by
    simp only [List.nil_append] at hi
    refine (congrArg (Option.bind · _) hi).trans ((if_pos ht).trans ?_)
    show some (⟨0, (fieldsFrom 0 vs).length, _⟩ : IterVal H V) = some (⟨0, F.count, _⟩ : IterVal H V)
    rw [h.count, hlen]
    rfl
  rw [hm, Option.bind_some]
  refine hrun fuel ds _ ?_
  show F.count - 0 < fuel
  rw [h.count]
  omega

mutual
theorem cloneIntoIterD_isSome (held : HeldApi H V) (c : Cloner σ V) (d : Dtor σ V) :
    (κ : KeyTy) → (KeyTy.cloneIntoIterD H held c d κ).isSome = κ.hashFree
  | .bool => rfl
  | .unit => rfl
  | .prim _ => rfl
  | .units _ => rfl
  | .bitset _ _ _ => rfl
  | .opt κ => Option.isSome_map.trans (cloneIntoIterD_isSome held c d κ)
  | .enum fs => Option.isSome_map.trans (fieldsCloneIntoIterD_isSome held c d fs)
theorem fieldsCloneIntoIterD_isSome (held : HeldApi H V) (c : Cloner σ V) (d : Dtor σ V) :
    (fs : Fields) → (Fields.cloneIntoIterD H held c d fs).isSome = fs.hashFree
  | .nil => rfl
  | .simple fs => Option.isSome_map.trans (fieldsCloneIntoIterD_isSome held c d fs)
  | .complex κ fs => by
    have h1 := cloneIntoIterD_isSome held c d κ
    have h2 := fieldsCloneIntoIterD_isSome held c d fs
    rw [Fields.hashFree, ← h1, ← h2, Fields.cloneIntoIterD]
    cases KeyTy.cloneIntoIterD H held c d κ with
    | none => rfl
    | some g => exact Option.isSome_map
end

/-- The rest of a struct literal, after the operands `done`. -/
def Cloned.afterI {S : Type} (drop : Drops σ V → Drops σ V) (f : S → IStruct H V) : Cloned σ V S → Cloned σ V (IStruct H V)
  | .panicked x => .panicked (drop x)
  | .ok st s => .ok st (f s)

theorem into_cloneFieldsD (held : HeldApi H V) (c : Cloner σ V) (d : Dtor σ V) : ∀ (vs : List Variant)
    (f : (mapFields H V (fieldsOf vs)).intoIter.St → σ → Cloned σ V (mapFields H V (fieldsOf vs)).intoIter.St),
    Fields.cloneIntoIterD H held c d (fieldsOf vs) = some f →
    ∀ (pre : List (ICell H V)) (s : (mapFields H V (fieldsOf vs)).intoIter.St) (done : IStruct H V) (st : σ),
    cloneIterFieldsD held c d (inamed 0 (pre ++ intoCells pre.length (fieldsOf vs) s))
      (((fieldsFrom pre.length vs).map (·.name)).map fun n => (n, n)) done st =
      some (Cloned.afterI (fun x => done.foldl (fun y p => p.2.drop held d y) x)
        (fun s => done.reverse ++ inamed pre.length (intoCells pre.length (fieldsOf vs) s)) (f s st))
  | [], f, hf, _, s, done, st => by
    cases hf
    simp [fieldsFrom, cloneIterFieldsD, fieldsOf, Cloned.afterI, intoCells, inamed]
  | ⟨x, none⟩ :: vs, f, hf, pre, s, done, st => by
    obtain ⟨g, hg', rfl⟩ := Option.map_eq_some_iff.1 hf
    revert s
    show ∀ s : Option V × (mapFields H V (fieldsOf vs)).intoIter.St, _
    intro ⟨o, s⟩
    have ih := fun o' : Option V => into_cloneFieldsD held c d vs g hg' (pre ++ [.opt (o.map .val)]) s
      ((fieldName pre.length, .opt (o'.map .val)) :: done)
    have hg := inamed_get pre (intoCells (pre.length + 1) (fieldsOf vs) s) (.opt (o.map .val)) 0
    simp only [Nat.zero_add, List.append_assoc, List.cons_append, List.nil_append, List.length_append, List.length_cons,
      List.length_nil, List.reverse_cons] at ih hg
    have hc : (ICell.opt (o.map Ref.val) : ICell H V).cloneD held c d st =
        some ((cloneSlot c o st).map fun o => .opt (o.map .val)) := by cases o <;> rfl
    simp only [fieldsFrom, List.map_cons, fieldAt, cloneIterFieldsD, intoCells, fieldsOf, hg, Option.bind_some, hc,
      Cloned.both]
    cases cloneSlot c o st with
    | panicked y => rfl
    | ok st' o' =>
      simp only [Cloned.map]
      rw [ih o' st']
      have hd : ∀ y, (ICell.opt (o'.map Ref.val) : ICell H V).drop held d y = y.slot d o' := by intro y; cases o' <;> rfl
      cases g s st' with
      | panicked y => simp only [Cloned.afterI, List.foldl_cons, hd]
      | ok st2 t => rfl
  | ⟨x, some κ⟩ :: vs, f, hf, pre, s, done, st => by
    obtain ⟨g1, hg1, hf⟩ := Option.bind_eq_some_iff.1 hf
    obtain ⟨g, hg', rfl⟩ := Option.map_eq_some_iff.1 hf
    revert s
    show ∀ s : (mapStorage H V κ).intoIter.I.St × (mapFields H V (fieldsOf vs)).intoIter.St, _
    intro ⟨m, s⟩
    have ih := fun m' => into_cloneFieldsD held c d vs g hg' (pre ++ [.map κ .intoIter (fieldName pre.length) m]) s
      ((fieldName pre.length, .map κ .intoIter (fieldName pre.length) m') :: done)
    have hg := inamed_get pre (intoCells (pre.length + 1) (fieldsOf vs) s) (.map κ .intoIter (fieldName pre.length) m) 0
    simp only [Nat.zero_add, List.append_assoc, List.cons_append, List.nil_append, List.length_append, List.length_cons,
      List.length_nil, List.reverse_cons] at ih hg
    simp only [fieldsFrom, List.map_cons, fieldAt, cloneIterFieldsD, intoCells, fieldsOf, hg, Option.bind_some, ICell.cloneD,
      hg1, Option.map_some, Cloned.both]
    cases g1 m st with
    | panicked y => rfl
    | ok st' m' =>
      simp only [Cloned.map]
      rw [ih m' st']
      cases g s st' <;> rfl

end FixedMap.Gen

namespace FixedMap.GenUnits

variable {σ V : Type}

theorem slots_drop (d : Dtor σ V) {n : Nat} (s : UnitsSt n V) (x : Drops σ V) : Data.drop d (slots s) x = x.array d s.toList := by
  simp only [Data.drop, slots, List.foldl_map, Drops.array]
  rfl

theorem runRetainD_eq (vs : List String) (d : Dtor σ V) (func : σ → String → V → σ × V × Option Bool) {env : Env V}
    (h : Binds env vs.length) : ∀ (is : List (Fin vs.length)) (s : Vector (Option V) vs.length) (st : σ),
    runRetainD d func env (is.map fun i => (Gen.fieldName i.val, vs[i])) (slots s) st =
      some ((unitsRetainD d (fun st i v => func st vs[i] v) is s st).mapS slots)
  | [], _, _ => rfl
  | i :: is, s, st => by
    simp only [List.map_cons, runRetainD, elemOf_slots s h, unitsRetainD]
    have hr : retainSlotD d func vs[i] s[i] st = retainSlotD d (fun st i v => func st vs[i] v) i s[i] st := rfl
    rw [hr]
    generalize retainSlotD d (fun st i v => func st vs[i] v) i s[i] st = r
    rw [slots_set]
    cases hp : r.panicked with
    | true => rfl
    | false =>
      simp only [Bool.false_eq_true, if_false]
      rw [runRetainD_eq vs d func h is]
      rfl

end FixedMap.GenUnits
