import Verif.Proofs.GenEffects
import Verif.Proofs.GenEffectsSet
import Verif.Properties.IterClone
import Verif.Properties.Gen
import Verif.Properties.ClonePanic
import Verif.Properties.IterDrop
import Verif.Properties.Compare

/-!
# C77: the emitted code, with destructors, `clone` and `==` that have effects or panic

For every list of variants, the emitted methods that drop, clone or compare values are never stuck, and do what the
hand-written models of `Model/DropPanic.lean`, `Model/ClonePanic.lean`, `Model/Compare.lean`, `Model/IterDrop.lean` and
`Model/IterClonePanic.lean` do: the same calls in the same order on the same world, the same values dropped and leaked, the same
panics, and the same storage afterwards. So C67, C69, C70, C71, C75 and C76 speak about the emitted code.
-/

set_option autoImplicit false
set_option linter.unusedSimpArgs false

namespace FixedMap

open Gen

/-- C77: the map storage of an enum with payloads. -/
theorem C77_map (H : HashbrownApi) (V σ : Type) (vs : List Variant) (s t : (mapStorage H V (.enum (fieldsOf vs))).S)
    (d : Dtor σ V) :
    let κ := KeyTy.enum (fieldsOf vs)
    let C := Gen.genMap (collect vs)
    let S := mapStruct (H := H) (V := V) (fieldsOf vs)
    (∀ x, Struct.drop d (S s) x = κ.dropD H d s x) ∧
    (∀ x, Gen.runClearD d C.clear (S s) x = some (S (κ.clearD H d s x).1, (κ.clearD H d s x).2)) ∧
    (∀ f st, Gen.runRetainD d f C.retain (S s) st =
      some ((κ.retainD H d (fun st k v => f st (dynKey vs k) v) s st).mapS S)) ∧
    (∀ hc c st, runCloneD hc c d C.decls C.clone (S s) st = some ((κ.cloneD H hc c d s st).map S)) ∧
    (∀ (e : EqFn σ V) (st : σ), runEqD e (S s) (S t) C.eq st = some (κ.eqD H e s t st)) := by
  refine ⟨fun x => map_drop d vs 0 s x, fun x => ?_, fun f st => ?_, fun hc c st => ?_, fun e st => ?_⟩
  · simp only [Gen.genMap, collect_fields]
    exact map_runClearD d vs [] s x
  · simp only [Gen.genMap, collect_fields]
    exact map_runRetainD d f vs [] s st
  · have h := map_cloneFieldsD hc c d vs [] s [] st
    simp only [List.length_nil] at h
    rw [← collect_names] at h
    refine (congrArg (Option.bind · _) h).trans ?_
    show checkLitD _ (Cloned.after _ _ (Fields.cloneD H hc c d (fieldsOf vs) s st)) =
      some (Cloned.map _ (Fields.cloneD H hc c d (fieldsOf vs) s st))
    cases Fields.cloneD H hc c d (fieldsOf vs) s st with
    | panicked y => rfl
    | ok st' u => exact congrArg (Option.map _) (map_checkLit vs u)
  · simp only [Gen.genMap, collect_names]
    exact map_runEqD e vs [] [] rfl s t st

/-- C77: the owning iterator of a map over an enum with payloads. After every schedule of calls it has yielded what the model's
iterator yields, and is in the state that corresponds to the model's; dropping and cloning it in that state do what the model does. -/
theorem C77_into_iter (H : HashbrownApi) (V : Type) (vs : List Variant) (s : (mapStorage H V (.enum (fieldsOf vs))).S) :
    let κ := KeyTy.enum (fieldsOf vs)
    let M := mapStorage H V κ
    let C := genMapIter (collect vs) .intoIter
    let W := intoIterVal (H := H) (V := V) (fieldsOf vs)
    (∃ n, ∀ fuel, n ≤ fuel → ∀ ds, (C.make (mapStruct (fieldsOf vs) s)).bind (C.runSt fuel ds) =
      (M.intoIter.I.run ds (M.intoIter.init s)).map fun r =>
        (r.1.map (Option.map fun p => .entry (dynKey vs p.1) (.val p.2)), W r.2)) ∧
    ∀ (σ : Type) (held : HeldApi H V) (d : Dtor σ V) (it : M.intoIter.I.St),
      (∀ x, (W it).drop held d x = κ.dropIntoIter H held d it x) ∧
      ∀ (c : Cloner σ V) (st : σ),
        ((genMapClone (collect vs) .intoIter).bind fun K => K.runD held c d C.decls (W it) st) =
          (KeyTy.cloneIntoIterD H held c d κ).map fun f => (f it st).map W := by
  refine ⟨(sim_into vs 0).reaches (mapPiece_ok _) s, fun σ held d it => ⟨fun x => into_drop held d (fieldsOf vs) 0 _ x,
    fun c st => ?_⟩⟩
  have hb := bounds_all (H := H) (V := V) (fun κ => .map κ .intoIter) isClone_into vs 0
  rw [← collect_fields] at hb
  have hs := fieldsCloneIntoIterD_isSome held c d (fieldsOf vs)
  simp only [genMapClone, Option.bind_some, CloneCode.runD, KeyTy.cloneIntoIterD]
  rw [hb]
  cases hf : Fields.cloneIntoIterD H held c d (fieldsOf vs) with
  | none =>
    rw [hf] at hs
    rw [if_neg (by rw [← hs]; simp)]
    rfl
  | some f =>
    rw [hf] at hs
    rw [if_pos (show (fieldsOf vs).hashFree = true from hs.symm)]
    revert it
    show ∀ it : LoopSt (mapFields H V (fieldsOf vs)).intoIter.St, _
    intro it
    have h := into_cloneFieldsD held c d vs f hf [] it.fields [] st
    simp only [List.length_nil] at h
    rw [← collect_names] at h
    refine (congrArg (Option.bind · _) h).trans ?_
    simp only [Option.map_some, Option.bind_some]
    show _ = some (Cloned.map (intoIterVal (fieldsOf vs))
      (Cloned.map (fun fields => (⟨it.start, it.stop, fields⟩ : LoopSt _)) (f it.fields st)))
    cases f it.fields st with
    | panicked y => rfl
    | ok st' u =>
      have ht := (sim_into (H := H) (V := V) vs 0).types u
      rw [← collect_fields] at ht
      exact if_pos ht

/-- C77: the map storage of a unit enum. -/
theorem C77_units (H : HashbrownApi) (V σ : Type) (vs : List String) (s : UnitsSt vs.length V) (d : Dtor σ V) :
    let κ := KeyTy.units vs.length
    let C := GenUnits.genMap vs
    (∀ x, GenUnits.Data.drop d (GenUnits.slots s) x = κ.dropD H d s x) ∧
    (∀ x, GenUnits.runClearD d C.count C.clear (GenUnits.slots s) x =
      some (GenUnits.slots (κ.clearD H d s x).1, (κ.clearD H d s x).2)) ∧
    ∀ f st, C.retain.runD d f (GenUnits.slots s) st =
      some ((κ.retainD H d (fun st (k : Fin vs.length) v => f st vs[k] v) s st).mapS GenUnits.slots) := by
  refine ⟨fun x => GenUnits.slots_drop d s x, fun x => ?_, fun f st => ?_⟩
  · simp only [GenUnits.runClearD, GenUnits.genMap, GenUnits.arrayLit, List.length_map, if_true, Option.map_some,
      GenUnits.slots_drop]
    simp only [KeyTy.clearD, GenUnits.slots, Vector.toList_replicate, List.map_replicate]
  · simp only [GenUnits.genMap, GenUnits.RetainFn.runD, GenUnits.bind_names vs _ (GenUnits.slots_length s), Option.bind_some,
      GenUnits.names_zip]
    exact GenUnits.runRetainD_eq vs d f (GenUnits.places_binds' _) _ s st

/-- C77: the emitted set storage holds no values of the user's types: `clear`, `clone`, `==` and drop run no code of the user, whatever that code is, and do
what the model of sets does. -/
theorem C77_set (H : HashbrownApi) (V σ : Type) (vs : List Variant) (s t : (setStorage H (.enum (fieldsOf vs))).S) (d : Dtor σ V) (st : σ) :
    let N := setStorage H (.enum (fieldsOf vs))
    let C := genSet (collect vs)
    let S := setStruct (H := H) V (fieldsOf vs)
    (∀ x, Struct.drop d (S s) x = x) ∧
    Gen.runClearD d C.clear (S s) (.start st) = some (S (N.clear s), .start st) ∧
    (∀ hc c, runCloneD hc c d C.decls C.clone (S s) st = some (.ok st (S (N.clone s)))) ∧
    ∀ e : EqFn σ V, runEqD e (S s) (S t) C.eq st = some (st, some (N.eq s t)) := by
  obtain ⟨-, -, -, -, h1, h2, h3⟩ := C61_set_all H V vs s t
  have hb := setStruct_bare (V := V) (fieldsOf vs) s
  refine ⟨bare_drop d _ hb, (bare_runClear d _ _ hb _ rfl).trans ?_, fun hc c => (bare_runClone hc c d id _ _ hb _ st).trans ?_,
    fun e => (bare_runEq e (fun _ _ => true) _ _ hb _ st).trans ?_⟩
  · exact congrArg _ h1
  · exact congrArg _ (h3 id)
  · exact congrArg _ (h2 _)

/-- C77: likewise the emitted iterators of a set, at any time. -/
theorem C77_set_iter (H : HashbrownApi) (V σ : Type) (vs : List Variant) (S : Struct H V) (q : SetIt) (it : IterVal H V)
    (h : (genSetIter (collect vs) q).Reaches S it) (held : HeldApi H V) (d : Dtor σ V) (c : Cloner σ V) (st : σ) :
    (∀ x, it.drop held d x = x) ∧
    (genSetClone (collect vs) q).runD held c d (genSetIter (collect vs) q).decls it st =
      match q with
      | .iter => some (.ok st it)
      | .intoIter => if (fieldsOf vs).hashFree then some (.ok st it) else none := by
  have hb := setIter_bare vs S q it h
  refine ⟨bare_iterDrop held d _ hb, (bare_runD held c d _ _ it hb st).trans ?_⟩
  rw [C64_emitted_set H V id true vs S q it h]
  cases q with
  | iter => rfl
  | intoIter => cases (fieldsOf vs).hashFree <;> rfl

/-! ## Concrete cases -/

/-- The emitted `clear` on `Ex.map`, which holds 6, 1, 3, 2, 4, 5: the destructor of 3 panics, so the hash table leaks 2, the next
statement is skipped, and 4 and 5 stay in the map. -/
example : (Gen.runClearD (H := Ex.H.api) (Ex.dtor [3]) (Gen.genMap (collect exVariants)).clear (mapStruct (fieldsOf exVariants) Ex.map)
    (.start 0)).map (fun r => (r.2, (Struct.drop (Ex.dtor []) r.1 (.start 0)).dropped)) =
      some (⟨3, .unwinding, [6, 1, 3], [2]⟩, [4, 5]) := rfl
/-- The emitted drop glue in the same situation drops the last field as well. -/
example : Struct.drop (H := Ex.H.api) (Ex.dtor [3]) (mapStruct (fieldsOf exVariants) Ex.map) (.start 0) =
    ⟨5, .unwinding, [6, 1, 3, 4, 5], [2]⟩ := rfl
/-- The emitted `clone`, when the clone of 4 panics: the fields already cloned are dropped, the last one first. -/
example : (runCloneD (H := Ex.H.api) Ex.cloneHash (Ex.cloner [4]) (Ex.dtor []) (Gen.genMap (collect exVariants)).decls
    (Gen.genMap (collect exVariants)).clone (mapStruct (fieldsOf exVariants) Ex.map) 0).map
      (fun | .ok _ _ => none | .panicked x => some (x.fate, x.dropped)) = some (some (.unwinding, [103, 102, 101, 106])) := rfl
/-- The emitted `eq` stops at the first difference. -/
example : runEqD (H := Ex.H.api) Ex.noisyEq (mapStruct (fieldsOf exVariants) Ex.map)
    (mapStruct (fieldsOf exVariants) (Map.insert Ex.M Ex.map (Ex.byte 200) 9).2) (Gen.genMap (collect exVariants)).eq [] =
      some ([(6, 6), (1, 1), (3, 9)], some false) := rfl
/-- The emitted `retain` removes odd values; the destructor of 3 panics. -/
example : (Gen.runRetainD (H := Ex.H.api) (Ex.dtor [3]) (fun n _ v => (n, v, some (v % 2 == 0))) (Gen.genMap (collect exVariants)).retain
    (mapStruct (fieldsOf exVariants) Ex.map) 0).map
      (fun r => (r.panicked, r.dropped, (Struct.drop (Ex.dtor []) r.s (.start 0)).dropped)) =
      some (true, [1, 3], [6, 2, 4, 5]) := rfl
/-- The emitted owning iterator: two calls, then drop it. Cloning it is not possible, because of the hash table. -/
example : let C := genMapIter (collect exVariants) .intoIter
    ((C.make (mapStruct (H := Ex.H.api) (fieldsOf exVariants) Ex.map)).bind (C.runSt 5 [.front, .front])).map
      (fun r => (IterVal.drop Ex.heldHash (Ex.dtor [3]) r.2 (.start 0), ((genMapClone (collect exVariants) .intoIter).bind fun K =>
        K.runD Ex.heldHash (Ex.cloner []) (Ex.dtor []) C.decls r.2 0).isSome)) =
      some (⟨3, .unwinding, [3, 4, 5], [2]⟩, false) := rfl
/-- Without a hash table it can be cloned: the clone of 3 panics, and those of 1 and 2 are dropped, the last one first. -/
example : let vs : List Variant := [⟨"A", none⟩, ⟨"B", some .bool⟩, ⟨"C", none⟩]
    let C := genMapIter (collect vs) .intoIter
    ((C.make (mapStruct (H := Ex.H.api) (V := Nat) (fieldsOf vs) (some 1, ⟨some 2, none⟩, some 3, ()))).bind fun it =>
      (genMapClone (collect vs) .intoIter).bind fun K => K.runD Ex.heldHash (Ex.cloner [3]) (Ex.dtor []) C.decls it 0).map
        (fun | .ok _ _ => none | .panicked x => some (x.fate, x.dropped)) = some (some (.unwinding, [102, 101])) := rfl
/-- A unit enum: the emitted `clear` stores the new array, and drops all elements, although the destructor of 2 panics. -/
example : GenUnits.runClearD (Ex.dtor [2]) 3 (GenUnits.genMap ["A", "B", "C"]).clear [.slot (some 1), .slot (some 2), .slot (some 3)]
    (.start 0) = some ([.slot none, .slot none, .slot none], ⟨3, .unwinding, [1, 2, 3], []⟩) := rfl
/-- The emitted `clear` and `clone` of a set of three elements, with a destructor and a `clone` that always panic: not called. -/
example :
    let s := setStruct (H := Ex.H.api) Nat (fieldsOf exVariants) (FSet.insert (setStorage Ex.H.api Ex.key) (FSet.insert (setStorage Ex.H.api Ex.key)
      (FSet.insert (setStorage Ex.H.api Ex.key) (FSet.new _) (.inl ())).2 (Ex.byte 7)).2 (Ex.byte 8)).2
    ((Gen.runClearD (σ := Nat) (fun n _ => (n + 1, true)) (genSet (collect exVariants)).clear s (.start 0)).map (·.2) = some (.start 0)) ∧
    (runCloneD Ex.cloneHash (fun n _ => (n + 1, none)) (fun n _ => (n + 1, true)) (genSet (collect exVariants)).decls
      (genSet (collect exVariants)).clone s 0).map (fun | .ok n _ => some n | .panicked _ => none) = some (some 0) := ⟨rfl, rfl⟩

end FixedMap
