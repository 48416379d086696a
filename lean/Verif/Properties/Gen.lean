import Verif.Proofs.GenMap
import Verif.Proofs.GenSet
import Verif.Proofs.GenAddr
import Verif.Proofs.GenLoop
import Verif.Proofs.GenEntry
import Verif.Proofs.GenHistory
import Verif.Proofs.MapHash
import Verif.Spec.Example

/-!
# C61: the emitted code and the variant-by-variant model

For every list of variants with distinct names, the code that `any_variants.rs` emits is never stuck, and does what the
storages of `Model/MapEnum.lean` and `Model/SetStorage.lean` do.
-/

set_option autoImplicit false
set_option linter.unusedSimpArgs false

namespace FixedMap

open Gen

/-- C61: the keys of the model are the values of the enum. -/
theorem C61_keys (vs : List Variant) (hd : Distinct vs) :
    (∀ k l : (fieldsOf vs).Key, dynKey vs k = dynKey vs l → k = l) ∧ ∀ d, IsKey vs d ↔ ∃ k, dynKey vs k = d :=
  ⟨dynKey_inj vs hd, fun d => ⟨dynKey_surj vs d, fun ⟨k, h⟩ => h ▸ dynKey_isKey vs k⟩⟩

/-- C61: the methods of the emitted map storage that match on a key. -/
theorem C61_map_key (H : HashbrownApi) (V : Type) (vs : List Variant) (hd : Distinct vs)
    (s : (mapStorage H V (.enum (fieldsOf vs))).S) (k : (fieldsOf vs).Key) :
    let M := mapStorage H V (.enum (fieldsOf vs))
    let C := genMap (collect vs)
    let S := mapStruct (H := H) (V := V) (fieldsOf vs)
    (∀ v, C.insert.run [.key (dynKey vs k), .val v] (S s) = some (.optVal (M.insert s k v).1, S (M.insert s k v).2)) ∧
    C.containsKey.run [.key (dynKey vs k)] (S s) = some (.bool (M.containsKey s k), S s) ∧
    C.get.run [.key (dynKey vs k)] (S s) = some (.optVal (M.get s k), S s) ∧
    C.getMut.run [.key (dynKey vs k)] (S s) = some (.optAddr ((M.getMut s k).map (dynAddr 0 (fieldsOf vs))), S s) ∧
    C.remove.run [.key (dynKey vs k)] (S s) = some (.optVal (M.remove s k).1, S (M.remove s k).2) := by
  have hl := mapCells_length vs s
  refine ⟨fun v => ?_, ?_, ?_, ?_, ?_⟩
  · refine (run_eq insertArm (by intro f; unfold insertArm; split <;> exact rfl) _ _ _ (dynKey vs k) vs _ (by simp) rfl hl).trans ?_
    rw [pos_insert _ v (by simp [List.lookup_cons]) vs hd 0 s k]
    rfl
  · refine (run_eq containsKeyArm (by intro f; unfold containsKeyArm; split <;> exact rfl) _ _ _ (dynKey vs k) vs _ (by simp) rfl hl).trans ?_
    rw [pos_containsKey _ vs hd 0 s k]
    rfl
  · refine (run_eq getArm (by intro f; unfold getArm; split <;> exact rfl) _ _ _ (dynKey vs k) vs _ (by simp) rfl hl).trans ?_
    rw [pos_get _ vs hd 0 s k]
    rfl
  · refine (run_eq getMutArm (by intro f; unfold getMutArm; split <;> exact rfl) _ _ _ (dynKey vs k) vs _ (by simp) rfl hl).trans ?_
    rw [pos_getMut _ vs hd 0 s k]
    rfl
  · refine (run_eq removeArm (by intro f; unfold removeArm; split <;> exact rfl) _ _ _ (dynKey vs k) vs _ (by simp) rfl hl).trans ?_
    rw [pos_remove _ vs hd 0 s k]
    rfl

/-- C61: the other methods of the emitted map storage. -/
theorem C61_map_all (H : HashbrownApi) (V : Type) (vs : List Variant) (s t : (mapStorage H V (.enum (fieldsOf vs))).S) :
    let M := mapStorage H V (.enum (fieldsOf vs))
    let C := genMap (collect vs)
    let S := mapStruct (H := H) (V := V) (fieldsOf vs)
    runEmpty C.decls C.empty = some (S M.empty) ∧
    eval [] C.len (S s) = some (.nat (M.len s), S s) ∧
    eval [] C.isEmpty (S s) = some (.bool (M.isEmpty s), S s) ∧
    (∀ (σ : Type) (f : σ → DynKey → V → σ × V × Option Bool) (st : σ), runRetain f C.retain (S s) st =
      some ((M.retain (fun st k v => f st (dynKey vs k) v) s st).mapS S)) ∧
    runClear C.clear (S s) = some (S (M.clear s).1, (M.clear s).2) ∧
    (∀ veq, runEq veq (S s) (S t) C.eq = some (M.eq veq s t)) ∧
    ∀ c, runClone C.decls c C.clone (S s) = some (S (M.clone c s)) := by
  refine ⟨?_, ?_, ?_, fun σ f st => ?_, ?_, fun veq => ?_, fun c => ?_⟩
  · refine (congrArg (checkLit _) ?_).trans (map_checkLit vs (mapFields H V (fieldsOf vs)).empty)
    have h := map_inits (H := H) (V := V) vs 0
    rw [← collect_fields] at h
    exact h
  · have := eval_len vs [] s .zero 0 rfl
    simp only [Nat.zero_add] at this
    simp only [genMap, collect_fields]
    exact this
  · have := eval_isEmpty vs [] s .tt true rfl
    simp only [Bool.true_and] at this
    simp only [genMap, collect_fields]
    exact this
  · simp only [genMap, collect_fields]
    exact map_runRetain f vs [] s st
  · simp only [genMap, collect_fields]
    exact map_runClear vs [] s
  · simp only [genMap, collect_names]
    exact map_runEq veq vs [] [] rfl s t
  · have h := map_cloneFields c vs [] s
    simp only [List.length_nil] at h
    rw [← collect_names] at h
    exact (congrArg (Option.bind · _) h).trans (map_checkLit vs ((mapFields H V (fieldsOf vs)).clone c s))

/-- C61: references. -/
theorem C61_map_ref (H : HashbrownApi) (V : Type) (vs : List Variant) (s : (mapStorage H V (.enum (fieldsOf vs))).S)
    (a : (mapStorage H V (.enum (fieldsOf vs))).Addr) :
    let M := mapStorage H V (.enum (fieldsOf vs))
    let S := mapStruct (H := H) (V := V) (fieldsOf vs)
    readAddr (S s) (dynAddr 0 (fieldsOf vs) a) = M.read s a ∧
    ∀ v, writeAddr (S s) (dynAddr 0 (fieldsOf vs) a) v = S (M.write s a v) :=
  ⟨readAddr_pos vs [] s a, fun v => writeAddr_pos v vs [] s a⟩

/-- C61: the six iterators of the emitted map storage. -/
theorem C61_map_iter (H : HashbrownApi) (V : Type) (vs : List Variant) (s : (mapStorage H V (.enum (fieldsOf vs))).S) :
    let M := mapStorage H V (.enum (fieldsOf vs))
    let C := genMapIter (collect vs)
    let S := mapStruct (H := H) (V := V) (fieldsOf vs)
    (C .iter).Does (S s) M.iter.I (M.iter.init s) (fun p => .entry (dynKey vs p.1) (.val p.2)) ∧
    (C .keys).Does (S s) M.keys.I (M.keys.init s) (fun k => .key (dynKey vs k)) ∧
    (C .values).Does (S s) M.values.I (M.values.init s) (fun v => .value (.val v)) ∧
    (C .iterMut).Does (S s) M.iterMut.I (M.iterMut.init s)
      (fun p => .entry (dynKey vs p.1) (.addr (dynAddr 0 (fieldsOf vs) p.2))) ∧
    (C .valuesMut).Does (S s) M.valuesMut.I (M.valuesMut.init s) (fun a => .value (.addr (dynAddr 0 (fieldsOf vs) a))) ∧
    (C .intoIter).Does (S s) M.intoIter.I (M.intoIter.init s) (fun p => .entry (dynKey vs p.1) (.val p.2)) := by
  obtain ⟨_, h1⟩ := sim_iter (H := H) (V := V) vs 0
  obtain ⟨_, h2⟩ := sim_keys (H := H) (V := V) vs 0
  obtain ⟨_, h3⟩ := sim_values (H := H) (V := V) vs 0
  obtain ⟨_, h4⟩ := sim_iterMut (H := H) (V := V) vs 0
  obtain ⟨_, h5⟩ := sim_valuesMut (H := H) (V := V) vs 0
  obtain ⟨_, h6⟩ := sim_intoIter (H := H) (V := V) vs 0
  exact ⟨h1.does (mapPiece_ok _) s, h2.does (mapPiece_ok _) s, h3.does (mapPiece_ok _) s, h4.does (mapPiece_ok _) s,
    h5.does (mapPiece_ok _) s, h6.does (mapPiece_ok _) s⟩

/-- C61: `entry`. -/
theorem C61_map_entry (H : HashbrownApi) (V : Type) (vs : List Variant) (hd : Distinct vs)
    (s : (mapStorage H V (.enum (fieldsOf vs))).S) (k : (fieldsOf vs).Key) :
    (genEntry (collect vs)).runEntry (dynKey vs k) (mapStruct (fieldsOf vs) s) =
      some (((mapStorage H V (.enum (fieldsOf vs))).entry s k).map (dynEntry vs)) := by
  have h := entry_pos (genEntry (collect vs)) vs hd 0 (Declares.all vs) (Declares.all vs) [] rfl s k
  rw [← collect_fields] at h
  exact h

/-- C61: the methods of `OccupiedEntry`. -/
theorem C61_map_occupied (H : HashbrownApi) (V : Type) (vs : List Variant)
    (s : (mapStorage H V (.enum (fieldsOf vs))).S) (e : (mapStorage H V (.enum (fieldsOf vs))).Occ) :
    let M := mapStorage H V (.enum (fieldsOf vs))
    let C := genEntry (collect vs)
    let S := mapStruct (H := H) (V := V) (fieldsOf vs)
    let E := dynOcc 0 vs e
    C.runOcc C.occKey [] E (S s) = some (.ok (.key (dynKey vs (M.occKey e)), S s)) ∧
    C.runOcc C.occGet [] E (S s) = some ((M.occGet e s).map fun v => (.val v, S s)) ∧
    C.runOcc C.occGetMut [] E (S s) = some ((M.occGetMut e s).map fun a => (.addr (dynAddr 0 (fieldsOf vs) a), S s)) ∧
    C.runOcc C.occIntoMut [] E (S s) = some ((M.occIntoMut e s).map fun a => (.addr (dynAddr 0 (fieldsOf vs) a), S s)) ∧
    (∀ v, C.runOcc C.occInsert [("value", v)] E (S s) = some ((M.occInsert e s v).map fun p => (.val p.1, S p.2))) ∧
    C.runOcc C.occRemove [] E (S s) = some ((M.occRemove e s).map fun p => (.val p.1, S p.2)) := by
  have go : ∀ (a0 : OccBody) (arm : Field → KeyTy → OccBody) (env : List (String × V)),
      (genEntry (collect vs)).runOcc (("Simple", a0) :: complexArms (collect vs) arm) env (dynOcc 0 vs e)
        (mapStruct (fieldsOf vs) s) =
      OccBody.run (genEntry (collect vs)) env (mapStruct (fieldsOf vs) s) (occArm a0 arm 0 vs e) (dynOcc 0 vs e).arg := by
    intro a0 arm env
    rw [complexArms_eq]
    exact congrArg (Option.bind · _) (occ_lookup a0 arm 0 vs e)
  refine ⟨(go _ _ _).trans ?_, (go _ _ _).trans ?_, (go _ _ _).trans ?_, (go _ _ _).trans ?_,
    fun v => (go _ _ _).trans ?_, (go _ _ _).trans ?_⟩
  · exact occ_key _ _ vs 0 e
  · exact occ_get _ rfl vs 0 [] rfl s e
  · exact occ_getMut _ rfl vs 0 [] rfl s e
  · exact occ_intoMut _ rfl vs 0 [] rfl s e
  · exact occ_insert _ rfl v vs 0 [] rfl s e
  · exact occ_remove _ rfl vs 0 [] rfl s e

/-- C61: the methods of `VacantEntry`, and the tags of both enums. -/
theorem C61_map_vacant (H : HashbrownApi) (V : Type) (vs : List Variant)
    (s : (mapStorage H V (.enum (fieldsOf vs))).S) (e : (mapStorage H V (.enum (fieldsOf vs))).Vac) :
    let M := mapStorage H V (.enum (fieldsOf vs))
    let C := genEntry (collect vs)
    let S := mapStruct (H := H) (V := V) (fieldsOf vs)
    let E := dynVac 0 vs e
    C.runVac C.vacKey [] E (S s) = some (.ok (.key (dynKey vs (M.vacKey e)), S s)) ∧
    (∀ v, C.runVac C.vacInsert [("value", v)] E (S s) =
      some ((M.vacInsert e s v).map fun p => (.addr (dynAddr 0 (fieldsOf vs) p.1), S p.2))) ∧
    (C.occ.map (·.1)).Nodup ∧ (C.vac.map (·.1)).Nodup := by
  have go : ∀ (a0 : VacBody) (arm : Field → KeyTy → VacBody) (env : List (String × V)),
      (genEntry (collect vs)).runVac (("Simple", a0) :: complexArms (collect vs) arm) env (dynVac 0 vs e)
        (mapStruct (fieldsOf vs) s) =
      VacBody.run env (mapStruct (fieldsOf vs) s) (vacArm a0 arm 0 vs e) (dynVac 0 vs e).arg := by
    intro a0 arm env
    rw [complexArms_eq]
    exact congrArg (Option.bind · _) (vac_lookup a0 arm 0 vs e)
  have tags : (("Simple" :: (complexArms (collect vs) fun _ κ => some κ).map (·.1)) : List String).Nodup := by
    rw [complexArms_eq]
    have h := armsFrom_nodup (fun _ κ => some κ) vs 0
    exact List.nodup_cons.2 ⟨h.2.1, h.1⟩
  refine ⟨(go _ _ _).trans ?_, fun v => (go _ _ _).trans ?_, tags, tags⟩
  · exact vac_key _ vs 0 e
  · exact vac_insert v vs 0 [] rfl s e

/-- C61: from the emitted `empty` on, every sequence of calls on the emitted code returns what the same calls on an
association list return. -/
theorem C61_history (H : Hashbrown) (V : Type) (vs : List Variant) (hd : Distinct vs) (ops : List (GenOp DynKey V))
    (hk : ∀ op ∈ ops, ∀ d, op.key? = some d → IsKey vs d) :
    ((runEmpty (H := H.api) (V := V) (genMap (collect vs)).decls (genMap (collect vs)).empty).bind
      (genRun (genMap (collect vs)) (genEntry (collect vs)) ops)) = some (refGenRun ops []) := by
  let M := mapStorage H.api V (.enum (fieldsOf vs))
  let L : CoreLaws M.toMapCore := mapCore H V (.enum (fieldsOf vs))
  have X : Emits (H := H.api) M.toMapCore (genMap (collect vs)) (genEntry (collect vs)) (dynKey vs)
      (mapStruct (fieldsOf vs)) (dynAddr 0 (fieldsOf vs)) (dynOcc 0 vs) (dynVac 0 vs) := {
    insert := fun s k => (C61_map_key H.api V vs hd s k).1
    containsKey := fun s k => (C61_map_key H.api V vs hd s k).2.1
    get := fun s k => (C61_map_key H.api V vs hd s k).2.2.1
    getMut := fun s k => (C61_map_key H.api V vs hd s k).2.2.2.1
    remove := fun s k => (C61_map_key H.api V vs hd s k).2.2.2.2
    len := fun s => (C61_map_all H.api V vs s s).2.1
    isEmpty := fun s => (C61_map_all H.api V vs s s).2.2.1
    clear := fun s => (C61_map_all H.api V vs s s).2.2.2.2.1
    read := fun s a => (C61_map_ref H.api V vs s a).1
    write := fun s a => (C61_map_ref H.api V vs s a).2
    entry := fun s k => C61_map_entry H.api V vs hd s k
    occInsert := fun e s => (C61_map_occupied H.api V vs s e).2.2.2.2.1
    occRemove := fun e s => (C61_map_occupied H.api V vs s e).2.2.2.2.2
    vacInsert := fun e s => (C61_map_vacant H.api V vs s e).2.1 }
  have h0 : Holds M.toMapCore (dynKey vs) M.empty [] := by
    refine ⟨List.nodup_nil, fun p hp => (nomatch hp), fun k => ?_⟩
    cases e : M.get M.empty k with
    | none => rfl
    | some w =>
      have := (L.mem_entries _ _ _).2 e
      rw [L.entries_empty] at this
      exact nomatch this
  refine (congrArg (Option.bind · _) (C61_map_all H.api V vs M.empty M.empty).1).trans ?_
  exact X.run L (dynKey_inj vs hd) ops M.empty [] h0 fun op ho d e => dynKey_surj vs d (hk op ho d e)

/-- C61: the methods of the emitted set storage that match on a value. -/
theorem C61_set_key (H : HashbrownApi) (V : Type) (vs : List Variant) (hd : Distinct vs)
    (s : (setStorage H (.enum (fieldsOf vs))).S) (k : (fieldsOf vs).Key) :
    let N := setStorage H (.enum (fieldsOf vs))
    let C := genSet (collect vs)
    let S := setStruct (H := H) V (fieldsOf vs)
    C.insert.run [.key (dynKey vs k)] (S s) = some (.bool (N.insert s k).1, S (N.insert s k).2) ∧
    C.contains.run [.key (dynKey vs k)] (S s) = some (.bool (N.contains s k), S s) ∧
    C.remove.run [.key (dynKey vs k)] (S s) = some (.bool (N.remove s k).1, S (N.remove s k).2) := by
  have hl := setCells_length (V := V) vs s
  refine ⟨?_, ?_, ?_⟩
  · refine (run_eq setInsertArm (by intro f; unfold setInsertArm; split <;> exact rfl) _ _ _ (dynKey vs k) vs _ (by simp) rfl hl).trans ?_
    rw [pos_setInsert _ vs hd 0 s k]
    rfl
  · refine (run_eq setContainsArm (by intro f; unfold setContainsArm; split <;> exact rfl) _ _ _ (dynKey vs k) vs _ (by simp) rfl hl).trans ?_
    rw [pos_setContains _ vs hd 0 s k]
    rfl
  · refine (run_eq setRemoveArm (by intro f; unfold setRemoveArm; split <;> exact rfl) _ _ _ (dynKey vs k) vs _ (by simp) rfl hl).trans ?_
    rw [pos_setRemove _ vs hd 0 s k]
    rfl

/-- C61: the other methods of the emitted set storage. -/
theorem C61_set_all (H : HashbrownApi) (V : Type) (vs : List Variant) (s t : (setStorage H (.enum (fieldsOf vs))).S) :
    let N := setStorage H (.enum (fieldsOf vs))
    let C := genSet (collect vs)
    let S := setStruct (H := H) V (fieldsOf vs)
    runEmpty C.decls C.empty = some (S N.empty) ∧
    eval [] C.len (S s) = some (.nat (N.len s), S s) ∧
    eval [] C.isEmpty (S s) = some (.bool (N.isEmpty s), S s) ∧
    (∀ (σ : Type) (f : σ → DynKey → σ × Option Bool) (st : σ), runSetRetain f C.retain (S s) st =
      some ((N.retain (fun st k => f st (dynKey vs k)) s st).mapS S)) ∧
    runClear C.clear (S s) = some (S (N.clear s), []) ∧
    (∀ veq, runEq veq (S s) (S t) C.eq = some (N.eq s t)) ∧
    ∀ c, runClone C.decls c C.clone (S s) = some (S (N.clone s)) := by
  refine ⟨?_, ?_, ?_, fun σ f st => ?_, ?_, fun veq => ?_, fun c => ?_⟩
  · refine (congrArg (checkLit _) ?_).trans (set_checkLit vs (setFields H (fieldsOf vs)).empty)
    have h := set_inits (H := H) (V := V) vs 0
    rw [← collect_fields] at h
    exact h
  · have := eval_setLen (V := V) vs [] s .zero 0 rfl
    simp only [Nat.zero_add] at this
    simp only [genSet, collect_fields]
    exact this
  · have := eval_setIsEmpty (V := V) vs [] s .tt true rfl
    simp only [Bool.true_and] at this
    simp only [genSet, collect_fields]
    exact this
  · simp only [genSet, collect_fields]
    exact set_runSetRetain f vs [] s st
  · simp only [genSet, collect_fields]
    exact set_runClear vs [] s
  · simp only [genSet, collect_names]
    exact set_runEq veq vs [] [] rfl s t
  · have h := set_cloneFields (V := V) c vs [] s
    simp only [List.length_nil] at h
    rw [← collect_names] at h
    exact (congrArg (Option.bind · _) h).trans (set_checkLit vs ((setFields H (fieldsOf vs)).clone s))

/-- C61: the two iterators of the emitted set storage. -/
theorem C61_set_iter (H : HashbrownApi) (V : Type) (vs : List Variant) (s : (setStorage H (.enum (fieldsOf vs))).S) :
    let N := setStorage H (.enum (fieldsOf vs))
    let C := genSetIter (collect vs)
    let S := setStruct (H := H) V (fieldsOf vs)
    (C .iter).Does (S s) N.iter.I (N.iter.init s) (fun k => .key (dynKey vs k)) ∧
    (C .intoIter).Does (S s) N.intoIter.I (N.intoIter.init s) (fun k => .key (dynKey vs k)) := by
  obtain ⟨_, h1⟩ := sim_set_iter (H := H) (V := V) vs 0
  obtain ⟨_, h2⟩ := sim_set_intoIter (H := H) (V := V) vs 0
  exact ⟨h1.does (setPiece_ok _) s, h2.does (setPiece_ok _) s⟩

/-! ## Concrete cases -/

/-- `enum ExKey { Simple, Flag(bool), Byte(u8), Opt(Option<Part>) }`. -/
def exVariants : List Variant :=
  [⟨"Simple", none⟩, ⟨"Flag", some .bool⟩, ⟨"Byte", some (.prim .u8)⟩, ⟨"Opt", some (.opt (.units 2))⟩]

example : KeyTy.enum (fieldsOf exVariants) = Ex.key := rfl
example : Distinct exVariants := by unfold Distinct; decide
example : (genMap (collect exVariants)).decls =
    [("_0", .slot), ("_1", .map .bool), ("_2", .map (.prim .u8)), ("_3", .map (.opt (.units 2)))] := by decide
example : (genMap (collect exVariants)).get.arms =
    [(.path "Simple", .call (.option .asRef) "_0" []), (.tuple "Flag" "v", .call (.map .bool .get) "_1" [.var "v"]),
      (.tuple "Byte" "v", .call (.map (.prim .u8) .get) "_2" [.var "v"]),
      (.tuple "Opt" "v", .call (.map (.opt (.units 2)) .get) "_3" [.var "v"])] := by decide
/-- The emitted `get` finds `Byte(200)` in the map with six entries. -/
example : ((genMap (collect exVariants)).get.run (H := Ex.H.api) (V := Nat)
    [.key ⟨"Byte", some ⟨.prim .u8, (200 : BitVec 8)⟩⟩] (mapStruct (fieldsOf exVariants) Ex.map)).map
      (fun p => match p.1 with | .optVal o => o | _ => none) = some (some 3) := by rfl
/-- Two variants of the same name: the second is unreachable, so the theorems need `Distinct`. -/
example : ((genMap (collect [⟨"A", none⟩, ⟨"A", none⟩])).get.run (H := Ex.H.api) (V := Nat)
    [.key (dynKey [⟨"A", none⟩, ⟨"A", none⟩] (.inr (.inl ())))]
    (mapStruct (fieldsOf [⟨"A", none⟩, ⟨"A", none⟩]) (none, (some 5, ())))).map
      (fun p => match p.1 with | .optVal o => o | _ => none) = some none ∧
    (mapFields Ex.H.api Nat (fieldsOf [⟨"A", none⟩, ⟨"A", none⟩])).get (none, (some 5, ())) (.inr (.inl ())) = some 5 :=
  ⟨rfl, rfl⟩
/-- A history: insert two entries, replace one through its entry, assign through `get_mut`, remove, count. -/
def exGenOps : List (GenOp DynKey Nat) :=
  [.insert ⟨"Simple", none⟩ 1, .insert ⟨"Byte", some ⟨.prim .u8, (7 : BitVec 8)⟩⟩ 2, .entryInsert ⟨"Simple", none⟩ 3,
    .set ⟨"Byte", some ⟨.prim .u8, (7 : BitVec 8)⟩⟩ 4, .remove ⟨"Simple", none⟩, .len,
    .entryRemove ⟨"Byte", some ⟨.prim .u8, (7 : BitVec 8)⟩⟩, .isEmpty]
example : ∀ op ∈ exGenOps, ∀ d, op.key? = some d → IsKey exVariants d := by
  intro op h d e
  simp only [exGenOps, List.mem_cons, List.not_mem_nil, or_false] at h
  rcases h with rfl | rfl | rfl | rfl | rfl | rfl | rfl | rfl <;> simp [GenOp.key?] at e <;> subst e <;>
    simp [IsKey, exVariants]
example : refGenRun exGenOps [] = [.opt none, .opt none, .opt (some 1), .opt (some 2), .opt (some 3), .nat 1,
    .opt (some 4), .bool true] := by rfl
/-- `keys` from both ends: not double ended because of the `u8` keys. -/
example : (genMapIter (collect exVariants) .keys).doubleEnded Ex.H.api Nat = false := by rfl
example : ((genMapIter (collect exVariants) .keys).drive (H := Ex.H.api) (V := Nat) 5 (mapStruct (fieldsOf exVariants) Ex.map)
    [.front, .front]).map (List.map fun o => o.map fun | .key k => k.var | _ => "") =
      some [some "Simple", some "Flag"] := by rfl
/-- Without enough rounds the loop does not end. -/
example : ((genMapIter (collect exVariants) .keys).drive (H := Ex.H.api) (V := Nat) 1 (mapStruct (fieldsOf exVariants) Ex.M.empty)
    [.front]).isNone = true := by rfl

end FixedMap
