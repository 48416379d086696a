import Verif.Proofs.GenUnits
import Verif.Proofs.GenHistory
import Verif.Spec.Example

/-!
# C62: the code emitted for unit enums

For every list of distinct variant names, the code that `unit_variants.rs` emits is never stuck, and does what the
storages `unitsMap`, `unitsSet` and `bitsetSet` do. A key is a variant's name in the emitted code, its position in the model.
-/

set_option autoImplicit false
set_option linter.unusedSimpArgs false

namespace FixedMap

open GenUnits
open Gen (GenOp GenOut resOk refGen refGenRun Holds)

/-- C62: the methods of the emitted map storage that match on a key. -/
theorem C62_map_key (V : Type) (vs : List String) (hd : vs.Nodup) (s : UnitsSt vs.length V) (k : Fin vs.length) :
    let M := unitsMap vs.length V
    let C := GenUnits.genMap vs
    (∀ v, C.insert.run [.key vs[k], .val v] (slots s) =
      some (.ok (.optVal (M.insert s k v).1, slots (M.insert s k v).2))) ∧
    C.containsKey.run [.key vs[k]] (slots s) = some (.ok (.bool (M.containsKey s k), slots s)) ∧
    C.get.run [.key vs[k]] (slots s) = some (.ok (.optVal (M.get s k), slots s)) ∧
    C.getMut.run [.key vs[k]] (slots s) = some (.ok (.optAddr ((M.getMut s k).map Fin.val), slots s)) ∧
    C.remove.run [.key vs[k]] (slots s) = some (.ok (.optVal (M.remove s k).1, slots (M.remove s k).2)) ∧
    C.entry.run [.key vs[k]] (slots s) = some ((M.entry s k).map fun p =>
      (match p.1 with
        | .inl e => .occupied (dynEntry vs e)
        | .inr e => .vacant (dynEntry vs e), slots p.2)) := by
  have hl := slots_length s
  refine ⟨fun v => ?_, ?_, ?_, ?_, ?_, ?_⟩
  · refine (run_match vs hd _ _ hl "key" (by decide) ["value"] [.val v] k rfl).trans ?_
    simp only [eval, elemOf_slots s (places_binds _ _), evalArgs,
      places_lookup (V := V) vs.length _ "value" (by decide), List.zip_cons_cons, List.zip_nil_right, List.lookup_cons]
    simp [callSlot, Res.map, slots_set]
  · refine (run_match vs hd _ _ hl "value" (by decide) [] [] k rfl).trans ?_
    simp only [eval, elemOf_slots s (places_binds _ _), evalArgs, Option.bind_some, callSlot, Option.map_some, Res.map,
      slots_same]
  · refine (run_match vs hd _ _ hl "value" (by decide) [] [] k rfl).trans ?_
    simp only [eval, elemOf_slots s (places_binds _ _), evalArgs, Option.bind_some, callSlot, Option.map_some, Res.map,
      slots_same]
  · refine (run_match vs hd _ _ hl "value" (by decide) [] [] k rfl).trans ?_
    simp only [eval, elemOf_slots s (places_binds _ _), evalArgs, Option.bind_some, callSlot, Option.map_some, Res.map,
      slots_same, Option.map_map]
    rfl
  · refine (run_match vs hd _ _ hl "value" (by decide) [] [] k rfl).trans ?_
    simp only [eval, elemOf_slots s (places_binds _ _), evalArgs, Option.bind_some, callSlot, Option.map_some, Res.map,
      slots_set]
  · refine (run_match vs hd _ _ hl "key" (by decide) [] [] k rfl).trans ?_
    simp only [eval, elemOf_slots s (places_binds _ _), evalArgs,
      places_lookup (V := V) vs.length _ "key" (by decide), List.zip_cons_cons, List.zip_nil_right, List.lookup_cons_self,
      Option.bind_some, Option.map_some, callSlot, unitsOptionToEntry]
    cases ho : OptionBucket.new s[k] with
    | ok b => cases b <;> simp only [Res.map, slots_same] <;> rfl
    | panic => rfl
    | ub => rfl

/-- C62: the other methods of the emitted map storage. -/
theorem C62_map_all (V : Type) (vs : List String) (s : UnitsSt vs.length V) :
    let M := unitsMap vs.length V
    let C := GenUnits.genMap vs
    arrayLit C.count C.empty (.slot none) = some (slots M.empty) ∧
    C.len.run (slots s) = some (.ok (.nat (M.len s), slots s)) ∧
    C.isEmpty.run (slots s) = some (.ok (.bool (M.isEmpty s), slots s)) ∧
    (∀ (σ : Type) (f : σ → String → V → σ × V × Option Bool) (st : σ), C.retain.run f (slots s) st =
      some ((M.retain (fun st k v => f st vs[k] v) s st).mapS slots)) ∧
    arrayLit C.count C.clear (.slot none) = some (slots (M.clear s).1) ∧
    (slots s).flatMap Elem.dropped = (M.clear s).2 := by
  have hl := slots_length s
  have hv : s.toList = (List.finRange vs.length).map fun i => s[i] := vector_toList_map s
  refine ⟨?_, ?_, ?_, fun σ f st => ?_, ?_, ?_⟩
  · simp [GenUnits.genMap, arrayLit, slots, unitsMap]
  · simp only [GenUnits.genMap, ExprFn.run, bind_names vs _ hl, Option.bind_some]
    rw [names_eq, eval_len s (places_binds' _) _ .zero 0 rfl, ← hv]
  · simp only [GenUnits.genMap, ExprFn.run, bind_names vs _ hl, Option.bind_some]
    rw [names_eq, eval_isEmpty s (places_binds' _) _ .tt true rfl, ← hv]
  · simp only [GenUnits.genMap, RetainFn.run, bind_names vs _ hl, Option.bind_some, names_zip]
    exact runRetain_eq vs f (places_binds' _) _ s st
  · simp [GenUnits.genMap, arrayLit, slots, unitsMap]
  · simp only [slots, List.flatMap_map]
    rfl

/-- C62: the methods of entries. -/
theorem C62_map_entry (V : Type) (vs : List String) (s : UnitsSt vs.length V) (e : UnitsEntry vs.length) :
    let M := unitsMap vs.length V
    let E := dynEntry vs e
    E.keyFn = vs[M.occKey e] ∧ E.keyFn = vs[M.vacKey e] ∧
    E.get (slots s) = some (M.occGet e s) ∧
    E.getMut (slots s) = some ((M.occGetMut e s).map Fin.val) ∧
    E.intoMut (slots s) = some ((M.occIntoMut e s).map Fin.val) ∧
    (∀ v, E.insert (slots s) v = some ((M.occInsert e s v).map fun p => (p.1, slots p.2))) ∧
    E.remove (slots s) = some ((M.occRemove e s).map fun p => (p.1, slots p.2)) ∧
    ∀ v, E.vacInsert (slots s) v = some ((M.vacInsert e s v).map fun p => (p.1.val, slots p.2)) := by
  have h : slotAt (slots s) e.inner.val = some s[e.inner] := by simp only [slotAt, slots_get]
  have map_map : ∀ {α β γ : Type} (r : Res α) (f : α → β) (g : β → γ), (r.map f).map g = r.map fun a => g (f a) := by
    intro _ _ _ r f g; cases r <;> rfl
  refine ⟨rfl, rfl, ?_, ?_, ?_, fun v => ?_, ?_, fun v => ?_⟩
  · simp only [DynEntry.get, dynEntry, h, Option.map_some]
  · simp only [DynEntry.getMut, dynEntry, h, Option.map_some, map_map]
  · simp only [DynEntry.intoMut, dynEntry, h, Option.map_some, map_map]
  · simp only [DynEntry.insert, dynEntry, h, Option.map_some, map_map, slots_set]
  · simp only [DynEntry.remove, dynEntry, h, Option.map_some, map_map, slots_set]
  · simp only [DynEntry.vacInsert, dynEntry, h, Option.map_some, map_map, slots_set]

/-- C62: the six iterators of the emitted map storage. -/
theorem C62_map_iter (V : Type) (vs : List String) (s : UnitsSt vs.length V) :
    let M := unitsMap vs.length V
    let C := GenUnits.genMap vs
    C.iter.Does (slots s) M.iter.I (M.iter.init s) (fun p => .entry vs[p.1] p.2) ∧
    C.keys.Does (slots s) M.keys.I (M.keys.init s) (fun k => .key vs[k]) ∧
    C.values.Does (slots s) M.values.I (M.values.init s) .value ∧
    C.iterMut.Does (slots s) M.iterMut.I (M.iterMut.init s) (fun p => .entryMut vs[p.1] p.2.val) ∧
    C.valuesMut.Does (slots s) M.valuesMut.I (M.valuesMut.init s) (fun i => .valueMut i.val) ∧
    C.intoIter.Does (slots s) M.intoIter.I (M.intoIter.init s) (fun p => .entry vs[p.1] p.2) := by
  have hl := slots_length s
  have hz : vs.zip (names vs) = (List.finRange vs.length).map fun i => (vs[i], Gen.fieldName i.val) := by
    have := zip_names vs id
    rwa [List.map_id] at this
  have pairs : ∀ f : Closure, (IterBody.flatMap (names vs) (vs.zip (names vs)) f).make (slots s) =
      some ⟨flatIter (f.run (slots s)), (⟨none, (List.finRange vs.length).map fun i => (vs[i], i.val), none⟩ : FlatSt _ _)⟩ := by
    intro f
    simp only [IterBody.make, bind_names vs _ hl, Option.bind_some, hz, pairItems_eq vs (places_binds' _), Option.map_some]
  have hv : s.toList = (List.finRange vs.length).map fun i => s[i] := vector_toList_map s
  have keys : (GenUnits.genMap vs).keys.make (slots s) = some ⟨flatIter id, (⟨none, (List.finRange vs.length).map fun i =>
      if s[i].isSome then some (.key vs[i]) else none, none⟩ : FlatSt _ _)⟩ := by
    simp only [GenUnits.genMap, IterBody.make, bind_names vs _ hl, Option.bind_some, names_zip,
      condItems_slots vs (places_binds' _), Option.map_some]
  have refs : ∀ f : Nat → V → GenUnits.Out V, refItems f 0 (slots s) = some (s.toList.zipIdx.map fun p => p.1.map (f p.2)) := by
    intro f
    rw [slots, refItems_eq]
  refine ⟨⟨_, pairs .asRef, ?_⟩, ⟨_, keys, ?_⟩, ⟨_, congrArg (Option.map _) (refs _), ?_⟩, ⟨_, pairs .asMut, ?_⟩,
    ⟨_, congrArg (Option.map _) (refs _), ?_⟩, ⟨_, pairs .move, ?_⟩⟩
  · refine agree_items (unitsPairs s) (fun p => (vs[p.1], p.1.val)) (by simp [unitsPairs]) ?_
    intro p hp
    obtain ⟨i, _, rfl⟩ := List.mem_map.1 hp
    simp only [Closure.run, slots_get]
    cases h : s[i] <;> rfl
  · refine agree_items _ (Option.map fun k => GenUnits.Out.key vs[k]) ?_ fun p _ => rfl
    simp only [List.map_map]
    refine List.map_congr_left fun i _ => ?_
    simp only [Function.comp]
    split <;> rfl
  · refine agree_items _ (Option.map GenUnits.Out.value) ?_ fun p _ => rfl
    apply List.ext_getElem <;> simp
  · refine agree_items _ (fun p => (vs[p.1], p.1.val)) (by simp only [List.map_map]; rfl) ?_
    intro p hp
    obtain ⟨i, _, rfl⟩ := List.mem_map.1 hp
    simp only [Closure.run, slots_get]
    cases h : s[i] <;> rfl
  · refine agree_items _ (fun p : Fin vs.length × Option V => p.2.map fun _ => GenUnits.Out.valueMut p.1.val) ?_ ?_
    · apply List.ext_getElem <;> simp
    · intro p _
      cases p.2 <;> rfl
  · refine agree_items (unitsPairs s) (fun p => (vs[p.1], p.1.val)) (by simp [unitsPairs]) ?_
    intro p hp
    obtain ⟨i, _, rfl⟩ := List.mem_map.1 hp
    simp only [Closure.run, slots_get]
    cases h : s[i] <;> rfl

/-- One call of a history. -/
private theorem units_step {V : Type} (vs : List String) (hd : vs.Nodup) {s : UnitsSt vs.length V} {l : List (String × V)}
    (h : Holds (unitsMap vs.length V).toMapCore (fun k : Fin vs.length => vs[k]) s l) (op : GenOp String V)
    (hk : ∀ d, op.key? = some d → d ∈ vs) :
    ∃ s', GenUnits.genStep (GenUnits.genMap vs) (slots s) op = some ((refGen l op).1, slots s') ∧
      Holds (unitsMap vs.length V).toMapCore (fun k : Fin vs.length => vs[k]) s' (refGen l op).2 := by
  let M := unitsMap vs.length V
  let L := unitsCore vs.length V
  have inj : ∀ a b : Fin vs.length, vs[a] = vs[b] → a = b := fun a b e => Fin.ext ((List.getElem_inj hd).1 e)
  have key : ∀ d, op.key? = some d → ∃ k : Fin vs.length, vs[k] = d := fun d e => by
    obtain ⟨i, hi, e⟩ := List.getElem_of_mem (hk d e)
    exact ⟨⟨i, hi⟩, e⟩
  have X := fun k => C62_map_key V vs hd s k
  have A := C62_map_all V vs s
  cases op with
  | insert d v =>
    obtain ⟨k, rfl⟩ := key d rfl
    refine ⟨(M.insert s k v).2, ?_, h.put inj (L.get_insert_self s k v) (L.get_insert_ne s k v)⟩
    simp only [GenUnits.genStep, refGen, (X k).1, resOk, Option.bind_some, Val.out, Option.map_some]
    rw [h.get k]
  | remove d =>
    obtain ⟨k, rfl⟩ := key d rfl
    refine ⟨(M.remove s k).2, ?_, h.erase inj (L.get_remove_self s k) (L.get_remove_ne s k)⟩
    simp only [GenUnits.genStep, refGen, (X k).2.2.2.2.1, resOk, Option.bind_some, Val.out, Option.map_some]
    rw [h.get k]
  | get d =>
    obtain ⟨k, rfl⟩ := key d rfl
    refine ⟨s, ?_, h⟩
    simp only [GenUnits.genStep, refGen, (X k).2.2.1, resOk, Option.bind_some, Val.out, Option.map_some]
    rw [h.get k]
  | containsKey d =>
    obtain ⟨k, rfl⟩ := key d rfl
    refine ⟨s, ?_, h⟩
    simp only [GenUnits.genStep, refGen, (X k).2.1, resOk, Option.bind_some, Val.out, Option.map_some]
    rw [h.get k]
  | set d v =>
    obtain ⟨k, rfl⟩ := key d rfl
    simp only [GenUnits.genStep, refGen, (X k).2.2.2.1, resOk, Option.bind_some]
    have hg : FinMap.get l vs[k] = s[k] := h.get k
    rw [hg]
    cases e : s[k] with
    | none => exact ⟨s, by simp only [Option.map_none], h⟩
    | some w =>
      refine ⟨s.set k (some v), ?_, h.put inj (L.get_insert_self s k v) (L.get_insert_ne s k v)⟩
      simp only [Option.map_some, slotAt, slots_get, e, Option.bind_some, slots_set]
  | entryInsert d v =>
    obtain ⟨k, rfl⟩ := key d rfl
    simp only [GenUnits.genStep, refGen, (X k).2.2.2.2.2]
    have hg : FinMap.get l vs[k] = s[k] := h.get k
    rw [hg]
    cases e : s[k] with
    | none =>
      obtain ⟨n, s1, h1, h2, h3⟩ := L.entry_none s k e
      obtain ⟨_, a, s2, h4, h5, h6, _⟩ := L.vacInsert_eq n s1 k v h3
      refine ⟨s2, ?_, h.put inj h5 fun k' hne => (h6 k' hne).trans (h2 k')⟩
      have h1' : unitsOptionToEntry s k k = .ok (.inr n, s1) := h1
      simp only [h1', Res.map, resOk, Option.bind_some]
      rw [(C62_map_entry V vs s1 n).2.2.2.2.2.2.2 v]
      have h4' : (unitsMap vs.length V).vacInsert n s1 v = .ok (a, s2) := h4
      rw [h4']
      rfl
    | some w =>
      obtain ⟨n, s1, h1, h2, h3⟩ := L.entry_some s k w e
      obtain ⟨old, s2, h4, h5, h6, h7, _⟩ := L.occInsert_eq n s1 k v h3
      refine ⟨s2, ?_, h.put inj h6 fun k' hne => (h7 k' hne).trans (h2 k')⟩
      have hw : w = old := by rw [h2] at h5; exact Option.some.inj (e.symm.trans h5)
      have h1' : unitsOptionToEntry s k k = .ok (.inl n, s1) := h1
      simp only [h1', Res.map, resOk, Option.bind_some]
      rw [(C62_map_entry V vs s1 n).2.2.2.2.2.1 v]
      have h4' : (unitsMap vs.length V).occInsert n s1 v = .ok (old, s2) := h4
      rw [h4', hw]
      rfl
  | entryRemove d =>
    obtain ⟨k, rfl⟩ := key d rfl
    simp only [GenUnits.genStep, refGen, (X k).2.2.2.2.2]
    have hg : FinMap.get l vs[k] = s[k] := h.get k
    rw [hg]
    cases e : s[k] with
    | none =>
      obtain ⟨n, s1, h1, h2, h3⟩ := L.entry_none s k e
      refine ⟨s1, ?_, h.erase inj ((h2 k).trans e) fun k' _ => h2 k'⟩
      have h1' : unitsOptionToEntry s k k = .ok (.inr n, s1) := h1
      simp only [h1', Res.map, resOk, Option.bind_some]
    | some w =>
      obtain ⟨n, s1, h1, h2, h3⟩ := L.entry_some s k w e
      obtain ⟨old, s2, h4, h5, h6, h7⟩ := L.occRemove_eq n s1 k h3
      refine ⟨s2, ?_, h.erase inj h6 fun k' hne => (h7 k' hne).trans (h2 k')⟩
      have hw : w = old := by rw [h2] at h5; exact Option.some.inj (e.symm.trans h5)
      have h1' : unitsOptionToEntry s k k = .ok (.inl n, s1) := h1
      simp only [h1', Res.map, resOk, Option.bind_some]
      rw [(C62_map_entry V vs s1 n).2.2.2.2.2.2.1]
      have h4' : (unitsMap vs.length V).occRemove n s1 = .ok (old, s2) := h4
      rw [h4', hw]
      rfl
  | len =>
    refine ⟨s, ?_, h⟩
    have hp := (h.perm L inj).length_eq
    rw [List.length_map, ← L.len_eq] at hp
    simp only [GenUnits.genStep, refGen, A.2.1, resOk, Option.bind_some, Val.out, Option.map_some, ← hp]
  | isEmpty =>
    refine ⟨s, ?_, h⟩
    have hp := (h.perm L inj).isEmpty_eq
    rw [List.isEmpty_map, ← L.isEmpty_eq] at hp
    simp only [GenUnits.genStep, refGen, A.2.2.1, resOk, Option.bind_some, Val.out, Option.map_some, ← hp]
  | clear =>
    refine ⟨(M.clear s).1, ?_, List.nodup_nil, fun p hp => (nomatch hp), fun k => ?_⟩
    · simp only [GenUnits.genStep, refGen, A.2.2.2.2.1, Option.map_some]; rfl
    · simp [refGen, FinMap.get, M]

/-- C62: from the emitted `empty` on, every sequence of calls on the emitted code returns what the same calls on an
association list return. -/
theorem C62_history (V : Type) (vs : List String) (hd : vs.Nodup) (ops : List (GenOp String V))
    (hk : ∀ op ∈ ops, ∀ d, op.key? = some d → d ∈ vs) :
    (arrayLit (GenUnits.genMap vs).count (GenUnits.genMap vs).empty (.slot none)).bind
      (GenUnits.genRun (GenUnits.genMap vs) ops) = some (refGenRun ops []) := by
  have go : ∀ (ops : List (GenOp String V)) (s : UnitsSt vs.length V) (l : List (String × V)),
      Holds (unitsMap vs.length V).toMapCore (fun k : Fin vs.length => vs[k]) s l →
      (∀ op ∈ ops, ∀ d, op.key? = some d → d ∈ vs) →
      GenUnits.genRun (GenUnits.genMap vs) ops (slots s) = some (refGenRun ops l) := by
    intro ops
    induction ops with
    | nil => intro s l _ _; rfl
    | cons op ops ih =>
      intro s l h hk
      obtain ⟨s', h1, h2⟩ := units_step vs hd h op (hk op List.mem_cons_self)
      have := ih s' _ h2 fun o ho => hk o (List.mem_cons_of_mem _ ho)
      simp only [GenUnits.genRun, h1, Option.bind_some, this, Option.map_some, refGenRun]
  rw [(C62_map_all V vs (Vector.replicate _ none)).1, Option.bind_some]
  exact go ops _ [] ⟨List.nodup_nil, fun p hp => (nomatch hp), fun k => by simp [FinMap.get]⟩ hk

/-- C62: the emitted set storage on an array. -/
theorem C62_set (V : Type) (vs : List String) (hd : vs.Nodup) (s : UnitsSetSt vs.length) :
    let N := unitsSet vs.length
    let C := GenUnits.genSet vs
    (∀ k : Fin vs.length,
      C.insert.run [.key vs[k]] (flags V s) = some (.ok (.bool (N.insert s k).1, flags V (N.insert s k).2)) ∧
      C.contains.run [.key vs[k]] (flags V s) = some (.ok (.bool (N.contains s k), flags V s)) ∧
      C.remove.run [.key vs[k]] (flags V s) = some (.ok (.bool (N.remove s k).1, flags V (N.remove s k).2))) ∧
    arrayLit C.count C.empty (.flag false) = some (flags V N.empty) ∧
    C.len.run (flags V s) = some (.ok (.nat (N.len s), flags V s)) ∧
    C.isEmpty.run (flags V s) = some (.ok (.bool (N.isEmpty s), flags V s)) ∧
    (∀ (σ : Type) (f : σ → String → σ × Option Bool) (st : σ), C.retain.runSet f (flags V s) st =
      some ((N.retain (fun st k => f st vs[k]) s st).mapS (flags V))) ∧
    arrayLit C.count C.clear (.flag false) = some (flags V (N.clear s)) ∧
    C.iter.Does (flags V s) N.iter.I (N.iter.init s) (fun k => .key vs[k]) ∧
    C.intoIter.Does (flags V s) N.intoIter.I (N.intoIter.init s) (fun k => .key vs[k]) := by
  have hl := flags_length (V := V) s
  have hv : s.toList = (List.finRange vs.length).map fun i => s[i] := vector_toList_map s
  have it : (IterBody.flattenIf (names vs) ((names vs).zip vs)).Does (flags V s) (unitsSet vs.length).iter.I
      ((unitsSet vs.length).iter.init s) (fun k => .key vs[k]) := by
    refine ⟨⟨flatIter id, (⟨none, (List.finRange vs.length).map fun i => if s[i] then some (.key vs[i]) else none, none⟩ :
      FlatSt _ _)⟩, ?_, ?_⟩
    · simp only [IterBody.make, bind_names vs _ hl, Option.bind_some, names_zip,
        condItems_flags vs (places_binds' _), Option.map_some]
    · refine agree_items _ (Option.map fun k => GenUnits.Out.key vs[k]) ?_ fun p _ => rfl
      simp only [List.map_map]
      refine List.map_congr_left fun i _ => ?_
      simp only [Function.comp]
      split <;> rfl
  refine ⟨fun k => ⟨?_, ?_, ?_⟩, ?_, ?_, ?_, fun σ f st => ?_, ?_, it, it⟩
  · refine (run_match vs hd _ _ hl "value" (by decide) [] [] k rfl).trans ?_
    simp only [eval, elemOf_flags s (places_binds _ _), flags_set]
  · refine (run_match vs hd _ _ hl "value" (by decide) [] [] k rfl).trans ?_
    simp only [eval, elemOf_flags s (places_binds _ _)]
  · refine (run_match vs hd _ _ hl "value" (by decide) [] [] k rfl).trans ?_
    simp only [eval, elemOf_flags s (places_binds _ _), flags_set]
  · simp [GenUnits.genSet, arrayLit, flags, unitsSet]
  · simp only [GenUnits.genSet, ExprFn.run, bind_names vs _ hl, Option.bind_some]
    rw [names_eq, eval_setLen s (places_binds' _) _ .zero 0 rfl, ← hv]
  · simp only [GenUnits.genSet, ExprFn.run, bind_names vs _ hl, Option.bind_some]
    rw [names_eq, eval_setIsEmpty s (places_binds' _) _ .tt true rfl, ← hv]
  · simp only [GenUnits.genSet, RetainFn.runSet, bind_names vs _ hl, Option.bind_some, names_zip]
    exact runSetRetain_eq vs f (places_binds' _) _ s st
  · simp [GenUnits.genSet, arrayLit, flags, unitsSet]

/-- C62: the emitted bitset. The code is emitted exactly if there are at most 128 variants, and all its literals fit the
integer type. -/
theorem C62_bitset (vs : List String) (hd : vs.Nodup) :
    (genBitset vs = none ↔ 128 < vs.length) ∧
    ∀ C, genBitset vs = some C →
      determineBits vs.length = some C.width ∧
      ∀ s : BitVec C.width,
        let N := bitsetSet vs.length C.width
        C.empty = N.empty ∧ C.empty = N.clear s ∧ C.len s = N.len s ∧ C.isEmpty s = N.isEmpty s ∧
        (∀ k : Fin vs.length,
          C.insert s vs[k] = some (N.insert s k) ∧
          C.contains s vs[k] = some (N.contains s k) ∧
          C.remove s vs[k] = some (N.remove s k)) ∧
        (∀ (σ : Type) (f : σ → String → σ × Option Bool) (st : σ), runBitsetRetain f s C.retain 0 st =
          some (N.retain (fun st k => f st vs[k]) s st)) ∧
        (∃ l, bitsetItems s C.iter = some l ∧
          Agree (flatIter id) (⟨none, l, none⟩ : FlatSt _ _) N.iter.I (N.iter.init s) (fun k => vs[k])) ∧
        ∃ l, bitsetItems s C.intoIter = some l ∧
          Agree (flatIter id) (⟨none, l, none⟩ : FlatSt _ _) N.intoIter.I (N.intoIter.init s) (fun k => vs[k]) := by
  have hvs : vs = (List.finRange vs.length).map fun i => vs[i] := by
    apply List.ext_getElem <;> simp
  constructor
  · unfold genBitset
    by_cases h : vs.length ≤ 128
    · rw [numbers_eq vs h]
      constructor
      · intro e
        exfalso
        revert e
        unfold determineBits
        repeat' split
        all_goals first | (intro e; cases e) | (exfalso; omega)
      · intro h'; omega
    · constructor
      · intro _; omega
      · intro _
        have : determineBits vs.length = none := by
          unfold determineBits
          repeat' rw [if_neg (by omega)]
        rw [this]; rfl
  intro C hC
  obtain ⟨w, hw, hC⟩ := Option.bind_eq_some_iff.1 hC
  obtain ⟨h1, h2⟩ := bits_le hw
  rw [numbers_eq vs (by omega), Option.map_some] at hC
  obtain rfl := Option.some.inj hC
  have z1 : ((List.finRange vs.length).map fun i => 1 <<< i.val).zip vs =
      (List.finRange vs.length).map fun i => (1 <<< i.val, vs[i]) := by
    conv => lhs; arg 2; rw [hvs]
    rw [List.zip_map']
  have z2 : vs.zip ((List.finRange vs.length).map fun i => 1 <<< i.val) =
      (List.finRange vs.length).map fun i => (vs[i], 1 <<< i.val) := by
    conv => lhs; arg 1; rw [hvs]
    rw [List.zip_map']
  refine ⟨hw, fun s => ⟨rfl, rfl, rfl, rfl, fun k => ?_, fun σ f st => ?_, ?_, ?_⟩⟩
  · have hm : BitsetCode.mask ⟨w, vs.zip ((List.finRange vs.length).map fun i => 1 <<< i.val),
        ((List.finRange vs.length).map fun i => 1 <<< i.val).zip (vs.zip ((List.finRange vs.length).map fun i => 1 <<< i.val)),
        ((List.finRange vs.length).map fun i => 1 <<< i.val).zip vs,
        ((List.finRange vs.length).map fun i => 1 <<< i.val).zip vs⟩ vs[k] = some (bitsetMask w k) := by
      simp only [BitsetCode.mask]
      rw [z2, lookup_map (fun i : Fin vs.length => vs[i]) _ (fun a b e => Fin.ext ((List.getElem_inj hd).1 e)) _ k
        (List.mem_finRange k), Option.bind_some, intLit_mask h1]
    refine ⟨?_, ?_, ?_⟩
    · exact (congrArg (Option.map _) hm).trans rfl
    · exact (congrArg (Option.map _) hm).trans rfl
    · exact (congrArg (Option.map _) hm).trans rfl
  · simp only []
    rw [z2, List.zip_map']
    exact runBitsetRetain_eq vs h1 f s _ _ _
  all_goals
    refine ⟨(List.finRange vs.length).map fun i => if s &&& bitsetMask w i != 0 then some vs[i] else none, ?_, ?_⟩
    · simp only []
      rw [z1]
      exact bitsetItems_eq vs h1 s _
    · refine agree_items _ (Option.map fun k => vs[k]) ?_ fun p _ => rfl
      simp only [List.map_map]
      refine List.map_congr_left fun i _ => ?_
      simp only [Function.comp]
      split <;> rfl

/-! ## Concrete cases -/

/-- `enum Part { One, Two, Three }`. -/
def exParts : List String := ["One", "Two", "Three"]

example : exParts.Nodup := by decide
example : (GenUnits.genMap exParts).get.arms =
    [("One", .call .asRef "_0" []), ("Two", .call .asRef "_1" []), ("Three", .call .asRef "_2" [])] := by decide
example : (GenUnits.genMap exParts).len.body =
    .add (.add (.add .zero (.usizeFrom (.call .isSome "_0" []))) (.usizeFrom (.call .isSome "_1" [])))
      (.usizeFrom (.call .isSome "_2" [])) := by decide
/-- Insert `Two`, replace it through its entry, count, take it out. -/
example : GenUnits.genRun (V := Nat) (GenUnits.genMap exParts)
    [.insert "Two" 5, .entryInsert "Two" 6, .set "One" 1, .len, .entryRemove "Two", .isEmpty] (slots #v[none, none, none]) =
      some [.opt none, .opt (some 5), .opt none, .nat 1, .opt (some 6), .bool true] := by decide
/-- Two variants of the same name: the second is unreachable, so the theorems need distinct names. -/
example : GenUnits.genRun (V := Nat) (GenUnits.genMap ["A", "A"]) [.get "A", .len] (slots #v[none, some 5]) =
    some [.opt none, .nat 1] := by decide
example : (genBitset exParts).map (·.toBits) = some [("One", 1), ("Two", 2), ("Three", 4)] := by decide
example : (genBitset exParts).map (·.width) = some 8 := by decide
example : (genBitset (List.replicate 129 "A")).isNone = true := by simp [genBitset, determineBits]

end FixedMap
