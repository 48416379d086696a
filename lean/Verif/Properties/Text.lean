import Verif.Spec.Text
import Verif.Properties.SetHistory
import Verif.Properties.SetIntersection
import Verif.Properties.MapOrd

/-! # C29, C30, C47: serde and `Debug` -/

set_option autoImplicit false
set_option linter.unusedSimpArgs false

namespace FixedMap

/-! ## Serializing -/

theorem serializeEntries_eq {K V E Out : Type} (Z : MapSerializer K V E Out) (l : List (K × V)) (st : Z.St) :
    serializeEntries Z l st = l.foldlM (fun st p => Z.serialize_entry st p.1 p.2) st := by
  induction l generalizing st with
  | nil => rfl
  | cons p l ih =>
    rw [serializeEntries, List.foldlM_cons]
    cases h : Z.serialize_entry st p.1 p.2 with
    | error e => rfl
    | ok st' => exact ih st'

theorem serializeElements_eq {T E Out : Type} (Z : SeqSerializer T E Out) (l : List T) (st : Z.St) :
    serializeElements Z l st = l.foldlM Z.serialize_element st := by
  induction l generalizing st with
  | nil => rfl
  | cons p l ih =>
    rw [serializeElements, List.foldlM_cons]
    cases h : Z.serialize_element st p with
    | error e => rfl
    | ok st' => exact ih st'

variable (H : Hashbrown) (V : Type) (κ : KeyTy)

/-- C29, serializing maps with any serializer (which may fail anywhere): it announces exactly as many entries as it emits and
emits them in `iter()` order. -/
theorem C29_map_serialize {E Out : Type} (Z : MapSerializer κ.Key V E Out) (m : (mapStorage H.api V κ).S) :
    let M := mapStorage H.api V κ
    ∃ l, (Map.iter M).runsTo m l ∧ ∃ N, ∀ fuel, N ≤ fuel → Map.serialize M Z fuel m = some (Z.feed l) := by
  intro M
  have hr := Yields.runsTo ((mapIters H V κ).iter m)
  have hr' : (Map.refIntoIter M).runsTo m ((mapCore H V κ).entries m) := hr
  obtain ⟨N, hN⟩ := hr'
  refine ⟨(mapCore H V κ).entries m, hr, N, fun fuel hf => ?_⟩
  have hl : Map.len M m = _ := (mapCore H V κ).len_eq m
  rw [Map.serialize, hN fuel hf, hl, MapSerializer.feed]
  cases Z.serialize_map (some ((mapCore H V κ).entries m).length) with
  | error e => rfl
  | ok st =>
    simp only [Option.map_some, serializeEntries_eq]
    show some _ = some ((List.foldlM _ st _) >>= Z.finish)
    cases (List.foldlM (fun st p => Z.serialize_entry st p.1 p.2) st ((mapCore H V κ).entries m)) <;> rfl

/-- C29, serializing sets. -/
theorem C29_set_serialize {E Out : Type} (Z : SeqSerializer κ.Key E Out) (s : (setStorage H.api κ).S)
    (hs : Reachable (setStorage H.api κ) s) :
    let M := setStorage H.api κ
    ∃ l, (FSet.iter M).runsTo s l ∧ ∃ N, ∀ fuel, N ≤ fuel → FSet.serialize M Z fuel s = some (Z.feed l) := by
  intro M
  have hr := Yields.runsTo ((setIters H κ).iter s (hs.valid _))
  have hr' : (FSet.refIntoIter M).runsTo s ((setLaws H κ).elems s) := hr
  obtain ⟨N, hN⟩ := hr'
  refine ⟨(setLaws H κ).elems s, hr, N, fun fuel hf => ?_⟩
  have hl : FSet.len M s = _ := (setLaws H κ).len_eq s (hs.valid _)
  rw [FSet.serialize, hN fuel hf, hl, SeqSerializer.feed]
  cases Z.serialize_seq (some ((setLaws H κ).elems s).length) with
  | error e => rfl
  | ok st =>
    simp only [Option.map_some, serializeElements_eq]
    show some _ = some ((List.foldlM _ st _) >>= Z.finish)
    cases (List.foldlM Z.serialize_element st ((setLaws H κ).elems s)) <;> rfl

theorem feed_recordMap {K V W : Type} (encK : K → W) (encV : V → W) (l : List (K × V)) :
    (recordMap encK encV).feed l = .ok (some l.length, l.map fun p => (encK p.1, encV p.2)) := by
  have key : ∀ (l : List (K × V)) (st : Option Nat × List (W × W)),
      l.foldlM (fun (st : Option Nat × List (W × W)) p => (.ok (st.1, st.2 ++ [(encK p.1, encV p.2)]) : Except Empty _)) st =
        (.ok (st.1, st.2 ++ l.map fun p => (encK p.1, encV p.2)) : Except Empty _) := by
    intro l
    induction l with
    | nil => intro st; simp; rfl
    | cons p l ih =>
      intro st
      rw [List.foldlM_cons]
      refine (ih (st.1, st.2 ++ [(encK p.1, encV p.2)])).trans ?_
      simp
  have := key l (some l.length, [])
  rw [List.nil_append] at this
  exact congrArg (fun r : Except Empty (Option Nat × List (W × W)) => r >>= fun st => Except.ok st) this

theorem feed_recordSeq {T W : Type} (enc : T → W) (l : List T) :
    (recordSeq enc).feed l = .ok (some l.length, l.map enc) := by
  have key : ∀ (l : List T) (st : Option Nat × List W),
      l.foldlM (fun (st : Option Nat × List W) x => (.ok (st.1, st.2 ++ [enc x]) : Except Empty _)) st =
        (.ok (st.1, st.2 ++ l.map enc) : Except Empty _) := by
    intro l
    induction l with
    | nil => intro st; simp; rfl
    | cons p l ih =>
      intro st
      rw [List.foldlM_cons]
      refine (ih (st.1, st.2 ++ [enc p])).trans ?_
      simp
  have := key l (some l.length, [])
  rw [List.nil_append] at this
  exact congrArg (fun r : Except Empty (Option Nat × List W) => r >>= fun st => Except.ok st) this

/-! ## Deserializing -/

/-- C29, deserializing maps: without an error the map of the entries where the last of duplicate keys wins, the same as collecting
them; and the first error is returned, whatever follows it. -/
theorem C29_map_deserialize (E : Type) (l : List (κ.Key × V)) :
    let M := mapStorage H.api V κ
    Map.visitMap M (l.map Except.ok : List (Except E (κ.Key × V))) = .ok (Map.fromIter M l) ∧
      (∀ k, Map.get M (Map.fromIter M l).1 k = FinMap.get l.reverse k) ∧
      ∀ (e : E) (rest : List (Except E (κ.Key × V))), Map.visitMap M (l.map Except.ok ++ .error e :: rest) = .error e := by
  intro M
  have key : ∀ (l : List (κ.Key × V)) (m : M.S) (d : List V) (tl : List (Except E (κ.Key × V))),
      Map.visitMap.go M m d (l.map Except.ok ++ tl) =
        Map.visitMap.go M (l.foldl (fun acc p => ((Map.insert M acc.1 p.1 p.2).2, acc.2 ++ (Map.insert M acc.1 p.1 p.2).1.toList)) (m, d)).1
          (l.foldl (fun acc p => ((Map.insert M acc.1 p.1 p.2).2, acc.2 ++ (Map.insert M acc.1 p.1 p.2).1.toList)) (m, d)).2 tl := by
    intro l
    induction l with
    | nil => intros; rfl
    | cons p l ih => intro m d tl; exact ih _ _ _
  refine ⟨?_, (C22_fromIter H V κ l).1, ?_⟩
  · have := key l (Map.new M) [] []
    rw [List.append_nil] at this
    exact this
  · exact fun e rest => key l (Map.new M) [] (.error e :: rest)

/-- C47 (and C29) for deserializing sets: without an error exactly the set of the listed elements; the first error is returned. -/
theorem C47_deserialize (E : Type) (l : List κ.Key) :
    let M := setStorage H.api κ
    FSet.visitSeq M (l.map Except.ok : List (Except E κ.Key)) = .ok (FSet.fromIter M l) ∧
      (∀ x, FSet.contains M (FSet.fromIter M l) x = true ↔ x ∈ l) ∧
      ∀ (e : E) (rest : List (Except E κ.Key)), FSet.visitSeq M (l.map Except.ok ++ .error e :: rest) = .error e := by
  intro M
  have key : ∀ (l : List κ.Key) (s : M.S) (tl : List (Except E κ.Key)),
      FSet.visitSeq.go M s (l.map Except.ok ++ tl) =
        FSet.visitSeq.go M (l.foldl (fun s v => (FSet.insert M s v).2) s) tl := by
    intro l
    induction l with
    | nil => intros; rfl
    | cons p l ih => intro s tl; exact ih _ _
  refine ⟨?_, (C47_collect H κ l).2.1, ?_⟩
  · have := key l (FSet.new M) []
    rw [List.append_nil] at this
    exact this
  · exact fun e rest => key l (FSet.new M) (.error e :: rest)

/-! ## Round trips -/

/-- C29, round trip of maps, for every pair of codecs that round-trip: record what is serialized, decode the entries, deserialize:
the result has the same value for every key (so it is equal, for every reflexive `==` of the values), nothing was dropped
on the way, and the announced length is the number of entries. -/
theorem C29_map_round_trip {W E : Type} (encK : κ.Key → W) (decK : W → Except E κ.Key) (hK : ∀ k, decK (encK k) = .ok k)
    (encV : V → W) (decV : W → Except E V) (hV : ∀ v, decV (encV v) = .ok v) (m : (mapStorage H.api V κ).S) :
    let M := mapStorage H.api V κ
    ∃ ws N m', (∀ fuel, N ≤ fuel → Map.serialize M (recordMap encK encV) fuel m = some (.ok (some ws.length, ws))) ∧
      Map.visitMap M (ws.map (decodeEntry decK decV)) = .ok (m', []) ∧
      (∀ k, Map.get M m' k = Map.get M m k) ∧
      ∀ veq : V → V → Bool, (∀ v, veq v v = true) → Map.eq M veq m' m = true := by
  intro M
  let L := mapCore H V κ
  obtain ⟨l, hl, N, hN⟩ := C29_map_serialize H V κ (recordMap encK encV) m
  obtain rfl := runsTo_unique hl (Yields.runsTo ((mapIters H V κ).iter m))
  refine ⟨(L.entries m).map fun p => (encK p.1, encV p.2), N, (Map.fromIter M (L.entries m)).1, ?_, ?_, ?_⟩
  · intro fuel hf
    rw [hN fuel hf, feed_recordMap, List.length_map]
  · have hd : ((L.entries m).map fun p => (encK p.1, encV p.2)).map (decodeEntry decK decV) =
        (L.entries m).map (Except.ok : _ → Except E _) := by
      rw [List.map_map]
      apply List.map_congr_left
      intro p _
      show decodeEntry decK decV (encK p.1, encV p.2) = _
      simp [decodeEntry, hK, hV, bind, Except.bind, pure, Except.pure]
    rw [hd, (C29_map_deserialize H V κ E (L.entries m)).1]
    -- nothing is dropped: the keys are distinct
    have nd : ∀ (l : List (κ.Key × V)) (acc : M.S × List V), (l.map Prod.fst).Nodup →
        (∀ p ∈ l, Map.get M acc.1 p.1 = none) →
        (l.foldl (fun acc p => ((Map.insert M acc.1 p.1 p.2).2, acc.2 ++ (Map.insert M acc.1 p.1 p.2).1.toList)) acc).2 = acc.2 := by
      intro l
      induction l with
      | nil => intros; rfl
      | cons p l ih =>
        intro acc hn hg
        rw [List.map_cons, List.nodup_cons] at hn
        rw [List.foldl_cons, ih _ hn.2]
        · have : (Map.insert M acc.1 p.1 p.2).1 = none := (L.insert_ret acc.1 p.1 p.2).trans (hg p (.head _))
          rw [this]; simp
        · intro q hq
          have hne : q.1 ≠ p.1 := fun e => hn.1 (e ▸ List.mem_map.mpr ⟨q, hq, rfl⟩)
          exact (L.get_insert_ne acc.1 p.1 p.2 q.1 hne).trans (hg q (.tail _ hq))
    have hge : ∀ k, Map.get M (Map.new M) k = none := by
      intro k
      cases hk : Map.get M (Map.new M) k with
      | none => rfl
      | some v =>
        have : (k, v) ∈ L.entries (Map.new M) := (L.mem_entries _ k v).mpr hk
        rw [show L.entries (Map.new M) = [] from L.entries_empty] at this
        cases this
    have := nd (L.entries m) (Map.new M, []) (L.nodup_keys m) fun p _ => hge p.1
    exact congrArg Except.ok (Prod.ext rfl this)
  · have hg : ∀ k, Map.get M (Map.fromIter M (L.entries m)).1 k = Map.get M m k := by
      intro k
      rw [(C22_fromIter H V κ (L.entries m)).1 k]
      have nodupr : ((L.entries m).reverse.map Prod.fst).Nodup := by
        rw [List.map_reverse]; exact (List.reverse_perm _).nodup_iff.mpr (L.nodup_keys m)
      have get_mem : ∀ (l : List (κ.Key × V)), (l.map Prod.fst).Nodup → ∀ v, FinMap.get l k = some v ↔ (k, v) ∈ l := by
        intro l
        induction l with
        | nil => intro _ v; simp [FinMap.get]
        | cons p l ih =>
          intro hn v
          rw [List.map_cons, List.nodup_cons] at hn
          rw [FinMap.get]
          by_cases hp : p.1 = k
          · rw [if_pos hp]
            constructor
            · intro h; obtain rfl := Option.some.inj h; exact List.mem_cons.mpr (.inl (Prod.ext hp.symm rfl))
            · intro h
              rcases List.mem_cons.mp h with h | h
              · rw [← h]
              · exact absurd (List.mem_map.mpr ⟨_, h, hp.symm⟩) hn.1
          · rw [if_neg hp, ih hn.2]
            constructor
            · exact fun h => .tail _ h
            · intro h
              rcases List.mem_cons.mp h with h | h
              · exact absurd (by rw [← h]) hp
              · exact h
      apply Option.ext
      intro v
      rw [get_mem _ nodupr, List.mem_reverse]
      exact L.mem_entries m k v
    refine ⟨hg, fun veq hveq => ?_⟩
    refine (L.eq_iff veq _ m).mpr fun k => ?_
    have := hg k
    rw [show (mapStorage H.api V κ).get (Map.fromIter M (L.entries m)).1 k = Map.get M m k from this]
    show optBeq veq (Map.get M m k) (Map.get M m k) = true
    cases Map.get M m k with
    | none => rfl
    | some v => exact hveq v

/-- C29, round trip of sets: the result is equal to the original. -/
theorem C29_set_round_trip {W E : Type} (enc : κ.Key → W) (dec : W → Except E κ.Key) (hK : ∀ k, dec (enc k) = .ok k)
    (s : (setStorage H.api κ).S) (hs : Reachable (setStorage H.api κ) s) :
    let M := setStorage H.api κ
    ∃ ws N s', (∀ fuel, N ≤ fuel → FSet.serialize M (recordSeq enc) fuel s = some (.ok (some ws.length, ws))) ∧
      FSet.visitSeq M (ws.map dec) = .ok s' ∧ Reachable M s' ∧ FSet.eq M s' s = true := by
  intro M
  let L := setLaws H κ
  obtain ⟨l, hl, N, hN⟩ := C29_set_serialize H κ (recordSeq enc) s hs
  obtain rfl := runsTo_unique hl (Yields.runsTo ((setIters H κ).iter s (hs.valid _)))
  refine ⟨(L.elems s).map enc, N, FSet.fromIter M (L.elems s), ?_, ?_, (C47_collect H κ _).1, ?_⟩
  · intro fuel hf
    rw [hN fuel hf, feed_recordSeq, List.length_map]
  · rw [List.map_map, show dec ∘ enc = Except.ok from funext hK]
    exact (C47_deserialize H κ E (L.elems s)).1
  · refine (C42_eq H κ _ s (C47_collect H κ _).1 hs).mpr fun x => Bool.eq_iff_iff.mpr ?_
    exact ((C47_collect H κ (L.elems s)).2.1 x).trans (L.mem_elems s x)

/-- Case: the map of the examples, with numbers as codes of the values; a codec that can fail. -/
example : (Map.serialize Ex.M (recordMap (fun k : Ex.key.Key => Sum.inl k) (fun v : Nat => (Sum.inr v : Ex.key.Key ⊕ Nat))) 9 Ex.map).map
      (fun r => match r with | .ok p => (p.1, p.2.length) | .error e => e.elim) = some (some 6, 6) := rfl

/-- Case: an error in the middle of the input. -/
example : Map.visitMap Ex.M [.ok (Ex.simple, 1), .error "bad", .ok (Ex.simple, 2)] = .error "bad" := rfl

/-! ## Debug -/

theorem listed_append (l : List String) (a : String) (hl : l ≠ []) : listed (l ++ [a]) = listed l ++ ", " ++ a := by
  induction l with
  | nil => exact absurd rfl hl
  | cons x l ih =>
    cases l with
    | nil => rfl
    | cons y l =>
      have := ih (by simp)
      simp only [List.cons_append, listed] at this ⊢
      rw [this]
      simp [String.append_assoc]

theorem debug_items (start : String) (l : List String) :
    l.foldl (fun (b : DebugBuilder) x => b.item x) ⟨start, false⟩ = ⟨start ++ listed l, !l.isEmpty⟩ := by
  have snoc : ∀ n (l : List String), l.length = n →
      l.foldl (fun (b : DebugBuilder) x => b.item x) ⟨start, false⟩ = ⟨start ++ listed l, !l.isEmpty⟩ := by
    intro n
    induction n with
    | zero =>
      intro l hl
      obtain rfl := List.length_eq_zero_iff.mp hl
      simp [listed]
    | succ n ih =>
      intro l hl
      have hne : l ≠ [] := fun e => by simp [e] at hl
      obtain ⟨l', a, rfl⟩ : ∃ l' a, l = l' ++ [a] := ⟨l.dropLast, l.getLast hne, (List.dropLast_concat_getLast hne).symm⟩
      rw [List.foldl_append, ih l' (by simpa using hl)]
      cases l' with
      | nil => simp [DebugBuilder.item, listed]
      | cons x l' =>
        rw [listed_append _ _ (by simp)]
        simp [DebugBuilder.item, String.append_assoc]
  exact snoc _ l rfl

/-- C30: `{:?}` of a map is `{k: v, ...}` over `iter()`. -/
theorem C30_map_debug (fk : κ.Key → String) (fv : V → String) (m : (mapStorage H.api V κ).S) :
    let M := mapStorage H.api V κ
    ∃ l, (Map.iter M).runsTo m l ∧ ∃ N, ∀ fuel, N ≤ fuel →
      Map.debug M fk fv fuel m = some ("{" ++ listed (l.map fun p => fk p.1 ++ ": " ++ fv p.2) ++ "}") := by
  intro M
  have hr := Yields.runsTo ((mapIters H V κ).iter m)
  obtain ⟨N, hN⟩ := id hr
  refine ⟨_, hr, N, fun fuel hf => ?_⟩
  have e : ∀ (b : DebugBuilder) (k v : String), b.entry k v = b.item (k ++ ": " ++ v) := by
    intro b k v
    simp [DebugBuilder.entry, DebugBuilder.item, String.append_assoc]
  rw [Map.debug, show (Map.iter M).I.drain fuel ((Map.iter M).init m) = _ from hN fuel hf, Option.map_some]
  simp only [e]
  rw [← List.foldl_map (f := fun p : κ.Key × V => fk p.1 ++ ": " ++ fv p.2) (g := fun (b : DebugBuilder) x => b.item x)]
  rw [DebugBuilder.brace, debug_items]
  rfl

/-- C30: `{:?}` of a set is `{k, ...}` over `iter()`. -/
theorem C30_set_debug (f : κ.Key → String) (s : (setStorage H.api κ).S) (hs : Reachable (setStorage H.api κ) s) :
    let M := setStorage H.api κ
    ∃ l, (FSet.iter M).runsTo s l ∧ ∃ N, ∀ fuel, N ≤ fuel →
      FSet.debug M f fuel s = some ("{" ++ listed (l.map f) ++ "}") := by
  intro M
  have hr := Yields.runsTo ((setIters H κ).iter s (hs.valid _))
  obtain ⟨N, hN⟩ := id hr
  refine ⟨_, hr, N, fun fuel hf => ?_⟩
  rw [FSet.debug, show (FSet.iter M).I.drain fuel ((FSet.iter M).init s) = _ from hN fuel hf, Option.map_some]
  rw [← List.foldl_map (f := f) (g := fun (b : DebugBuilder) x => b.item x), DebugBuilder.brace, debug_items]
  rfl

/-- `{:?}` of an intersection, after any number of `next` calls, lists the items that remain, in brackets. -/
theorem C30_intersection_debug (f : κ.Key → String) (a b : (setStorage H.api κ).S)
    (ha : Reachable (setStorage H.api κ) a) (hb : Reachable (setStorage H.api κ) b) (n : Nat) :
    let M := setStorage H.api κ
    ∃ l N, ∀ fuel, N ≤ fuel → Intersection.toList M fuel fuel (Intersection.new M a b) = some l ∧
      ∃ outs st, Intersection.calls M fuel n (Intersection.new M a b) = some (outs, st) ∧
        Intersection.debug M f fuel st = some ("[" ++ listed ((l.drop n).map f) ++ "]") := by
  intro M
  obtain ⟨l, h⟩ := C41_fold_hint H κ a b ha hb
  obtain ⟨N, hN⟩ := h n
  refine ⟨l, N, fun fuel hf => ?_⟩
  obtain ⟨h1, st, h2, h3, _⟩ := hN fuel hf
  refine ⟨h1, _, st, h2, ?_⟩
  rw [Intersection.debug, h3, Option.map_some, ← List.foldl_map (f := f) (g := fun (b : DebugBuilder) x => b.item x),
    DebugBuilder.bracket, debug_items]
  rfl

/-- C30: whatever the formatter does with entries (`{:#?}`, a failing sink, …), a map hands it the entries of `iter()`, each
once, in order, and nothing else; sets and intersections likewise. -/
theorem C30_any_formatter {Out : Type} (D : DebugApi (κ.Key × V) Out) (E : DebugApi κ.Key Out) (m : (mapStorage H.api V κ).S)
    (s t : (setStorage H.api κ).S) (hs : Reachable (setStorage H.api κ) s) (ht : Reachable (setStorage H.api κ) t) (n : Nat) :
    let M := mapStorage H.api V κ
    let N := setStorage H.api κ
    (∃ l, (Map.iter M).runsTo m l ∧ ∃ f0, ∀ fuel, f0 ≤ fuel →
      Map.debugWith M D fuel m = some (D.finish (l.foldl D.entry D.start))) ∧
    (∃ l, (FSet.iter N).runsTo s l ∧ ∃ f0, ∀ fuel, f0 ≤ fuel →
      FSet.debugWith N E fuel s = some (E.finish (l.foldl E.entry E.start))) ∧
    (∃ l f0, ∀ fuel, f0 ≤ fuel → Intersection.toList N fuel fuel (Intersection.new N s t) = some l ∧
      ∃ outs st, Intersection.calls N fuel n (Intersection.new N s t) = some (outs, st) ∧
        Intersection.debugWith N E fuel st = some (E.finish ((l.drop n).foldl E.entry E.start))) := by
  intro M N
  refine ⟨?_, ?_, ?_⟩
  · have hr := Yields.runsTo ((mapIters H V κ).iter m)
    obtain ⟨f0, hf⟩ := id hr
    refine ⟨_, hr, f0, fun fuel h => ?_⟩
    rw [Map.debugWith, show (Map.iter M).I.drain fuel ((Map.iter M).init m) = _ from hf fuel h]
    rfl
  · have hr := Yields.runsTo ((setIters H κ).iter s (hs.valid _))
    obtain ⟨f0, hf⟩ := id hr
    refine ⟨_, hr, f0, fun fuel h => ?_⟩
    rw [FSet.debugWith, show (FSet.iter N).I.drain fuel ((FSet.iter N).init s) = _ from hf fuel h]
    rfl
  · obtain ⟨l, h⟩ := C41_fold_hint H κ s t hs ht
    obtain ⟨f0, hN⟩ := h n
    refine ⟨l, f0, fun fuel hf => ?_⟩
    obtain ⟨h1, st, h2, h3, _⟩ := hN fuel hf
    refine ⟨h1, _, st, h2, ?_⟩
    rw [Intersection.debugWith, h3]
    rfl

/-- Case: a sink that takes two entries and then fails. -/
example : Map.debugWith Ex.M ⟨Except Nat (List Nat), .ok [], fun st p => st.bind fun l => if l.length < 2 then .ok (p.2 :: l) else
    .error p.2, fun st => st⟩ 9 Ex.map = some (.error 3) := rfl

/-- Case: a map over three unit variants. -/
example : Map.debug (mapStorage Ex.H.api Nat (.units 3)) (fun k : Fin 3 => "K" ++ toString k.val) (fun v => toString v) 5
    (Map.fromIter (mapStorage Ex.H.api Nat (.units 3)) [((2 : Fin 3), 7), ((0 : Fin 3), 42)]).1 = some "{K0: 42, K2: 7}" ∧
    FSet.debug (setStorage Ex.H.api (.units 3)) (fun k : Fin 3 => "K" ++ toString k.val) 5 (FSet.new _) = some "{}" := by
  decide

end FixedMap
