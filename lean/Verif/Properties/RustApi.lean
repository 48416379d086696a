import Verif.Proofs.RustApiMap
import Verif.Proofs.RustEntry
import Verif.Proofs.RustApiSet

/-!
# C94: the text of `Map`, `Entry`, `Set` and `Intersection` does what the model says

As in C93, for src/map.rs, src/map/entry.rs, src/set.rs and src/set/intersection.rs, over any storage.
-/

set_option autoImplicit false

namespace FixedMap.Rust

/-! ## Maps -/

/-- **C94** src/map.rs, without operators, `Debug` and serde. -/
theorem C94_map :
    ∃ P, parseFile Text.map = some P ∧
      ∀ {K V σ : Type} (M : MapStorage K V) (n : Nat) (c : V → V) (veq : V → V → Bool) (f : σ → K → V → σ × V × Option Bool) (d : Val (MX M)),
        MapApiText M P (n + 40) (mapForeign M c veq d (decKey M) f) c veq f :=
  ⟨_, Progs.map_parsed, fun M n c veq f d => mapApiText M n c veq f d⟩

/-- **C94** src/map/entry.rs: also when the caller's function panics, and undefined behaviour where the model says so. -/
theorem C94_entry :
    ∃ P, parseFile Text.mapEntry = some P ∧ ∀ {K V : Type} (σ : Type) (M : MapStorage K V) (n : Nat), EntryText M P (n + 40) σ :=
  ⟨_, Progs.mapEntry_parsed, fun _ M n => entryText M n⟩

/-- **C94** serde in src/map.rs: `serialize` and `visit_map`. -/
theorem C94_map_serde :
    ∃ P, parseFile Text.map = some P ∧
      ∀ {K V E Out : Type} (σ : Type) (M : MapStorage K V) (Z : MapSerializer K V E Out) (n : Nat),
        SerializeText M P (n + 40) Z σ ∧ VisitMapText M P (n + 40) E σ :=
  ⟨_, Progs.map_parsed, fun _ M Z n => ⟨serializeText M Z n, visitMapText M n⟩⟩

/-! ## Sets -/

/-- **C94** src/set.rs, without operators, `Debug` and serde. -/
theorem C94_set :
    ∃ P, parseFile Text.set = some P ∧
      ∀ {T σ : Type} (M : SetStorage T) (n : Nat) (f : σ → T → σ × Option Bool) (d : Val (SX M)),
        SetApiText M P (n + 40) (setForeign M d (decElem M) f) f :=
  ⟨_, Progs.set_parsed, fun M n f d => setApiText M n f d⟩

/-- **C94** serde in src/set.rs: `serialize` and `visit_seq`. -/
theorem C94_set_serde :
    ∃ P, parseFile Text.set = some P ∧
      ∀ {T E Out : Type} (σ : Type) (M : SetStorage T) (Z : SeqSerializer T E Out) (n : Nat),
        SetSerializeText M P (n + 40) Z σ ∧ VisitSeqText M P (n + 40) E σ :=
  ⟨_, Progs.set_parsed, fun _ M Z n => ⟨setSerializeText M Z n, visitSeqText M n⟩⟩

/-- **C94** src/set/intersection.rs; `contains` is that of src/set.rs. -/
theorem C94_intersection :
    ∃ P Q, parseFile Text.setIntersection = some P ∧ parseFile Text.set = some Q ∧
      ∀ {T B : Type} (σ : Type) (M : SetStorage T) (items : M.iter.I.St → List T) (f : B → T → B) (n : Nat),
        IntersectionText M (P.and Q) (n + 40) items f σ :=
  ⟨_, _, Progs.setIntersection_parsed, Progs.set_parsed, fun _ M items f n => intersectionText M items f n⟩

/-- **C94** The operators, `Hash` and `Debug` of maps, sets and intersections are those of their storages; `as_raw` and `from_raw` too. -/
theorem C94_operators :
    ∃ P Q R, parseFile Text.map = some P ∧ parseFile Text.set = some Q ∧ parseFile Text.setIntersection = some R ∧
      ∀ {S Raw σ : Type} (n : Nat) (cmp : String → S → S → Val (OX S)) (own : String → List S → Option S) (hash : S → σ → σ) (asRaw : S → Raw) (fromRaw : Raw → S),
        OpText P (n + 40) mapV "Map" "debug_map" cmp own hash ∧
        OpText Q (n + 40) setV "Set" "debug_set" cmp own hash ∧
        IsectDebugText (R.and Q) (n + 40) cmp own hash ∧
        RawText Q (n + 40) asRaw fromRaw σ :=
  ⟨_, _, _, Progs.map_parsed, Progs.set_parsed, Progs.setIntersection_parsed, fun n cmp own hash asRaw fromRaw =>
    ⟨mapOpText n cmp own hash, setOpText n cmp own hash, isectDebugText n cmp own hash, rawText n asRaw fromRaw⟩⟩

/-! ## Examples -/

/-- Maps with keys `bool`; the caller's closure for `retain` keeps values at `true`. -/
abbrev Ex.G : Foreign (MX (boolMap Nat)) (List Bool) :=
  mapForeign (boolMap Nat) id (fun a b => a == b) .unit (decKey (boolMap Nat)) fun u k v => (u ++ [k], v + 1, some k)

abbrev Ex.mapOf (t f : Option Nat) : Val (MX (boolMap Nat)) := (apiRep (boolMap Nat)).store ⟨t, f⟩

/-- `insert` of the text of `Map`: the old value comes back. -/
example : meth Ex.G Progs.map 40 "insert" (Ex.mapOf (some 7) none) [] [ky true, vl 8] [] =
    .ok (.con "Option" "Some" [vl 7]) (some (Ex.mapOf (some 8) none)) [] [] := by kernel_rfl

/-- `from_iter`: the second value for `true` replaces the first, which is dropped. -/
example : obs (run Ex.G Progs.map 43 "Map" "FromIterator" "from_iter" [.handle ⟨0, []⟩ (.pairs [(true, 1), (false, 2), (true, 3)])] ⟨[], [], []⟩) =
    .ok (Ex.mapOf (some 3) (some 2)) none [] [.val 1] := by kernel_rfl

/-- `or_insert` on an occupied entry: a reference to the old value, and the default is dropped. -/
example : entryFn (σ := Unit) (boolMap Nat) Progs.mapEntry 40 (entryForeign _) "or_insert" ⟨some 7, none⟩ (.inl ⟨true, true⟩) [vl 8] () =
    .ok (.ref ⟨0, (apiRep (boolMap Nat)).addr true⟩) (some (Ex.mapOf (some 7) none)) () [.val 8] := by kernel_rfl

/-- On a vacant entry the caller's function is called once; if it panics nothing has been inserted. -/
example : entryFn (σ := Nat) (boolMap Nat) Progs.mapEntry 40 (withForeign _ fun u => (u + 1, some 9)) "or_insert_with" ⟨some 7, none⟩ (.inr ⟨false, false⟩) [.user] 0 =
      .ok (.ref ⟨0, (apiRep (boolMap Nat)).addr false⟩) (some (Ex.mapOf (some 7) (some 9))) 1 [] ∧
    entryFn (σ := Nat) (boolMap Nat) Progs.mapEntry 40 (withForeign _ fun u => (u + 1, none)) "or_insert_with" ⟨some 7, none⟩ (.inr ⟨false, false⟩) [.user] 0 =
      .panic (some (Ex.mapOf (some 7) none)) 1 [] := ⟨by kernel_rfl, by kernel_rfl⟩

/-- The intersection of `{true}` and `{true, false}` iterates over the first, which is smaller, and asks the second. -/
example : meth (σ := Unit) (setForeign boolSet .unit (decElem boolSet) fun u _ => (u, none)) Progs.set 40 "intersection" ((setRep boolSet).store 2#8) [(setRep boolSet).store 3#8] [.ref ⟨1, []⟩] () =
    .ok (interV ⟨0, [.field "storage"]⟩ (.iter (boolSet.iter.init 2#8)) 1) (some ((setRep boolSet).store 2#8)) () [] := by kernel_rfl

/-- `next` skips what the other set does not contain, so the loop goes round twice. -/
example : isectFn (B := Unit) (σ := Unit) boolSet isectProg 45 (interForeign boolSet (fun _ => []) fun _ _ => ()) "Iterator" "next" true ⟨boolSet.iter.init 3#8, 1#8⟩ [] () =
    .ok (.con "Option" "Some" [.ext (.key false)]) (some (isectV boolSet ⟨0#8, 1#8⟩)) () [] := by kernel_rfl

/-- `fold` over `{true, false}` with the other set `{false}`; the hypotheses of `fold` hold. -/
example : boolSet.iter.I.drain 3 (boolSet.iter.init 3#8) = some [true, false] ∧
    isectFn (B := List Bool) (σ := Unit) boolSet isectProg 45 (interForeign boolSet (fun _ => [true, false]) fun b x => x :: b) "Iterator" "fold" false ⟨boolSet.iter.init 3#8, 1#8⟩
        [.ext (.acc []), .user] () =
      .ok (.ext (.acc [false])) (some (isectV boolSet ⟨boolSet.iter.init 3#8, 1#8⟩)) () [] := ⟨by kernel_rfl, by kernel_rfl⟩

/-- A serializer that fails on the value 5. -/
abbrev Ex.ser : MapSerializer Bool Nat String (List (Bool × Nat)) where
  St := List (Bool × Nat)
  serialize_map _ := .ok []
  serialize_entry st k v := if v = 5 then .error "five" else .ok (st ++ [(k, v)])
  finish st := .ok st

/-- `serialize` of two maps: one is written, for the other the error is handed on. -/
example : Map.serialize (boolMap Nat) Ex.ser 3 ⟨some 7, some 8⟩ = some (.ok [(true, 7), (false, 8)]) ∧
    Map.serialize (boolMap Nat) Ex.ser 3 ⟨some 7, some 5⟩ = some (.error "five") ∧
    obs (run (σ := Unit) (serForeign (boolMap Nat) Ex.ser) Progs.map 43 "Map" "Serialize" "serialize" [.ref self0, .ext .serializer] ⟨[mapV (.ext (.store ⟨some 7, some 5⟩))], (), []⟩) =
      .ok (.con "Result" "Err" [.ext (.err "five")]) (some (mapV (.ext (.store ⟨some 7, some 5⟩)))) () [] := ⟨by kernel_rfl, by kernel_rfl, by kernel_rfl⟩

/-- `visit_map` where `true` comes twice: the first value is dropped. -/
example : obs (run (σ := Unit) (deForeign String (boolMap Nat)) Progs.map 43 "MapVisitor" "Visitor" "visit_map" [.unit, .ext (.calls [.ok (true, 1), .ok (false, 2), .ok (true, 3)])] ⟨[], (), []⟩) =
    .ok (.con "Result" "Ok" [mapV (.ext (.store ⟨some 3, some 2⟩))]) none () [.val 1] := by kernel_rfl

/-- Replace the second occurrence of a token. -/
def Ex.second (old new : String) : Toks → Toks
  | [] => []
  | t :: l => t :: if t == old then go l else Ex.second old new l
where
  go : Toks → Toks
    | [] => []
    | t :: l => if t == old then new :: l else t :: go l

/-- src/map.rs with `le` in the body of `lt`. -/
def Ex.wrongMap : Prog := (parseFile (Ex.second "lt" "le" Text.map)).getD ⟨[], [], []⟩

example : (parseFile (Ex.second "lt" "le" Text.map)).isSome = true := by decide +kernel

example : ¬OpText Ex.wrongMap 40 mapV "Map" "debug_map" (fun m (a b : Nat) => .bool (if m == "lt" then decide (a < b) else decide (a ≤ b))) (fun _ _ => none) (fun _ (u : Unit) => u) := by
  intro h
  have h1 := h.partial_ord () 3 3 "lt" (by simp)
  have h2 : obs (run (opForeign (fun m (a b : Nat) => .bool (if m == "lt" then decide (a < b) else decide (a ≤ b))) (fun _ _ => none) (fun _ (u : Unit) => u)) Ex.wrongMap 40 "Map"
      "PartialOrd" "lt" [.ref ⟨0, []⟩, .ref ⟨1, []⟩] ⟨[mapV (.ext (.store 3)), mapV (.ext (.store 3))], (), []⟩) = .ok (.bool true) (some (mapV (.ext (.store 3)))) () [] := by kernel_rfl
  rw [h1] at h2
  injection h2 with h2
  injection h2 with h2
  exact absurd h2 (by decide)

/-- src/set/intersection.rs with `insert` for `contains` in `fold`: a shared set cannot be changed. -/
example : isectFn (B := Unit) (σ := Unit) boolSet (((parseFile (Ex.second "contains" "insert" Text.setIntersection)).getD ⟨[], [], []⟩).and Progs.set) 45
    (interForeign boolSet (fun _ => [true]) fun _ _ => ()) "Iterator" "fold" false ⟨boolSet.iter.init 1#8, 2#8⟩ [.ext (.acc ()), .user] () = .stuck := by kernel_rfl

end FixedMap.Rust
