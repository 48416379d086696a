import Verif.Proofs.Order
import Verif.Spec.Exhaust
import Verif.Spec.Example

/-! # C08-C12: iterators of maps -/

set_option autoImplicit false
set_option linter.unusedSimpArgs false

namespace FixedMap

variable (H : Hashbrown) (V : Type) (κ : KeyTy)

theorem Yields.runsTo {S α : Type} {it : IterOf S α} {s : S} {l : List α} (h : YieldsAt it s l) : it.runsTo s l :=
  ⟨_, fun _ hf => Yields.drain h hf⟩

theorem Yields.actsAs {S α : Type} {it : IterOf S α} {s : S} {l : List α} (h : YieldsAt it s l) : it.actsAs s l :=
  fun ds outs st hr => (Yields.behavesLike h ds outs st hr).1

theorem Yields.hintsAs {S α : Type} {it : IterOf S α} {s : S} {l : List α} (h : YieldsAt it s l) : it.hintsAs s l :=
  fun ds outs st hr => (Yields.behavesLike h ds outs st hr).2

/-- C08: `iter()` and `into_iter()` yield the same list: exactly the present entries, every key once, in an order
compatible with the declaration order; without hash-backed keys, all keys in declaration order filtered to the
present ones. -/
theorem C08_iter (m : (mapStorage H.api V κ).S) :
    let M := mapStorage H.api V κ
    ∃ l, (Map.iter M).runsTo m l ∧ (Map.intoIter M).runsTo m l ∧ (Map.refIntoIter M).runsTo m l ∧
      (∀ k v, (k, v) ∈ l ↔ Map.get M m k = some v) ∧ (l.map Prod.fst).Nodup ∧
      l.Pairwise (fun p q => κ.mayPrecede p.1 q.1) ∧
      (κ.hashFree = true → l = κ.allKeys.filterMap fun k => (Map.get M m k).map fun v => (k, v)) :=
  ⟨(mapCore H V κ).entries m, Yields.runsTo ((mapIters H V κ).iter m), Yields.runsTo ((mapIters H V κ).intoIter m),
    Yields.runsTo ((mapIters H V κ).iter m), (mapCore H V κ).mem_entries m, (mapCore H V κ).nodup_keys m,
    entries_sorted H V κ m, fun h => entries_allKeys H V κ h m⟩

/-- The enumeration used in C08 is complete and free of repetitions. -/
theorem C08_allKeys (h : κ.hashFree = true) : (∀ k, k ∈ κ.allKeys) ∧ κ.allKeys.Nodup :=
  ⟨mem_allKeys κ h, nodup_allKeys κ⟩

/-- Case: insertion order was `Flag(false), Byte(7), Byte(200), Opt(Some(Right)), Opt(None), Simple`. -/
example : (Map.iter Ex.M).I.drain 7 ((Map.iter Ex.M).init Ex.map) =
    some [(Ex.simple, 6), (Ex.flag false, 1), (Ex.byte 200, 3), (Ex.byte 7, 2), (Ex.opt (some 1), 4), (Ex.opt none, 5)] :=
  rfl

/-- C09 for values: position by position the values of `iter()`. -/
theorem C09_values (m : (mapStorage H.api V κ).S) :
    let M := mapStorage H.api V κ
    ∃ l, (Map.iter M).runsTo m l ∧ (Map.values M).runsTo m (l.map Prod.snd) :=
  ⟨(mapCore H V κ).entries m, Yields.runsTo ((mapIters H V κ).iter m), Yields.runsTo ((mapIters H V κ).values m)⟩

/-- C09, what holds: `keys()` and `values()` are the projections of `iter()`, for key types that do not contain `()`.
Full statement: the same without the hypothesis; it is false, see `C09_false_for_unit`. -/
theorem C09_projections_partial (h : κ.noUnit = true) (m : (mapStorage H.api V κ).S) :
    let M := mapStorage H.api V κ
    ∃ l, (Map.iter M).runsTo m l ∧ (Map.keys M).runsTo m (l.map Prod.fst) ∧ (Map.values M).runsTo m (l.map Prod.snd) :=
  ⟨(mapCore H V κ).entries m, Yields.runsTo ((mapIters H V κ).iter m),
    (mapIters H V κ).keysL_eq h m ▸ Yields.runsTo ((mapIters H V κ).keys m),
    Yields.runsTo ((mapIters H V κ).values m)⟩

/-- Case: `ExKey` contains no `()`. -/
example : Ex.key.noUnit = true ∧ (Map.keys Ex.M).I.drain 7 ((Map.keys Ex.M).init Ex.map) =
    some [Ex.simple, Ex.flag false, Ex.byte 200, Ex.byte 7, Ex.opt (some 1), Ex.opt none] := ⟨rfl, rfl⟩

/-- C09 is false for `Map<(), V>`: the empty map has no entries, but `keys()` yields `()`. -/
theorem C09_false_for_unit :
    let M := mapStorage H.api V .unit
    (Map.iter M).runsTo (Map.new M) [] ∧ (Map.keys M).runsTo (Map.new M) [()] ∧
      Map.get M (Map.new M) () = none :=
  ⟨⟨1, fun fuel hf => by obtain ⟨n, rfl⟩ : ∃ n, fuel = n + 1 := ⟨fuel - 1, by omega⟩; rfl⟩,
    ⟨2, fun fuel hf => by obtain ⟨n, rfl⟩ : ∃ n, fuel = n + 2 := ⟨fuel - 2, by omega⟩; rfl⟩, rfl⟩

/-- What `keys()` of a map over `()` really yields: always the key. -/
theorem C09_unit_keys (m : (mapStorage H.api V .unit).S) :
    (Map.keys (mapStorage H.api V .unit)).runsTo m [()] :=
  ⟨2, fun fuel hf => by obtain ⟨n, rfl⟩ : ∃ n, fuel = n + 2 := ⟨fuel - 2, by omega⟩; rfl⟩

/-- Perform assignments through references. -/
def assignAll {K V : Type} (M : MapStorage K V) (m : M.S) (ws : List ((K × M.Addr) × V)) : M.S :=
  ws.foldl (fun m w => M.write m w.1.2 w.2) m

/-- C10: the references handed out by `iter_mut()` and `values_mut()`. `ws` is any sequence of assignments through
the collected references, in any order, with repetitions. -/
theorem C10_iterMut (m : (mapStorage H.api V κ).S) :
    let M := mapStorage H.api V κ
    ∃ refs l, (Map.iter M).runsTo m l ∧ (Map.iterMut M).runsTo m refs ∧ (Map.mutIntoIter M).runsTo m refs ∧
      (Map.valuesMut M).runsTo m (refs.map Prod.snd) ∧
      refs.map Prod.fst = l.map Prod.fst ∧ (refs.map Prod.snd).Nodup ∧
      (∀ r ∈ refs, M.read m r.2 = Map.get M m r.1) ∧
      ∀ ws : List ((κ.Key × M.Addr) × V), (∀ w ∈ ws, w.1 ∈ refs) →
        ∀ k, Map.get M (assignAll M m ws) k =
          ((ws.reverse.find? fun w => w.1.1 = k).map Prod.snd).or (Map.get M m k) := by
  have L := mapCore H V κ
  have T := mapIters H V κ
  refine ⟨(mapIters H V κ).addrs m, (mapCore H V κ).entries m, Yields.runsTo ((mapIters H V κ).iter m),
    Yields.runsTo ((mapIters H V κ).iterMut m), Yields.runsTo ((mapIters H V κ).iterMut m),
    Yields.runsTo ((mapIters H V κ).valuesMut m),
    (mapIters H V κ).addrs_keys m, ?_, ?_, ?_⟩
  · have hn := (mapCore H V κ).nodup_keys m
    rw [← (mapIters H V κ).addrs_keys m] at hn
    rw [List.Nodup, List.pairwise_map] at hn ⊢
    refine List.Pairwise.imp_of_mem ?_ hn
    rintro ⟨k, a⟩ ⟨k', a'⟩ h h' hne e
    apply hne
    simp only at e
    subst e
    have e1 := (mapIters H V κ).addrs_at m k a h
    have e2 := (mapIters H V κ).addrs_at m k' a h'
    exact Option.some.inj (e1.symm.trans e2)
  · rintro ⟨k, a⟩ h
    exact (mapCore H V κ).read_eq m a k ((mapIters H V κ).addrs_at m k a h)
  · intro ws hws
    have key : ∀ (ws : List ((κ.Key × (mapStorage H.api V κ).Addr) × V)) (s : (mapStorage H.api V κ).S),
        (∀ w ∈ ws, (mapCore H V κ).keyAt s w.1.2 = some w.1.1) →
        ∀ k, (mapStorage H.api V κ).get (assignAll (mapStorage H.api V κ) s ws) k =
          ((ws.reverse.find? fun w => w.1.1 = k).map Prod.snd).or ((mapStorage H.api V κ).get s k) := by
      intro ws
      induction ws with
      | nil => intro s _ k; rfl
      | cons w ws ih =>
        intro s hs k
        have hw := hs w (by simp)
        have ih := ih ((mapStorage H.api V κ).write s w.1.2 w.2)
          (fun w' hw' => ((mapCore H V κ).keyAt_write s _ _ _ _ hw).trans (hs w' (by simp [hw']))) k
        have e : assignAll (mapStorage H.api V κ) s (w :: ws) =
          assignAll (mapStorage H.api V κ) ((mapStorage H.api V κ).write s w.1.2 w.2) ws := rfl
        rw [e, ih, List.reverse_cons, List.find?_append]
        cases hf : ws.reverse.find? fun w => w.1.1 = k with
        | some w' => simp
        | none =>
          by_cases hk : w.1.1 = k
          · subst hk
            simp [(mapCore H V κ).get_write_self s _ _ w.2 hw]
          · simp [hk, (mapCore H V κ).get_write_ne s _ _ w.2 k hw (fun e => hk e.symm)]
    exact key ws m (fun w hw => (mapIters H V κ).addrs_at m _ _ (hws w hw))

/-- Case: collect the six references, assign through the third, then the first, then the third again. -/
example : ∃ refs, (Map.iterMut Ex.M).I.drain 7 ((Map.iterMut Ex.M).init Ex.map) = some refs ∧ refs.length = 6 ∧
    ∃ r₀ r₂, refs[0]? = some r₀ ∧ refs[2]? = some r₂ ∧
      Map.get Ex.M (assignAll Ex.M Ex.map [(r₂, 50), (r₀, 60), (r₂, 70)]) (Ex.byte 200) = some 70 :=
  ⟨_, rfl, rfl, _, _, rfl, rfl, rfl⟩

/-- C11: every iterator behaves like a deque over its list under every schedule of `next` and `next_back` it supports.
All schedules are supported if no hash-backed key is involved, and `next`-only schedules always are. -/
theorem C11_doubleEnded (m : (mapStorage H.api V κ).S) :
    let M := mapStorage H.api V κ
    (∃ l keys refs, (Map.iter M).runsTo m l ∧ (Map.keys M).runsTo m keys ∧ (Map.iterMut M).runsTo m refs ∧
      (Map.iter M).actsAs m l ∧ (Map.intoIter M).actsAs m l ∧ (Map.keys M).actsAs m keys ∧
      (Map.values M).actsAs m (l.map Prod.snd) ∧ (Map.iterMut M).actsAs m refs ∧
      (Map.valuesMut M).actsAs m (refs.map Prod.snd)) ∧
    (κ.hashFree = true → (Map.iter M).doubleEnded ∧ (Map.intoIter M).doubleEnded ∧ (Map.keys M).doubleEnded ∧
      (Map.values M).doubleEnded ∧ (Map.iterMut M).doubleEnded ∧ (Map.valuesMut M).doubleEnded) ∧
    ((Map.iter M).forward ∧ (Map.intoIter M).forward ∧ (Map.keys M).forward ∧
      (Map.values M).forward ∧ (Map.iterMut M).forward ∧ (Map.valuesMut M).forward) := by
  refine ⟨⟨_, _, _, Yields.runsTo ((mapIters H V κ).iter m), Yields.runsTo ((mapIters H V κ).keys m),
    Yields.runsTo ((mapIters H V κ).iterMut m), Yields.actsAs ((mapIters H V κ).iter m),
    Yields.actsAs ((mapIters H V κ).intoIter m), Yields.actsAs ((mapIters H V κ).keys m),
    Yields.actsAs ((mapIters H V κ).values m), Yields.actsAs ((mapIters H V κ).iterMut m),
    Yields.actsAs ((mapIters H V κ).valuesMut m)⟩, ?_, ?_⟩
  · intro h
    have b := allBack H.api V κ h
    exact ⟨IterImpl.run_isSome b.iter, IterImpl.run_isSome b.intoIter, IterImpl.run_isSome b.keys,
      IterImpl.run_isSome b.values, IterImpl.run_isSome b.iterMut, IterImpl.run_isSome b.valuesMut⟩
  · exact ⟨fun n st => IterImpl.run_front_isSome n st, fun n st => IterImpl.run_front_isSome n st,
      fun n st => IterImpl.run_front_isSome n st, fun n st => IterImpl.run_front_isSome n st,
      fun n st => IterImpl.run_front_isSome n st, fun n st => IterImpl.run_front_isSome n st⟩

/-- Once exhausted, a deque (hence, by C11, every iterator) returns `None` forever, from both ends. -/
theorem C11_exhausted {α : Type} (ds : List Dir) : ∀ o ∈ (dequeRun ds ([] : List α)).1, o = none := by
  induction ds with
  | nil => intro o ho; simp [dequeRun] at ho
  | cons d ds ih =>
    intro o ho
    cases d <;> simp only [dequeRun, dequeStep, List.head?_nil, List.tail_nil, List.getLast?_nil, List.dropLast_nil,
      List.mem_cons] at ho <;> rcases ho with rfl | ho <;> first | rfl | exact ih o ho

/-- `enum { A, B(bool), C(Option<Unit2>) }`, without hash tables. -/
private abbrev exKey2 : KeyTy := .enum (.simple (.complex .bool (.complex (.opt (.units 2)) .nil)))

/-- Case: a hash-free key type, five entries; the two ends meet in the middle of `B(_)`. -/
example :
    let M := mapStorage Ex.H.api Nat exKey2
    let m := (Map.fromIter M [(Sum.inr (Sum.inl true), 2), (Sum.inl (), 1), (Sum.inr (Sum.inl false), 3),
      (Sum.inr (Sum.inr (Sum.inl none)), 5), (Sum.inr (Sum.inr (Sum.inl (some (1 : Fin 2)))), 4)]).1
    exKey2.hashFree = true ∧
    ((Map.values M).I.run [.front, .back, .back, .front, .back, .front, .back] ((Map.values M).init m)).map Prod.fst =
      some [some 1, some 5, some 4, some 2, some 3, none, none] := ⟨rfl, rfl⟩

/-- C12: `size_hint` bounds the remaining items after every schedule. -/
theorem C12_sizeHint (m : (mapStorage H.api V κ).S) :
    let M := mapStorage H.api V κ
    ∃ l keys refs, (Map.iter M).runsTo m l ∧ (Map.keys M).runsTo m keys ∧ (Map.iterMut M).runsTo m refs ∧
      (Map.iter M).hintsAs m l ∧ (Map.intoIter M).hintsAs m l ∧ (Map.keys M).hintsAs m keys ∧
      (Map.values M).hintsAs m (l.map Prod.snd) ∧ (Map.iterMut M).hintsAs m refs ∧
      (Map.valuesMut M).hintsAs m (refs.map Prod.snd) :=
  ⟨_, _, _, Yields.runsTo ((mapIters H V κ).iter m), Yields.runsTo ((mapIters H V κ).keys m),
    Yields.runsTo ((mapIters H V κ).iterMut m), Yields.hintsAs ((mapIters H V κ).iter m),
    Yields.hintsAs ((mapIters H V κ).intoIter m), Yields.hintsAs ((mapIters H V κ).keys m),
    Yields.hintsAs ((mapIters H V κ).values m), Yields.hintsAs ((mapIters H V κ).iterMut m),
    Yields.hintsAs ((mapIters H V κ).valuesMut m)⟩

/-- C12, exactness of `keys()` of `Map<bool, V>`: after any schedule the hint is `(n, Some(n))` and
`ExactSizeIterator::len` is `n`, for `n` remaining items. -/
theorem C12_bool_keys_exact (m : (mapStorage H.api V .bool).S) :
    let M := mapStorage H.api V .bool
    ∃ keys, (Map.keys M).runsTo m keys ∧
      ∀ ds outs st, (Map.keys M).I.run ds ((Map.keys M).init m) = some (outs, st) →
        (Map.keys M).I.sizeHint st = ((dequeRun ds keys).2.length, some (dequeRun ds keys).2.length) ∧
        boolBitsLen st = (dequeRun ds keys).2.length := by
  refine ⟨_, Yields.runsTo ((boolIters V).keys m), ?_⟩
  intro ds outs st hr
  suffices h : (Map.keys (mapStorage H.api V .bool)).I.sizeHint st =
      ((dequeRun ds ((boolIters V).keysL m)).2.length, some (dequeRun ds ((boolIters V).keysL m)).2.length) from
    ⟨h, congrArg Prod.fst h⟩
  have lt : ∀ a b : Bool, ((if a then TRUE_BIT else 0) ||| (if b then FALSE_BIT else 0)) < 4#8 := by decide
  have := boolBits_exact _ (lt m.t.isSome m.f.isSome) ds outs st hr
  obtain ⟨t, f⟩ := m
  cases t <;> cases f <;> exact this

/-- Case: both keys present, one already taken from the back. -/
example :
    let M := mapStorage Ex.H.api Nat .bool
    let m := (Map.fromIter M [(true, 1), (false, 2)]).1
    ((Map.keys M).I.run [.back] ((Map.keys M).init m)).map (fun r => (r.1, (Map.keys M).I.sizeHint r.2)) =
      some ([some false], (1, some 1)) := rfl

end FixedMap
