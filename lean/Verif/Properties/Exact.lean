import Verif.Properties.SetExact
import Verif.Properties.Algebra
import Verif.Properties.Bitset
import Verif.Proofs.Tables

/-! # C46, C53, C54, C57: exact versions

What the two kinds of sets, and sets and maps, have in common after a panic; when exactly the laws of `retain` hold; when exactly a collection is
full. -/

set_option autoImplicit false
set_option linter.unusedSimpArgs false

namespace FixedMap

/-! ## C53 -/

section
variable (H : Hashbrown) (V : Type) (κ : KeyTy)

/-- C53: a collected map has as many entries as there are keys exactly if every key was among the pairs, in whatever order and however often. -/
theorem C53_map_full (h : κ.hashFree = true) (l : List (κ.Key × V)) :
    let M := mapStorage H.api V κ
    Map.len M (Map.fromIter M l).1 = κ.card ↔ ∀ k, k ∈ l.map Prod.fst := by
  intro M
  refine (C53_map_len H V κ h _).2.trans (forall_congr' fun k => ?_)
  rw [(C05_agree H V κ _ k).1, (C22_fromIter H V κ l).1 k]
  have : ∀ l : List (κ.Key × V), (FinMap.get l k).isSome = true ↔ k ∈ l.map Prod.fst := by
    intro l
    induction l with
    | nil => simp [FinMap.get]
    | cons p l ih =>
      obtain ⟨k', v⟩ := p
      by_cases e : k' = k
      · simp [FinMap.get, e]
      · simp [FinMap.get, e, ih, Ne.symm e]
  rw [this, List.map_reverse, List.mem_reverse]

/-- C53: the same for a set. -/
theorem C53_set_full (h : κ.hashFree = true) (l : List κ.Key) :
    let N := setStorage H.api κ
    FSet.len N (FSet.fromIter N l) = κ.card ↔ ∀ x, x ∈ l :=
  (C53_set_len H κ h _ (C47_collect H κ _).1).2.trans (forall_congr' fun x => (C47_collect H κ _).2.1 x)

end

/-! ## C57 -/

section
variable (H : Hashbrown) (κ : KeyTy)

/-- C57 for every key type: what `retain` with a closure that decides by the element leaves. The elements on which it is called although they are
absent (`phantom`, C37) are in afterwards if they are accepted. -/
theorem C57_retain_contents (s : (setStorage H.api κ).S) (p : κ.Key → Bool) (x : κ.Key) :
    let N := setStorage H.api κ
    FSet.contains N (FSet.retain N (fun (st : Unit) x => (st, some (p x))) s ()).s x = ((FSet.contains N s x || κ.phantom x) && p x) := by
  intro N
  rw [Bool.eq_iff_iff]
  refine (contains_retain H κ _ s () x).trans ?_
  have hv := visit_pure (f := fun (st : Unit) x => (st, some (p x))) (p := p) (fun _ _ => rfl) ((setLaws H κ).visits s) ()
  unfold retained
  rw [hv.2.1, hv.2.2.1, hv.2.2.2]
  have hm : ∀ x, x ∈ (setLaws H κ).visits s ↔ FSet.contains N s x = true ∨ κ.phantom x = true := (visitListing H κ s).mem
  simp only [List.mem_filter, hm, Bool.and_eq_true, Bool.or_eq_true]
  constructor
  · rintro (h | ⟨h1, h2 | ⟨_, h, _⟩⟩)
    · exact h
    · refine ⟨.inl h1, ?_⟩
      cases hp : p x with
      | true => rfl
      | false => exact absurd ⟨.inl h1, by rw [hp]; rfl⟩ h2
    · cases h
  · exact .inl

/-- C57, `retain`, for every key type: rejecting everything is `clear`; two passes are one pass exactly if every phantom element that the
second closure accepts is accepted by the first; accepting everything does nothing exactly if all phantom elements are in already. -/
theorem C57_retain_exact (s : (setStorage H.api κ).S) (hs : Reachable (setStorage H.api κ) s) (p q : κ.Key → Bool) :
    let N := setStorage H.api κ
    let go := fun (p : κ.Key → Bool) (s : N.S) => (FSet.retain N (fun (st : Unit) x => (st, some (p x))) s ()).s
    SameSet H κ (go (fun _ => false) s) (FSet.clear N s) ∧
    (SameSet H κ (go q (go p s)) (go (fun x => p x && q x) s) ↔ ∀ x, κ.phantom x = true → q x = true → p x = true) ∧
    (SameSet H κ (go (fun _ => true) s) s ↔ ∀ x, κ.phantom x = true → FSet.contains N s x = true) := by
  intro N go
  have g : ∀ p s x, FSet.contains N (go p s) x = ((FSet.contains N s x || κ.phantom x) && p x) := fun p s x => C57_retain_contents H κ s p x
  have rg : ∀ p {s : N.S}, Reachable N s → Reachable N (go p s) := fun p s h => .retain _ () h
  have iff : ∀ {s t : N.S}, Reachable N s → Reachable N t →
      (SameSet H κ s t ↔ ∀ x, FSet.contains N s x = FSet.contains N t x) := fun hs ht => ⟨fun h => h.1, .of_contains H κ hs ht⟩
  refine ⟨.of_contains H κ (rg _ hs) (.clear hs) fun z => ?_, (iff (rg _ (rg _ hs)) (rg _ hs)).trans (forall_congr' fun x => ?_),
    (iff (rg _ hs) hs).trans (forall_congr' fun x => ?_)⟩
  · exact (g _ s z).trans ((Bool.and_false _).trans ((setLaws H κ).contains_clear s z).symm)
  · rw [g q, g p, g]
    cases FSet.contains N s x <;> cases κ.phantom x <;> cases p x <;> cases q x <;> simp
  · rw [g]
    cases FSet.contains N s x <;> cases κ.phantom x <;> simp

/-- Case: `Set<()>`. Two passes are not one: `retain(|_| false)`, then `retain(|_| true)`, inserts. -/
example : KeyTy.unit.phantom () = true ∧
    let N := setStorage H.api .unit
    let go := fun (p : Unit → Bool) (s : N.S) => (FSet.retain N (fun (st : Unit) x => (st, some (p x))) s ()).s
    FSet.contains N (go (fun _ => true) (go (fun _ => false) (FSet.new N))) () = true ∧
      FSet.contains N (go (fun _ => false && true) (FSet.new N)) () = false := ⟨rfl, rfl, rfl⟩

end

/-! ## `retain` in the reference lists -/

/-- The keys that `retain` leaves in a list of pairs are those that the closure did not reject. -/
theorem retainRef_keys_mem {T σ : Type} (f : σ → T → σ × Option Bool) (l : List (T × Unit)) (hn : (l.map Prod.fst).Nodup) (st : σ) (x : T) :
    x ∈ (retainRef (fun st x v => ((f st x).1, v, (f st x).2)) l st).s.map Prod.fst ↔
      x ∈ l.map Prod.fst ∧ x ∉ (visit f (l.map Prod.fst) st).rejected := by
  induction l generalizing st with
  | nil => simp [retainRef]
  | cons p l ih =>
    obtain ⟨y, v⟩ := p
    rw [List.map_cons, List.nodup_cons] at hn
    have sub : ∀ st, ∀ z ∈ (visit f (l.map Prod.fst) st).rejected, z ∈ l.map Prod.fst := fun st => (visit_mem f _ st).2
    rcases h : f st y with ⟨st', _ | _ | _⟩
    · simp [visit, retainRef, h]
    · have := ih hn.2 st'
      simp only [List.map_cons, visit, retainRef, h, List.mem_cons, not_or] at this ⊢
      rw [this]
      constructor
      · exact fun ⟨a, b⟩ => ⟨.inr a, fun e => hn.1 (e ▸ a), b⟩
      · exact fun ⟨a, b, c⟩ => ⟨a.resolve_left b, c⟩
    · have := ih hn.2 st'
      simp only [List.map_cons, visit, retainRef, h, List.mem_cons, not_or] at this ⊢
      rw [this]
      constructor
      · rintro (rfl | ⟨a, b⟩)
        · exact ⟨.inl rfl, fun h => hn.1 (sub st' _ h)⟩
        · exact ⟨.inr a, b⟩
      · exact fun ⟨a, c⟩ => a.imp id fun a => ⟨a, c⟩

section
variable (H : Hashbrown) (κ : KeyTy)

/-- For key types without `()`, which elements a `retain` leaves whose closure may panic. -/
theorem contains_retain_noUnit (hu : κ.noUnit = true) {σ : Type} (f : σ → κ.Key → σ × Option Bool) (s : (setStorage H.api κ).S) (st : σ) (x : κ.Key) :
    let N := setStorage H.api κ
    let l := (setLaws H κ).elems s
    FSet.contains N (FSet.retain N f s st).s x = true ↔
      FSet.contains N s x = true ∧ (x ∉ (visit f l st).rejected ∨ ∃ p, panicAt f l st = some p ∧ κ.sameBatch p x = true) := by
  intro N l
  have h := contains_retain H κ f s st x
  rw [visits_eq H κ hu s] at h
  refine h.trans ⟨?_, .inr⟩
  rintro (h | h)
  · exact ⟨((setLaws H κ).mem_elems s x).1 ((visit_mem f l st).1 x h), .inl (visit_disjoint f l ((setLaws H κ).nodup s) st x h)⟩
  · exact h

/-- C54, exactly what differs after a panic: without hash-backed keys and `()`, if a `Set<K>` and a `Map<K, ()>` have the same keys, then `retain`
calls the closure with the same keys in the same order and panics at the same call. Afterwards the set has the keys of the map and, beyond
these, exactly the rejected variants of the `#[key(bitset)]` enum at one of whose variants the closure panicked. -/
theorem C54_retain_exact (hu : κ.noUnit = true) (hf : κ.hashFree = true) {σ : Type} (f : σ → κ.Key → σ × Option Bool) (st : σ)
    (s : (setStorage H.api κ).S) (m : (mapStorage H.api Unit κ).S)
    (e : ∀ x, FSet.contains (setStorage H.api κ) s x = Map.containsKey (mapStorage H.api Unit κ) m x) :
    let N := setStorage H.api κ
    let M := mapStorage H.api Unit κ
    let r := FSet.retain N f s st
    let q := Map.retain M (fun st x v => ((f st x).1, v, (f st x).2)) m st
    let l := κ.allKeys.filter (FSet.contains N s)
    r.st = q.st ∧ r.panicked = q.panicked ∧ r.panicked = (panicAt f l st).isSome ∧
      (∀ x, Map.containsKey M q.s x = true ↔ FSet.contains N s x = true ∧ x ∉ (visit f l st).rejected) ∧
      ∀ x, FSet.contains N r.s x = true ↔
        Map.containsKey M q.s x = true ∨ x ∈ (visit f l st).rejected ∧ ∃ p, panicAt f l st = some p ∧ κ.sameBatch p x = true := by
  intro N M r q l
  have el : (setLaws H κ).elems s = l := elems_allKeys H κ hf s
  have em : ((mapCore H Unit κ).entries m).map Prod.fst = l := (elems_eq_keys H κ hf s m e).symm.trans el
  have ok := (setLaws H κ).retain_ok f s st
  rw [visits_eq H κ hu s, el] at ok
  have v := visit_retainRef f ((mapCore H Unit κ).entries m) st
  rw [em] at v
  have mem : ∀ x, x ∈ l ↔ FSet.contains N s x = true := fun x => el ▸ (setLaws H κ).mem_elems s x
  have key : ∀ x, Map.containsKey M q.s x = true ↔ FSet.contains N s x = true ∧ x ∉ (visit f l st).rejected := by
    intro x
    have hk := retainRef_keys_mem f ((mapCore H Unit κ).entries m) ((mapCore H Unit κ).nodup_keys m) st x
    rw [em] at hk
    rw [← mem, ← hk, ← (((mapCore H Unit κ).retain_entries _ m st).map Prod.fst).mem_iff, List.mem_map,
      show Map.containsKey M q.s x = _ from (mapCore H Unit κ).containsKey_eq q.s x]
    constructor
    · intro h
      obtain ⟨w, hw⟩ := Option.isSome_iff_exists.mp h
      exact ⟨(x, w), ((mapCore H Unit κ).mem_entries _ x w).mpr hw, rfl⟩
    · rintro ⟨⟨y, w⟩, hw, rfl⟩
      exact Option.isSome_iff_exists.mpr ⟨w, ((mapCore H Unit κ).mem_entries _ y w).mp hw⟩
  refine ⟨ok.st_eq.trans (v.2.1.trans ((mapCore H Unit κ).retain_st _ m st).symm),
    ok.pan.trans (v.1.trans ((mapCore H Unit κ).retain_panicked _ m st).symm), ok.pan.trans (panicAt_isSome f l st).symm, key, fun x => ?_⟩
  have c := contains_retain_noUnit H κ hu f s st x
  simp only [el] at c
  rw [key]
  refine c.trans ?_
  have sub : x ∈ (visit f l st).rejected → FSet.contains N s x = true := fun h => (mem x).1 ((visit_mem f l st).2 x h)
  constructor
  · rintro ⟨h1, h2⟩
    by_cases hr : x ∈ (visit f l st).rejected
    · exact .inr ⟨hr, h2.resolve_left fun h => h hr⟩
    · exact .inl ⟨h1, hr⟩
  · rintro (⟨h1, h2⟩ | ⟨h1, h2⟩)
    · exact ⟨h1, .inl h2⟩
    · exact ⟨sub h1, .inr h2⟩

end

/-! ## C46 -/

section
variable (H : Hashbrown) (n w : Nat) (h : determineBits n = some w)

/-- C46, exactly what differs after a panic: with the same contents, both kinds of sets call the closure of `retain` with the same variants in the same
order and panic at the same call. The array set loses the rejected variants in any case. The bitset is the same afterwards if there was no panic, and unchanged
if there was. -/
theorem C46_retain_exact {σ : Type} (f : σ → Fin n → σ × Option Bool) (st : σ) (s : (setStorage H.api (.bitset n w h)).S)
    (t : (setStorage H.api (.units n)).S)
    (hst : ∀ x : Fin n, FSet.contains (setStorage H.api (.bitset n w h)) s x = FSet.contains (setStorage H.api (.units n)) t x) :
    let B := setStorage H.api (.bitset n w h)
    let A := setStorage H.api (.units n)
    let r := FSet.retain B f s st
    let q := FSet.retain A f t st
    let l : List (Fin n) := (KeyTy.units n).allKeys.filter (FSet.contains A t)
    r.st = q.st ∧ r.panicked = q.panicked ∧ r.panicked = (visit f l st).panicked ∧
      (∀ x : Fin n, FSet.contains A q.s x = true ↔ FSet.contains A t x = true ∧ x ∉ (visit f l st).rejected) ∧
      (∀ x : Fin n, FSet.contains B r.s x = if r.panicked then FSet.contains A t x else FSet.contains A q.s x) ∧
      ((∀ x : Fin n, FSet.contains B r.s x = FSet.contains A q.s x) ↔ r.panicked = false ∨ (visit f l st).rejected = []) := by
  intro B A r q l
  have hw := determineBits_le h
  have el' : (setLaws H (.units n)).elems t = l := elems_allKeys H (.units n) rfl t
  have el : (setLaws H (.bitset n w h)).elems s = l := by
    refine Eq.trans ?_ el'
    show finElems _ = finElems _
    congr 1
    funext i
    exact (bitset_test hw s i).symm.trans (hst i)
  have ok := (setLaws H (.bitset n w h)).retain_ok f s st
  have ok' := (setLaws H (.units n)).retain_ok f t st
  rw [visits_eq H _ rfl s, el] at ok
  rw [visits_eq H _ rfl t, el'] at ok'
  have mem : ∀ x : Fin n, x ∈ l ↔ FSet.contains A t x = true := fun x => el' ▸ (setLaws H (.units n)).mem_elems t x
  have key : ∀ x : Fin n, FSet.contains A q.s x = true ↔ FSet.contains A t x = true ∧ x ∉ (visit f l st).rejected := by
    intro x
    have c := contains_retain_noUnit H (.units n) rfl f t st x
    simp only [el'] at c
    refine c.trans (and_congr Iff.rfl ⟨fun c => c.resolve_right ?_, .inl⟩)
    rintro ⟨_, _, c⟩
    cases c
  have keyB : ∀ x : Fin n, FSet.contains B r.s x = true ↔
      FSet.contains A t x = true ∧ (x ∉ (visit f l st).rejected ∨ r.panicked = true) := by
    intro x
    have c := contains_retain_noUnit H (.bitset n w h) rfl f s st x
    simp only [el] at c
    refine c.trans (and_congr (by rw [show FSet.contains B s x = _ from hst x]) (or_congr Iff.rfl ?_))
    have hp : r.panicked = (panicAt f l st).isSome := ok.pan.trans (panicAt_isSome f l st).symm
    exact Iff.trans (exists_congr fun p => ⟨fun h => h.1, fun h => ⟨h, rfl⟩⟩) (Option.isSome_iff_exists.symm.trans (Bool.eq_iff_iff.1 hp).symm)
  refine ⟨ok.st_eq.trans ok'.st_eq.symm, ok.pan.trans ok'.pan.symm, ok.pan, key, fun x => ?_, ?_⟩
  · rw [Bool.eq_iff_iff, keyB]
    cases hp : r.panicked with
    | true => simp
    | false => simp only [Bool.false_eq_true, if_false, or_false]; exact (key x).symm
  · constructor
    · intro hx
      cases hp : r.panicked with
      | false => exact .inl rfl
      | true =>
        refine .inr (List.eq_nil_iff_forall_not_mem.mpr fun x hr => ?_)
        have a : FSet.contains B r.s x = true := (keyB x).2 ⟨(mem x).1 ((visit_mem f l st).2 x hr), .inr hp⟩
        exact ((key x).1 ((hx x).symm.trans a)).2 hr
    · intro hc x
      rw [Bool.eq_iff_iff, keyB, key]
      rcases hc with hp | hr
      · rw [hp]; simp
      · rw [hr]; simp

end

/-- Case: three variants; the closure rejects the first and panics at the second. The array set loses the first, the bitset nothing. -/
example :
    let B := setStorage Ex.H.api (.bitset 3 8 rfl)
    let A := setStorage Ex.H.api (.units 3)
    let f := fun (k : Nat) (_ : Fin 3) => (k + 1, if k = 0 then some false else none)
    let r := FSet.retain B f (FSet.fromIter B [(0 : Fin 3), (1 : Fin 3)]) 0
    let q := FSet.retain A f (FSet.fromIter A [(0 : Fin 3), (1 : Fin 3)]) 0
    r.panicked = true ∧ q.panicked = true ∧ r.st = 2 ∧ q.st = 2 ∧ (visit f [0, 1] 0).rejected = [0] ∧
      FSet.len B r.s = 2 ∧ FSet.len A q.s = 1 := ⟨rfl, rfl, rfl, rfl, rfl, rfl, rfl⟩

/-- Case for `C53_map_full`: seven keys; six pairs do not fill the map. -/
example : Ex.pure.card = 7 ∧ (∀ k, k ∈ (Ex.pure.allKeys.map fun k => (k, 1)).map Prod.fst) ∧
    Map.len (mapStorage Ex.H.api Nat Ex.pure) (Map.fromIter _ ((Ex.pure.allKeys.drop 1).map fun k => (k, 1))).1 = 6 := by
  refine ⟨rfl, fun k => ?_, rfl⟩
  rw [List.map_map, List.mem_map]
  exact ⟨k, mem_allKeys _ rfl k, rfl⟩

end FixedMap
