import Verif.Properties.MapBasic
import Verif.Properties.MapHistory
import Verif.Properties.MapRetain
import Verif.Properties.SetHistory
import Verif.Proofs.Canon
import Verif.Spec.Contents

/-! # C51-C56: contents determine behaviour, number of keys, sets as maps, laws of updates, collecting again -/

set_option autoImplicit false
set_option linter.unusedSimpArgs false

namespace FixedMap

section
variable (H : Hashbrown) (V : Type) (κ : KeyTy)

/-! ## C51: maps -/

/-- C51: a map without hash-backed keys has no hidden state: with the same contents, two maps are the same value (whatever
calls produced them), so that no later call can tell them apart. -/
theorem C51_canonical (h : κ.hashFree = true) (a b : (mapStorage H.api V κ).S) :
    let M := mapStorage H.api V κ
    (∀ k, Map.get M a k = Map.get M b k) → a = b := canonMap H.api V κ h a b

/-- C51: the same for `==`, when the equality of values is the real one. -/
theorem C51_eq_identical (h : κ.hashFree = true) (veq : V → V → Bool) (hv : ∀ v w, veq v w = true ↔ v = w)
    (a b : (mapStorage H.api V κ).S) :
    Map.eq (mapStorage H.api V κ) veq a b = true ↔ a = b := by
  constructor
  · intro e
    refine C51_canonical H V κ h a b fun k => ?_
    rcases (C23_eq H V κ veq a b).mp e k with ⟨h1, h2⟩ | ⟨v, w, h1, h2, h3⟩
    · rw [h1, h2]
    · rw [h1, h2, (hv v w).mp h3]
  · rintro rfl
    exact (C23_equivalence H V κ veq).1 (fun v => (hv v v).mpr rfl) a

theorem FinMap.get_perm {K V : Type} [DecidableEq K] {l l' : List (K × V)} (h : l.Perm l') (hn : (l.map Prod.fst).Nodup)
    (k : K) : FinMap.get l k = FinMap.get l' k := by
  apply Option.ext
  intro v
  rw [← Assoc.lookup_iff hn, ← Assoc.lookup_iff ((h.map Prod.fst).nodup_iff.mp hn), h.mem_iff]

/-- Two lists with the same entries answer alike and stay alike. -/
theorem refStep_perm {σ K V : Type} [DecidableEq K] {l l' : List (K × V)} (h : l.Perm l') (hn : (l.map Prod.fst).Nodup)
    (op : Op σ K V) (ho : op.orderFree) :
    (refStep l op).out = (refStep l' op).out ∧ ∀ k, FinMap.get (refStep l op).s k = FinMap.get (refStep l' op).s k := by
  have hg := FinMap.get_perm h hn
  have hl := h.length_eq
  cases op with
  | retain f st => exact ho.elim
  | iter => exact ho.elim
  | updateAll f st => exact ho.elim
  | len => exact ⟨congrArg Out.nat hl, hg⟩
  | isEmpty =>
    refine ⟨?_, hg⟩
    simp only [refStep]
    congr 1
    cases l <;> cases l' <;> simp_all
  | clear => exact ⟨rfl, fun _ => rfl⟩
  | _ =>
    simp only [refStep, ← hg]
    repeat' split
    all_goals simp [FinMap.get_put, Assoc.lookup_erase, hg]

/-- C51 for all key types, also hash-backed ones: two maps with the same contents answer every sequence of calls alike, as
long as the calls do not expose the iteration order; and they have the same contents afterwards. -/
theorem C51_answers {σ : Type} (ops : List (Op σ κ.Key V)) (ho : ∀ op ∈ ops, op.orderFree)
    (a b : (mapStorage H.api V κ).S) :
    let M := mapStorage H.api V κ
    (∀ k, Map.get M a k = Map.get M b k) →
    ∃ ra rb a' b', apiRun M ops a = .ok (ra, a') ∧ apiRun M ops b = .ok (rb, b') ∧
      ra.map StepOut.out = rb.map StepOut.out ∧ ∀ k, Map.get M a' k = Map.get M b' k := by
  intro M
  let L := mapCore H V κ
  induction ops generalizing a b with
  | nil => exact fun h => ⟨[], [], a, b, rfl, rfl, rfl, h⟩
  | cons op ops ih =>
    intro h
    obtain ⟨r, hr, hm⟩ := step_sim (mapIters H V κ) a op
    obtain ⟨q, hq, hm'⟩ := step_sim (mapIters H V κ) b op
    obtain ⟨h1, h2⟩ := refStep_perm (L.perm_of_get h) (L.nodup_keys a) op (ho op (.head _))
    have hs : ∀ k, Map.get M r.s k = Map.get M q.s k := by
      intro k
      refine (L.finGet r.s k).symm.trans ?_
      refine (FinMap.get_perm hm.entries (L.nodup_keys _) k).trans ((h2 k).trans ?_)
      exact (FinMap.get_perm hm'.entries (L.nodup_keys _) k).symm.trans (L.finGet q.s k)
    obtain ⟨ra, rb, a', b', e1, e2, e3, e4⟩ := ih (fun o hm => ho o (.tail _ hm)) r.s q.s hs
    refine ⟨_, _, a', b', by simp only [M, apiRun, hr, Res.bind]; rw [show apiRun _ ops r.s = _ from e1]; rfl,
      by simp only [M, apiRun, hq, Res.bind]; rw [show apiRun _ ops q.s = _ from e2]; rfl, ?_, e4⟩
    simp only [List.map_cons, e3]
    rw [hm.out, hm'.out, h1]

end

/-- A key type without hash-backed parts: `enum { A, B(Option<bool>), C(Parts) }` with three parts. -/
abbrev Ex.pure : KeyTy := .enum (.simple (.complex (.opt .bool) (.complex (.units 3) .nil)))
def Ex.ka : Ex.pure.Key := Sum.inl ()
def Ex.kb (o : Option Bool) : Ex.pure.Key := Sum.inr (Sum.inl o)
def Ex.kc (i : Fin 3) : Ex.pure.Key := Sum.inr (Sum.inr (Sum.inl i))

/-- Case for C51: two different histories to the same contents; and a hash-backed one, whose tables differ. -/
example :
    let M := mapStorage Ex.H.api Nat Ex.pure
    let a := (Map.remove M (Map.fromIter M [(Ex.kc 2, 1), (Ex.ka, 5), (Ex.kb none, 3)]).1 Ex.ka).2
    let b := (Map.fromIter M [(Ex.kb none, 3), (Ex.kc 2, 1)]).1
    Ex.pure.hashFree = true ∧ a = b ∧
    (let a := (Map.fromIter Ex.M [(Ex.byte 1, 1), (Ex.byte 2, 2)]).1
     let b := (Map.fromIter Ex.M [(Ex.byte 2, 2), (Ex.byte 1, 1)]).1
     a ≠ b ∧ ∀ k, Map.get Ex.M a k = Map.get Ex.M b k) := by
  refine ⟨rfl, rfl, ?_, ?_⟩
  · intro h
    have := congrArg (fun m => (Map.iter Ex.M).I.drain 3 ((Map.iter Ex.M).init m)) h
    revert this
    decide
  · intro k
    refine (C22_fromIter Ex.H Nat Ex.key _).1 k |>.trans (.trans ?_ ((C22_fromIter Ex.H Nat Ex.key _).1 k).symm)
    simp only [List.reverse_cons, List.reverse_nil, List.nil_append, List.cons_append, FinMap.get]
    by_cases h1 : Ex.byte (1 : BitVec 8) = k <;> by_cases h2 : Ex.byte (2 : BitVec 8) = k
    · exact absurd (h1.trans h2.symm) (by decide)
    · rw [if_neg h2, if_pos h1, if_pos h1]
    · rw [if_pos h2, if_neg h1, if_pos h2]
    · rw [if_neg h2, if_neg h1, if_neg h1, if_neg h2]

/-! ## C52: sets -/

section
variable (H : Hashbrown) (κ : KeyTy)

/-- C52: a set (not made from undeclared raw bits) without hash-backed keys has no hidden state either. -/
theorem C52_canonical (h : κ.hashFree = true) (s t : (setStorage H.api κ).S)
    (hs : Reachable (setStorage H.api κ) s) (ht : Reachable (setStorage H.api κ) t) :
    let M := setStorage H.api κ
    (∀ x, FSet.contains M s x = FSet.contains M t x) → s = t := canonSet H κ h s t (hs.valid _) (ht.valid _)

/-- C52: hence `==` is identity of values. -/
theorem C52_eq_identical (h : κ.hashFree = true) (s t : (setStorage H.api κ).S)
    (hs : Reachable (setStorage H.api κ) s) (ht : Reachable (setStorage H.api κ) t) :
    FSet.eq (setStorage H.api κ) s t = true ↔ s = t := by
  constructor
  · exact fun e => C52_canonical H κ h s t hs ht ((C42_eq H κ s t hs ht).mp e)
  · rintro rfl
    exact (C42_eq H κ s s hs hs).mpr fun _ => rfl

/-- C52 for all key types: two sets with the same elements give the same answers to `insert` and `remove`, and have the same elements
afterwards; and the same `len` and `is_empty`. So does any sequence of operations other than `retain`. -/
theorem C52_answers (ops : List (SetOp κ.Key)) (ho : ∀ op ∈ ops, op.notRetain) (s t : (setStorage H.api κ).S)
    (hs : Reachable (setStorage H.api κ) s) (ht : Reachable (setStorage H.api κ) t) :
    let M := setStorage H.api κ
    (∀ x, FSet.contains M s x = FSet.contains M t x) →
      (∀ pre op, pre ++ [op] <+: ops → FSet.out M (FSet.run M pre s) op = FSet.out M (FSet.run M pre t) op) ∧
      (∀ x, FSet.contains M (FSet.run M ops s) x = FSet.contains M (FSet.run M ops t) x) ∧
      FSet.len M (FSet.run M ops s) = FSet.len M (FSet.run M ops t) ∧
      FSet.isEmpty M (FSet.run M ops s) = FSet.isEmpty M (FSet.run M ops t) := by
  intro M h
  have step : ∀ (op : SetOp κ.Key), op.notRetain → ∀ s t : M.S, (∀ x, FSet.contains M s x = FSet.contains M t x) →
      ∀ x, FSet.contains M (FSet.step M s op) x = FSet.contains M (FSet.step M t op) x := by
    intro op hn s t h x
    rw [Bool.eq_iff_iff]
    have a := C31_step H κ op s (.inr hn)
    have b := C31_step H κ op t (.inr hn)
    cases op with
    | insert y => exact (a x).trans ((or_congr Iff.rfl (Bool.eq_iff_iff.mp (h x))).trans (b x).symm)
    | remove y => exact (a x).trans ((and_congr Iff.rfl (Bool.eq_iff_iff.mp (h x))).trans (b x).symm)
    | clear => exact ⟨fun e => absurd e (a x), fun e => absurd e (b x)⟩
    | retain f st => exact hn.elim
  have run : ∀ ops : List (SetOp κ.Key), (∀ op ∈ ops, op.notRetain) → ∀ s t : M.S,
      (∀ x, FSet.contains M s x = FSet.contains M t x) →
      ∀ x, FSet.contains M (FSet.run M ops s) x = FSet.contains M (FSet.run M ops t) x := by
    intro ops
    induction ops with
    | nil => exact fun _ _ _ h => h
    | cons op ops ih =>
      exact fun hn s t h => ih (fun o hm => hn o (.tail _ hm)) _ _ (step op (hn op (.head _)) s t h)
  have hr := run ops ho s t h
  have rs := C31_reachable H κ ops s hs
  have rt := C31_reachable H κ ops t ht
  refine ⟨?_, hr, ?_, ?_⟩
  · intro pre op hp
    have hsub : ∀ o ∈ pre ++ [op], o.notRetain := fun o hm => ho o (hp.subset hm)
    have hq := run pre (fun o hm => hsub o (by simp [hm])) s t h
    have qs := C31_reachable H κ pre s hs
    have qt := C31_reachable H κ pre t ht
    have hn : op.notRetain := hsub op (by simp)
    cases op with
    | insert x =>
      have e : ∀ u : M.S, (FSet.insert M u x).1 = _ := fun u => set_insert_ret H κ u x
      show (FSet.insert M _ x).1 = (FSet.insert M _ x).1
      rw [e, e]
      exact congrArg (· == κ.insertInverted x) (hq x)
    | remove x =>
      show (FSet.remove M _ x).1 = (FSet.remove M _ x).1
      rw [show (FSet.remove M (FSet.run M pre s) x).1 = _ from C33_remove_exact H κ _ qs x,
        show (FSet.remove M (FSet.run M pre t) x).1 = _ from C33_remove_exact H κ _ qt x]
      exact congrArg ((κ.siblings x).any ·) (funext hq)
    | clear => rfl
    | retain f st => exact hn.elim
  · obtain ⟨l, _, n1, m1, e1⟩ := C35_len H κ _ rs
    obtain ⟨l', _, n2, m2, e2⟩ := C35_len H κ _ rt
    refine e1.trans (.trans ?_ e2.symm)
    refine List.Perm.length_eq ((List.perm_ext_iff_of_nodup n1 n2).mpr fun x => (m1 x).trans (.trans ?_ (m2 x).symm))
    rw [show FSet.contains (setStorage H.api κ) (FSet.run (setStorage H.api κ) ops s) x = _ from hr x]
  · rw [Bool.eq_iff_iff]
    refine (C34_isEmpty_exact H κ _ rs).trans (.trans ?_ (C34_isEmpty_exact H κ _ rt).symm)
    rw [show (fun x => FSet.contains (setStorage H.api κ) (FSet.run (setStorage H.api κ) ops s) x = true) = _ from
      funext fun x => congrArg (· = true) (hr x)]

/-- Case: the same elements in another order. -/
example :
    let M := setStorage Ex.H.api Ex.pure
    FSet.fromIter M [Ex.kc 2, Ex.kb none, Ex.ka] = FSet.fromIter M [Ex.ka, Ex.kc 2, Ex.kb none, Ex.ka] ∧
    (FSet.remove M (FSet.fromIter M [Ex.ka, Ex.kb (some true)]) Ex.ka).2 = FSet.fromIter M [Ex.kb (some true)] :=
  ⟨rfl, rfl⟩

end

/-! ## C53: how many entries there can be -/

theorem length_map_snoc {α β : Type} (f : α → β) (b : β) (l : List α) : (l.map f ++ [b]).length = l.length + 1 := by simp
theorem length_cons_map {α β : Type} (b : β) (f : α → β) (l : List α) : (b :: l.map f).length = l.length + 1 := by simp
theorem length_map_append {α β γ : Type} (f : α → γ) (g : β → γ) (l : List α) (l' : List β) :
    (l.map f ++ l'.map g).length = l.length + l'.length := by simp

mutual
theorem allKeys_card : (κ : KeyTy) → κ.allKeys.length = κ.card
  | .bool => rfl
  | .unit => rfl
  | .opt κ => (length_map_snoc some none κ.allKeys).trans (congrArg (· + 1) (allKeys_card κ))
  | .prim _ => rfl
  | .units n => List.length_finRange (n := n)
  | .bitset n _ _ => List.length_finRange (n := n)
  | .enum fs => fieldKeys_card fs
theorem fieldKeys_card : (fs : Fields) → fs.allKeys.length = fs.card
  | .nil => rfl
  | .simple fs => (length_cons_map (Sum.inl ()) Sum.inr fs.allKeys).trans (by rw [fieldKeys_card fs]; exact Nat.add_comm _ _)
  | .complex κ fs => (length_map_append Sum.inl Sum.inr κ.allKeys fs.allKeys).trans
    (by rw [allKeys_card κ, fieldKeys_card fs]; rfl)
end

/-- Counting the elements of a complete list without repetitions. -/
theorem filter_length_card {α : Type} (l : List α) (p : α → Bool) :
    (l.filter p).length ≤ l.length ∧ ((l.filter p).length = l.length ↔ ∀ x ∈ l, p x = true) := by
  refine ⟨List.length_filter_le p l, ?_⟩
  exact List.length_filter_eq_length_iff

section
variable (H : Hashbrown) (V : Type) (κ : KeyTy)

/-- C53 for maps: without hash-backed keys, `len()` never exceeds the number of keys of the type, and reaches it exactly when
every key is present. -/
theorem C53_map_len (h : κ.hashFree = true) (m : (mapStorage H.api V κ).S) :
    let M := mapStorage H.api V κ
    Map.len M m ≤ κ.card ∧ (Map.len M m = κ.card ↔ ∀ k, Map.containsKey M m k = true) := by
  intro M
  have e : Map.len M m = ((mapCore H V κ).entries m).length := (mapCore H V κ).len_eq m
  have e' : (mapCore H V κ).entries m = _ := entries_allKeys H V κ h m
  have hl : Map.len M m = (κ.allKeys.filter fun k => Map.containsKey M m k).length := by
    rw [e, e', List.length_filterMap_eq_countP, List.countP_eq_length_filter]
    congr 2
    funext k
    have : Map.containsKey M m k = _ := (mapCore H V κ).containsKey_eq m k
    rw [this, Option.isSome_map]
  rw [hl, ← allKeys_card κ]
  have c := filter_length_card κ.allKeys fun k => Map.containsKey M m k
  exact ⟨c.1, c.2.trans ⟨fun f k => f k (mem_allKeys κ h k), fun f k _ => f k⟩⟩

/-- C53 for sets. -/
theorem C53_set_len (h : κ.hashFree = true) (s : (setStorage H.api κ).S) (hs : Reachable (setStorage H.api κ) s) :
    let M := setStorage H.api κ
    FSet.len M s ≤ κ.card ∧ (FSet.len M s = κ.card ↔ ∀ x, FSet.contains M s x = true) := by
  intro M
  have e : FSet.len M s = ((setLaws H κ).elems s).length := (setLaws H κ).len_eq s (hs.valid _)
  have e' : (setLaws H κ).elems s = _ := elems_allKeys H κ h s
  rw [e, e', ← allKeys_card κ]
  have c := filter_length_card κ.allKeys fun k => FSet.contains M s k
  exact ⟨c.1, c.2.trans ⟨fun f k => f k (mem_allKeys κ h k), fun f k _ => f k⟩⟩

/-- C53: inserting every key of the enumeration fills the set. -/
theorem C53_full (h : κ.hashFree = true) :
    let M := setStorage H.api κ
    FSet.len M (FSet.fromIter M κ.allKeys) = κ.card :=
  (C53_set_len H κ h _ (C47_collect H κ _).1).2.mpr fun x => ((C47_collect H κ _).2.1 x).mpr (mem_allKeys κ h x)

/-- Case: 1 + 3 + 3 keys. -/
example : Ex.pure.card = 7 ∧ Ex.pure.allKeys.length = 7 ∧
    FSet.len (setStorage Ex.H.api Ex.pure) (FSet.fromIter _ [Ex.ka, Ex.kb none, Ex.kc 1]) = 3 := by decide

end

/-! ## C54: `Set<K>` against `Map<K, ()>` -/

/-- List lemma: `retain` on the pairs `(x, ())` keeps what `retain` on the `x` keeps. -/
theorem visit_retainRef {T σ : Type} (f : σ → T → σ × Option Bool) (l : List (T × Unit)) (st : σ) :
    let q := visit f (l.map Prod.fst) st
    let r := retainRef (fun st x v => ((f st x).1, v, (f st x).2)) l st
    q.panicked = r.panicked ∧ q.st = r.st ∧ (q.panicked = false → q.kept = r.s.map Prod.fst) := by
  induction l generalizing st with
  | nil => exact ⟨rfl, rfl, fun _ => rfl⟩
  | cons p l ih =>
    obtain ⟨x, v⟩ := p
    rcases h : f st x with ⟨st', _ | _ | _⟩
    · simp [visit, retainRef, h]
    all_goals
      have := ih st'
      simp only [List.map_cons, visit, retainRef, h] at this ⊢
      refine ⟨this.1, this.2.1, fun hp => ?_⟩
      simp [this.2.2 hp]

theorem visit_not_panicked {T σ : Type} (f : σ → T → σ × Option Bool) (hf : ∀ st x, (f st x).2.isSome = true) (l : List T) (st : σ) :
    (visit f l st).panicked = false := by
  induction l generalizing st with
  | nil => rfl
  | cons x l ih =>
    have := hf st x
    rcases h : f st x with ⟨st', _ | _ | _⟩
    · simp [h] at this
    all_goals simp [visit, h, ih]

theorem visit_kept_stateless {T σ : Type} (f : σ → T → σ × Option Bool) (p : T → Bool) (hf : ∀ st x, (f st x).2 = some (p x))
    (l : List T) (st : σ) : (visit f l st).kept = l.filter p := by
  induction l generalizing st with
  | nil => rfl
  | cons x l ih =>
    have := hf st x
    rcases h : f st x with ⟨st', _ | _ | _⟩
    all_goals rw [h] at this; simp at this
    all_goals simp only [visit, h, List.filter_cons, this, ih, if_true, Bool.false_eq_true, if_false]

section
variable (H : Hashbrown) (κ : KeyTy)

/-- With the same contents, and no hash-backed keys, iteration visits the same keys in the same order. -/
theorem elems_eq_keys (h : κ.hashFree = true) (s : (setStorage H.api κ).S) (m : (mapStorage H.api Unit κ).S)
    (e : ∀ x, FSet.contains (setStorage H.api κ) s x = Map.containsKey (mapStorage H.api Unit κ) m x) :
    (setLaws H κ).elems s = ((mapCore H Unit κ).entries m).map Prod.fst := by
  rw [show (setLaws H κ).elems s = _ from elems_allKeys H κ h s,
    show (mapCore H Unit κ).entries m = _ from entries_allKeys H Unit κ h m, List.map_filterMap]
  have : ∀ x, (setStorage H.api κ).contains s x = ((mapStorage H.api Unit κ).get m x).isSome :=
    fun x => (e x).trans ((mapCore H Unit κ).containsKey_eq m x)
  generalize κ.allKeys = l
  induction l with
  | nil => rfl
  | cons x l ih =>
    have hx := this x
    rw [List.filter_cons, List.filterMap_cons, ih]
    cases hg : (mapStorage H.api Unit κ).get m x <;> rw [hg] at hx <;> rw [hx] <;> simp

/-- One step of C54. -/
theorem C54_step (op : SetOp κ.Key) (hu : κ.noUnit = true ∨ op.notRetain) (hf : (κ.hashFree = true ∧ op.total) ∨ op.stateless)
    (s : (setStorage H.api κ).S) (m : (mapStorage H.api Unit κ).S)
    (e : ∀ x, FSet.contains (setStorage H.api κ) s x = Map.containsKey (mapStorage H.api Unit κ) m x) (x : κ.Key) :
    FSet.contains (setStorage H.api κ) (FSet.step (setStorage H.api κ) s op) x =
      Map.containsKey (mapStorage H.api Unit κ) (mapStepAs (mapStorage H.api Unit κ) m op) x := by
  let L := mapCore H Unit κ
  let S := setLaws H κ
  have ck : ∀ m' x, Map.containsKey (mapStorage H.api Unit κ) m' x = ((mapStorage H.api Unit κ).get m' x).isSome :=
    fun m' x => L.containsKey_eq m' x
  rw [ck]
  have e' : ∀ x, (setStorage H.api κ).contains s x = ((mapStorage H.api Unit κ).get m x).isSome := fun x => (e x).trans (ck m x)
  rw [Bool.eq_iff_iff]
  cases op with
  | insert y =>
    refine (S.contains_insert s y x).trans ?_
    by_cases h : x = y
    · subst h
      have : (mapStorage H.api Unit κ).get (mapStepAs (mapStorage H.api Unit κ) m (.insert x)) x = _ := L.get_insert_self m x ()
      rw [this]; simp
    · have : (mapStorage H.api Unit κ).get (mapStepAs (mapStorage H.api Unit κ) m (.insert y)) x = _ :=
        L.get_insert_ne m y () x h
      rw [this]
      exact ⟨fun c => (e' x) ▸ c.resolve_left h, fun c => .inr ((e' x).trans c)⟩
  | remove y =>
    refine (S.contains_remove s y x).trans ?_
    by_cases h : x = y
    · subst h
      have : (mapStorage H.api Unit κ).get (mapStepAs (mapStorage H.api Unit κ) m (.remove x)) x = _ := L.get_remove_self m x
      rw [this]; simp
    · have : (mapStorage H.api Unit κ).get (mapStepAs (mapStorage H.api Unit κ) m (.remove y)) x = _ :=
        L.get_remove_ne m y x h
      rw [this]
      exact ⟨fun c => (e' x) ▸ c.2, fun c => ⟨h, (e' x).trans c⟩⟩
  | clear =>
    have a : FSet.contains (setStorage H.api κ) (FSet.step (setStorage H.api κ) s .clear) x = false := S.contains_clear s x
    have b : (mapStorage H.api Unit κ).get (mapStepAs (mapStorage H.api Unit κ) m .clear) x = none := (C15_clear H Unit κ m).1 x
    rw [a, b]; simp
  | retain f st =>
    have hu' : κ.noUnit = true := hu.resolve_right id
    have hp : ∀ st x, (f st x).2.isSome = true := by
      rcases hf with ⟨_, h⟩ | ⟨p, h⟩
      · exact h
      · intro st x; rw [h]; rfl
    have ok := S.retain_ok f s st
    rw [show S.visits s = S.elems s from visits_eq H κ hu' s] at ok
    have np := visit_not_panicked f hp
    have a : FSet.contains (setStorage H.api κ) (FSet.step (setStorage H.api κ) s (.retain f st)) x = true ↔
        x ∈ (visit f (S.elems s) st).kept :=
      ⟨fun h => (ok.sub x h).resolve_right fun h' => (by rw [ok.pan, np] at h'; cases h'.1), ok.kept x⟩
    have v := visit_retainRef f (L.entries m) st
    have b : ((mapStorage H.api Unit κ).get (mapStepAs (mapStorage H.api Unit κ) m (.retain f st)) x).isSome = true ↔
        x ∈ (visit f ((L.entries m).map Prod.fst) st).kept := by
      rw [v.2.2 (np _ _), ← ((L.retain_entries _ m st).map Prod.fst).mem_iff, List.mem_map]
      constructor
      · intro h
        obtain ⟨w, hw⟩ := Option.isSome_iff_exists.mp h
        exact ⟨(x, w), (L.mem_entries _ x w).mpr hw, rfl⟩
      · rintro ⟨⟨y, w⟩, hw, rfl⟩
        exact Option.isSome_iff_exists.mpr ⟨w, (L.mem_entries _ y w).mp hw⟩
    refine a.trans (.trans ?_ b.symm)
    rcases hf with ⟨h, _⟩ | ⟨p, h⟩
    · rw [show S.elems s = _ from elems_eq_keys H κ h s m e]
    · rw [visit_kept_stateless f p h, visit_kept_stateless f p h, List.mem_filter, List.mem_filter, S.mem_elems, List.mem_map]
      refine and_congr ?_ Iff.rfl
      rw [show (setStorage H.api κ).contains s x = _ from e' x]
      constructor
      · intro h
        obtain ⟨w, hw⟩ := Option.isSome_iff_exists.mp h
        exact ⟨(x, w), (L.mem_entries _ x w).mpr hw, rfl⟩
      · rintro ⟨⟨y, w⟩, hw, rfl⟩
        exact Option.isSome_iff_exists.mpr ⟨w, (L.mem_entries _ y w).mp hw⟩

/-- C54, what holds: a `Set<K>` and a `Map<K, ()>` that went through the same operations have the same keys and the same length,
provided no closure of `retain` panics, `retain` is not used on key types with `()`, and the decisions of the closures do not depend on
the iteration order where that order is hashbrown's. Without hash-backed keys the iterators visit the same keys in the same
order. Full statement: the same for all key types and closures; false for `()`, see `C54_false_for_unit`. -/
theorem C54_set_as_map_partial (ops : List (SetOp κ.Key)) (hu : κ.noUnit = true ∨ ∀ op ∈ ops, op.notRetain)
    (hf : (κ.hashFree = true ∧ ∀ op ∈ ops, op.total) ∨ ∀ op ∈ ops, op.stateless) :
    let N := setStorage H.api κ
    let M := mapStorage H.api Unit κ
    let s := FSet.run N ops (FSet.new N)
    let m := mapRunAs M ops (Map.new M)
    (∀ x, FSet.contains N s x = Map.containsKey M m x) ∧ FSet.len N s = Map.len M m ∧
      (κ.hashFree = true → ∃ l, (Map.iter M).runsTo m l ∧ (FSet.iter N).runsTo s (l.map Prod.fst)) := by
  intro N M s m
  have run : ∀ (ops : List (SetOp κ.Key)), (κ.noUnit = true ∨ ∀ op ∈ ops, op.notRetain) →
      ((κ.hashFree = true ∧ ∀ op ∈ ops, op.total) ∨ ∀ op ∈ ops, op.stateless) → ∀ (s : N.S) (m : M.S),
      (∀ x, FSet.contains N s x = Map.containsKey M m x) →
      ∀ x, FSet.contains N (FSet.run N ops s) x = Map.containsKey M (mapRunAs M ops m) x := by
    intro ops
    induction ops with
    | nil => exact fun _ _ _ _ h => h
    | cons op ops ih =>
      intro hu hf s m h
      refine ih (hu.imp id fun h o hm => h o (.tail _ hm))
        (hf.imp (fun h => ⟨h.1, fun o hm => h.2 o (.tail _ hm)⟩) fun h o hm => h o (.tail _ hm)) _ _ ?_
      exact C54_step H κ op (hu.imp id fun h => h op (.head _))
        (hf.imp (fun h => ⟨h.1, h.2 op (.head _)⟩) fun h => h op (.head _)) s m h
  have e : ∀ x, FSet.contains N s x = Map.containsKey M m x := by
    refine run ops hu hf _ _ fun x => ?_
    have a : FSet.contains N (FSet.new N) x = false := (setLaws H κ).contains_empty x
    have b : Map.containsKey M (Map.new M) x = _ := (mapCore H Unit κ).containsKey_eq _ x
    rw [a, b]
    cases h : M.get (Map.new M) x with
    | none => rfl
    | some v =>
      have := ((mapCore H Unit κ).mem_entries (Map.new M) x v).mpr h
      rw [show (mapCore H Unit κ).entries (Map.new M) = [] from (mapCore H Unit κ).entries_empty] at this
      cases this
  have rs : Reachable N s := C31_reachable H κ ops _ .new
  refine ⟨e, ?_, fun h => ?_⟩
  · have a : FSet.len N s = _ := (setLaws H κ).len_eq s (rs.valid _)
    have b : Map.len M m = _ := (mapCore H Unit κ).len_eq m
    rw [a, b, ← List.length_map (f := Prod.fst)]
    refine List.Perm.length_eq ((List.perm_ext_iff_of_nodup ((setLaws H κ).nodup s) ((mapCore H Unit κ).nodup_keys m)).mpr fun x => ?_)
    rw [(setLaws H κ).mem_elems, List.mem_map, show N.contains s x = _ from e x,
      show Map.containsKey M m x = _ from (mapCore H Unit κ).containsKey_eq m x]
    constructor
    · intro h
      obtain ⟨w, hw⟩ := Option.isSome_iff_exists.mp h
      exact ⟨(x, w), ((mapCore H Unit κ).mem_entries _ x w).mpr hw, rfl⟩
    · rintro ⟨⟨y, w⟩, hw, rfl⟩
      exact Option.isSome_iff_exists.mpr ⟨w, ((mapCore H Unit κ).mem_entries _ y w).mp hw⟩
  · refine ⟨(mapCore H Unit κ).entries m, Yields.runsTo ((mapIters H Unit κ).iter m), ?_⟩
    rw [← elems_eq_keys H κ h s m e]
    exact Yields.runsTo ((setIters H κ).iter s (rs.valid _))

/-- C54 is false for `()`: `retain` on the empty set adds the element, on the empty map it does not. -/
theorem C54_false_for_unit :
    let ops : List (SetOp KeyTy.unit.Key) := [.retain (fun (st : Unit) _ => (st, some true)) ()]
    let N := setStorage H.api .unit
    let M := mapStorage H.api Unit .unit
    FSet.contains N (FSet.run N ops (FSet.new N)) () = true ∧ Map.containsKey M (mapRunAs M ops (Map.new M)) () = false :=
  ⟨rfl, rfl⟩

/-- C54 is false for closures that panic: the bitset of `enum { A, B }` keeps the rejected `A`, the map has lost it. -/
theorem C54_false_after_panic :
    let κ := KeyTy.bitset 2 8 rfl
    let ops : List (SetOp κ.Key) := [.insert (0 : Fin 2), .insert (1 : Fin 2), .retain (fun (n : Nat) _ => (n + 1, if n = 0 then some false else none)) 0]
    let N := setStorage H.api κ
    let M := mapStorage H.api Unit κ
    FSet.contains N (FSet.run N ops (FSet.new N)) (0 : Fin 2) = true ∧ Map.containsKey M (mapRunAs M ops (Map.new M)) (0 : Fin 2) = false :=
  ⟨by simp +decide [FSet.contains, FSet.run, FSet.step, setStorage], by rfl⟩

/-- Case: inserts, a removal, and a `retain` that keeps every second element. -/
example :
    let ops : List (SetOp Ex.pure.Key) := [.insert (Ex.kc 2), .insert Ex.ka, .insert (Ex.kb none), .insert (Ex.kc 0), .insert (Ex.kb (some true)),
      .remove (Ex.kb none), .retain (fun (n : Nat) _ => (n + 1, some (n % 2 == 1))) 0]
    let N := setStorage Ex.H.api Ex.pure
    let M := mapStorage Ex.H.api Unit Ex.pure
    Ex.pure.noUnit = true ∧ Ex.pure.hashFree = true ∧
      FSet.contains N (FSet.run N ops (FSet.new N)) (Ex.kb (some true)) = true ∧ FSet.len N (FSet.run N ops (FSet.new N)) = 2 ∧
      Map.len M (mapRunAs M ops (Map.new M)) = 2 := by decide

end

end FixedMap
