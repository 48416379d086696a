import Verif.Spec.Custom
import Verif.Properties.SetExact
import Verif.Properties.MapHistory

/-! # C66: keys with storages of the user

`Key`, `MapStorage` and `SetStorage` are public traits. Whatever storages the payloads of an enum have, if each satisfies the
contract, so does the storage the derive makes of them; `Option` preserves the contract of maps, and breaks that of sets.

`LawfulMap`: the contract of a map storage, the laws `CoreLaws` and `IterLaws` with entries ordered by `R`. `LawfulSet`: the
contract of a set storage, with correct answers of `insert`, `remove` and `is_empty`, and `retain` visiting the elements. -/

set_option autoImplicit false
set_option linter.unusedSimpArgs false

namespace FixedMap

variable {K V : Type}

/-- The contract of a map storage. -/
def LawfulMap (M : MapStorage K V) (R : K → K → Prop) : Prop :=
  ∃ L : CoreLaws M.toMapCore, Nonempty (IterLaws M L true) ∧ SortedBy L.entries R

/-- The answers of an ordinary set. -/
structure SetAnswers {T : Type} (M : SetCore T) (L : SetLaws M) (R : T → T → Prop) : Prop where
  insert : ∀ s, L.valid s → ∀ x, (M.insert s x).1 = !M.contains s x
  remove : ∀ s, L.valid s → ∀ x, (M.remove s x).1 = M.contains s x
  isEmpty : ∀ s, L.valid s → (M.isEmpty s = true ↔ ∀ x, ¬M.contains s x = true)
  visits : ∀ s, L.visits s = L.elems s
  sorted : ∀ s, (L.elems s).Pairwise R

/-- The contract of a set storage. -/
def LawfulSet {T : Type} (M : SetStorage T) (R : T → T → Prop) : Prop :=
  ∃ L : SetLaws M.toSetCore, SetIterLaws M L ∧ SetAnswers M.toSetCore L R

/-- Every payload has a lawful map storage, and the keys are ordered by declaration. -/
inductive Payloads.LawfulMaps : {K : Type} → Payloads V K → (K → K → Prop) → Prop where
  | nil : Payloads.LawfulMaps .nil fun _ _ => False
  | simple {K : Type} {p : Payloads V K} {R : K → K → Prop} (h : Payloads.LawfulMaps p R) :
      Payloads.LawfulMaps (.simple p) (sumBefore (fun _ _ => False) R)
  | complex {E K : Type} {M : MapStorage E V} {N : SetStorage E} {p : Payloads V K} {Q : E → E → Prop} {R : K → K → Prop}
      (hM : LawfulMap M Q) (h : Payloads.LawfulMaps p R) : Payloads.LawfulMaps (.complex M N p) (sumBefore Q R)

/-- Every payload has a lawful set storage, and the keys are ordered by declaration. -/
inductive Payloads.LawfulSets : {K : Type} → Payloads V K → (K → K → Prop) → Prop where
  | nil : Payloads.LawfulSets .nil fun _ _ => False
  | simple {K : Type} {p : Payloads V K} {R : K → K → Prop} (h : Payloads.LawfulSets p R) :
      Payloads.LawfulSets (.simple p) (sumBefore (fun _ _ => False) R)
  | complex {E K : Type} {M : MapStorage E V} {N : SetStorage E} {p : Payloads V K} {Q : E → E → Prop} {R : K → K → Prop}
      (hN : LawfulSet N Q) (h : Payloads.LawfulSets p R) : Payloads.LawfulSets (.complex M N p) (sumBefore Q R)

/-! ## Maps -/

/-- C66: the storages of the crate satisfy the contract. -/
theorem C66_builtin_map (H : Hashbrown) (V : Type) (κ : KeyTy) (hk : κ.noUnit = true) :
    LawfulMap (mapStorage H.api V κ) κ.mayPrecede :=
  ⟨mapCore H V κ, ⟨hk ▸ mapIters H V κ⟩, entries_sorted H V κ⟩

/-- C66: `Option<K>` keeps the contract of maps, with `None` last. -/
theorem C66_option_map (M : MapStorage K V) (R : K → K → Prop) (h : LawfulMap M R) : LawfulMap (optMap M) (optBefore R) := by
  obtain ⟨L, ⟨T⟩, hs⟩ := h
  exact ⟨optCore L, ⟨optIters T⟩, sortedBy_opt L hs⟩

theorem Payloads.LawfulMaps.laws {p : Payloads V K} {R : K → K → Prop} (h : p.LawfulMaps R) :
    ∃ L : CoreLaws p.mapFields.toMapCore, Nonempty (FieldLaws p.mapFields L true) ∧ SortedBy L.entries R := by
  induction h with
  | nil => exact ⟨nilCore V, ⟨nilFields V⟩, fun _ => .nil⟩
  | simple h ih =>
    obtain ⟨L, ⟨T⟩, hs⟩ := ih
    exact ⟨simpleCore L, ⟨simpleFields T⟩, fun s => pairwise_sum (sortedBy_slot (K := Unit) () (fun _ _ => False) s.1) (hs s.2)⟩
  | complex hM h ih =>
    obtain ⟨L, ⟨T⟩, hs⟩ := ih
    obtain ⟨LA, ⟨TA⟩, hA⟩ := hM
    exact ⟨complexCore LA L, ⟨complexFields TA T⟩, fun s => pairwise_sum (hA s.1) (hs s.2)⟩

/-- C66: the derived map storage satisfies the contract if those of the payloads do; the order is that of declaration. -/
theorem C66_derive_map (p : Payloads V K) (R : K → K → Prop) (h : p.LawfulMaps R) : LawfulMap p.map R := by
  obtain ⟨L, ⟨T⟩, hs⟩ := h.laws
  exact ⟨L, ⟨enumIters T⟩, hs⟩

/-- C66, what the contract is worth: every history of a map with a lawful storage is a history of the reference map (as in C01),
does not panic and does not run into undefined behaviour. -/
theorem C66_history {σ : Type} [DecidableEq K] (M : MapStorage K V) (R : K → K → Prop) (h : LawfulMap M R) (ops : List (Op σ K V)) :
    ∃ rs m' l', apiRun M ops (Map.new M) = .ok (rs, m') ∧ RefRun R ops [] rs l' ∧ (Map.iter M).runsTo m' l' ∧
      (∀ k v, (k, v) ∈ l' ↔ Map.get M m' k = some v) := by
  obtain ⟨L, ⟨T⟩, hs⟩ := h
  obtain ⟨rs, m', e, hr⟩ := run_sim T hs ops (Map.new M) [] (by rw [show L.entries (Map.new M) = [] from L.entries_empty])
  exact ⟨rs, m', _, e, hr, Yields.runsTo (T.iter m'), L.mem_entries m'⟩

/-- C66: two maps are equal iff they have equal values under the same keys. -/
theorem C66_eq (M : MapStorage K V) (R : K → K → Prop) (h : LawfulMap M R) (veq : V → V → Bool) (a b : M.S) :
    Map.eq M veq a b = true ↔ ∀ k, optBeq veq (Map.get M a k) (Map.get M b k) = true := by
  obtain ⟨L, _, _⟩ := h
  exact L.eq_iff veq a b

/-! ## Sets -/

/-- C66: `Option<K>` breaks the contract of sets, whatever the storage of `K`: inserting `None` into the empty set answers
`false`, and the empty set says that it is not empty. -/
theorem C66_option_set_false {T : Type} (M : SetStorage T) (R : Option T → Option T → Prop) : ¬LawfulSet (optSet M) R := by
  rintro ⟨L, _, A⟩
  have h := A.insert (optSet M).empty L.valid_empty none
  rw [L.contains_empty] at h
  exact Bool.false_ne_true h

theorem optSet_new_not_empty {T : Type} (M : SetStorage T) :
    FSet.isEmpty (optSet M) (FSet.new (optSet M)) = false ∧
      (FSet.insert (optSet M) (FSet.new (optSet M)) none).1 = false ∧
      FSet.contains (optSet M) (FSet.insert (optSet M) (FSet.new (optSet M)) none).2 none = true :=
  ⟨Bool.and_false _, rfl, rfl⟩

theorem sorted_flag {B : Type} {Q : B → B → Prop} {l : List B} (b : Bool) (h : l.Pairwise Q) :
    (flagList (Sum.inl () : Unit ⊕ B) b ++ l.map Sum.inr).Pairwise (sumBefore (fun _ _ => False) Q) := by
  cases b
  · exact sorted_sum (A := Unit) .nil h
  · exact sorted_sum (A := Unit) (List.pairwise_singleton _ ()) h

theorem Payloads.LawfulSets.laws {p : Payloads V K} {R : K → K → Prop} (h : p.LawfulSets R) :
    ∃ L : SetLaws p.setFields.toSetCore, SetFieldLaws p.setFields L ∧ SetAnswers p.setFields.toSetCore L R := by
  induction h with
  | nil => exact ⟨nilSetLaws, nilSetFields, fun _ _ x => x.elim, fun _ _ x => x.elim,
      fun _ _ => ⟨fun _ x => x.elim, fun _ => rfl⟩, fun _ => rfl, fun _ => .nil⟩
  | @simple K p R h ih =>
    obtain ⟨L, I, A⟩ := ih
    refine ⟨simpleSetLaws L, simpleSetFields I, ?_, ?_, ?_, ?_, ?_⟩
    · rintro s hs (_ | x)
      · rfl
      · exact A.insert s.2 hs x
    · rintro s hs (_ | x)
      · rfl
      · exact A.remove s.2 hs x
    · intro s hs
      refine Iff.trans (b := (!s.1 && p.setFields.isEmpty s.2) = true) Iff.rfl ?_
      rw [Bool.and_eq_true, A.isEmpty s.2 hs]
      constructor
      · rintro ⟨h1, h2⟩ (_ | x)
        · show ¬s.1 = true
          cases h : s.1 <;> simp_all
        · exact h2 x
      · intro g
        refine ⟨?_, fun x => g (.inr x)⟩
        have := g (.inl ())
        change ¬s.1 = true at this
        cases h : s.1 <;> simp_all
    · intro s
      exact congrArg (fun l => flagList (Sum.inl ()) s.1 ++ l.map Sum.inr) (A.visits s.2)
    · intro s
      exact sorted_flag s.1 (A.sorted s.2)
  | @complex E K M N p Q R hN h ih =>
    obtain ⟨L, I, A⟩ := ih
    obtain ⟨LA, IA, B⟩ := hN
    refine ⟨complexSetLaws LA L, complexSetFields IA I, ?_, ?_, ?_, ?_, ?_⟩
    · rintro s hs (x | x)
      · exact B.insert s.1 hs.1 x
      · exact A.insert s.2 hs.2 x
    · rintro s hs (x | x)
      · exact B.remove s.1 hs.1 x
      · exact A.remove s.2 hs.2 x
    · intro s hs
      refine Iff.trans (b := (N.isEmpty s.1 && p.setFields.isEmpty s.2) = true) Iff.rfl ?_
      rw [Bool.and_eq_true, B.isEmpty s.1 hs.1, A.isEmpty s.2 hs.2]
      constructor
      · rintro ⟨h1, h2⟩ (x | x)
        · exact h1 x
        · exact h2 x
      · exact fun g => ⟨fun x => g (.inl x), fun x => g (.inr x)⟩
    · intro s
      show (LA.visits s.1).map Sum.inl ++ (L.visits s.2).map Sum.inr = (LA.elems s.1).map Sum.inl ++ (L.elems s.2).map Sum.inr
      rw [B.visits, A.visits]
    · intro s
      exact sorted_sum (B.sorted s.1) (A.sorted s.2)

/-- C66: the derived set storage satisfies the contract if those of the payloads do; the order is that of declaration. -/
theorem C66_derive_set (p : Payloads V K) (R : K → K → Prop) (h : p.LawfulSets R) : LawfulSet p.set R := by
  obtain ⟨L, I, A⟩ := h.laws
  exact ⟨L, enumSetIters I, A⟩

/-- C66: the storages of the crate for key types without `bool`, `Option` and `()` satisfy the contract of sets. -/
theorem C66_builtin_set (H : Hashbrown) (κ : KeyTy) (hb : κ.noBool = true) (ho : κ.noOpt = true) (hu : κ.noUnit = true) :
    LawfulSet (setStorage H.api κ) κ.mayPrecede := by
  refine ⟨setLaws H κ, setIters H κ, ?_, ?_, ?_, visits_eq H κ hu, elems_sorted H κ⟩
  · intro s _ x
    rw [set_insert_ret H κ s x, insertInverted_false κ hb ho x]
    cases (setStorage H.api κ).contains s x <;> rfl
  · intro s hs x
    rw [set_remove_ret H κ s hs x, siblings_self κ hb x]
    simp
  · intro s hs
    exact (set_isEmpty_iff H κ s hs).trans (saysEmpty_iff κ ho _)

/-- C66, one call of a set with a lawful storage. -/
theorem LawfulSet.call {T : Type} {M : SetStorage T} {L : SetLaws M.toSetCore} {R : T → T → Prop} (I : SetIterLaws M L)
    (A : SetAnswers M.toSetCore L R) (s s' : M.S) (hs : L.valid s) (c : SetCall T) (out : c.Out) (h : FSet.Does M s c out s') :
    L.valid s' ∧ c.Plain R (fun x => FSet.contains M s x = true) out (fun x => FSet.contains M s' x = true) := by
  have hl : Lists R (L.elems s) (fun x => FSet.contains M s x = true) := ⟨L.nodup s, A.sorted s, L.mem_elems s⟩
  cases c with
  | insert x =>
    obtain ⟨rfl, rfl⟩ := h
    refine ⟨L.valid_insert _ _ hs, L.contains_insert s x, ?_⟩
    rw [show (FSet.insert M s x).1 = _ from A.insert s hs x]
    show (!M.contains s x) = true ↔ ¬M.contains s x = true
    cases M.contains s x <;> simp
  | remove x =>
    obtain ⟨rfl, rfl⟩ := h
    refine ⟨L.valid_remove _ _ hs, L.contains_remove s x, ?_⟩
    rw [show (FSet.remove M s x).1 = _ from A.remove s hs x]
    exact Iff.rfl
  | contains x =>
    obtain ⟨rfl, rfl⟩ := h
    exact ⟨hs, fun _ => Iff.rfl, Iff.rfl⟩
  | len =>
    obtain ⟨rfl, rfl⟩ := h
    exact ⟨hs, fun _ => Iff.rfl, _, hl, L.len_eq _ hs⟩
  | isEmpty =>
    obtain ⟨rfl, rfl⟩ := h
    exact ⟨hs, fun _ => Iff.rfl, A.isEmpty _ hs⟩
  | clear =>
    cases h
    refine ⟨L.valid_clear s, fun y hy => ?_⟩
    have e : FSet.contains M (FSet.clear M s) y = false := L.contains_clear s y
    exact Bool.false_ne_true (e.symm.trans hy)
  | retain f st =>
    obtain ⟨rfl, rfl⟩ := h
    have h := L.retain_ok f s st
    rw [A.visits s] at h
    refine ⟨L.valid_retain f s st hs, _, hl, Prod.ext h.st_eq h.pan, ?_, ?_⟩
    · intro hp x
      refine ⟨fun hx => ?_, h.kept x⟩
      refine (h.sub x hx).resolve_right fun g => ?_
      rw [h.pan, hp] at g
      exact Bool.false_ne_true g.1
    · intro _
      refine ⟨fun x hx => ?_, h.sup⟩
      rcases h.sub x hx with g | g
      · exact (L.mem_elems s x).mp ((visit_mem f _ st).1 x g)
      · exact g.2
  | iter =>
    obtain ⟨h, rfl⟩ := h
    have e := runsTo_unique h (Yields.runsTo (I.iter _ hs))
    subst e
    exact ⟨hs, fun _ => Iff.rfl, hl⟩
  | clone =>
    cases h
    exact ⟨L.valid_clone _ hs, fun y => Bool.eq_iff_iff.mp (L.contains_clone s y)⟩

/-- C66, what the contract of sets is worth: whatever calls are made, starting from `Set::new()`, the answers are those of an
ordinary set. -/
theorem C66_set_calls {T : Type} (M : SetStorage T) (R : T → T → Prop) (h : LawfulSet M R)
    (l : List (Sigma fun c : SetCall T => c.Out)) (s' : M.S) (hl : FSet.DoesAll M l (FSet.new M) s') :
    SetCall.PlainRun R l (fun _ => False) (fun x => FSet.contains M s' x = true) := by
  obtain ⟨L, I, A⟩ := h
  have : ∀ s, L.valid s → FSet.DoesAll M l s s' →
      SetCall.PlainRun R l (fun x => FSet.contains M s x = true) (fun x => FSet.contains M s' x = true) := by
    clear hl
    induction l with
    | nil => intro s _ h; cases h; exact fun _ => Iff.rfl
    | cons p l ih =>
      intro s hs h
      obtain ⟨c, out⟩ := p
      obtain ⟨t, h1, h2⟩ := h
      have := LawfulSet.call I A s t hs c out h1
      exact ⟨_, this.2, ih t this.1 h2⟩
  have := this (FSet.new M) L.valid_empty hl
  have e : (fun x => FSet.contains M (FSet.new M) x = true) = fun _ => False := by
    funext x
    have : FSet.contains M (FSet.new M) x = false := L.contains_empty x
    simp [this]
  rw [e] at this
  exact this

/-- C66, sets: `iter()` of a lawful storage ends, so every sequence of calls can be made. -/
theorem C66_set_iter {T : Type} (M : SetStorage T) (R : T → T → Prop) (h : LawfulSet M R)
    (l : List (Sigma fun c : SetCall T => c.Out)) (s' : M.S) (hl : FSet.DoesAll M l (FSet.new M) s') :
    ∃ es, (FSet.iter M).runsTo s' es ∧ Lists R es (fun x => FSet.contains M s' x = true) := by
  obtain ⟨L, I, A⟩ := h
  have : ∀ s, L.valid s → FSet.DoesAll M l s s' → L.valid s' := by
    clear hl
    induction l with
    | nil => intro s hs h; cases h; exact hs
    | cons p l ih =>
      intro s hs h
      obtain ⟨c, out⟩ := p
      obtain ⟨t, h1, h2⟩ := h
      exact ih t (LawfulSet.call I A s t hs c out h1).1 h2
  exact ⟨_, Yields.runsTo (I.iter s' (this _ L.valid_empty hl)), L.nodup s', A.sorted s', L.mem_elems s'⟩

/-! ## A concrete enum

`enum Key { Num(Nat), A, Other(Nat) }` whose payload `Nat` (not a key of the crate) has an association list as storage. -/

namespace Ex

/-- The storages of the user for `Nat`. -/
abbrev natMap : MapStorage Nat Nat := hashMap (assocApi Nat Nat)
abbrev natSet : SetStorage Nat := hashSet (assocApi Nat Unit)

abbrev custom : Payloads Nat (Nat ⊕ (Unit ⊕ (Nat ⊕ Empty))) :=
  .complex natMap natSet (.simple (.complex natMap natSet .nil))

theorem custom_maps : custom.LawfulMaps (sumBefore (· ≠ ·) (sumBefore (fun _ _ => False) (sumBefore (· ≠ ·) fun _ _ => False))) :=
  .complex ⟨_, ⟨hashIters (assocLaws Nat Nat)⟩, sortedBy_hash (assocLaws Nat Nat)⟩
    (.simple (.complex ⟨_, ⟨hashIters (assocLaws Nat Nat)⟩, sortedBy_hash (assocLaws Nat Nat)⟩ .nil))

theorem nat_lawful : LawfulSet natSet (· ≠ ·) :=
  ⟨_, hashSetIters (assocLaws Nat Unit), fun s _ x => by
      rw [hashSet_insert_ret (assocLaws Nat Unit)]; cases (hashSet (assocApi Nat Unit)).contains s x <;> rfl,
    fun s _ x => by rw [hashSet_remove_ret (assocLaws Nat Unit)]; simp,
    fun s _ => hashSet_isEmpty_iff (assocLaws Nat Unit) s, fun _ => rfl, fun s => (assocLaws Nat Unit).nodup_keys s⟩

theorem custom_sets : custom.LawfulSets (sumBefore (· ≠ ·) (sumBefore (fun _ _ => False) (sumBefore (· ≠ ·) fun _ _ => False))) :=
  .complex nat_lawful (.simple (.complex nat_lawful .nil))

end Ex

/-- Case: two calls on the derived map of the enum. -/
example :
    let M := Ex.custom.map
    let m := (Map.insert M (Map.insert M (Map.new M) (.inr (.inl ())) 4).2 (.inl 700) 5).2
    (Map.get M m (.inl 700) = some 5 ∧ Map.get M m (.inl 7) = none ∧ Map.len M m = 2) ∧ ∃ R, LawfulMap M R :=
  ⟨⟨rfl, rfl, rfl⟩, _, C66_derive_map _ _ Ex.custom_maps⟩

/-- Case: the derived set answers like an ordinary set, `Option` of the same storage does not. -/
example :
    let N := Ex.custom.set
    let s := (FSet.insert N (FSet.new N) (.inl 700)).2
    ((FSet.insert N (FSet.new N) (.inl 700)).1 = true ∧ (FSet.insert N s (.inl 700)).1 = false ∧ FSet.isEmpty N s = false) ∧
      (∃ R, LawfulSet N R) ∧ ¬LawfulSet (optSet Ex.natSet) fun _ _ => True :=
  ⟨⟨rfl, rfl, rfl⟩, ⟨_, C66_derive_set _ _ Ex.custom_sets⟩, C66_option_set_false _ _⟩

end FixedMap
