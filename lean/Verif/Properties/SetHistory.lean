import Verif.Properties.SetRetain
import Verif.Spec.SetHistory

/-! # C31, C47, C50: histories of sets, collecting, empty enums -/

set_option autoImplicit false
set_option linter.unusedSimpArgs false

namespace FixedMap

variable (H : Hashbrown) (κ : KeyTy)

/-- One step of C31. -/
theorem C31_step (op : SetOp κ.Key) (s : (setStorage H.api κ).S)
    (h : κ.noUnit = true ∨ op.notRetain) :
    let M := setStorage H.api κ
    SetStep κ.mayPrecede op (fun x => FSet.contains M s x = true)
      (fun x => FSet.contains M (FSet.step M s op) x = true) := by
  intro M
  cases op with
  | insert x => exact (setLaws H κ).contains_insert s x
  | remove x => exact (setLaws H κ).contains_remove s x
  | clear =>
    intro y
    have e : FSet.contains M (FSet.step M s .clear) y = false := (setLaws H κ).contains_clear s y
    exact fun hy => Bool.false_ne_true (e.symm.trans hy)
  | @retain σ f st =>
    have hu := h.resolve_right id
    have hr := (setLaws H κ).retain_ok f s st
    rw [visits_eq H κ hu s] at hr
    refine ⟨(setLaws H κ).elems s, (setLaws H κ).nodup s, elems_sorted H κ s, (setLaws H κ).mem_elems s, ?_, ?_⟩
    · intro hp x
      refine ⟨fun hx => (hr.sub x hx).elim id fun h' => ?_, hr.kept x⟩
      rw [hr.pan, hp] at h'; cases h'.1
    · intro hp
      refine ⟨fun x hx => ?_, hr.sup⟩
      rcases hr.sub x hx with h' | h'
      · exact ((setLaws H κ).mem_elems s x).mp ((visit_mem f _ st).1 x h')
      · exact h'.2

/-- C31 from any set. -/
theorem C31_history_from_partial (ops : List (SetOp κ.Key)) (h : κ.noUnit = true ∨ ∀ op ∈ ops, op.notRetain)
    (s : (setStorage H.api κ).S) :
    let M := setStorage H.api κ
    SetRun κ.mayPrecede ops (fun x => FSet.contains M s x = true)
      (fun x => FSet.contains M (FSet.run M ops s) x = true) := by
  intro M
  induction ops generalizing s with
  | nil => exact fun _ => Iff.rfl
  | cons op ops ih =>
    refine ⟨_, C31_step H κ op s (h.imp id fun h => h op (.head _)), ?_⟩
    exact ih (h.imp id fun h o ho => h o (.tail _ ho)) (FSet.step M s op)

/-- C31, what holds: after any sequence of operations from `Set::new()`, `contains` answers as an ordinary set on which the same
operations were performed, if the key type has no `()` in it or `retain` is not used. Full statement: the same
without the hypothesis; it is false, see `C31_false_for_unit`. -/
theorem C31_history_partial (ops : List (SetOp κ.Key)) (h : κ.noUnit = true ∨ ∀ op ∈ ops, op.notRetain) :
    let M := setStorage H.api κ
    SetRun κ.mayPrecede ops (fun _ => False) (fun x => FSet.contains M (FSet.run M ops (FSet.new M)) x = true) := by
  intro M
  have := C31_history_from_partial H κ ops h (FSet.new M)
  have e : (fun x => FSet.contains M (FSet.new M) x = true) = fun _ => False := by
    funext x
    have : FSet.contains M (FSet.new M) x = false := (setLaws H κ).contains_empty x
    simp [this]
  rw [← e]
  exact this

/-- The sets of C31 are reachable, so that C32-C36 and C42 apply to them. -/
theorem C31_reachable (ops : List (SetOp κ.Key)) (s : (setStorage H.api κ).S) (hs : Reachable (setStorage H.api κ) s) :
    Reachable (setStorage H.api κ) (FSet.run (setStorage H.api κ) ops s) := by
  induction ops generalizing s with
  | nil => exact hs
  | cons op ops ih =>
    refine ih _ ?_
    cases op with
    | insert x => exact .insert x hs
    | remove x => exact .remove x hs
    | clear => exact .clear hs
    | retain f st => exact .retain f st hs

/-- What an ordinary set answers is determined by the operations, if the order of visiting is (no hash-backed keys) or
if `retain` is not used. -/
theorem C31_deterministic {T : Type} (R : T → T → Prop) (ops : List (SetOp T)) (h : ∀ op ∈ ops, op.notRetain)
    (P Q Q' : T → Prop) (h1 : SetRun R ops P Q) (h2 : SetRun R ops P Q') (x : T) : Q x ↔ Q' x := by
  have congr : ∀ (ops : List (SetOp T)), (∀ op ∈ ops, op.notRetain) → ∀ P P' Q Q' : T → Prop, (∀ x, P x ↔ P' x) →
      SetRun R ops P Q → SetRun R ops P' Q' → ∀ x, Q x ↔ Q' x := by
    intro ops
    induction ops with
    | nil => intro _ P P' Q Q' hp h1 h2 x; exact (h1 x).trans ((hp x).trans (h2 x).symm)
    | cons op ops ih =>
      rintro hn P P' Q Q' hp ⟨A, a1, a2⟩ ⟨B, b1, b2⟩ x
      refine ih (fun o ho => hn o (.tail _ ho)) A B Q Q' ?_ a2 b2 x
      intro y
      cases op with
      | insert z => exact (a1 y).trans ((or_congr Iff.rfl (hp y)).trans (b1 y).symm)
      | remove z => exact (a1 y).trans ((and_congr Iff.rfl (hp y)).trans (b1 y).symm)
      | clear => exact ⟨fun h => absurd h (a1 y), fun h => absurd h (b1 y)⟩
      | retain f st => exact (hn _ (.head _)).elim
  exact congr ops h P P Q Q' (fun _ => Iff.rfl) h1 h2 x

/-- C31 is false for `Set<()>`: after a single `retain` accepting everything, `()` is contained; no ordinary set could contain it. -/
theorem C31_false_for_unit :
    let M := setStorage H.api .unit
    let ops : List (SetOp KeyTy.unit.Key) := [.retain (fun (st : Unit) _ => (st, some true)) ()]
    FSet.contains M (FSet.run M ops (FSet.new M)) () = true ∧
      ∀ P, SetRun KeyTy.unit.mayPrecede ops (fun _ => False) P → ¬P () := by
  refine ⟨rfl, ?_⟩
  rintro P ⟨Q, ⟨l, _, _, hl, hq, _⟩, hP⟩ hp
  have : l = [] := by
    cases l with
    | nil => rfl
    | cons x l => exact ((hl x).mp (.head _)).elim
  subst this
  have := (hq rfl ()).mp ((hP ()).mp hp)
  cases this

/-- Case: `ExKey` meets the hypothesis; a history with every operation. -/
example :
    let ops : List (SetOp Ex.key.Key) := [.insert (Ex.byte 3), .insert (Ex.flag true), .clear, .insert (Ex.opt none),
      .insert (Ex.flag true), .insert (Ex.byte 4), .remove (Ex.opt none),
      .retain (fun (n : Nat) _ => (n + 1, some (n == 0))) 0, .insert Ex.simple]
    Ex.key.noUnit = true ∧
    (FSet.iter Ex.N).I.drain 4 ((FSet.iter Ex.N).init (FSet.run Ex.N ops (FSet.new Ex.N))) =
      some [Ex.simple, Ex.flag true] := ⟨rfl, rfl⟩

/-- C47: collecting from an iterator, an array or a deserializer (`C47_deserialize`) gives exactly the set of the listed
elements. -/
theorem C47_collect (l : List κ.Key) :
    let M := setStorage H.api κ
    Reachable M (FSet.fromIter M l) ∧ (∀ x, FSet.contains M (FSet.fromIter M l) x = true ↔ x ∈ l) ∧
      ∀ (N : Nat) (arr : Vector κ.Key N), Reachable M (FSet.fromArray M arr) ∧
        ∀ x, FSet.contains M (FSet.fromArray M arr) x = true ↔ x ∈ arr := by
  intro M
  have key : ∀ (l : List κ.Key) (s : M.S), Reachable M s →
      Reachable M (l.foldl (fun s v => (FSet.insert M s v).2) s) ∧
      ∀ x, FSet.contains M (l.foldl (fun s v => (FSet.insert M s v).2) s) x = true ↔
        x ∈ l ∨ FSet.contains M s x = true := by
    intro l
    induction l with
    | nil => intro s hs; exact ⟨hs, fun x => ⟨.inr, fun h => h.elim (fun h => by cases h) id⟩⟩
    | cons v l ih =>
      intro s hs
      obtain ⟨h1, h2⟩ := ih (FSet.insert M s v).2 (.insert v hs)
      refine ⟨h1, fun x => (h2 x).trans ?_⟩
      have hi : FSet.contains M (FSet.insert M s v).2 x = true ↔ x = v ∨ FSet.contains M s x = true :=
        (setLaws H κ).contains_insert s v x
      rw [hi, List.mem_cons]
      constructor
      · rintro (h | h | h)
        · exact .inl (.inr h)
        · exact .inl (.inl h)
        · exact .inr h
      · rintro ((h | h) | h)
        · exact .inr (.inl h)
        · exact .inl h
        · exact .inr (.inr h)
  have fin : ∀ l : List κ.Key, Reachable M (FSet.fromIter M l) ∧
      ∀ x, FSet.contains M (FSet.fromIter M l) x = true ↔ x ∈ l := by
    intro l
    obtain ⟨h1, h2⟩ := key l (FSet.new M) .new
    refine ⟨h1, fun x => (h2 x).trans ?_⟩
    have : FSet.contains M (FSet.new M) x = false := (setLaws H κ).contains_empty x
    simp [this]
  refine ⟨(fin l).1, (fin l).2, fun N arr => ⟨(fin arr.toList).1, fun x => ((fin arr.toList).2 x).trans ?_⟩⟩
  simp

/-- Case: with repetitions. -/
example : (FSet.iter Ex.P).I.drain 4 ((FSet.iter Ex.P).init (FSet.fromIter Ex.P [Ex.ppart 1, Ex.pa, Ex.ppart 1, Ex.pbyte 0])) =
    some [Ex.pa, Ex.pbyte 0, Ex.ppart 1] := rfl

/-! ## C50: enums without variants -/

/-- C50 for maps: over an enum without variants (as unit enum, which is what the derive generates, and as `enum` with no
fields) every map is empty, yields nothing, and equals every other. -/
theorem C50_empty_map (V : Type) (κ : KeyTy) (hκ : κ = .units 0 ∨ κ = .enum .nil) (veq : V → V → Bool)
    (m m' : (mapStorage H.api V κ).S) :
    let M := mapStorage H.api V κ
    Map.len M m = 0 ∧ Map.isEmpty M m = true ∧ (Map.iter M).runsTo m [] ∧ (Map.keys M).runsTo m [] ∧
      (Map.values M).runsTo m [] ∧ (Map.intoIter M).runsTo m [] ∧ Map.eq M veq m m' = true := by
  intro M
  have hk : κ.Key → False := by
    rcases hκ with rfl | rfl
    · exact fun x => Fin.elim0 (show Fin 0 from x)
    · exact fun x => (show Empty from x).elim
  have hn : κ.noUnit = true := by rcases hκ with rfl | rfl <;> rfl
  have he : ∀ m : M.S, (mapCore H V κ).entries m = [] := by
    intro m
    cases e : (mapCore H V κ).entries m with
    | nil => rfl
    | cons p l => exact (hk p.1).elim
  have hl : Map.len M m = _ := (mapCore H V κ).len_eq m
  have hi : Map.isEmpty M m = _ := (mapCore H V κ).isEmpty_eq m
  rw [hl, hi, he m]
  have i1 := Yields.runsTo ((mapIters H V κ).iter m)
  have i2 := Yields.runsTo ((mapIters H V κ).keys m)
  have i3 := Yields.runsTo ((mapIters H V κ).values m)
  have i4 := Yields.runsTo ((mapIters H V κ).intoIter m)
  rw [(mapIters H V κ).keysL_eq hn] at i2
  rw [he m] at i1 i2 i3 i4
  exact ⟨rfl, rfl, i1, i2, i3, i4, ((mapCore H V κ).eq_iff veq m m').mpr fun k => (hk k).elim⟩

/-- C50 for sets. -/
theorem C50_empty_set (κ : KeyTy) (h0 : determineBits 0 = some 8)
    (hκ : κ = .units 0 ∨ κ = .enum .nil ∨ κ = .bitset 0 8 h0) (s t : (setStorage H.api κ).S)
    (hs : Reachable (setStorage H.api κ) s) (ht : Reachable (setStorage H.api κ) t) :
    let M := setStorage H.api κ
    FSet.len M s = 0 ∧ FSet.isEmpty M s = true ∧ (FSet.iter M).runsTo s [] ∧ (FSet.intoIter M).runsTo s [] ∧
      FSet.eq M s t = true := by
  intro M
  have hk : κ.Key → False := by
    rcases hκ with rfl | rfl | rfl
    · exact fun x => Fin.elim0 (show Fin 0 from x)
    · exact fun x => (show Empty from x).elim
    · exact fun x => Fin.elim0 (show Fin 0 from x)
  have ho : κ.noOpt = true := by rcases hκ with rfl | rfl | rfl <;> rfl
  have he : (setLaws H κ).elems s = [] := by
    cases e : (setLaws H κ).elems s with
    | nil => rfl
    | cons x l => exact (hk x).elim
  have i1 := Yields.runsTo ((setIters H κ).iter s (hs.valid _))
  have i2 := Yields.runsTo ((setIters H κ).intoIter s (hs.valid _))
  rw [he] at i1 i2
  exact ⟨(C34_len_zero H κ s hs).mpr fun x => (hk x).elim, (C34_isEmpty_partial H κ ho s hs).1.mpr fun x => (hk x).elim,
    i1, i2, (C42_eq H κ s t hs ht).mpr fun x => (hk x).elim⟩

/-- Case: new containers over the empty enum, with and without `#[key(bitset)]`. -/
example : Map.len (mapStorage Ex.H.api Nat (.units 0)) (Map.new _) = 0 ∧
    FSet.isEmpty (setStorage Ex.H.api (.units 0)) (FSet.new _) = true ∧
    FSet.isEmpty (setStorage Ex.H.api (.bitset 0 8 rfl)) (FSet.new _) = true := ⟨rfl, rfl, rfl⟩

end FixedMap
