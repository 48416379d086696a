import Verif.Spec.Expand
import Verif.Proofs.Gen
import Verif.Proofs.GenAddr
import Verif.Proofs.GenHistory
import Verif.Proofs.SetQuirks
import Verif.Properties.Derive
import Verif.Properties.GenUnits

/-! # Lemmas about the derive as a whole -/

set_option autoImplicit false
set_option linter.unusedSimpArgs false

namespace FixedMap.Derive

open Gen (DynKey GenOp GenOut refGen refGenRun Variant FieldSet collect collectGo IsKey)

/-! ## Sets -/

/-- The emitted code does what the storage does. -/
structure SetSim (m : SetMachine) {T : Type} (N : SetCore T) (key : T → DynKey) (S : N.S → m.St) : Prop where
  init : m.init = some (S N.empty)
  insert : ∀ s k, m.step (S s) (.insert (key k)) = some (.bool (N.insert s k).1, S (N.insert s k).2)
  remove : ∀ s k, m.step (S s) (.remove (key k)) = some (.bool (N.remove s k).1, S (N.remove s k).2)
  contains : ∀ s k, m.step (S s) (.contains (key k)) = some (.bool (N.contains s k), S s)
  len : ∀ s, m.step (S s) .len = some (.nat (N.len s), S s)
  isEmpty : ∀ s, m.step (S s) .isEmpty = some (.bool (N.isEmpty s), S s)
  clear : ∀ s, m.step (S s) .clear = some (.unit, S (N.clear s))

/-- `insert`, `remove` and `is_empty` answer as expected of a set. -/
structure Honest {T : Type} {N : SetCore T} (L : SetLaws N) : Prop where
  insert : ∀ s k, L.valid s → (N.insert s k).1 = !N.contains s k
  remove : ∀ s k, L.valid s → (N.remove s k).1 = N.contains s k
  isEmpty : ∀ s, L.valid s → (N.isEmpty s = true ↔ ∀ k, N.contains s k = false)

/-- The list holds what the storage holds. -/
structure HoldsSet {T : Type} (N : SetCore T) (key : T → DynKey) (s : N.S) (l : List DynKey) : Prop where
  nodup : l.Nodup
  keys : ∀ d ∈ l, ∃ k, key k = d
  mem : ∀ k, key k ∈ l ↔ N.contains s k = true

section
variable {m : SetMachine} {T : Type} {N : SetCore T} {key : T → DynKey} {S : N.S → m.St}

theorem HoldsSet.len {s : N.S} {l : List DynKey} (h : HoldsSet N key s l) (L : SetLaws N) (hv : L.valid s)
    (inj : ∀ k k', key k = key k' → k = k') : N.len s = l.length := by
  rw [L.len_eq s hv, ← List.length_map (as := L.elems s) key]
  refine List.Perm.length_eq ((List.perm_ext_iff_of_nodup ?_ h.nodup).2 fun d => ?_)
  · exact List.pairwise_map.2 (List.Pairwise.imp (fun hab e => hab (inj _ _ e)) (L.nodup s))
  · rw [List.mem_map]
    constructor
    · rintro ⟨k, hk, rfl⟩
      exact (h.mem k).2 ((L.mem_elems s k).1 hk)
    · intro hd
      obtain ⟨k, rfl⟩ := h.keys d hd
      exact ⟨k, (L.mem_elems s k).2 ((h.mem k).1 hd), rfl⟩

/-- One call: the storage stays valid and holds what the reference holds; `contains` and `len` answer as the
reference, and so do the other calls if the storage is honest. -/
theorem SetSim.step (X : SetSim m N key S) (L : SetLaws N) (inj : ∀ k k', key k = key k' → k = k')
    {s : N.S} {l : List DynKey} (hv : L.valid s) (h : HoldsSet N key s l) (op : GenSetOp)
    (hk : ∀ d, op.key? = some d → ∃ k, key k = d) :
    ∃ o s', m.step (S s) op = some (o, S s') ∧ L.valid s' ∧ HoldsSet N key s' (refSet l op).2 ∧
      contentsOnly [op] [o] = contentsOnly [op] [(refSet l op).1] ∧ (Honest L → o = (refSet l op).1) := by
  cases op with
  | insert d =>
    obtain ⟨k, rfl⟩ := hk d rfl
    refine ⟨_, _, X.insert s k, L.valid_insert s k hv, ⟨?_, fun d hd => ?_, fun k' => ?_⟩, rfl, fun hon => ?_⟩
    · simp only [refSet]
      split
      · exact h.nodup
      · exact List.nodup_cons.2 ⟨by assumption, h.nodup⟩
    · simp only [refSet] at hd
      split at hd
      · exact h.keys d hd
      · rcases List.mem_cons.1 hd with rfl | hd
        · exact ⟨k, rfl⟩
        · exact h.keys d hd
    · rw [L.contains_insert, ← h.mem]
      simp only [refSet]
      split
      · rename_i hm
        constructor
        · exact .inr
        · rintro (rfl | h')
          · exact hm
          · exact h'
      · rw [List.mem_cons]
        exact or_congr ⟨inj _ _, congrArg key⟩ Iff.rfl
    · rw [hon.insert s k hv]
      simp only [refSet, SetOut.bool.injEq]
      have := h.mem k
      cases e : N.contains s k <;> simp [e] at this ⊢ <;> exact this
  | remove d =>
    obtain ⟨k, rfl⟩ := hk d rfl
    refine ⟨_, _, X.remove s k, L.valid_remove s k hv, ⟨h.nodup.filter _, fun d hd => h.keys d (List.mem_filter.1 hd).1,
      fun k' => ?_⟩, rfl, fun hon => ?_⟩
    · rw [L.contains_remove, ← h.mem]
      simp only [refSet, List.mem_filter, decide_eq_true_eq]
      rw [and_comm]
      exact and_congr ⟨fun hne e => hne (congrArg key e), fun hne e => hne (inj _ _ e)⟩ Iff.rfl
    · rw [hon.remove s k hv]
      simp only [refSet, SetOut.bool.injEq]
      have := h.mem k
      cases e : N.contains s k <;> simp [e] at this ⊢ <;> exact this
  | contains d =>
    obtain ⟨k, rfl⟩ := hk d rfl
    have e : SetOut.bool (N.contains s k) = (refSet l (.contains (key k))).1 := by
      simp only [refSet, SetOut.bool.injEq]
      have := h.mem k
      cases e : N.contains s k <;> simp [e] at this ⊢ <;> exact this
    exact ⟨_, _, X.contains s k, hv, h, by rw [e], fun _ => e⟩
  | len =>
    have e : SetOut.nat (N.len s) = (refSet l .len).1 := by
      simp only [refSet, h.len L hv inj]
    exact ⟨_, _, X.len s, hv, h, by rw [e], fun _ => e⟩
  | isEmpty =>
    refine ⟨_, _, X.isEmpty s, hv, h, rfl, fun hon => ?_⟩
    simp only [refSet, SetOut.bool.injEq]
    rw [Bool.eq_iff_iff, hon.isEmpty s hv, List.isEmpty_iff]
    constructor
    · intro hc
      cases l with
      | nil => rfl
      | cons d l =>
        obtain ⟨k, rfl⟩ := h.keys d List.mem_cons_self
        have := (h.mem k).1 List.mem_cons_self
        rw [hc k] at this
        cases this
    · rintro rfl k
      have := h.mem k
      cases e : N.contains s k
      · rfl
      · exact nomatch this.2 e
  | clear =>
    refine ⟨_, _, X.clear s, L.valid_clear s, ⟨List.nodup_nil, fun d hd => (nomatch hd), fun k => ?_⟩, rfl, fun _ => rfl⟩
    rw [L.contains_clear s k]
    simp [refSet]

theorem SetSim.runFrom (X : SetSim m N key S) (L : SetLaws N) (inj : ∀ k k', key k = key k' → k = k')
    (ops : List GenSetOp) : ∀ (s : N.S) (l : List DynKey), L.valid s → HoldsSet N key s l →
    (∀ op ∈ ops, ∀ d, op.key? = some d → ∃ k, key k = d) →
    ∃ outs, m.runFrom ops (S s) = some outs ∧ contentsOnly ops outs = contentsOnly ops (refSetRun ops l) ∧
      (Honest L → outs = refSetRun ops l) := by
  induction ops with
  | nil => exact fun s l _ _ _ => ⟨[], rfl, rfl, fun _ => rfl⟩
  | cons op ops ih =>
    intro s l hv h hk
    obtain ⟨o, s', h1, hv', h2, h3, h4⟩ := X.step L inj hv h op (hk op List.mem_cons_self)
    obtain ⟨outs, g1, g2, g3⟩ := ih s' _ hv' h2 fun o ho => hk o (List.mem_cons_of_mem _ ho)
    refine ⟨o :: outs, ?_, ?_, fun hon => ?_⟩
    · simp only [SetMachine.runFrom, h1, Option.bind_some, g1, Option.map_some]
    · simp only [contentsOnly, List.zipWith_cons_cons, refSetRun, List.zipWith_nil_right, List.cons.injEq, and_true] at h3 g2 ⊢
      exact ⟨h3, g2⟩
    · rw [h4 hon, g3 hon]
      rfl

theorem SetSim.run (X : SetSim m N key S) (L : SetLaws N) (inj : ∀ k k', key k = key k' → k = k')
    (ops : List GenSetOp) (hk : ∀ op ∈ ops, ∀ d, op.key? = some d → ∃ k, key k = d) :
    ∃ outs, m.run ops = some outs ∧ contentsOnly ops outs = contentsOnly ops (refSetRun ops []) ∧
      (Honest L → outs = refSetRun ops []) := by
  obtain ⟨outs, h⟩ := X.runFrom L inj ops N.empty [] L.valid_empty
    ⟨List.nodup_nil, fun d hd => (nomatch hd), fun k => by simp [L.contains_empty]⟩ hk
  exact ⟨outs, by rw [SetMachine.run, X.init]; exact h.1, h.2⟩

end

/-- Key types without `bool` and `Option` have honest sets. -/
theorem honest (H : Hashbrown) (κ : KeyTy) (hb : κ.noBool = true) (ho : κ.noOpt = true) : Honest (setLaws H κ) where
  insert s k _ := by
    rw [set_insert_ret H κ s k, insertInverted_false κ hb ho k]
    cases (setStorage H.api κ).contains s k <;> rfl
  remove s k hv := by
    rw [set_remove_ret H κ s hv k, siblings_self κ hb k]
    simp
  isEmpty s hv := by
    refine (set_isEmpty_iff H κ s hv).trans ((saysEmpty_iff κ ho _).trans ?_)
    simp only [Bool.not_eq_true]

/-! ## Exact answers -/

/-- `insert`, `remove` and `is_empty` answer as described in `Answers`. -/
structure Exact (vs : List SynVariant) {T : Type} {N : SetCore T} (L : SetLaws N) (key : T → DynKey) : Prop where
  insert : ∀ s k, L.valid s → ((N.insert s k).1 = true ↔ (N.contains s k = true ↔ inverted (key k) = true))
  remove : ∀ s k, L.valid s → ((N.remove s k).1 = true ↔ ∃ k', key k' ∈ siblings (key k) ∧ N.contains s k' = true)
  siblings : ∀ k, ∀ d ∈ siblings (key k), ∃ k', key k' = d
  isEmpty : ∀ s (P : DynKey → Prop), L.valid s → (∀ k, P (key k) ↔ N.contains s k = true) →
    (N.isEmpty s = true ↔ ∀ v ∈ vs, v.saysEmpty P)

section
variable {vs : List SynVariant} {m : SetMachine} {T : Type} {N : SetCore T} {key : T → DynKey} {S : N.S → m.St}

theorem SetSim.stepExact (X : SetSim m N key S) (L : SetLaws N) (E : Exact vs L key) (inj : ∀ k k', key k = key k' → k = k')
    {s : N.S} {l : List DynKey} (hv : L.valid s) (h : HoldsSet N key s l) (op : GenSetOp)
    (hk : ∀ d, op.key? = some d → ∃ k, key k = d) :
    ∃ o s', m.step (S s) op = some (o, S s') ∧ L.valid s' ∧ HoldsSet N key s' (refSet l op).2 ∧ Answers vs l op o := by
  obtain ⟨o, s', h1, h2, h3, h4, -⟩ := X.step L inj hv h op hk
  refine ⟨o, s', h1, h2, h3, ?_⟩
  cases op with
  | insert d =>
    obtain ⟨k, rfl⟩ := hk d rfl
    rw [X.insert s k] at h1
    obtain ⟨rfl, -⟩ := Prod.mk.inj (Option.some.inj h1)
    refine ⟨_, rfl, ?_⟩
    rw [E.insert s k hv, h.mem k]
  | remove d =>
    obtain ⟨k, rfl⟩ := hk d rfl
    rw [X.remove s k] at h1
    obtain ⟨rfl, -⟩ := Prod.mk.inj (Option.some.inj h1)
    refine ⟨_, rfl, (E.remove s k hv).trans ⟨?_, ?_⟩⟩
    · rintro ⟨k', h5, h6⟩
      exact ⟨_, h5, (h.mem k').2 h6⟩
    · rintro ⟨d, h5, h6⟩
      obtain ⟨k', rfl⟩ := E.siblings k d h5
      exact ⟨k', h5, (h.mem k').1 h6⟩
  | contains d =>
    have := h4
    simp only [contentsOnly, List.zipWith_cons_cons, List.zipWith_nil_right, List.cons.injEq, and_true] at this
    exact this
  | len =>
    have := h4
    simp only [contentsOnly, List.zipWith_cons_cons, List.zipWith_nil_right, List.cons.injEq, and_true] at this
    exact this
  | isEmpty =>
    rw [X.isEmpty s] at h1
    obtain ⟨rfl, -⟩ := Prod.mk.inj (Option.some.inj h1)
    exact ⟨_, rfl, E.isEmpty s (· ∈ l) hv h.mem⟩
  | clear =>
    rw [X.clear s] at h1
    obtain ⟨rfl, -⟩ := Prod.mk.inj (Option.some.inj h1)
    rfl

theorem SetSim.runExact (X : SetSim m N key S) (L : SetLaws N) (E : Exact vs L key) (inj : ∀ k k', key k = key k' → k = k')
    (ops : List GenSetOp) (hk : ∀ op ∈ ops, ∀ d, op.key? = some d → ∃ k, key k = d) :
    ∃ outs, m.run ops = some outs ∧ AnswersAll vs ops outs [] := by
  have go : ∀ (ops : List GenSetOp) (s : N.S) (l : List DynKey), L.valid s → HoldsSet N key s l →
      (∀ op ∈ ops, ∀ d, op.key? = some d → ∃ k, key k = d) →
      ∃ outs, m.runFrom ops (S s) = some outs ∧ AnswersAll vs ops outs l := by
    intro ops
    induction ops with
    | nil => exact fun s l _ _ _ => ⟨[], rfl, rfl⟩
    | cons op ops ih =>
      intro s l hv h hk
      obtain ⟨o, s', h1, hv', h2, h3⟩ := X.stepExact L E inj hv h op (hk op List.mem_cons_self)
      obtain ⟨outs, g1, g2⟩ := ih s' _ hv' h2 fun o ho => hk o (List.mem_cons_of_mem _ ho)
      refine ⟨o :: outs, ?_, o, outs, rfl, h3, g2⟩
      simp only [SetMachine.runFrom, h1, Option.bind_some, g1, Option.map_some]
  obtain ⟨outs, h⟩ := go ops N.empty [] L.valid_empty
    ⟨List.nodup_nil, fun d hd => (nomatch hd), fun k => by simp [L.contains_empty]⟩ hk
  exact ⟨outs, by rw [SetMachine.run, X.init]; exact h.1, h.2⟩

end

/-! ## Renaming keys -/

/-- The call with renamed key. -/
def renameOp {D E V : Type} (f : D → E) : GenOp D V → GenOp E V
  | .insert k v => .insert (f k) v
  | .remove k => .remove (f k)
  | .get k => .get (f k)
  | .containsKey k => .containsKey (f k)
  | .set k v => .set (f k) v
  | .entryInsert k v => .entryInsert (f k) v
  | .entryRemove k => .entryRemove (f k)
  | .len => .len
  | .isEmpty => .isEmpty
  | .clear => .clear

section
variable {D E V : Type} [DecidableEq D] [DecidableEq E] {f : D → E}

theorem finGet_rename (inj : ∀ a b, f a = f b → a = b) (l : List (D × V)) (k : D) :
    FinMap.get (l.map fun p => (f p.1, p.2)) (f k) = FinMap.get l k := by
  induction l with
  | nil => rfl
  | cons p l ih =>
    obtain ⟨a, v⟩ := p
    simp only [FinMap.get, List.map_cons]
    by_cases e : a = k
    · rw [if_pos e, if_pos (congrArg f e)]
    · rw [if_neg e, if_neg (fun h => e (inj _ _ h))]
      exact ih

theorem finErase_rename (inj : ∀ a b, f a = f b → a = b) (l : List (D × V)) (k : D) :
    FinMap.erase (l.map fun p => (f p.1, p.2)) (f k) = (FinMap.erase l k).map fun p => (f p.1, p.2) := by
  simp only [FinMap.erase, List.filter_map]
  congr 1
  refine List.filter_congr fun p _ => ?_
  have : f p.1 = f k ↔ p.1 = k := ⟨inj _ _, congrArg f⟩
  simp [Function.comp, this]

theorem refGen_rename (inj : ∀ a b, f a = f b → a = b) (l : List (D × V)) (op : GenOp D V) :
    refGen (l.map fun p => (f p.1, p.2)) (renameOp f op) =
      ((refGen l op).1, (refGen l op).2.map fun p => (f p.1, p.2)) := by
  cases op <;> simp only [refGen, renameOp, finGet_rename inj, finErase_rename inj, FinMap.put, List.map_cons,
    List.length_map, List.map_nil, List.isEmpty_map]
  split <;> rfl

theorem refGenRun_rename (inj : ∀ a b, f a = f b → a = b) (ops : List (GenOp D V)) : ∀ l : List (D × V),
    refGenRun (ops.map (renameOp f)) (l.map fun p => (f p.1, p.2)) = refGenRun ops l := by
  induction ops with
  | nil => exact fun _ => rfl
  | cons op ops ih =>
    intro l
    simp only [List.map_cons, refGenRun, refGen_rename inj, ih]

end

/-- The value of a unit variant. -/
def unitVal (x : String) : DynKey := ⟨x, none⟩

theorem unitVal_inj (a b : String) (h : unitVal a = unitVal b) : a = b := congrArg DynKey.var h

theorem unitKey_unitVal (x : String) : unitKey (unitVal x) = some x := rfl

/-- Calls with unit variants. -/
theorem unitOps {V : Type} (names : List String) (ops : List (GenOp DynKey V))
    (hk : ∀ op ∈ ops, ∀ d, op.key? = some d → ∃ x ∈ names, d = unitVal x) :
    ∃ ops', ops.mapM unitOp = some ops' ∧ ops = ops'.map (renameOp unitVal) ∧
      ∀ op ∈ ops', ∀ x, op.key? = some x → x ∈ names := by
  induction ops with
  | nil => exact ⟨[], rfl, rfl, fun op h => nomatch h⟩
  | cons op ops ih =>
    obtain ⟨ops', h1, h2, h3⟩ := ih fun o ho => hk o (List.mem_cons_of_mem _ ho)
    have one : ∃ op', unitOp op = some op' ∧ op = renameOp unitVal op' ∧ ∀ x, op'.key? = some x → x ∈ names := by
      have hk := hk op List.mem_cons_self
      cases op with
      | insert d v => obtain ⟨x, hx, rfl⟩ := hk d rfl; exact ⟨.insert x v, rfl, rfl, fun y e => by cases e; exact hx⟩
      | remove d => obtain ⟨x, hx, rfl⟩ := hk d rfl; exact ⟨.remove x, rfl, rfl, fun y e => by cases e; exact hx⟩
      | get d => obtain ⟨x, hx, rfl⟩ := hk d rfl; exact ⟨.get x, rfl, rfl, fun y e => by cases e; exact hx⟩
      | containsKey d => obtain ⟨x, hx, rfl⟩ := hk d rfl; exact ⟨.containsKey x, rfl, rfl, fun y e => by cases e; exact hx⟩
      | set d v => obtain ⟨x, hx, rfl⟩ := hk d rfl; exact ⟨.set x v, rfl, rfl, fun y e => by cases e; exact hx⟩
      | entryInsert d v => obtain ⟨x, hx, rfl⟩ := hk d rfl; exact ⟨.entryInsert x v, rfl, rfl, fun y e => by cases e; exact hx⟩
      | entryRemove d => obtain ⟨x, hx, rfl⟩ := hk d rfl; exact ⟨.entryRemove x, rfl, rfl, fun y e => by cases e; exact hx⟩
      | len => exact ⟨.len, rfl, rfl, fun y e => nomatch e⟩
      | isEmpty => exact ⟨.isEmpty, rfl, rfl, fun y e => nomatch e⟩
      | clear => exact ⟨.clear, rfl, rfl, fun y e => nomatch e⟩
    obtain ⟨op', g1, g2, g3⟩ := one
    refine ⟨op' :: ops', ?_, ?_, ?_⟩
    · simp [List.mapM_cons, g1, h1]
    · rw [List.map_cons, ← g2, ← h2]
    · intro o ho
      rcases List.mem_cons.1 ho with rfl | ho
      · exact g3
      · exact h3 o ho

/-! ## The variants -/

/-- The variant as `any_variants.rs` treats it. -/
def SynVariant.toVariant (v : SynVariant) : Variant :=
  ⟨v.ident, match v.fields with
    | .unnamed [κ] => some κ
    | _ => none⟩

theorem shape_unit (f : SynFields) : f.shape = .unit ↔ f = .unit := by
  cases f <;> simp [SynFields.shape]

theorem allUnit_iff (vs : List SynVariant) : allUnit vs = true ↔ ∀ v ∈ vs, v.fields = .unit := by
  induction vs with
  | nil => simp [allUnit]
  | cons v vs ih =>
    obtain ⟨x, f⟩ := v
    cases f <;> simp [allUnit, SynFields.isUnit, ih]

theorem supported_cases {f : SynFields} (h : f.shape.supported) : f = .unit ∨ ∃ κ, f = .unnamed [κ] := by
  cases f with
  | unit => exact .inl rfl
  | unnamed elems =>
    obtain ⟨κ, rfl⟩ := List.length_eq_one_iff.1 h
    exact .inr ⟨κ, rfl⟩
  | named fields => exact nomatch h

theorem collectLoop_supported (vs : List SynVariant) : ∀ (i : Nat) (F : FieldSet) (errs : List Diag),
    (∀ v ∈ vs, v.fields.shape.supported) →
    collectLoop i vs F errs = some (collectGo i (vs.map (·.toVariant)) F, errs) := by
  induction vs with
  | nil => exact fun _ _ _ _ => rfl
  | cons v vs ih =>
    intro i F errs h
    have ih := fun i F errs => ih i F errs fun w hw => h w (List.mem_cons_of_mem _ hw)
    obtain ⟨x, f⟩ := v
    rcases supported_cases (h _ List.mem_cons_self) with e | ⟨κ, e⟩
    · simp only at e
      subst e
      simp only [collectLoop, List.map_cons, SynVariant.toVariant, collectGo, ih]
    · simp only at e
      subst e
      simp [collectLoop, List.map_cons, SynVariant.toVariant, collectGo, ih]

/-- The fields of the variants that are not skipped. -/
def kept : Nat → List SynVariant → List Gen.Field
  | _, [] => []
  | i, v :: vs =>
    match v.fields with
    | .unit => ⟨i, Gen.fieldName i, v.ident, none⟩ :: kept (i + 1) vs
    | .unnamed [κ] => ⟨i, Gen.fieldName i, v.ident, some κ⟩ :: kept (i + 1) vs
    | _ => kept (i + 1) vs

def fieldPat (f : Gen.Field) : Gen.Pat :=
  match f.kind with
  | none => .path f.var
  | some _ => .tuple f.var "v"

def fieldKind (f : Gen.Field) : Kind :=
  match f.kind with
  | none => .simple
  | some _ => .complex

theorem shape_unit' : SynFields.unit.shape = .unit := rfl
theorem shape_unnamed (l : List KeyTy) : (SynFields.unnamed l).shape = .unnamed l.length := rfl
theorem shape_named (l : List (String × KeyTy)) : (SynFields.named l).shape = .named l.length := rfl

/-- The loop agrees with the decision. -/
theorem collectLoop_fields (vs : List SynVariant) : ∀ (i : Nat) (F : FieldSet) (errs : List Diag),
    (collectLoop i vs F errs = none ∧ collectFields i (vs.map (·.fields.shape)) errs = none) ∨
    ∃ e, collectLoop i vs F errs = some (⟨F.fields ++ kept i vs, F.patterns ++ (kept i vs).map fieldPat⟩, e) ∧
      collectFields i (vs.map (·.fields.shape)) errs = some ((kept i vs).map fun f => (f.index, fieldKind f), e) := by
  induction vs with
  | nil => exact fun i F errs => .inr ⟨errs, by simp [collectLoop, kept], rfl⟩
  | cons v vs ih =>
    intro i F errs
    obtain ⟨x, f⟩ := v
    cases f with
    | unit =>
      rcases ih (i + 1) ⟨F.fields ++ [⟨i, Gen.fieldName i, x, none⟩], F.patterns ++ [.path x]⟩ errs with ⟨h1, h2⟩ | ⟨e, h1, h2⟩
      · exact .inl ⟨by simp only [collectLoop]; exact h1, by simp [collectFields, shape_unit', shape_unnamed, shape_named, h2]⟩
      · refine .inr ⟨e, ?_, by simp [collectFields, shape_unit', shape_unnamed, shape_named, h2, kept, fieldKind]⟩
        simp only [collectLoop]
        rw [h1]
        simp [kept, fieldPat]
    | named l =>
      rcases ih (i + 1) F (errs ++ [.namedFields]) with ⟨h1, h2⟩ | ⟨e, h1, h2⟩
      · exact .inl ⟨by simp only [collectLoop]; exact h1, by simp [collectFields, shape_unit', shape_unnamed, shape_named, h2]⟩
      · exact .inr ⟨e, by simp only [collectLoop]; rw [h1]; rfl, by simp [collectFields, shape_unit', shape_unnamed, shape_named, h2, kept]⟩
    | unnamed elems =>
      match elems with
      | [] => exact .inl ⟨rfl, rfl⟩
      | [κ] =>
        rcases ih (i + 1) ⟨F.fields ++ [⟨i, Gen.fieldName i, x, some κ⟩], F.patterns ++ [.tuple x "v"]⟩ errs
          with ⟨h1, h2⟩ | ⟨e, h1, h2⟩
        · refine .inl ⟨?_, by simp [collectFields, shape_unit', shape_unnamed, shape_named, h2]⟩
          simpa [collectLoop] using h1
        · refine .inr ⟨e, ?_, by simp [collectFields, shape_unit', shape_unnamed, shape_named, h2, kept, fieldKind]⟩
          simp only [collectLoop, List.length_cons, List.length_nil, Nat.zero_add, gt_iff_lt, Nat.lt_irrefl, if_false,
            List.head?_cons]
          rw [h1]
          simp [kept, fieldPat]
      | κ :: κ' :: l =>
        rcases ih (i + 1) F (errs ++ [.notASingleField]) with ⟨h1, h2⟩ | ⟨e, h1, h2⟩
        · refine .inl ⟨?_, by simp [collectFields, shape_unit', shape_unnamed, shape_named, h2]⟩
          simpa [collectLoop] using h1
        · refine .inr ⟨e, ?_, by simp [collectFields, shape_unit', shape_unnamed, shape_named, h2, kept]⟩
          simpa [collectLoop, kept] using h1

theorem kept_name (vs : List SynVariant) : ∀ i, ∀ f ∈ kept i vs, f.name = Gen.fieldName f.index := by
  induction vs with
  | nil => exact fun i f hf => nomatch hf
  | cons v vs ih =>
    intro i f hf
    unfold kept at hf
    split at hf
    · rcases List.mem_cons.1 hf with rfl | hf
      · rfl
      · exact ih _ f hf
    · rcases List.mem_cons.1 hf with rfl | hf
      · rfl
      · exact ih _ f hf
    · exact ih _ f hf

theorem kept_var (vs : List SynVariant) : ∀ i, ∀ x, x ∈ (kept i vs).map (·.var) ↔
    ∃ v ∈ vs, v.ident = x ∧ v.fields.shape.supported := by
  induction vs with
  | nil => intro i x; simp [kept]
  | cons v vs ih =>
    intro i x
    obtain ⟨y, f⟩ := v
    cases f with
    | unit => simp [kept, ih, shape_unit', shape_unnamed, shape_named, VariantFields.supported, eq_comm]
    | named l => simp [kept, ih, shape_unit', shape_unnamed, shape_named, VariantFields.supported]
    | unnamed elems =>
      match elems with
      | [] => simp [kept, ih, shape_unit', shape_unnamed, shape_named, VariantFields.supported]
      | [κ] => simp [kept, ih, shape_unit', shape_unnamed, shape_named, VariantFields.supported, eq_comm]
      | κ :: κ' :: l => simp [kept, ih, shape_unit', shape_unnamed, shape_named, VariantFields.supported]

theorem isValue_isKey {vs : List SynVariant} {d : DynKey} (h : IsValue vs d) : IsKey (vs.map (·.toVariant)) d := by
  obtain ⟨⟨x, f⟩, hv, h1, h2⟩ := h
  refine ⟨_, List.mem_map.2 ⟨_, hv, rfl⟩, h1, ?_⟩
  unfold SynVariant.toVariant
  simp only at h2 ⊢
  split at h2
  · rw [h2]; rfl
  · obtain ⟨k, h2⟩ := h2
    rw [h2]; rfl
  · exact h2.elim

theorem isValue_unit {vs : List SynVariant} (hu : ∀ v ∈ vs, v.fields = .unit) {d : DynKey} (h : IsValue vs d) :
    ∃ x ∈ vs.map (·.ident), d = unitVal x := by
  obtain ⟨v, hv, h1, h2⟩ := h
  rw [hu v hv] at h2
  refine ⟨v.ident, List.mem_map.2 ⟨v, hv, rfl⟩, ?_⟩
  obtain ⟨a, b⟩ := d
  simp only at h1 h2
  rw [h1, h2]
  rfl

theorem distinct_toVariant {vs : List SynVariant} (h : DistinctNames vs) : Gen.Distinct (vs.map (·.toVariant)) := by
  unfold Gen.Distinct
  rw [List.map_map]
  exact h

/-- In an enum of unit variants the answers are those of an ordinary set. -/
theorem exact_units {vs : List SynVariant} (hu : ∀ v ∈ vs, v.fields = .unit)
    {N : SetCore (Fin (vs.map (·.ident)).length)} (L : SetLaws N) (hon : Honest L)
    (inj : ∀ k k' : Fin (vs.map (·.ident)).length, unitVal (vs.map (·.ident))[k] = unitVal (vs.map (·.ident))[k'] → k = k') :
    Exact vs L (fun k : Fin (vs.map (·.ident)).length => unitVal (vs.map (·.ident))[k]) where
  insert s k hv := by
    rw [hon.insert s k hv]
    cases N.contains s k <;> simp [inverted, unitVal]
  remove s k hv := by
    rw [hon.remove s k hv]
    constructor
    · exact fun h => ⟨k, List.mem_singleton.2 rfl, h⟩
    · rintro ⟨k', h1, h2⟩
      rwa [← inj _ _ (List.mem_singleton.1 h1)]
  siblings k d hd := ⟨k, (List.mem_singleton.1 hd).symm⟩
  isEmpty s P hv hP := by
    rw [hon.isEmpty s hv]
    constructor
    · intro h v hv'
      obtain ⟨n, hn, e⟩ := List.getElem_of_mem hv'
      have := hP ⟨n, by rw [List.length_map]; exact hn⟩
      rw [h] at this
      simp only [Fin.getElem_fin, List.getElem_map, e] at this
      simp only [SynVariant.saysEmpty, hu v hv']
      exact fun hp => nomatch this.1 hp
    · intro h k
      obtain ⟨v, hv', e⟩ := List.mem_map.1 (List.getElem_mem (l := vs.map (·.ident)) k.2)
      have h := h v hv'
      simp only [SynVariant.saysEmpty, hu v hv', e] at h
      cases ec : N.contains s k with
      | false => rfl
      | true => exact (h ((hP k).2 ec)).elim

theorem inverted_dynKey : ∀ (ws : List Variant) (k : (Gen.fieldsOf ws).Key),
    inverted (Gen.dynKey ws k) = (Gen.fieldsOf ws).insertInverted k
  | ⟨_, none⟩ :: _, .inl _ => rfl
  | ⟨_, none⟩ :: ws, .inr k => inverted_dynKey ws k
  | ⟨_, some _⟩ :: _, .inl _ => rfl
  | ⟨_, some _⟩ :: ws, .inr k => inverted_dynKey ws k

theorem map_map' {A B C : Type} (f : A → B) (g : B → C) (h : A → C) (e : ∀ a, g (f a) = h a) (l : List A) :
    l.map h = (l.map f).map g := by
  rw [List.map_map]
  exact List.map_congr_left fun a _ => (e a).symm

theorem siblings_dynKey : ∀ (ws : List Variant) (k : (Gen.fieldsOf ws).Key),
    siblings (Gen.dynKey ws k) = ((Gen.fieldsOf ws).siblings k).map (Gen.dynKey ws)
  | ⟨_, none⟩ :: _, .inl _ => rfl
  | ⟨x, none⟩ :: ws, .inr k => (siblings_dynKey ws k).trans
    (map_map' Sum.inr (Gen.dynKey (⟨x, none⟩ :: ws)) _ (fun _ => rfl) _)
  | ⟨x, some κ⟩ :: ws, .inl k => map_map' Sum.inl (Gen.dynKey (⟨x, some κ⟩ :: ws)) _ (fun _ => rfl) (κ.siblings k)
  | ⟨x, some κ⟩ :: ws, .inr k => (siblings_dynKey ws k).trans
    (map_map' Sum.inr (Gen.dynKey (⟨x, some κ⟩ :: ws)) _ (fun _ => rfl) _)

theorem saysEmpty_dynKey (P : DynKey → Prop) : ∀ vs : List SynVariant, (∀ v ∈ vs, v.fields.shape.supported) →
    ((Gen.fieldsOf (vs.map SynVariant.toVariant)).saysEmpty (fun k => P (Gen.dynKey (vs.map SynVariant.toVariant) k)) ↔
      ∀ v ∈ vs, v.saysEmpty P)
  | [], _ => ⟨fun _ _ h => (nomatch h), fun _ => trivial⟩
  | ⟨x, f⟩ :: vs, hs => by
    have ih := saysEmpty_dynKey P vs fun w hw => hs w (List.mem_cons_of_mem _ hw)
    rw [List.forall_mem_cons, ← ih]
    rcases supported_cases (hs _ List.mem_cons_self) with e | ⟨κ, e⟩ <;>
    · simp only at e
      subst e
      exact Iff.rfl

theorem mem_siblings_dynKey (ws : List Variant) (k : (Gen.fieldsOf ws).Key) (d : DynKey) :
    d ∈ siblings (Gen.dynKey ws k) ↔ ∃ k' ∈ (Gen.fieldsOf ws).siblings k, Gen.dynKey ws k' = d := by
  rw [siblings_dynKey, List.mem_map]

theorem exact_any (H : Hashbrown) {vs : List SynVariant} (hs : ∀ v ∈ vs, v.fields.shape.supported) (hd : DistinctNames vs) :
    Exact vs (setLaws H (.enum (Gen.fieldsOf (vs.map SynVariant.toVariant)))) (Gen.dynKey (vs.map SynVariant.toVariant)) where
  insert s k hv := by
    refine (Bool.eq_iff_iff.1 (set_insert_ret H _ s k)).trans ?_
    rw [beq_iff_eq, Bool.eq_iff_iff]
    exact iff_congr Iff.rfl (Bool.eq_iff_iff.1 (inverted_dynKey _ k)).symm
  remove s k hv := by
    refine (Bool.eq_iff_iff.1 (set_remove_ret H _ s hv k)).trans (List.any_eq_true.trans ⟨?_, ?_⟩)
    · rintro ⟨k', h1, h2⟩
      exact ⟨k', (mem_siblings_dynKey _ k _).2 ⟨k', h1, rfl⟩, h2⟩
    · rintro ⟨k', h1, h2⟩
      obtain ⟨k'', h3, h4⟩ := (mem_siblings_dynKey _ k _).1 h1
      have := Gen.dynKey_inj _ (distinct_toVariant hd) k'' k' h4
      subst this
      exact ⟨k'', h3, h2⟩
  siblings k d hd := by
    obtain ⟨k', -, e⟩ := (mem_siblings_dynKey _ k d).1 hd
    exact ⟨k', e⟩
  isEmpty s P hv hP := by
    refine (set_isEmpty_iff H _ s hv).trans (Iff.trans ?_ (saysEmpty_dynKey P vs hs))
    have : (fun k => P (Gen.dynKey (vs.map SynVariant.toVariant) k)) = _ := funext fun k => propext (hP k)
    rw [this]
    exact Iff.rfl

/-- Code for a bitset is emitted exactly when the decision is for a bitset. -/
theorem genBitset_width (names : List String) : (GenUnits.genBitset names).map (·.width) = determineBits names.length := by
  unfold GenUnits.genBitset
  cases hd : determineBits names.length with
  | none => rfl
  | some w =>
    have : ¬128 < names.length := fun h => by rw [(determineBits_none _).mpr h] at hd; cases hd
    rw [GenUnits.numbers_eq names (by omega)]
    rfl

theorem genBitset_none {names : List String} (h : GenUnits.genBitset names = none) : 128 < names.length := by
  rw [← determineBits_none, ← genBitset_width, h]
  rfl

/-- What is emitted for supported variants. -/
theorem expand_supported (attrs : List KeyAttr) (vs : List SynVariant) (hs : ∀ v ∈ vs, v.fields.shape.supported)
    (hl : ¬tooLarge attrs (vs.map (·.fields.shape))) :
    ∃ i, expand ⟨attrs, .enum vs⟩ = .items i ∧
      (((∀ v ∈ vs, v.fields = .unit) ∧
          i = .units (GenUnits.genMap (vs.map (·.ident))) (GenUnits.genSet (vs.map (·.ident)))) ∨
        ((∀ v ∈ vs, v.fields = .unit) ∧ ∃ set, GenUnits.genBitset (vs.map (·.ident)) = some set ∧
          i = .bits (GenUnits.genMap (vs.map (·.ident))) set) ∨
        i = anyItems (collect (vs.map (·.toVariant)))) := by
  unfold expand
  simp only
  by_cases hu : allUnit vs = true
  · have hu' := (allUnit_iff vs).1 hu
    rw [if_pos hu]
    unfold expandUnits
    simp only
    by_cases hb : (parseAttrs attrs ⟨false, []⟩).bitset = true
    · rw [if_pos hb]
      cases hg : GenUnits.genBitset (vs.map (·.ident)) with
      | some set => exact ⟨_, rfl, .inr (.inl ⟨hu', set, rfl, rfl⟩)⟩
      | none =>
        exfalso
        apply hl
        refine ⟨((parseAttrs_bitset attrs _).1 hb).resolve_left (by simp), ?_, ?_⟩
        · intro v hv
          obtain ⟨w, hw, rfl⟩ := List.mem_map.1 hv
          exact (shape_unit _).2 (hu' w hw)
        · simpa using genBitset_none hg
    · rw [if_neg hb]
      exact ⟨_, rfl, .inl ⟨hu', rfl⟩⟩
  · rw [if_neg hu, collectLoop_supported vs 0 _ _ hs]
    exact ⟨_, rfl, .inr (.inr rfl)⟩

/-! ## Patterns -/

theorem zip_fst_map {α β γ : Type} (p : α → γ) (l : List α) (l' : List β) (h : l.length = l'.length) :
    (l.zip l').map (fun q => p q.1) = l.map p := by
  have := List.map_fst_zip (l₁ := l) (l₂ := l') (by omega)
  calc (l.zip l').map (fun q => p q.1) = ((l.zip l').map Prod.fst).map p := by rw [List.map_map]; rfl
    _ = l.map p := by rw [this]

theorem fieldPat_variant (f : Gen.Field) : (fieldPat f).variant = f.var := by
  unfold fieldPat
  split <;> rfl

theorem any_matches (l : List Gen.Field) : ∀ vars ∈ (anyItems ⟨l, l.map fieldPat⟩).matches, vars = l.map (·.var) := by
  have z : ∀ {β : Type} (g : Gen.Field → β),
      ((l.map fieldPat).zip (l.map g)).map (fun q => q.1.variant) = l.map (·.var) := by
    intro β g
    rw [zip_fst_map (fun p : Gen.Pat => p.variant) _ _ (by simp), List.map_map]
    exact List.map_congr_left fun f _ => fieldPat_variant f
  intro vars h
  simp only [anyItems, Items.matches, List.map_cons, List.map_nil, List.mem_cons, List.not_mem_nil, or_false] at h
  rcases h with rfl | rfl | rfl | rfl | rfl | rfl | rfl | rfl | rfl
  · simp only [Gen.genEntry, List.map_map]
    refine List.map_congr_left fun f _ => ?_
    simp only [Function.comp]
    split <;> rfl
  all_goals exact z _

theorem anyItems_insert (F : FieldSet) : (Gen.genMap F).insert.arms.map (fun q => q.1.variant) ∈ (anyItems F).matches := by
  simp [anyItems, Items.matches]

theorem names_length (names : List String) : (GenUnits.names names).length = names.length := by simp [GenUnits.names]

theorem units_matches (names : List String) :
    ∀ vars ∈ (Items.units (GenUnits.genMap names) (GenUnits.genSet names)).matches, vars = names := by
  intro vars h
  have z : ∀ {β : Type} (g : String → β), (names.zip ((GenUnits.names names).map g)).map Prod.fst = names :=
    fun g => List.map_fst_zip (by simp [names_length])
  simp only [Items.matches, List.map_cons, List.map_nil, List.mem_cons, List.not_mem_nil, or_false] at h
  rcases h with rfl | rfl | rfl | rfl | rfl | rfl | rfl | rfl | rfl <;> exact z _

theorem bits_matches (names : List String) (set : GenUnits.BitsetCode) (hset : GenUnits.genBitset names = some set) :
    ∀ vars ∈ (Items.bits (GenUnits.genMap names) set).matches, vars = names := by
  intro vars h
  have z : ∀ {β : Type} (g : String → β), (names.zip ((GenUnits.names names).map g)).map Prod.fst = names :=
    fun g => List.map_fst_zip (by simp [names_length])
  simp only [Items.matches, List.map_cons, List.map_nil, List.mem_cons, List.not_mem_nil, or_false] at h
  rcases h with rfl | rfl | rfl | rfl | rfl | rfl | rfl
  · have hw := genBitset_width names
    have hl : ¬128 < names.length := fun hl => by
      rw [(determineBits_none _).2 hl, hset] at hw
      cases hw
    unfold GenUnits.genBitset at hset
    rw [GenUnits.numbers_eq names (by omega)] at hset
    cases hd : determineBits names.length with
    | none => rw [hd] at hset; cases hset
    | some w =>
      rw [hd] at hset
      cases hset
      exact List.map_fst_zip (by simp)
  all_goals exact z _

theorem collect_kept (vs : List SynVariant) (hs : ∀ v ∈ vs, v.fields.shape.supported) :
    collect (vs.map (·.toVariant)) = ⟨kept 0 vs, (kept 0 vs).map fieldPat⟩ := by
  have h := collectLoop_supported vs 0 ⟨[], []⟩ [] hs
  rcases collectLoop_fields vs 0 ⟨[], []⟩ [] with ⟨h1, h2⟩ | ⟨e, h1, h2⟩
  · rw [h1] at h; cases h
  · rw [h1] at h
    simp only [Option.some.injEq, Prod.mk.injEq] at h
    exact h.1.symm

theorem distinct_eq {vs : List SynVariant} (hd : DistinctNames vs) {v w : SynVariant} (hv : v ∈ vs) (hw : w ∈ vs)
    (e : v.ident = w.ident) : v = w := by
  induction vs with
  | nil => exact nomatch hv
  | cons u vs ih =>
    rw [DistinctNames, List.map_cons, List.nodup_cons] at hd
    rcases List.mem_cons.1 hv with ev | hv' <;> rcases List.mem_cons.1 hw with ew | hw'
    · rw [ev, ew]
    · exact absurd (List.mem_map.2 ⟨w, hw', by rw [← e, ev]⟩) hd.1
    · exact absurd (List.mem_map.2 ⟨v, hv', by rw [e, ew]⟩) hd.1
    · exact ih hd.2 hv' hw'

theorem payloads_noBool (vs : List SynVariant) (hs : ∀ v ∈ vs, v.fields.shape.supported)
    (hp : AllPayloads (fun κ => κ.noBool = true) vs) : (Gen.fieldsOf (vs.map (·.toVariant))).noBool = true := by
  induction vs with
  | nil => rfl
  | cons v vs ih =>
    have ih := ih (fun w hw => hs w (List.mem_cons_of_mem _ hw)) fun w hw => hp w (List.mem_cons_of_mem _ hw)
    obtain ⟨x, f⟩ := v
    rcases supported_cases (hs _ List.mem_cons_self) with e | ⟨κ, e⟩
    · simp only at e
      subst e
      exact ih
    · simp only at e
      subst e
      have := hp _ List.mem_cons_self [κ] rfl κ List.mem_cons_self
      simp only [List.map_cons, SynVariant.toVariant, Gen.fieldsOf, Fields.noBool, this, Bool.true_and]
      exact ih

theorem payloads_noOpt (vs : List SynVariant) (hs : ∀ v ∈ vs, v.fields.shape.supported)
    (hp : AllPayloads (fun κ => κ.noOpt = true) vs) : (Gen.fieldsOf (vs.map (·.toVariant))).noOpt = true := by
  induction vs with
  | nil => rfl
  | cons v vs ih =>
    have ih := ih (fun w hw => hs w (List.mem_cons_of_mem _ hw)) fun w hw => hp w (List.mem_cons_of_mem _ hw)
    obtain ⟨x, f⟩ := v
    rcases supported_cases (hs _ List.mem_cons_self) with e | ⟨κ, e⟩
    · simp only at e
      subst e
      exact ih
    · simp only at e
      subst e
      have := hp _ List.mem_cons_self [κ] rfl κ List.mem_cons_self
      simp only [List.map_cons, SynVariant.toVariant, Gen.fieldsOf, Fields.noOpt, this, Bool.true_and]
      exact ih

end FixedMap.Derive
