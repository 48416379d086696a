import Verif.Spec.GenUnits
import Verif.Proofs.Gen
import Verif.Proofs.MapUnits
import Verif.Proofs.SetLeaf
import Verif.Proofs.Ord

/-! # Lemmas about the code emitted for unit enums -/

set_option autoImplicit false
set_option linter.unusedSimpArgs false

namespace FixedMap.GenUnits

open Gen (fieldName fieldName_inj fieldName_eq)

variable {V : Type}

/-! ## Names -/

theorem fieldName_ne (i : Nat) (x : String) (h : x.toList.head? ≠ some '_') : fieldName i ≠ x := by
  intro e
  apply h
  rw [← e]
  simp [fieldName]

theorem names_eq (vs : List String) : names vs = (List.finRange vs.length).map fun i => fieldName i.val := by
  rw [names, ← finRange_map_val, List.map_map]
  rfl

theorem names_nodup (vs : List String) : (names vs).Nodup := by
  rw [names_eq]
  refine List.pairwise_map.2 ((nodup_finRange _).imp fun h e => h (Fin.ext (fieldName_inj e)))

theorem names_length (vs : List String) : (names vs).length = vs.length := by simp [names]

/-- Sequences zipped position by position. -/
theorem zip_names (vs : List String) {α : Type} (f : String → α) :
    vs.zip ((names vs).map f) = (List.finRange vs.length).map fun i => (vs[i], f (fieldName i.val)) := by
  have h : vs = (List.finRange vs.length).map fun i => vs[i] := by
    apply List.ext_getElem <;> simp
  conv => lhs; arg 1; rw [h]
  rw [names_eq, List.map_map, List.zip_map']
  rfl

theorem names_zip (vs : List String) :
    (names vs).zip vs = (List.finRange vs.length).map fun i => (fieldName i.val, vs[i]) := by
  have h : vs = (List.finRange vs.length).map fun i => vs[i] := by
    apply List.ext_getElem <;> simp
  conv => lhs; arg 2; rw [h]
  rw [names_eq, List.zip_map']

theorem lookup_map {α β : Type} (f : α → String) (g : α → β) (inj : ∀ a b, f a = f b → a = b) :
    ∀ (l : List α) (a : α), a ∈ l → (l.map fun a => (f a, g a)).lookup (f a) = some (g a)
  | b :: l, a, h => by
    rw [List.map_cons, List.lookup_cons]
    by_cases e : f a = f b
    · rw [inj _ _ e]; simp
    · have : (f a == f b) = false := by simpa using e
      rw [this]
      exact lookup_map f g inj l a ((List.mem_cons.1 h).resolve_left fun c => e (by rw [c]))

theorem lookup_map_none {α β : Type} (f : α → String) (g : α → β) (x : String) :
    ∀ (l : List α), (∀ a ∈ l, f a ≠ x) → (l.map fun a => (f a, g a)).lookup x = none
  | [], _ => rfl
  | b :: l, h => by
    rw [List.map_cons, List.lookup_cons]
    have : (x == f b) = false := by simpa using fun e => h b List.mem_cons_self e.symm
    rw [this]
    exact lookup_map_none f g x l fun a ha => h a (List.mem_cons_of_mem _ ha)

/-- The variables bound by `let [_0, ..] = ..`. -/
def places (V : Type) (n : Nat) : Env V := (List.finRange n).map fun i => (fieldName i.val, .place i.val)

theorem bind_names (vs : List String) (D : Data V) (h : D.length = vs.length) :
    bindPlaces (names vs) D = some (places V vs.length) := by
  rw [bindPlaces, if_pos ⟨by rw [names_length, h], names_nodup vs⟩, names_eq, h, ← finRange_map_val, List.map_map,
    List.zip_map']
  rfl

/-- Later bindings do not hide the places. -/
def Binds (env : Env V) (n : Nat) : Prop := ∀ i : Fin n, env.lookup (fieldName i.val) = some (.place i.val)

theorem places_binds (n : Nat) (env : Env V) : Binds (places V n ++ env) n := by
  intro i
  rw [List.lookup_append, places, lookup_map (fun i : Fin n => fieldName i.val) _ (fun a b e => Fin.ext (fieldName_inj e)) _ i
    (List.mem_finRange i)]
  rfl

theorem places_binds' (n : Nat) : Binds (places V n) n := by
  have := places_binds (V := V) n []
  rwa [List.append_nil] at this

theorem places_lookup (n : Nat) (env : Env V) (x : String) (h : x.toList.head? ≠ some '_') :
    (places V n ++ env).lookup x = env.lookup x := by
  rw [List.lookup_append, places, lookup_map_none (fun i : Fin n => fieldName i.val) _ x _ fun a _ => fieldName_ne _ _ h]
  rfl

theorem arms_lookup (vs : List String) (hd : vs.Nodup) (f : String → Expr) (k : Fin vs.length) :
    (vs.zip ((names vs).map f)).lookup vs[k] = some (f (fieldName k.val)) := by
  rw [zip_names]
  exact lookup_map (fun i : Fin vs.length => vs[i]) _ (fun a b e => Fin.ext ((List.getElem_inj hd).1 e)) _ k (List.mem_finRange k)

/-! ## Data -/

section
variable {n : Nat} (s : Vector (Option V) n) (t : Vector Bool n)

@[simp] theorem slots_length : (slots s).length = n := by simp [slots]
@[simp] theorem flags_length : (flags V t).length = n := by simp [flags]

theorem slots_get (i : Fin n) : (slots s)[i.val]? = some (.slot s[i]) := by simp [slots]
theorem flags_get (i : Fin n) : (flags V t)[i.val]? = some (.flag t[i]) := by simp [flags]

theorem slots_set (i : Fin n) (o : Option V) : (slots s).set i.val (.slot o) = slots (s.set i o) := by
  simp [slots, Vector.toList_set, List.map_set]
theorem flags_set (i : Fin n) (b : Bool) : (flags V t).set i.val (.flag b) = flags V (t.set i b) := by
  simp [flags, Vector.toList_set, List.map_set]

theorem slots_same (i : Fin n) : (slots s).set i.val (.slot s[i]) = slots s := by
  rw [slots_set]; congr 1; ext j hj; simp [Vector.getElem_set]

theorem elemOf_slots {env : Env V} (h : Binds env n) (i : Fin n) :
    elemOf env (slots s) (fieldName i.val) = some (i.val, .slot s[i]) := by
  simp only [elemOf, h i, slots_get, Option.map_some]
theorem elemOf_flags {env : Env V} (h : Binds env n) (i : Fin n) :
    elemOf env (flags V t) (fieldName i.val) = some (i.val, .flag t[i]) := by
  simp only [elemOf, h i, flags_get, Option.map_some]

/-! ## Sums and conjunctions -/

theorem eval_len {env : Env V} (h : Binds env n) : ∀ (is : List (Fin n)) (e : Expr) (m : Nat),
    eval env e (slots s) = some (.ok (.nat m, slots s)) →
    eval env ((is.map fun i => fieldName i.val).foldl (fun e n => .add e (.usizeFrom (.call .isSome n []))) e) (slots s) =
      some (.ok (.nat ((is.map fun i => s[i]).foldl (fun acc o => acc + o.isSome.toNat) m), slots s))
  | [], _, _, he => he
  | i :: is, e, m, he => by
    refine eval_len h is _ _ ?_
    simp only [eval, he, elemOf_slots s h, evalArgs, Option.bind_some, callSlot, Option.map_some, Res.map, slots_same]

theorem eval_isEmpty {env : Env V} (h : Binds env n) : ∀ (is : List (Fin n)) (e : Expr) (m : Bool),
    eval env e (slots s) = some (.ok (.bool m, slots s)) →
    eval env ((is.map fun i => fieldName i.val).foldl (fun e n => .and e (.call .isNone n [])) e) (slots s) =
      some (.ok (.bool ((is.map fun i => s[i]).foldl (fun acc o => acc && o.isNone) m), slots s))
  | [], _, _, he => he
  | i :: is, e, m, he => by
    refine eval_isEmpty h is _ _ ?_
    cases m <;>
    simp only [eval, he, elemOf_slots s h, evalArgs, Option.bind_some, callSlot, Option.map_some, Res.map, slots_same,
      Bool.false_and, Bool.true_and]

theorem eval_setLen {env : Env V} (h : Binds env n) : ∀ (is : List (Fin n)) (e : Expr) (m : Nat),
    eval env e (flags V t) = some (.ok (.nat m, flags V t)) →
    eval env ((is.map fun i => fieldName i.val).foldl (fun e n => .add e (.usizeFrom (.deref n))) e) (flags V t) =
      some (.ok (.nat ((is.map fun i => t[i]).foldl (fun acc b => acc + b.toNat) m), flags V t))
  | [], _, _, he => he
  | i :: is, e, m, he => by
    refine eval_setLen h is _ _ ?_
    simp only [eval, he, elemOf_flags t h]

theorem eval_setIsEmpty {env : Env V} (h : Binds env n) : ∀ (is : List (Fin n)) (e : Expr) (m : Bool),
    eval env e (flags V t) = some (.ok (.bool m, flags V t)) →
    eval env ((is.map fun i => fieldName i.val).foldl (fun e n => .and e (.not (.deref n))) e) (flags V t) =
      some (.ok (.bool ((is.map fun i => t[i]).foldl (fun acc b => acc && !b) m), flags V t))
  | [], _, _, he => he
  | i :: is, e, m, he => by
    refine eval_setIsEmpty h is _ _ ?_
    cases m <;> simp only [eval, he, elemOf_flags t h, Bool.false_and, Bool.true_and]

end

/-! ## `match` -/

/-- A method that matches on its first parameter evaluates the arm of the variant. -/
theorem run_match (vs : List String) (hd : vs.Nodup) (f : String → Expr) (D : Data V) (hl : D.length = vs.length)
    (x : String) (hx : x.toList.head? ≠ some '_') (params : List String) (args : List (Val V)) (k : Fin vs.length)
    (hp : params.length = args.length) :
    MatchFn.run ⟨x :: params, names vs, x, vs.zip ((names vs).map f)⟩ (.key vs[k] :: args) D =
      eval (places V vs.length ++ (x :: params).zip (.key vs[k] :: args)) (f (fieldName k.val)) D := by
  simp only [MatchFn.run, List.length_cons, hp, if_true, bind_names vs D hl, Option.bind_some]
  rw [places_lookup _ _ _ hx, List.zip_cons_cons, List.lookup_cons_self]
  simp only [arms_lookup vs hd f k, Option.bind_some]

/-! ## `retain` -/

theorem runRetain_eq (vs : List String) {σ : Type} (func : σ → String → V → σ × V × Option Bool) {env : Env V}
    (h : Binds env vs.length) : ∀ (is : List (Fin vs.length)) (s : Vector (Option V) vs.length) (st : σ),
    runRetain func env (is.map fun i => (fieldName i.val, vs[i])) (slots s) st =
      some ((unitsRetain (fun st i v => func st vs[i] v) is s st).mapS slots)
  | [], _, _ => rfl
  | i :: is, s, st => by
    simp only [List.map_cons, runRetain, elemOf_slots s h, unitsRetain]
    have hr : retainSlot func vs[i] s[i] st = retainSlot (fun st i v => func st vs[i] v) i s[i] st := rfl
    rw [hr]
    generalize retainSlot (fun st i v => func st vs[i] v) i s[i] st = r
    rw [slots_set]
    cases hp : r.panicked with
    | true => rfl
    | false =>
      simp only [Bool.false_eq_true, if_false]
      rw [runRetain_eq vs func h is]
      rfl

theorem runSetRetain_eq (vs : List String) {σ : Type} (func : σ → String → σ × Option Bool) {env : Env V}
    (h : Binds env vs.length) : ∀ (is : List (Fin vs.length)) (s : Vector Bool vs.length) (st : σ),
    runSetRetain func env (is.map fun i => (fieldName i.val, vs[i])) (flags V s) st =
      some ((unitsSetRetain (fun st i => func st vs[i]) is s st).mapS (flags V))
  | [], _, _ => rfl
  | i :: is, s, st => by
    simp only [List.map_cons, runSetRetain, elemOf_flags s h, unitsSetRetain]
    have hr : retainFlag func vs[i] s[i] st = retainFlag (fun st i => func st vs[i]) i s[i] st := rfl
    rw [hr]
    generalize retainFlag (fun st i => func st vs[i]) i s[i] st = r
    rw [flags_set]
    cases hp : r.panicked with
    | true => rfl
    | false =>
      simp only [Bool.false_eq_true, if_false]
      exact runSetRetain_eq vs func h is _ _

/-! ## Iterators -/

section Flat
variable {α β α' β' : Type} {f : β → Option α} {g : β' → Option α'} {r : β → β'} {o : α → α'}

/-- `flat_map` over renamed items. -/
def FlatSt.ren (r : β → β') (o : α → α') (s : FlatSt β α) : FlatSt β' α' :=
  ⟨s.front.map (Option.map o), s.iter.map r, s.back.map (Option.map o)⟩

theorem andThenOrClear_ren (x : Option (Option α)) :
    andThenOrClear optNext (x.map (Option.map o)) =
      ((andThenOrClear optNext x).1.map o, (andThenOrClear optNext x).2.map (Option.map o)) := by
  rcases x with _ | _ | a <;> rfl

theorem flatNext_ren : ∀ (l : List β) (front back : Option (Option α)), (∀ b ∈ l, g (r b) = (f b).map o) →
    flatNext g (front.map (Option.map o)) (back.map (Option.map o)) (l.map r) =
      ((flatNext f front back l).1.map o, FlatSt.ren r o (flatNext f front back l).2) ∧
    ∀ b ∈ (flatNext f front back l).2.iter, b ∈ l
  | [], front, back, _ => by
    rcases front with _ | _ | a <;> rcases back with _ | _ | b <;>
      exact ⟨rfl, fun _ h => h⟩
  | b :: l, front, back, h => by
    have ih := flatNext_ren l (some (f b)) back fun c hc => h c (List.mem_cons_of_mem _ hc)
    have hb := h b List.mem_cons_self
    rw [Option.map_some, ← hb] at ih
    rcases front with _ | _ | a
    · exact ⟨ih.1, fun c hc => List.mem_cons_of_mem _ (ih.2 c hc)⟩
    · exact ⟨ih.1, fun c hc => List.mem_cons_of_mem _ (ih.2 c hc)⟩
    · exact ⟨rfl, fun _ h => h⟩

theorem flatNextBack_ren : ∀ (l : List β) (front back : Option (Option α)), (∀ b ∈ l, g (r b) = (f b).map o) →
    flatNextBack g (front.map (Option.map o)) (back.map (Option.map o)) (l.map r) =
      ((flatNextBack f front back l).1.map o, FlatSt.ren r o (flatNextBack f front back l).2) ∧
    ∀ b ∈ (flatNextBack f front back l).2.iter, b ∈ l
  | [], front, back, _ => by
    rcases front with _ | _ | a <;> rcases back with _ | _ | b <;>
      exact ⟨rfl, fun _ h => h⟩
  | b :: l, front, back, h => by
    have ih := flatNextBack_ren l front (some (f b)) fun c hc => h c (List.mem_cons_of_mem _ hc)
    have hb := h b List.mem_cons_self
    rw [Option.map_some, ← hb] at ih
    rcases back with _ | _ | a
    · exact ⟨ih.1, fun c hc => List.mem_cons_of_mem _ (ih.2 c hc)⟩
    · exact ⟨ih.1, fun c hc => List.mem_cons_of_mem _ (ih.2 c hc)⟩
    · refine ⟨?_, fun c hc => by simpa [flatNextBack, andThenOrClear, optNext, or_comm] using hc⟩
      simp [flatNextBack, andThenOrClear, optNext, FlatSt.ren]

theorem hint_ren (s : FlatSt β α) : (flatIter g).sizeHint (FlatSt.ren r o s) = (flatIter f).sizeHint s := by
  have h : ∀ x : Option (Option α), innerLen (x.map (Option.map o)) = innerLen x := by rintro (_ | _ | a) <;> rfl
  simp only [flatIter, FlatSt.ren, h, List.isEmpty_map]

theorem flat_agree : ∀ (ds : List Dir) (s : FlatSt β α), (∀ b ∈ s.iter, g (r b) = (f b).map o) →
    ((flatIter g).run ds (FlatSt.ren r o s)).map (fun r => (r.1, (flatIter g).sizeHint r.2)) =
      ((flatIter f).run ds s).map fun r => (r.1.map (Option.map o), (flatIter f).sizeHint r.2)
  | [], s, _ => by
    simp only [IterImpl.run, Option.map_some]
    rw [hint_ren]; rfl
  | .front :: ds, s, h => by
    have hn := flatNext_ren (g := g) (r := r) (o := o) s.iter s.front s.back h
    have ih := flat_agree ds (flatNext f s.front s.back s.iter).2 fun b hb => h b (hn.2 b hb)
    have e : (flatIter g).step .front (FlatSt.ren r o s) =
        some ((flatNext f s.front s.back s.iter).1.map o, FlatSt.ren r o (flatNext f s.front s.back s.iter).2) :=
      congrArg some hn.1
    have e' : (flatIter f).step .front s = some (flatNext f s.front s.back s.iter) := rfl
    simp only [IterImpl.run, e, e', Option.map_map]
    have := congrArg (Option.map fun p : List (Option α') × Nat × Option Nat =>
      ((flatNext f s.front s.back s.iter).1.map o :: p.1, p.2)) ih
    simp only [Option.map_map] at this
    exact this
  | .back :: ds, s, h => by
    have hn := flatNextBack_ren (g := g) (r := r) (o := o) s.iter.reverse s.front s.back
      fun b hb => h b (List.mem_reverse.1 hb)
    have ih := flat_agree ds (flatNextBack f s.front s.back s.iter.reverse).2
      fun b hb => h b (List.mem_reverse.1 (hn.2 b hb))
    have e : (flatIter g).step .back (FlatSt.ren r o s) = some ((flatNextBack f s.front s.back s.iter.reverse).1.map o,
        FlatSt.ren r o (flatNextBack f s.front s.back s.iter.reverse).2) := by
      refine congrArg some (Eq.trans ?_ hn.1)
      simp only [FlatSt.ren, List.map_reverse]
      rfl
    have e' : (flatIter f).step .back s = some (flatNextBack f s.front s.back s.iter.reverse) := rfl
    simp only [IterImpl.run, e, e', Option.map_map]
    have := congrArg (Option.map fun p : List (Option α') × Nat × Option Nat =>
      ((flatNextBack f s.front s.back s.iter.reverse).1.map o :: p.1, p.2)) ih
    simp only [Option.map_map] at this
    exact this

theorem agree_of_items (l : List β) (h : ∀ b ∈ l, g (r b) = (f b).map o) :
    Agree (flatIter g) (⟨none, l.map r, none⟩ : FlatSt _ _) (flatIter f) (⟨none, l, none⟩ : FlatSt _ _) o :=
  fun ds => flat_agree ds ⟨none, l, none⟩ h

theorem agree_items (l : List β) (r : β → β') {m : List β'} (hm : m = l.map r) (h : ∀ b ∈ l, g (r b) = (f b).map o) :
    Agree (flatIter g) (⟨none, m, none⟩ : FlatSt _ _) (flatIter f) (⟨none, l, none⟩ : FlatSt _ _) o :=
  hm ▸ agree_of_items l h

end Flat

theorem pairItems_eq (vs : List String) {env : Env V} (h : Binds env vs.length) (s : Vector (Option V) vs.length) :
    ∀ is : List (Fin vs.length), pairItems env (slots s) (is.map fun i => (vs[i], fieldName i.val)) =
      some (is.map fun i => (vs[i], i.val))
  | [] => rfl
  | i :: is => by simp only [List.map_cons, pairItems, elemOf_slots s h, pairItems_eq vs h s is, Option.map_some]

theorem condItems_slots (vs : List String) {env : Env V} (h : Binds env vs.length) (s : Vector (Option V) vs.length) :
    ∀ is : List (Fin vs.length), condItems env (slots s) (is.map fun i => (fieldName i.val, vs[i])) =
      some (is.map fun i => if s[i].isSome then some (.key vs[i]) else none)
  | [] => rfl
  | i :: is => by simp only [List.map_cons, condItems, elemOf_slots s h, condItems_slots vs h s is, Option.map_some]

theorem condItems_flags (vs : List String) {env : Env V} (h : Binds env vs.length) (s : Vector Bool vs.length) :
    ∀ is : List (Fin vs.length), condItems env (flags V s) (is.map fun i => (fieldName i.val, vs[i])) =
      some (is.map fun i => if s[i] then some (.key vs[i]) else none)
  | [] => rfl
  | i :: is => by simp only [List.map_cons, condItems, elemOf_flags s h, condItems_flags vs h s is, Option.map_some]

theorem refItems_eq (f : Nat → V → Out V) : ∀ (l : List (Option V)) (i : Nat),
    refItems f i (l.map .slot) = some ((l.zipIdx i).map fun p => p.1.map (f p.2))
  | [], _ => rfl
  | o :: l, i => by simp only [List.map_cons, refItems, refItems_eq f l (i + 1), Option.map_some, List.zipIdx_cons]

/-! ## Bitsets -/

theorem bits_le {n w : Nat} (h : determineBits n = some w) : n ≤ w ∧ w ≤ 128 := by
  unfold determineBits at h
  split at h
  · cases h; omega
  split at h
  · cases h; omega
  split at h
  · cases h; omega
  split at h
  · cases h; omega
  split at h
  · cases h; omega
  · cases h

theorem numbers_eq (vs : List String) (h : vs.length ≤ 128) :
    numbers vs = some ((List.finRange vs.length).map fun i => 1 <<< i.val) := by
  unfold numbers
  rw [← finRange_map_val]
  have : ∀ is : List (Fin vs.length), (is.map Fin.val).mapM number = some (is.map fun i => 1 <<< i.val) := by
    intro is
    induction is with
    | nil => rfl
    | cons i is ih =>
      have hi : i.val < 128 := by omega
      simp [List.map_cons, List.mapM_cons, ih, number, hi]
  exact this _

theorem intLit_mask {n w : Nat} (h : n ≤ w) (i : Fin n) : intLit w (1 <<< i.val) = some (bitsetMask w i) := by
  have : 1 <<< i.val < 2 ^ w := by
    rw [Nat.one_shiftLeft]
    exact Nat.pow_lt_pow_right (by omega) (by omega)
  rw [intLit, if_pos this, bitsetMask]

theorem runBitsetRetain_eq (vs : List String) {w : Nat} (hw : vs.length ≤ w) {σ : Type} (f : σ → String → σ × Option Bool)
    (data : BitVec w) : ∀ (is : List (Fin vs.length)) (update : BitVec w) (st : σ),
    runBitsetRetain f data (is.map fun i => (1 <<< i.val, vs[i], 1 <<< i.val)) update st =
      some (bitsetRetain (fun st i => f st vs[i]) data is update st)
  | [], _, _ => rfl
  | i :: is, update, st => by
    simp only [List.map_cons, runBitsetRetain, bitsetRetain, intLit_mask hw]
    split
    · rcases hf : f st vs[i] with ⟨st', _ | _ | _⟩ <;> simp only [hf]
      · exact runBitsetRetain_eq vs hw f data is _ _
      · exact runBitsetRetain_eq vs hw f data is _ _
    · exact runBitsetRetain_eq vs hw f data is _ _

theorem bitsetItems_eq (vs : List String) {w : Nat} (hw : vs.length ≤ w) (data : BitVec w) :
    ∀ is : List (Fin vs.length), bitsetItems data (is.map fun i => (1 <<< i.val, vs[i])) =
      some (is.map fun i => if data &&& bitsetMask w i != 0 then some vs[i] else none)
  | [] => rfl
  | i :: is => by simp only [List.map_cons, bitsetItems, intLit_mask hw, Option.bind_some, bitsetItems_eq vs hw data is, Option.map_some]

end FixedMap.GenUnits
