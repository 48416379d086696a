import Verif.Properties.SetHistory
import Verif.Properties.MapOrd
import Verif.Proofs.SetExact

/-! # C65: the complete behaviour of a set, and what a panic in `retain` leaves (C38) -/

set_option autoImplicit false
set_option linter.unusedSimpArgs false

namespace FixedMap

variable (H : Hashbrown) (κ : KeyTy)

/-- C38 for every key type, exactly: which elements the set contains after a `retain` whose closure may panic. The closure is
called with the elements of `l`; the accepted ones are in, the others stay if they were in and were not rejected, or
were rejected in the bitset in which the closure then panicked. -/
theorem C38_retain_panic_exact {σ : Type} (f : σ → κ.Key → σ × Option Bool) (s : (setStorage H.api κ).S) (st : σ) :
    let M := setStorage H.api κ
    let r := FSet.retain M f s st
    ∃ l, Lists κ.mayPrecede l (fun x => FSet.contains M s x = true ∨ κ.phantom x = true) ∧
      r.st = (visit f l st).st ∧ r.panicked = (panicAt f l st).isSome ∧
      ∀ x, FSet.contains M r.s x = true ↔ retained κ.sameBatch f l st (fun y => FSet.contains M s y = true) x := by
  intro M r
  have hl := visitListing H κ s
  have h := (setLaws H κ).retain_ok f s st
  exact ⟨(setLaws H κ).visits s, ⟨hl.nodup, hl.sorted, hl.mem⟩, h.st_eq, h.pan.trans (panicAt_isSome f _ st).symm,
    contains_retain H κ f s st⟩

/-- Case: `Set<PlainKey>` with `A`, `Byte(5)`, `Part(X)`, `Part(Y)`, `Part(Z)`; the closure rejects everything and panics at
the fourth call. `A` and `Byte(5)` are gone, the rejected `Part(X)` is still there. -/
example :
    let s := FSet.fromIter Ex.P [Ex.pa, Ex.pbyte 5, Ex.ppart 0, Ex.ppart 1, Ex.ppart 2]
    let r := FSet.retain Ex.P (fun (n : Nat) _ => (n + 1, if n = 3 then none else some false)) s 0
    r.panicked = true ∧ r.st = 4 ∧ FSet.contains Ex.P r.s Ex.pa = false ∧ FSet.contains Ex.P r.s (Ex.pbyte 5) = false ∧
      FSet.contains Ex.P r.s (Ex.ppart 0) = true ∧ FSet.len Ex.P r.s = 3 ∧
      Ex.plain.sameBatch (Ex.ppart 1) (Ex.ppart 0) = true ∧ Ex.plain.sameBatch (Ex.ppart 1) Ex.pa = false :=
  ⟨rfl, rfl, rfl, rfl, rfl, rfl, rfl, rfl⟩

/-- One call. -/
theorem C65_call (s s' : (setStorage H.api κ).S) (hs : Reachable (setStorage H.api κ) s) (c : SetCall κ.Key) (out : c.Out)
    (h : FSet.Does (setStorage H.api κ) s c out s') :
    Reachable (setStorage H.api κ) s' ∧
      c.Ref κ (fun x => FSet.contains (setStorage H.api κ) s x = true) out
        (fun x => FSet.contains (setStorage H.api κ) s' x = true) := by
  have hl : Lists κ.mayPrecede ((setLaws H κ).elems s) (fun x => FSet.contains (setStorage H.api κ) s x = true) :=
    ⟨(setLaws H κ).nodup s, elems_sorted H κ s, (setLaws H κ).mem_elems s⟩
  cases c with
  | insert x =>
    obtain ⟨rfl, rfl⟩ := h
    refine ⟨.insert x hs, (setLaws H κ).contains_insert s x, ?_⟩
    have e : (FSet.insert (setStorage H.api κ) s x).1 = _ := set_insert_ret H κ s x
    refine (Bool.eq_iff_iff.mp e).trans ?_
    rw [beq_iff_eq, Bool.eq_iff_iff]
    exact Iff.rfl
  | remove x =>
    obtain ⟨rfl, rfl⟩ := h
    refine ⟨.remove x hs, (setLaws H κ).contains_remove s x, ?_⟩
    exact (Bool.eq_iff_iff.mp (C33_remove_exact H κ s hs x)).trans List.any_eq_true
  | contains x =>
    obtain ⟨rfl, rfl⟩ := h
    exact ⟨hs, fun _ => Iff.rfl, Iff.rfl⟩
  | len =>
    obtain ⟨rfl, rfl⟩ := h
    exact ⟨hs, fun _ => Iff.rfl, _, hl, (setLaws H κ).len_eq _ (hs.valid _)⟩
  | isEmpty =>
    obtain ⟨rfl, rfl⟩ := h
    exact ⟨hs, fun _ => Iff.rfl, C34_isEmpty_exact H κ _ hs⟩
  | clear =>
    cases h
    refine ⟨.clear hs, fun y hy => ?_⟩
    have e : FSet.contains (setStorage H.api κ) (FSet.clear (setStorage H.api κ) s) y = false := (setLaws H κ).contains_clear s y
    exact Bool.false_ne_true (e.symm.trans hy)
  | retain f st =>
    obtain ⟨rfl, rfl⟩ := h
    obtain ⟨l, h1, h2, h3, h4⟩ := C38_retain_panic_exact H κ f s st
    exact ⟨.retain f st hs, l, h1, Prod.ext h2 h3, h4⟩
  | iter =>
    obtain ⟨h, rfl⟩ := h
    have e := runsTo_unique h (Yields.runsTo ((setIters H κ).iter _ (hs.valid _)))
    subst e
    exact ⟨hs, fun _ => Iff.rfl, hl⟩
  | clone =>
    cases h
    exact ⟨.clone hs, fun y => Bool.eq_iff_iff.mp ((setLaws H κ).contains_clone s y)⟩

/-- C65: whatever calls are made of a set, of whatever key type, starting from any reachable set, their answers are those of
the reference, and the contents afterwards are the reference's. -/
theorem C65_calls (l : List (Sigma fun c : SetCall κ.Key => c.Out)) (s s' : (setStorage H.api κ).S)
    (hs : Reachable (setStorage H.api κ) s) (h : FSet.DoesAll (setStorage H.api κ) l s s') :
    SetCall.RefRun κ l (fun x => FSet.contains (setStorage H.api κ) s x = true)
      (fun x => FSet.contains (setStorage H.api κ) s' x = true) := by
  induction l generalizing s with
  | nil => cases h; exact fun _ => Iff.rfl
  | cons p l ih =>
    obtain ⟨c, out⟩ := p
    obtain ⟨t, h1, h2⟩ := h
    have := C65_call H κ s t hs c out h1
    exact ⟨_, this.2, ih t this.1 h2⟩

/-- C65 from `Set::new()`: the reference starts with no elements. -/
theorem C65_calls_new (l : List (Sigma fun c : SetCall κ.Key => c.Out)) (s' : (setStorage H.api κ).S)
    (h : FSet.DoesAll (setStorage H.api κ) l (FSet.new _) s') :
    SetCall.RefRun κ l (fun _ => False) (fun x => FSet.contains (setStorage H.api κ) s' x = true) := by
  have := C65_calls H κ l _ s' .new h
  have e : (fun x => FSet.contains (setStorage H.api κ) (FSet.new _) x = true) = fun _ => False := by
    funext x
    have : FSet.contains (setStorage H.api κ) (FSet.new _) x = false := (setLaws H κ).contains_empty x
    simp [this]
  rw [e] at this
  exact this

/-- C65, every sequence of calls can be made: none is stuck, and `iter()` ends. -/
theorem C65_total (cs : List (SetCall κ.Key)) (s : (setStorage H.api κ).S) (hs : Reachable (setStorage H.api κ) s) :
    ∃ l : List (Sigma fun c : SetCall κ.Key => c.Out), l.map Sigma.fst = cs ∧ ∃ s', FSet.DoesAll (setStorage H.api κ) l s s' := by
  induction cs generalizing s with
  | nil => exact ⟨[], rfl, s, rfl⟩
  | cons c cs ih =>
    have one : ∃ (out : c.Out) (t : (setStorage H.api κ).S), FSet.Does (setStorage H.api κ) s c out t := by
      cases c with
      | insert x => exact ⟨_, _, rfl, rfl⟩
      | remove x => exact ⟨_, _, rfl, rfl⟩
      | contains x => exact ⟨_, _, rfl, rfl⟩
      | len => exact ⟨_, _, rfl, rfl⟩
      | isEmpty => exact ⟨_, _, rfl, rfl⟩
      | clear => exact ⟨(), _, rfl⟩
      | retain f st => exact ⟨_, _, rfl, rfl⟩
      | iter => exact ⟨_, _, Yields.runsTo ((setIters H κ).iter s (hs.valid _)), rfl⟩
      | clone => exact ⟨(), _, rfl⟩
    obtain ⟨out, t, h⟩ := one
    obtain ⟨l, e, s', hl⟩ := ih t (C65_call H κ s t hs c out h).1
    exact ⟨⟨c, out⟩ :: l, by rw [List.map_cons, e], s', t, h, hl⟩

/-- C65, sets with equal contents cannot be told apart: for key types without hash tables, however the two sets were built, the
same calls get the same answers, and the contents stay equal. -/
theorem C65_indistinguishable (hf : κ.hashFree = true) (l l' : List (Sigma fun c : SetCall κ.Key => c.Out))
    (hc : l.map Sigma.fst = l'.map Sigma.fst) (s t s' t' : (setStorage H.api κ).S)
    (hs : Reachable (setStorage H.api κ) s) (ht : Reachable (setStorage H.api κ) t)
    (hst : ∀ x, FSet.contains (setStorage H.api κ) s x = FSet.contains (setStorage H.api κ) t x)
    (h : FSet.DoesAll (setStorage H.api κ) l s s') (h' : FSet.DoesAll (setStorage H.api κ) l' t t') :
    l = l' ∧ ∀ x, FSet.contains (setStorage H.api κ) s' x = FSet.contains (setStorage H.api κ) t' x := by
  induction l generalizing l' s t with
  | nil =>
    cases l' with
    | nil => cases h; cases h'; exact ⟨rfl, hst⟩
    | cons => cases hc
  | cons p l ih =>
    cases l' with
    | nil => cases hc
    | cons p' l' =>
      obtain ⟨c, o⟩ := p
      obtain ⟨c', o'⟩ := p'
      obtain ⟨u, h1, h2⟩ := h
      obtain ⟨u', h1', h2'⟩ := h'
      injection hc with e1 e2
      cases e1
      have a := C65_call H κ s u hs c o h1
      have a' := C65_call H κ t u' ht c o' h1'
      obtain ⟨e, hq⟩ := SetCall.ref_unique κ hf c (fun x => Bool.eq_iff_iff.mp (hst x)) a.2 a'.2
      obtain ⟨e', hfin⟩ := ih l' e2 u u' a.1 a'.1 (fun x => Bool.eq_iff_iff.mpr (hq x)) h2 h2'
      exact ⟨by rw [e, e'], hfin⟩

/-- Case for C65: `Set<Option<bool>>`, with all its deviations. The answers of: `insert(None)`, `is_empty()` (wrong),
`insert(None)`, `insert(Some(true))`, `remove(Some(false))` (wrong), `len()`, `iter()`. -/
example :
    let M := setStorage Ex.H.api (.opt .bool)
    ∃ s', FSet.DoesAll M [⟨.insert none, false⟩, ⟨.isEmpty, true⟩, ⟨.insert none, true⟩, ⟨.insert (some true), false⟩,
      ⟨.isEmpty, false⟩, ⟨.remove (some false), true⟩, ⟨.len, (2 : Nat)⟩, ⟨.iter, [some true, none]⟩] (FSet.new M) s' := by
  refine ⟨_, _, ⟨rfl, rfl⟩, _, ⟨rfl, rfl⟩, _, ⟨rfl, rfl⟩, _, ⟨rfl, rfl⟩, _, ⟨rfl, rfl⟩, _, ⟨rfl, rfl⟩, _, ⟨rfl, rfl⟩, _,
    ⟨⟨4, ?_⟩, rfl⟩, rfl⟩
  intro fuel hf
  obtain ⟨n, rfl⟩ : ∃ n, fuel = n + 4 := ⟨fuel - 4, by omega⟩
  rfl

/-- Case for C65: `retain` on `Set<()>` adds, a panic leaves a bitset as it was. -/
example :
    (∃ s', FSet.DoesAll (setStorage Ex.H.api .unit) [⟨.retain (fun (n : Nat) _ => (n + 1, some true)) 3, ((4 : Nat), false)⟩,
      ⟨.contains (), true⟩] (FSet.new _) s') ∧
    (∃ s', FSet.DoesAll (setStorage Ex.H.api (.bitset 3 8 rfl)) [⟨.insert (1 : Fin 3), true⟩, ⟨.insert (2 : Fin 3), true⟩,
      ⟨.retain (fun (n : Nat) _ => (n + 1, if n = 0 then some false else none)) 0, ((2 : Nat), true)⟩, ⟨.len, (2 : Nat)⟩]
      (FSet.new _) s') :=
  ⟨⟨_, _, ⟨rfl, rfl⟩, _, ⟨rfl, rfl⟩, rfl⟩, ⟨_, _, ⟨rfl, rfl⟩, _, ⟨rfl, rfl⟩, _, ⟨rfl, rfl⟩, _, ⟨rfl, rfl⟩, rfl⟩⟩

end FixedMap
