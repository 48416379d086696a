import Verif.Proofs.ImplsUnits

/-! # The impls are accepted: a check -/

set_option autoImplicit false
set_option linter.unusedSimpArgs false
set_option linter.unusedVariables false

namespace FixedMap.Impls

open FixedMap.Emit (Toks)

def provides (b : TraitRef) (self : Toks) (j : Impl) : Bool :=
  match j.target with
  | none => false
  | some (r, s) => decide (s = self) && decide (r.path = b.path) && decide (r.args = b.args.filter (fun x => !x.contains "=")) && b.args.all fun x => match breakAt "=" x with
    | some ([n], v) => decide ((n, v) ∈ j.assoc)
    | _ => true

theorem provides_of {L : List Impl} {b : TraitRef} {self : Toks} {j : Impl} (hj : j ∈ L) (h : provides b self j = true) : Provides L b self := by
  unfold provides at h
  split at h
  · cases h
  · rename_i r s ht
    simp only [Bool.and_eq_true, decide_eq_true_eq, List.all_eq_true] at h
    obtain ⟨⟨⟨rfl, hp⟩, ha⟩, hx⟩ := h
    refine ⟨j, hj, r, ht, hp, ha, fun x hxm n v hb => ?_⟩
    have := hx x hxm
    rw [hb] at this
    simpa using this

def coreProvides (b : TraitRef) (l : Toks) : Bool :=
  (decide (b.path = ["core", "iter", "Iterator"]) && match coreItem l with
    | some x => decide (b.args = ["Item" :: "=" :: x])
    | none => false) || (decide (b.path = ["core", "clone", "Clone"]) && decide ((traitRef l).path = ["core", "iter", "Flatten"]))

theorem coreProvides_of {b : TraitRef} {l : Toks} (h : coreProvides b l = true) : CoreProvides b l := by
  unfold coreProvides at h
  simp only [Bool.or_eq_true, Bool.and_eq_true, decide_eq_true_eq] at h
  refine h.imp (fun h => ⟨h.1, ?_⟩) id
  have h := h.2
  split at h
  · rename_i x hx
    exact ⟨x, of_decide_eq_true h, hx⟩
  · cases h

def condOk (self : Toks) (want : List Toks) (c : Toks) : Bool :=
  decide (c ∈ want) || match c with
    | [x, k, lt] => decide (x ∈ self) && decide (k = ":") && decide (["Self", ":", lt] ∈ want)
    | _ => false

def tyOk (L : List Impl) (i : Impl) (tr : Trait) (a : List Toks) (self item want : Toks) : Bool :=
  match tyOf item, tyOf want with
  | t, w => decide (t.params.length = w.params.length) && match (w.params.map fun p => p.headD "").zip t.params ++ paramsOf tr a with
    | σ => (t.wheres.all fun c => condOk self (w.wheres.map (subst σ)) c) &&
      (bounds w.value).all fun b => match traitRef (unself self i.assoc (subst σ (absolute tr.uses "" b))) with
        | b => L.any (provides b t.value) || coreProvides b t.value

theorem tyOk_of {L : List Impl} {i : Impl} {tr : Trait} {a : List Toks} {self item want : Toks} (h : tyOk L i tr a self item want = true) : TyOk L i tr a self item want := by
  unfold tyOk at h
  simp only [Bool.and_eq_true, decide_eq_true_eq, List.all_eq_true, Bool.or_eq_true, List.any_eq_true] at h
  refine ⟨h.1, fun c hc => ?_, fun b hb => ?_⟩
  · have := h.2.1 c hc
    unfold condOk at this
    rw [Bool.or_eq_true, decide_eq_true_eq] at this
    refine this.imp id fun h => ?_
    split at h
    · rename_i x k lt
      simp only [Bool.and_eq_true, decide_eq_true_eq] at h
      exact ⟨x, h.1.1, lt, by rw [h.1.2], h.2⟩
    · cases h
  · refine (h.2.2 b hb).imp (fun ⟨j, hj, h⟩ => provides_of hj h) coreProvides_of

def sigOk (i : Impl) (tr : Trait) (a : List Toks) (self item want : Toks) : Bool :=
  decide (trim (unself self i.assoc (absolute option "" (types "" item))) = unself self i.assoc (subst (paramsOf tr a) (absolute tr.uses "" (types "" want))))

theorem sigOk_of {i : Impl} {tr : Trait} {a : List Toks} {self item want : Toks} (h : sigOk i tr a self item want = true) : SigOk i tr a self item want := by
  unfold SigOk
  exact of_decide_eq_true h

def itemOk (L : List Impl) (i : Impl) (tr : Trait) (a : List Toks) (self item : Toks) : Bool :=
  match tr.items.find? fun w => nameOf w == nameOf item with
  | none => false
  | some want => decide (item.head? = want.head?) && if item.head? = some "fn" then sigOk i tr a self item want else if item.head? = some "type" then tyOk L i tr a self item want else false

def implOk (L : List Impl) (i : Impl) : Bool :=
  match i.target with
  | none => decide (i.items.map nameOf).Nodup && i.items.all fun t => decide (t.head? = some "fn")
  | some (r, self) => match traits.find? fun tr => tr.path == r.path with
    | none => false
    | some tr => decide (r.args.length ≤ tr.params.length) && ((tr.params.drop r.args.length).all fun x => x.2.isSome) && (i.items.map nameOf).isPerm (tr.items.map nameOf) &&
        decide (tr.items.map nameOf).Nodup && i.items.all fun item => itemOk L i tr r.args self item

theorem implOk_of {L : List Impl} {i : Impl} (h : implOk L i = true) : ImplOk L i := by
  unfold implOk at h
  unfold ImplOk
  split at h
  · rename_i ht
    rw [ht]
    simpa [List.all_eq_true] using h
  · rename_i r self ht
    rw [ht]
    split at h
    · cases h
    · rename_i tr htr
      simp only [Bool.and_eq_true, decide_eq_true_eq, List.all_eq_true, List.isPerm_iff] at h
      obtain ⟨⟨⟨⟨h1, h2⟩, h3⟩, h4⟩, h5⟩ := h
      refine ⟨tr, List.mem_of_find?_eq_some htr, by simpa using List.find?_some htr, h1, fun x hx => by have := h2 x hx; cases hx2 : x.2 <;> simp_all, h3, fun item hi want hw hn => ?_⟩
      have := h5 item hi
      unfold itemOk at this
      split at this
      · cases this
      · rename_i w hfind
        have hwn : nameOf w = nameOf item := by simpa using List.find?_some hfind
        have hwm := List.mem_of_find?_eq_some hfind
        have hww : w = want := by
          have hinj : ∀ {l : List Toks}, (l.map nameOf).Nodup → ∀ {a b : Toks}, a ∈ l → b ∈ l → nameOf a = nameOf b → a = b := by
            intro l
            induction l with
            | nil => intro _ a b ha; cases ha
            | cons x l ih =>
              intro hd a b ha hb hab
              rw [List.map_cons, List.nodup_cons] at hd
              rcases List.mem_cons.mp ha with rfl | ha' <;> rcases List.mem_cons.mp hb with rfl | hb'
              · rfl
              · exact absurd (hab ▸ List.mem_map_of_mem hb') hd.1
              · exact absurd (hab ▸ List.mem_map_of_mem ha') hd.1
              · exact ih hd.2 ha' hb' hab
          exact hinj h4 hwm hw (hwn.trans hn)
        subst hww
        rw [Bool.and_eq_true, decide_eq_true_eq] at this
        refine ⟨this.1, fun hf => ?_, fun hf => ?_⟩
        · have := this.2
          rw [if_pos hf] at this
          exact sigOk_of this
        · have := this.2
          rw [if_neg (by rw [hf]; decide), if_pos hf] at this
          exact tyOk_of this

/-- Which trait, for which type. -/
def key (i : Impl) : Option (List String × Toks) := i.target.map fun x => (x.1.path, x.2)

theorem ImplOk.mono {L L' : List Impl} (hL : ∀ i ∈ L, i ∈ L') {i : Impl} (h : ImplOk L i) : ImplOk L' i := by
  unfold ImplOk at h ⊢
  split
  · rename_i ht
    rw [ht] at h
    exact h
  · rename_i r self ht
    rw [ht] at h
    obtain ⟨tr, htr, hp, h1, h2, h3, h4⟩ := h
    refine ⟨tr, htr, hp, h1, h2, h3, fun item hi want hw hn => ?_⟩
    obtain ⟨k1, k2, k3⟩ := h4 item hi want hw hn
    refine ⟨k1, k2, fun hty => ?_⟩
    obtain ⟨m1, m2, m3⟩ := k3 hty
    refine ⟨m1, m2, fun b hb => (m3 b hb).imp (fun ⟨j, hj, h⟩ => ⟨j, hL j hj, h⟩) id⟩

theorem accepted_of {L : List Impl} (h : ∀ i ∈ L, ImplOk L i) (hd : (L.filterMap key).Nodup) : Accepted L := by
  refine ⟨h, ?_⟩
  rw [List.Nodup, List.pairwise_filterMap] at hd
  refine hd.imp fun {i j} h r s self hi hj hp => ?_
  refine h (r.path, self) ?_ (s.path, self) ?_ (by rw [hp])
  · simp [key, hi]
  · simp [key, hj]

/-- What the evaluation needs of a name. -/
theorem facts {E : String} (h : E ∉ special) : (¬E = "where" ∧ ¬E = ">" ∧ ¬E = "," ∧ ¬E = "<" ∧ ¬E = "(" ∧ ¬E = ")" ∧ ¬E = "::" ∧ ¬E = ":" ∧ ¬E = "mut" ∧ ¬E = "Self" ∧ ¬E = "for" ∧ ¬E = "=" ∧
    ¬E = "+" ∧ ¬E = "&" ∧ ¬E = "fn" ∧ ¬E = "type") ∧ ¬"=" = E ∧ (E == "Option") = false := by
  have h' : ∀ k ∈ special, ¬E = k := fun k hk e => h (e ▸ hk)
  refine ⟨⟨?_, ?_, ?_, ?_, ?_, ?_, ?_, ?_, ?_, ?_, ?_, ?_, ?_, ?_, ?_, ?_⟩, fun e => h' "=" (by decide) e.symm, ?_⟩
  all_goals first | exact h' _ (by decide) | simpa using h' "Option" (by decide)

theorem item_fn {L : List Impl} {i : Impl} {tr : Trait} {a : List Toks} {self item want : Toks} (hw : (tr.items.find? fun w => nameOf w == nameOf item) = some want)
    (h1 : item.head? = some "fn") (h2 : want.head? = some "fn") (h : sigOk i tr a self item want = true) : itemOk L i tr a self item = true := by
  unfold itemOk
  rw [hw]
  dsimp only
  rw [h1, h2, if_pos rfl, h]
  rfl

theorem item_ty {L : List Impl} {i : Impl} {tr : Trait} {a : List Toks} {self item want : Toks} (hw : (tr.items.find? fun w => nameOf w == nameOf item) = some want)
    (h1 : item.head? = some "type") (h2 : want.head? = some "type") (h : tyOk L i tr a self item want = true) : itemOk L i tr a self item = true := by
  unfold itemOk
  rw [hw]
  dsimp only
  rw [h1, h2, if_neg (by decide), if_pos rfl, h]
  rfl

theorem implOk_inherent {L : List Impl} {i : Impl} (ht : i.target = none) (h1 : (i.items.map nameOf).Nodup) (h2 : ∀ t ∈ i.items, t.head? = some "fn") : implOk L i = true := by
  unfold implOk
  rw [ht]
  simpa using ⟨h1, h2⟩

theorem implOk_intro {L : List Impl} {i : Impl} {r : TraitRef} {self : Toks} {tr : Trait} (ht : i.target = some (r, self)) (htr : (traits.find? fun tr => tr.path == r.path) = some tr)
    (h1 : r.args.length ≤ tr.params.length) (h2 : ((tr.params.drop r.args.length).all fun x => x.2.isSome) = true) (h3 : (i.items.map nameOf).isPerm (tr.items.map nameOf) = true)
    (h4 : (tr.items.map nameOf).Nodup) (h5 : ∀ item ∈ i.items, itemOk L i tr r.args self item = true) : implOk L i = true := by
  unfold implOk
  rw [ht]
  dsimp only
  rw [htr]
  dsimp only
  rw [h2, h3]
  simp only [Bool.and_eq_true, decide_eq_true_eq, List.all_eq_true, and_true]
  exact ⟨⟨h1, h4⟩, h5⟩

end FixedMap.Impls
