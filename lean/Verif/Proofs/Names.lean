import Verif.Model.GenNames

/-! # Lemmas about the names in the emitted code -/

set_option autoImplicit false
set_option linter.unusedSimpArgs false

namespace FixedMap.Names

variable {env : Env} {items : Scope}

theorem right_std (ns : Ns) (n : String) (sc : Scope) :
    Code.right env items (.std ns n) sc ↔ (ns, n) ∉ sc ∧ (ns, n) ∉ items ∧ env.has ns n = false := by
  simp only [Code.right, resolve]
  split <;> rename_i h1
  · simp [h1]
  · split <;> rename_i h2
    · simp [h2]
    · cases h3 : env.has ns n <;> simp [h1, h2]

theorem right_own (ns : Ns) (n : String) (sc : Scope) :
    Code.right env items (.own ns n) sc ↔ (ns, n) ∉ sc ∧ (ns, n) ∈ items := by
  simp only [Code.right, resolve]
  split <;> rename_i h1
  · simp [h1]
  · split <;> rename_i h2
    · simp [h1, h2]
    · cases h3 : env.has ns n <;> simp [h1, h2]

theorem right_loc (ns : Ns) (n : String) (sc : Scope) : Code.right env items (.loc ns n) sc ↔ (ns, n) ∈ sc := by
  simp only [Code.right, resolve]
  split <;> rename_i h1
  · simp [h1]
  · split <;> rename_i h2
    · simp [h1, h2]
    · cases h3 : env.has ns n <;> simp [h1, h2]

theorem right_user (n : String) (sc : Scope) :
    Code.right env items (.user n) sc ↔ (Ns.type, n) ∉ sc ∧ (Ns.type, n) ∉ items := by
  simp only [Code.right, resolve, List.not_mem_nil, if_false]
  cases h3 : env.has .type n <;> split <;> rename_i h1 <;> simp [h1] <;> split <;> rename_i h2 <;> simp [h2]

theorem right_pat (n : String) (sc : Scope) :
    Code.right env items (.pat n) sc ↔ (Ns.value, n) ∈ sc ∨ (Ns.value, n) ∈ items ∨ env.consts n = false := by
  simp only [Code.right, resolve]
  split <;> rename_i h1
  · simp [h1]
  · split <;> rename_i h2
    · simp [h2]
    · cases h3 : env.consts n <;> simp [h1, h2, Env.has, h3]

def bindsAll : List Code → Scope
  | [] => []
  | c :: l => bindsAll l ++ c.binds

theorem rightAll_nil (sc : Scope) : rightAll env items [] sc ↔ True := by simp only [rightAll]

theorem rightAll_cons (c : Code) (l : List Code) (sc : Scope) :
    rightAll env items (c :: l) sc ↔ Code.right env items c sc ∧ rightAll env items l (c.binds ++ sc) := by simp only [rightAll]

theorem right_scope (l : List Code) (sc : Scope) : Code.right env items (.scope l) sc ↔ rightAll env items l sc := by simp only [Code.right]

theorem right_tparam (n : String) (sc : Scope) : Code.right env items (.tparam n) sc ↔ True := by simp only [Code.right]

theorem rightAll_append (l l' : List Code) : ∀ sc : Scope,
    rightAll env items (l ++ l') sc ↔ rightAll env items l sc ∧ rightAll env items l' (bindsAll l ++ sc) := by
  induction l with
  | nil => intro sc; simp [rightAll_nil, bindsAll]
  | cons c l ih => intro sc; simp only [List.cons_append, rightAll_cons, ih, bindsAll, List.append_assoc, and_assoc]

theorem bindsAll_append (l l' : List Code) : bindsAll (l ++ l') = bindsAll l' ++ bindsAll l := by
  induction l with
  | nil => simp [bindsAll]
  | cons c l ih => simp [bindsAll, ih]

theorem rightAll_scopes {α : Type} (f : α → List Code) (xs : List α) (sc : Scope) :
    rightAll env items (xs.map fun x => .scope (f x)) sc ↔ ∀ x ∈ xs, rightAll env items (f x) sc := by
  induction xs with
  | nil => simp [rightAll_nil]
  | cons x xs ih => simp [rightAll_cons, right_scope, Code.binds, ih]

theorem bindsAll_scopes {α : Type} (f : α → List Code) (xs : List α) : bindsAll (xs.map fun x => .scope (f x)) = [] := by
  induction xs with
  | nil => rfl
  | cons x xs ih => simp [bindsAll, Code.binds, ih]

theorem rightAll_users (hs : List String) (sc : Scope) :
    rightAll env items (hs.map .user) sc ↔ ∀ h ∈ hs, (Ns.type, h) ∉ sc ∧ (Ns.type, h) ∉ items := by
  induction hs with
  | nil => simp [rightAll_nil]
  | cons x xs ih => simp [rightAll_cons, right_user, Code.binds, ih]

theorem bindsAll_users (hs : List String) : bindsAll (hs.map .user) = [] := by
  induction hs with
  | nil => rfl
  | cons x xs ih => simp [bindsAll, Code.binds, ih]

theorem rightAll_pats (xs : List String) : ∀ sc : Scope,
    rightAll env items (xs.map .pat) sc ↔ ∀ x ∈ xs, (Ns.value, x) ∈ sc ∨ (Ns.value, x) ∈ items ∨ env.consts x = false := by
  induction xs with
  | nil => simp [rightAll_nil]
  | cons x xs ih =>
    intro sc
    rw [List.map_cons, rightAll_cons, right_pat, ih]
    simp only [Code.binds, List.cons_append, List.nil_append, List.mem_cons, Prod.mk.injEq, true_and]
    constructor
    · rintro ⟨h, h'⟩ y (rfl | hy)
      · exact h
      rcases h' y hy with (rfl | h'') | h''
      · exact h
      · exact Or.inl h''
      · exact Or.inr h''
    · intro h
      refine ⟨h x (Or.inl rfl), fun y hy => ?_⟩
      rcases h y (Or.inr hy) with h'' | h''
      · exact Or.inl (Or.inr h'')
      · exact Or.inr h''

theorem mem_bindsAll_pats (xs : List String) (ns : Ns) (n : String) : (ns, n) ∈ bindsAll (xs.map .pat) ↔ ns = .value ∧ n ∈ xs := by
  induction xs with
  | nil => simp [bindsAll]
  | cons x xs ih =>
    simp only [List.map_cons, bindsAll, Code.binds, List.mem_append, ih, List.mem_cons, List.not_mem_nil, Prod.mk.injEq, or_false]
    constructor
    · rintro (⟨h, h'⟩ | ⟨h, h'⟩)
      · exact ⟨h, Or.inr h'⟩
      · exact ⟨h, Or.inl h'⟩
    · rintro ⟨h, h' | h'⟩
      · exact Or.inr ⟨h, h'⟩
      · exact Or.inl ⟨h, h'⟩

theorem Any.rightAll_each (fs : List Any.Fld) (simple : List Code) (complex : List String → List Code) (sc : Scope) :
    rightAll env items (Any.each fs simple complex) sc ↔
      (none ∈ fs → rightAll env items simple sc) ∧ ∀ hs, some hs ∈ fs → rightAll env items (complex hs) sc := by
  unfold Any.each
  rw [rightAll_scopes]
  constructor
  · exact fun h => ⟨fun h' => h none h', fun hs h' => h (some hs) h'⟩
  · rintro ⟨h, h'⟩ (_ | hs) hf
    · exact h hf
    · exact h' hs hf

theorem Any.bindsAll_each (fs : List Any.Fld) (simple : List Code) (complex : List String → List Code) :
    bindsAll (Any.each fs simple complex) = [] := bindsAll_scopes _ _

theorem Units.rightAll_each (n : Nat) (f : String → List Code) (sc : Scope) :
    rightAll env items (Units.each n f) sc ↔ ∀ x ∈ Units.names n, rightAll env items (f x) sc := rightAll_scopes _ _ _

theorem Units.bindsAll_each (n : Nat) (f : String → List Code) : bindsAll (Units.each n f) = [] := bindsAll_scopes _ _

theorem right_mem {env : Env} {items : Scope} {l : List Code} {sc : Scope} (hb : bindsAll l = []) (h : rightAll env items l sc) :
    ∀ c ∈ l, Code.right env items c sc := by
  induction l with
  | nil => intro c hc; cases hc
  | cons x l ih =>
    simp only [bindsAll, List.append_eq_nil_iff] at hb
    rw [rightAll_cons, hb.2] at h
    intro c hc
    rcases List.mem_cons.1 hc with rfl | hc
    · exact h.1
    · exact ih hb.1 h.2 c hc

section
open Any

theorem elem_ok {env : Env} {hs : List String} {sc : Scope} (h : ∀ h ∈ hs, h ∉ anyTaken) (hsc : ∀ p ∈ sc, p.1 = Ns.value ∨ p.2 ∈ anyTaken) :
    rightAll env Any.items (elem hs) sc := by
  unfold elem
  rw [rightAll_users]
  intro x hx
  refine ⟨fun hm => ?_, fun hm => ?_⟩
  · rcases hsc _ hm with h' | h'
    · cases h'
    · exact h x hx h'
  · refine h x hx ?_
    revert hm
    simp only [Any.items, anyTaken, List.mem_cons, List.not_mem_nil, Prod.mk.injEq, reduceCtorEq, false_and, true_and, or_false]
    intro hm
    simp only [hm, or_true]

theorem bindsAll_elem (hs : List String) : bindsAll (elem hs) = [] := bindsAll_users hs

theorem any_of (env : Env) (E : String) (fs : List Any.Fld) (h : AnyClear env E fs) : rightAll env Any.items (Any.code E fs) [] := by
  obtain ⟨hE, hp, ht, hn, hv, hu, hpv⟩ := h
  simp only [anyTaken, anyStd, anyVars, List.mem_cons, List.not_mem_nil, or_false, not_or, forall_eq_or_imp, forall_eq] at hE ht hv
  simp only [Any.code, mapStorage, setStorage, rightAll_append, rightAll_cons, rightAll_nil, right_scope, right_tparam, mapIterFn, mapIntoIterFn, entryFns, mapFns, mapIter,
    mapIntoIter, entryItems, setIterFn, setFns, setIter, entryFn, Any.steps, Any.next, Any.nextBack, Any.itemTy, Any.arms, Any.rightAll_each, Any.bindsAll_each,
    bindsAll, Code.binds, retainHead, V, usize, bool, var, mapSt, asMap, asSet, asEntry, bindsAll_append, bindsAll_elem,
    right_std, right_own, right_loc, right_user, right_pat, Env.has, List.mem_append, List.mem_cons, List.not_mem_nil, or_false, false_or, Prod.mk.injEq, reduceCtorEq, false_and, true_and,
    List.nil_append, List.cons_append, if_true, if_false, Bool.false_eq_true, String.reduceEq, or_true, and_true, not_false_eq_true, not_or, hE, ht, hv, and_self, imp_self, implies_true, List.append_nil]
  simp only [show ∀ n, (Ns.type, n) ∈ Any.items ↔ n ∈ anyTaken.drop 2 from fun n => by simp [Any.items, anyTaken],
    show ∀ n, (Ns.value, n) ∈ Any.items ↔ n = "option_to_entry" from fun n => by simp [Any.items], anyTaken, List.drop_succ_cons, List.drop_zero,
    List.mem_cons, List.not_mem_nil, String.reduceEq, or_false, or_true, false_or, hE, not_or, not_false_eq_true, and_self, true_and, and_true, implies_true]
  repeat' (first | apply And.intro | intro)
  all_goals first
    | exact hu ‹_›
    | exact (hpv _ ‹_›).1
    | exact (hpv _ ‹_›).2
    | exact elem_ok (hp _ ‹_›) (by decide)
    | (simp only [hn ‹_›, Bool.or_false]; done)
    | trace_state

theorem items_ty (n : String) : (Ns.type, n) ∈ Any.items ↔ n ∈ anyTaken.drop 2 := by simp [Any.items, anyTaken]
theorem items_val (n : String) : (Ns.value, n) ∈ Any.items ↔ n = "option_to_entry" := by simp [Any.items]

theorem of_any (env : Env) (E : String) (fs : List Any.Fld) (h : rightAll env Any.items (Any.code E fs) []) : AnyClear env E fs := by
  have hb : bindsAll (Any.code E fs) = [] := by
    simp only [Any.code, mapStorage, setStorage, mapIter, mapIntoIter, entryItems, setIter, bindsAll_append, bindsAll, Code.binds, List.append_nil, if_true,
      if_false, Bool.false_eq_true]
  have hall := right_mem hb h
  have hfuns : rightAll env Any.items (mapFns E fs) [(.type, "V")] := by
    have h1 := hall _ (List.mem_append.2 (.inl (List.mem_append.2 (.inl (List.mem_append.2 (.inl (List.mem_append.2 (.inl
      (List.mem_append.2 (.inl (List.mem_append.2 (.inl (List.mem_append.2 (.inl (List.mem_append.2 (.inl (List.mem_append.2 (.inl
        (List.mem_append.2 (.inl (List.mem_cons.2 (.inr (List.mem_cons.2 (.inl rfl))))))))))))))))))))))))
    rw [right_scope, rightAll_append] at h1
    have h2 := h1.2
    simpa only [mapIterFn, mapIntoIterFn, entryFns, bindsAll_append, bindsAll, Code.binds, V, List.append_nil, List.nil_append] using h2
  have hbf : bindsAll (mapFns E fs) = [] := by simp only [mapFns, bindsAll, Code.binds, List.append_nil]
  have hret := right_mem hbf hfuns (.scope (retainHead "func" [.user E, V] ++ each fs [.pat "val", var "func", .user E, var "val", .std .value "None"] fun hs =>
      asMap hs ++ [.pat "k", .pat "v", var "func", .user E, var "k", var "v"])) (by simp only [mapFns, List.mem_cons, true_or, or_true])
  have hins := right_mem hbf hfuns (.scope ([.pat "key", .user E, .pat "value", V, V, var "key"] ++ arms E fs [var "value"] fun hs => asMap hs ++ [var "v", var "value"]))
     (by simp only [mapFns, List.mem_cons, true_or, or_true])
  have hlen := right_mem hbf hfuns (.scope (usize :: each fs [usize] asMap)) (by simp only [mapFns, List.mem_cons, true_or, or_true])
  have hcl := hall (.scope ([.tparam "V", .own .type "__MapStorageIntoIter", V, V, .std .type "Clone"] ++ each fs [] asMap))
    (by simp only [Any.code, mapStorage, mapIntoIter, List.mem_append, List.mem_cons, true_or, or_true])
  have hnx := hall (.scope [.tparam "V", .own .type "__MapStorageIntoIter", V, .user E, V, .scope (.std .type "Option" :: next E fs .entries)])
    (by simp only [Any.code, mapStorage, mapIntoIter, List.mem_append, List.mem_cons, true_or, or_true])
  have hnb := hall (.scope ([.tparam "V", .own .type "__MapStorageIntoIter", V] ++ each fs [] (fun hs => asMap hs ++ asMap hs) ++ [.scope (nextBack E fs .entries)]))
    (by simp only [Any.code, mapStorage, mapIntoIter, List.mem_append, List.mem_cons, true_or, or_true])
  have heq := hall (.scope [.tparam "V", .own .type "__MapStorage", V, V, .scope ([.pat "other", bool] ++ each fs [var "other"] fun _ => [var "other"])])
    (by simp only [Any.code, mapStorage, List.mem_append, List.mem_cons, true_or, or_true])
  have hen := hall (.scope [.tparam "V", .pat "opt", V, .pat "key", .user E, .own .type "__MapStorage", V, .user E, V, var "opt",
      .scope [.pat "inner", .own .type "OccupiedEntry", .own .type "SimpleOccupiedEntry", var "key", var "inner"],
      .scope [.pat "inner", .own .type "VacantEntry", .own .type "SimpleVacantEntry", var "key", var "inner"]])
    (by simp only [Any.code, mapStorage, entryItems, List.mem_append, List.mem_cons, true_or, or_true])
  have hoc := hall (.scope [.tparam "V", .user E, V, .own .type "VacantEntry", V,
      entryFn fs "VacantEntry" [.user E] [] [.user E], entryFn fs "VacantEntry" [.pat "value", V, V] [var "value"] []])
    (by simp only [Any.code, mapStorage, entryItems, List.mem_append, List.mem_cons, true_or, or_true])
  clear hall hb hfuns h hbf
  simp only [rightAll_append, rightAll_cons, rightAll_nil, right_scope, right_tparam, entryFn, Any.next, Any.nextBack, Any.arms, Any.rightAll_each, Any.bindsAll_each,
    bindsAll, Code.binds, retainHead, V, usize, bool, var, mapSt, asMap, asEntry, bindsAll_append, bindsAll_elem,
    right_std, right_own, right_loc, right_user, right_pat, Env.has, List.mem_cons, List.not_mem_nil, or_false, false_or, Prod.mk.injEq, reduceCtorEq, false_and, true_and,
    List.nil_append, List.cons_append, if_true, if_false, Bool.false_eq_true, String.reduceEq, or_true, and_true, not_false_eq_true, not_or, and_self, imp_self, implies_true, List.append_nil,
    items_ty, items_val, Bool.or_eq_false_iff] at hret hins hlen hcl hnx hnb heq hen hoc
  constructor
  · have h1 := hret
    simp only [anyTaken, List.drop_succ_cons, List.drop_zero, List.mem_cons, List.not_mem_nil, or_false, not_or] at h1 ⊢
    grind
  · intro hs hf x hx
    have h1 := (hret.2.2.2.2.2 hs hf).1
    unfold elem at h1
    rw [rightAll_users] at h1
    have h2 := h1 x hx
    rw [items_ty] at h2
    simp only [anyTaken, List.drop_succ_cons, List.drop_zero, List.mem_cons, List.not_mem_nil, Prod.mk.injEq, reduceCtorEq, false_and, true_and, or_false, false_or,
      not_or] at h2 ⊢
    exact ⟨h2.1.2, h2.1.1, h2.2⟩
  · simp only [anyStd, List.mem_cons, List.not_mem_nil, or_false, forall_eq_or_imp, forall_eq]
    grind
  · grind
  · simp only [anyVars, List.mem_cons, List.not_mem_nil, or_false, forall_eq_or_imp, forall_eq]
    grind
  · grind
  · grind

end

theorem names_ne {n : Nat} {s : String} (hs : s.toList.head? ≠ some '_') : s ∉ Units.names n := by
  intro h
  simp only [Units.names, List.mem_map] at h
  obtain ⟨i, _, rfl⟩ := h
  apply hs
  simp [String.toList_append, toString]

theorem ne_option {n : Nat} : "option_to_entry" ∉ Units.names n := names_ne (by decide)
theorem ne_some {n : Nat} : "Some" ∉ Units.names n := names_ne (by decide)
theorem ne_none {n : Nat} : "None" ∉ Units.names n := names_ne (by decide)

theorem bitsTy_mem (n : Nat) : bitsTy n ∈ ["u8", "u16", "u32", "u64", "u128"] := by
  unfold bitsTy
  repeat' split
  all_goals simp

theorem units_of (env : Env) (E : String) (n : Nat) (bits : Bool) (h : UnitsClear env E n bits) :
    rightAll env (Units.items bits) (Units.code E n bits) [] := by
  obtain ⟨hE, ht, hb, ho, hv, hval, hn, hbv⟩ := h
  have hn' : ∀ x ∈ Units.names n, env.consts x = false := by
    intro x hx
    simp only [Units.names, List.mem_map, List.mem_range] at hx
    obtain ⟨i, hi, rfl⟩ := hx
    exact hn i hi
  have hpos : ∀ x ∈ Units.names n, 0 < n := by
    intro x hx
    simp only [Units.names, List.mem_map, List.mem_range] at hx
    obtain ⟨i, hi, rfl⟩ := hx
    omega
  have hw := bitsTy_mem n
  have hword : Units.word n = bitsTy n := rfl
  have h1 : ∀ s, (Ns.type, s) ∈ Units.items bits ↔ s ∈ ["VacantEntry", "OccupiedEntry", "__MapStorage", "__SetStorage"] := by
    intro s; cases bits <;> simp [Units.items]
  have h2 : (Ns.value, "option_to_entry") ∈ Units.items bits := by cases bits <;> simp [Units.items]
  have h3 : (Ns.value, "to_bits") ∈ Units.items bits ↔ bits = true := by cases bits <;> simp [Units.items]
  have h4 : (Ns.value, "Some") ∉ Units.items bits := by cases bits <;> simp [Units.items]
  have h5 : (Ns.value, "None") ∉ Units.items bits := by cases bits <;> simp [Units.items]
  have h6 : bitsTy n ∉ ["VacantEntry", "OccupiedEntry", "__MapStorage", "__SetStorage"] := by
    generalize bitsTy n = s at hw
    simp only [List.mem_cons, List.not_mem_nil, or_false] at hw
    rcases hw with rfl | rfl | rfl | rfl | rfl <;> simp
  simp only [List.mem_cons, List.not_mem_nil, or_false, not_or, forall_eq_or_imp, forall_eq] at hE ht hv hbv ho h6
  cases bits
  all_goals
    simp only [Units.code, Units.entry, Units.map, Units.mapTypes, Units.mapFns, Units.set, Units.setOrd, Units.bitset, Units.dest, rightAll_append, rightAll_cons, rightAll_nil,
      right_scope, right_tparam, Units.rightAll_each, Units.bindsAll_each, rightAll_pats, mem_bindsAll_pats, bindsAll_append,
      bindsAll, Code.binds, retainHead, V, usize, bool, var, hword,
      right_std, right_own, right_loc, right_user, right_pat, Env.has, List.mem_append, List.mem_cons, List.not_mem_nil, or_false, false_or, Prod.mk.injEq,
      reduceCtorEq, false_and, true_and, List.nil_append, List.cons_append, if_true, if_false, Bool.false_eq_true, String.reduceEq, or_true, true_or, and_true,
      not_false_eq_true, not_or, hE, ht, hv, and_self, imp_self, implies_true, List.append_nil, h1, h2, h3, h4, h5, h6, ne_option, ne_some, ne_none, hbv, hb]
    repeat' (first | apply And.intro | intro)
    all_goals first
      | exact Or.inr (Or.inr (hn' _ ‹_›))
      | exact Or.inr (Or.inr (hval (hpos _ ‹_›)))
      | exact Or.inl ‹_›
      | assumption
      | (simp only [ho (hpos _ ‹_›), Bool.or_false]; done)
      | (simp_all; done)

theorem of_units (env : Env) (E : String) (n : Nat) (bits : Bool) (h : rightAll env (Units.items bits) (Units.code E n bits) []) :
    UnitsClear env E n bits := by
  have hpos : 0 < n → ∃ x, x ∈ Units.names n := fun h => ⟨_, List.mem_map.2 ⟨0, List.mem_range.2 h, rfl⟩⟩
  have hword : Units.word n = bitsTy n := rfl
  have hit : ∀ s, (Ns.type, s) ∈ Units.items bits ↔ s ∈ ["VacantEntry", "OccupiedEntry", "__MapStorage", "__SetStorage"] := by
    intro s; cases bits <;> simp [Units.items]
  have hiv : ∀ s, s ≠ "option_to_entry" → s ≠ "to_bits" → (Ns.value, s) ∉ Units.items bits := by
    intro s h1 h2; cases bits <;> simp [Units.items, h1, h2]
  have hb : bindsAll (Units.code E n bits) = [] := by
    cases bits <;> simp only [Units.code, Units.entry, Units.map, Units.set, Units.setOrd, Units.bitset, bindsAll_append, bindsAll, Code.binds, List.append_nil,
      if_true, if_false, Bool.false_eq_true]
  have hall := right_mem hb h
  have hfuns : rightAll env (Units.items bits) (Units.mapFns E n) [(.type, "V")] := by
    have h1 := hall (.scope ([.tparam "V", .user E, V, .own .type "__MapStorage", V] ++ Units.mapTypes E ++ Units.mapFns E n)) (by simp only [Units.code, Units.map, List.mem_append, List.mem_cons, true_or, or_true])
    rw [right_scope, rightAll_append] at h1
    simpa only [Units.mapTypes, bindsAll_append, bindsAll, Code.binds, V, List.append_nil, List.nil_append] using h1.2
  have hbf : bindsAll (Units.mapFns E n) = [] := by simp only [Units.mapFns, bindsAll, Code.binds, List.append_nil]
  have hf := right_mem hbf hfuns
  have hret := hf (.scope (retainHead "func" [.user E, V] ++ Units.dest n ++ Units.each n fun x =>
      [.pat "val", var x, var "func", .user E, var "val", var x, .std .value "None"])) (by simp only [Units.mapFns, List.mem_cons, true_or, or_true])
  have hlen := hf (.scope ([usize] ++ Units.dest n ++ Units.each n fun x => [usize, var x])) (by simp only [Units.mapFns, List.mem_cons, true_or, or_true])
  have hkeys := hf (.scope (Units.dest n ++ Units.each n fun x => [var x, .std .value "Some", .user E, .std .value "None"]))
    (by simp only [Units.mapFns, List.mem_cons, true_or, or_true])
  have hiter := hf (.scope ((Units.dest n ++ Units.each n fun x => [.user E, var x]) ++ [.scope [.pat "k", .pat "v", var "k", var "v"]]))
    (by simp only [Units.mapFns, List.mem_cons, true_or, or_true])
  have hhash := hall (.scope ([.tparam "V", .own .type "__MapStorage", V, V] ++
    [.scope [.tparam "H", .pat "state", .loc .type "H", .loc .type "H", var "state"]]))
    (by simp only [Units.code, Units.map, List.mem_append, List.mem_cons, true_or, or_true])
  have hcmp := hall (.scope ([.tparam "V", .own .type "__MapStorage", V, V] ++ [.scope [.pat "other", .std .type "Option", var "other"]]))
    (by simp only [Units.code, Units.map, List.mem_append, List.mem_cons, true_or, or_true])
  have hen := hall (.scope [.tparam "V", .pat "opt", V, .pat "key", .user E, .own .type "__MapStorage", V, .user E, V, var "opt",
      .scope [.pat "inner", .own .type "OccupiedEntry", var "key", var "inner"],
      .scope [.pat "inner", .own .type "VacantEntry", var "key", var "inner"]])
    (by simp only [Units.code, Units.entry, List.mem_append, List.mem_cons, true_or, or_true])
  have hins := hall (.scope [.tparam "V", .user E, V, .own .type "VacantEntry", V, .scope [.user E], .scope [.pat "value", V, V, var "value"]])
    (by simp only [Units.code, Units.entry, List.mem_append, List.mem_cons, true_or, or_true])
  have hset : env.consts "f" = false := by
    cases bits
    · have h1 := hall (.scope [.user E, .own .type "__SetStorage", .user E, .user E,
        .scope ([usize] ++ Units.dest n ++ Units.each n fun x => [usize, var x]),
        .scope ([bool] ++ Units.dest n ++ Units.each n fun x => [var x]),
        .scope ([.pat "value", .user E, bool] ++ Units.dest n ++ [var "value"] ++ Units.each n fun x => [.user E, var x]),
        .scope ([.pat "value", .user E, bool] ++ Units.dest n ++ [var "value"] ++ Units.each n fun x => [.user E, var x]),
        .scope ([.pat "value", .user E, bool] ++ Units.dest n ++ [var "value"] ++ Units.each n fun x => [.user E, var x]),
        .scope (retainHead "f" [.user E] ++ Units.dest n ++ Units.each n fun x => [var x, var x, var "f", .user E]),
        .scope (Units.dest n ++ Units.each n fun x => [var x, .std .value "Some", .user E, .std .value "None"]),
        .scope (Units.dest n ++ Units.each n fun x => [var x, .std .value "Some", .user E, .std .value "None"])])
        (by simp only [Units.code, Units.set, Bool.false_eq_true, if_false, List.mem_append, List.mem_cons, true_or, or_true])
      simp only [right_scope, rightAll_cons, Code.binds, List.nil_append, retainHead, List.cons_append, right_pat] at h1
      simpa [Units.items] using h1.2.2.2.2.2.2.2.2.2.1.2.1
    · have h1 := hall _ (List.mem_append.2 (.inl (List.mem_append.2 (.inr (List.mem_append.2 (.inr (List.mem_cons.2 (.inl rfl))))))))
      simp only [right_scope, rightAll_cons, Code.binds, List.nil_append, retainHead, List.cons_append, right_pat] at h1
      simpa [Units.items] using h1.2.2.2.2.2.2.2.2.2.1.2.1
  have hbits : bits = true → env.types (bitsTy n) = false ∧ env.consts "mask" = false ∧ env.consts "update" = false ∧ env.consts "data" = false := by
    rintro rfl
    have h1 := hall _ (List.mem_append.2 (.inl (List.mem_append.2 (.inr (List.mem_append.2 (.inr (List.mem_cons.2 (.inl rfl))))))))
    have h2 := hall _ (List.mem_append.2 (.inl (List.mem_append.2 (.inr (List.mem_append.2 (.inr (List.mem_cons.2 (.inr (List.mem_cons.2 (.inl rfl))))))))))
    have h3 := hall (.scope [.std .type (bitsTy n)])
      (by simp only [Units.code, Units.bitset, hword, if_true, List.mem_append, List.mem_cons, true_or, or_true])
    simp only [right_scope, rightAll_cons, rightAll_nil, Code.binds, List.nil_append, retainHead, List.cons_append, right_pat, right_std, Env.has] at h1 h2 h3
    refine ⟨h3.1.2.2, ?_, ?_, ?_⟩
    · simpa [Units.items, bool, var] using h1.2.2.2.2.2.2.1.2.2.2.1
    · simpa [Units.items, bool, var] using h1.2.2.2.2.2.2.1.2.2.2.2.2.2.1
    · simpa [Units.items] using h2.2.2.2.1.1
  clear hall hf hfuns hbf hb h
  simp only [Units.dest, rightAll_append, rightAll_cons, rightAll_nil,
      right_scope, right_tparam, Units.rightAll_each, Units.bindsAll_each, rightAll_pats, mem_bindsAll_pats, bindsAll_append,
      bindsAll, Code.binds, retainHead, V, usize, bool, var,
      right_std, right_own, right_loc, right_user, right_pat, Env.has, List.mem_append, List.mem_cons, List.not_mem_nil, or_false, false_or, Prod.mk.injEq,
      reduceCtorEq, false_and, true_and, List.nil_append, List.cons_append, String.reduceEq, or_true, true_or, and_true,
      not_false_eq_true, not_or, and_self, imp_self, implies_true, List.append_nil, Bool.or_eq_false_iff, hit] at hret hlen hkeys hiter hhash hcmp hen hins
  have hiv' : ∀ x ∈ Units.names n, (Ns.value, x) ∉ Units.items bits := by
    intro x hx
    refine hiv x ?_ ?_
    · rintro rfl; exact ne_option hx
    · rintro rfl; exact names_ne (by decide) hx
  refine ⟨?_, ?_, fun h => (hbits h).1, fun h => ?_, ?_, fun h => ?_, fun i hi => ?_, fun h => ?_⟩
  · simp only [List.mem_cons, List.not_mem_nil, or_false, not_or]
    exact ⟨hret.2.2.1.1.2, hret.2.2.1.1.1, hret.2.2.1.2⟩
  · simp only [List.mem_cons, List.not_mem_nil, or_false, forall_eq_or_imp, forall_eq]
    exact ⟨hlen.1, hret.2.2.2.1, hret.2.1, hcmp.2⟩
  · obtain ⟨x, hx⟩ := hpos h
    simp only [List.mem_cons, List.not_mem_nil, or_false, forall_eq_or_imp, forall_eq]
    exact ⟨(hkeys.2 x hx).2.1.2.2, (hkeys.2 x hx).2.2.2.2.2⟩
  · have hk : ∀ s, s.toList.head? ≠ some '_' → s ∉ Units.names n := fun s h => names_ne h
    simp only [List.mem_cons, List.not_mem_nil, or_false, forall_eq_or_imp, forall_eq]
    simp only [hiv _ (show "func" ≠ _ by decide) (by decide), hiv _ (show "k" ≠ _ by decide) (by decide), hiv _ (show "v" ≠ _ by decide) (by decide),
      hiv _ (show "state" ≠ _ by decide) (by decide), hiv _ (show "other" ≠ _ by decide) (by decide), hiv _ (show "opt" ≠ _ by decide) (by decide),
      hiv _ (show "key" ≠ _ by decide) (by decide), hiv _ (show "inner" ≠ _ by decide) (by decide), hiv _ (show "value" ≠ _ by decide) (by decide),
      hk "k" (by decide), hk "v" (by decide), false_or] at hret hiter hhash hcmp hen hins
    exact ⟨hen.2.1, hins.2.2, hen.1, hen.2.2.2.2, hcmp.1, hhash, hret.1, hset, hiter.2.1, hiter.2.2⟩
  · obtain ⟨x, hx⟩ := hpos h
    rcases (hret.2.2.2.2.2 x hx).1 with h' | h' | h'
    · exact absurd h' (names_ne (by decide))
    · exact absurd h' (hiv _ (by decide) (by decide))
    · exact h'
  · have hx : s!"_{i}" ∈ Units.names n := List.mem_map.2 ⟨i, List.mem_range.2 hi, rfl⟩
    exact (hlen.2.1 _ hx).resolve_left (hiv' _ hx)
  · simp only [List.mem_cons, List.not_mem_nil, or_false, forall_eq_or_imp, forall_eq]
    exact (hbits h).2

end FixedMap.Names
