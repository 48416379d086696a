import Verif.Proofs.GenHeader
import Verif.Properties.Gen

/-!
# C78: rustc's checks on the emitted headers
-/

set_option autoImplicit false
set_option linter.unusedSimpArgs false

namespace FixedMap.Gen

/-- C78: the structs emitted by any_variants.rs pass the checks exactly if some variant has a field. (Otherwise `V` and `'a` are unused in
`Keys`; such enums go to unit_variants.rs.) -/
theorem C78_structs (vs : List Variant) : (∀ d ∈ genDecls (collect vs), d.ok) ↔ ∃ x ∈ vs, x.elem ≠ none := by
  have hc : (collect vs).complex ≠ [] ↔ ∃ x ∈ vs, x.elem ≠ none := by
    rw [complex_eq]
    constructor
    · intro h
      obtain ⟨κ, hκ⟩ := List.exists_mem_of_ne_nil _ h
      obtain ⟨x, hx, e⟩ := List.mem_filterMap.mp hκ
      exact ⟨x, hx, fun h => by rw [h] at e; cases e⟩
    · rintro ⟨x, hx, e⟩ h
      cases he : x.elem with
      | none => exact e he
      | some κ =>
        have : κ ∈ vs.filterMap (·.elem) := List.mem_filterMap.mpr ⟨x, hx, he⟩
        rw [h] at this; cases this
  rw [← hc]
  constructor
  · intro h h0
    obtain ⟨t, ht, hp⟩ := (h _ (declOf_mem _ (.mapIter .keys))).used .value (.tail _ (.head _))
    rcases mem_mapIter ht with rfl | rfl | ⟨κ, hκ, rfl⟩
    · cases hp
    · cases hp
    · rw [h0] at hκ; cases hκ
  · intro h d hd
    obtain ⟨i, rfl⟩ := mem_genDecls hd
    exact declOf_ok _ h i

/-- C78: every emitted `impl` passes the checks. -/
theorem C78_impls (vs : List Variant) : ∀ h ∈ genImpls (collect vs),
    ∃ d, Impl.ok (genDecls (collect vs)) (genImpls (collect vs)) h d :=
  fun _ hm => ⟨_, impl_ok hm⟩

/-- C78: names of structs are distinct, and no trait is implemented twice for one of them. -/
theorem C78_coherent (vs : List Variant) : ((genDecls (collect vs)).map Decl.item).Nodup ∧
    ∀ g ∈ genImpls (collect vs), ∀ h ∈ genImpls (collect vs), g.item = h.item → g.tr = h.tr → g = h := by
  refine ⟨by simp [genDecls, mapIts, setIts], fun g hg h hh hi ht => ?_⟩
  have hg := mem_implsOf hg
  rw [hi] at hg
  exact implsOf_unique hg (mem_implsOf hh) ht

/-- C78: which of the emitted `impl`s apply. The right-hand side is what emitted code assumes about a payload of this type
(`KeyTy.mapImpl`, `KeyTy.setImpl`, `backImpl`, …), so nested enums are consistent. -/
theorem C78_selected (vs : List Variant) (v : Tr → Bool) (i : ItemName) (t : Trait) :
    Emitted (collect vs) i t v ↔ (i.ty (.enum (fieldsOf vs))).has v t = true := selected vs v i t

/-- C78: the emitted `impl`s of `DoubleEndedIterator` apply exactly if the iterator is double-ended. -/
theorem C78_back (H : HashbrownApi) (hH : H.oneWay) (V : Type) (v : Tr → Bool) (vs : List Variant) :
    let M := mapStorage H V (.enum (fieldsOf vs))
    let N := setStorage H (.enum (fieldsOf vs))
    let back := fun i => Emitted (collect vs) i .doubleEnded v
    (back (.mapIter .iter) ↔ (Map.iter M).doubleEnded) ∧ (back (.mapIter .keys) ↔ (Map.keys M).doubleEnded) ∧
    (back (.mapIter .values) ↔ (Map.values M).doubleEnded) ∧ (back (.mapIter .iterMut) ↔ (Map.iterMut M).doubleEnded) ∧
    (back (.mapIter .valuesMut) ↔ (Map.valuesMut M).doubleEnded) ∧ (back (.mapIter .intoIter) ↔ (Map.intoIter M).doubleEnded) ∧
    (back (.setIter .iter) ↔ (FSet.iter N).doubleEnded) ∧ (back (.setIter .intoIter) ↔ (FSet.intoIter N).doubleEnded) := by
  intro M N back
  obtain ⟨h1, h2, h3, h4, h5, h6⟩ := C60_map H hH V (.enum (fieldsOf vs))
  obtain ⟨g1, g2⟩ := C60_set H hH (.enum (fieldsOf vs))
  have e : ∀ i : ItemName, (i.ty (.enum (fieldsOf vs))).has v .doubleEnded = (KeyTy.enum (fieldsOf vs)).backImpl →
      (back i ↔ (KeyTy.enum (fieldsOf vs)).hashFree = true) := by
    intro i h
    rw [← backImpl_eq, ← h]
    exact selected vs v i .doubleEnded
  exact ⟨(e _ rfl).trans h1.symm, (e _ rfl).trans h2.symm, (e _ rfl).trans h3.symm, (e _ rfl).trans h4.symm, (e _ rfl).trans h5.symm,
    (e _ rfl).trans h6.symm, (e _ rfl).trans g1.symm, (e _ rfl).trans g2.symm⟩

/-- C78: without `for<'trivial_bounds>` the `impl`s pass exactly if no payload involves a hash table. -/
theorem C78_binder (vs : List Variant) :
    (∀ h ∈ genImpls (collect vs), ∃ d, Impl.ok (genDecls (collect vs)) ((genImpls (collect vs)).map Impl.plain) h.plain d) ↔
      ∀ x ∈ vs, ∀ κ, x.elem = some κ → κ.hashFree = true := by
  constructor
  · intro h x hx κ hκ
    have hc : κ ∈ (collect vs).complex := by rw [complex_eq]; exact List.mem_filterMap.mpr ⟨x, hx, hκ⟩
    have hm : Impl.mk [] (.std .copy) .setStorage [] ((collect vs).complex.map fun κ => .has true (.set κ) (.std .copy)) ∈
        genImpls (collect vs) := mem_genImpls.mpr ⟨.setStorage, .tail _ (.tail _ (.tail _ (.tail _ (.head _))))⟩
    obtain ⟨d, ok⟩ := h _ hm
    have := ok.global (.set κ) (.std .copy) (plain_mem (List.mem_map.mpr ⟨κ, hc, rfl⟩)) rfl fun _ => true
    exact (C59_set κ).2.2.2.1.symm.trans this
  · intro h g hg
    refine ⟨_, plain_ok (impl_ok hg) fun hr ty tr hp h0 v => ?_⟩
    obtain ⟨κ, hκ, hfree⟩ := global_pred hg hp h0
    rw [complex_eq] at hκ
    obtain ⟨x, hx, e⟩ := List.mem_filterMap.mp hκ
    exact hfree (h x hx κ e) v

/-- C78: the iterators that hand out `&mut V` are not `Clone`, and could not be: with a variant without payload, `impl Clone` (or `Copy`) for one
of them fails the checks, whatever its clauses ask of `V`. -/
theorem C78_mut (vs : List Variant) (hu : ∃ x ∈ vs, x.elem = none) (q : MapIt) (hq : q = .iterMut ∨ q = .valuesMut) (t : Tr)
    (ht : t = .clone ∨ t = .copy) :
    (∀ v, ¬ Emitted (collect vs) (.mapIter q) (.std t) v) ∧
    ∀ (ps args : List Param) (preds : List Pred) (impls : List Impl) (d : Decl),
      (∀ hr ty tr, Pred.has hr ty tr ∈ preds → ty = .value ∧ ∃ u, tr = .std u) →
      ¬ Impl.ok (genDecls (collect vs)) impls ⟨ps, .std t, .mapIter q, args, preds⟩ d := by
  constructor
  · intro v h
    have := (C78_selected vs v (.mapIter q) (.std t)).1 h
    rcases hq with rfl | rfl <;> rcases ht with rfl | rfl <;> cases this
  · intro ps args preds impls d hp ok
    have hd : d = declOf (collect vs) (.mapIter q) := by
      obtain ⟨i, rfl⟩ := mem_genDecls ok.mem
      have := ok.item
      rw [declOf_item] at this
      rw [this]
    have hf : Ty.optMut ∈ d.fields := by
      obtain ⟨f, hf, hk⟩ : ∃ f ∈ (collect vs).fields, f.kind = none := by
        rw [collect_fields]
        exact unit_field hu 0
      rw [hd]
      refine .tail _ (.tail _ (List.mem_map.mpr ⟨mapIterDecl q f, List.mem_map.mpr ⟨f, hf, rfl⟩, ?_⟩))
      rw [mapIterTy_decl, hk]
      rcases hq with rfl | rfl <;> rfl
    have hn : (Trait.std t).needs .optMut = some (.std t) := by rcases ht with rfl | rfl <;> rfl
    rcases ok.body _ hf _ hn with ⟨hr, h⟩ | h
    · exact nomatch (hp _ _ _ h).1
    · have := h (fun _ => true) (fun _ _ _ _ => rfl) (fun hr u hu => by obtain ⟨_, u', rfl⟩ := hp _ _ _ hu; rfl)
      rcases ht with rfl | rfl <;> cases this

/-- Case: that enum has a variant without payload; and `impl<'a, V> Clone for Iter<'a, V> where V: 'a` is among those that pass. -/
example : (∃ x ∈ exVariants, x.elem = none) ∧ Emitted (collect exVariants) (.mapIter .iter) (.std .clone) (fun _ => false) :=
  ⟨by decide, (C78_selected _ _ _ _).2 (by decide)⟩

/-- Case: an enum with unit, `bool`, and hashed variants: it has a payload; 10 structs and 32 `impl`s; its map is
`Copy` for no `V`, and the borrowing iterator is not double-ended. -/
example : (∃ x ∈ exVariants, x.elem ≠ none) ∧ (genDecls (collect exVariants)).length = 10 ∧
    (genImpls (collect exVariants)).length = 32 ∧
    (ItemName.ty (.enum (fieldsOf exVariants)) .mapStorage).has (fun _ => true) (.std .clone) = true ∧
    (ItemName.ty (.enum (fieldsOf exVariants)) .mapStorage).has (fun _ => true) (.std .copy) = false ∧
    (ItemName.ty (.enum (fieldsOf exVariants)) (.mapIter .iter)).has (fun _ => true) .doubleEnded = false := by decide

/-- Case: the binder is needed for that enum, and not for `enum { A, B(bool) }`. -/
example : (¬ ∀ x ∈ exVariants, ∀ κ, x.elem = some κ → κ.hashFree = true) ∧
    ∀ x ∈ [Variant.mk "A" none, ⟨"B", some .bool⟩], ∀ κ, x.elem = some κ → κ.hashFree = true := by
  refine ⟨fun h => ?_, ?_⟩
  · exact absurd (h ⟨"Byte", some (.prim .u8)⟩ (.tail _ (.tail _ (.head _))) _ rfl) (by decide)
  · simp [KeyTy.hashFree]

/-- Case: only unit variants: rejected. -/
example : ¬ ∀ d ∈ genDecls (collect [⟨"A", none⟩, ⟨"B", none⟩]), d.ok := by
  rw [C78_structs]; simp

end FixedMap.Gen
