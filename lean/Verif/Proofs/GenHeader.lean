import Verif.Spec.GenHeader
import Verif.Properties.Traits
import Verif.Proofs.Gen

/-! # The emitted headers -/

set_option autoImplicit false
set_option linter.unusedSimpArgs false

namespace FixedMap

mutual
theorem backImpl_eq : (κ : KeyTy) → κ.backImpl = κ.hashFree
  | .bool | .unit | .prim _ | .units _ | .bitset _ _ _ => rfl
  | .opt κ => backImpl_eq κ
  | .enum fs => backFields_eq fs
theorem backFields_eq : (fs : Fields) → fs.backImpl = fs.hashFree
  | .nil => rfl
  | .simple fs => backFields_eq fs
  | .complex κ fs => by rw [Fields.backImpl, Fields.hashFree, backImpl_eq κ, backFields_eq fs]
end

namespace Gen

/-- The type of the field of a unit variant in an iterator of a map. -/
def simpleTy : MapIt → Ty
  | .iter | .values => .optRef
  | .keys => .plain
  | .iterMut | .valuesMut => .optMut
  | .intoIter => .optVal

theorem mapIterTy_decl (q : MapIt) (f : Field) : mapIterTy q (mapIterDecl q f).2 =
    match f.kind with
    | some κ => .mapIter κ q (q != .intoIter)
    | none => simpleTy q := by
  obtain ⟨i, n, v, k⟩ := f
  cases k <;> cases q <;> rfl

theorem setIterTy_decl (q : SetIt) (f : Field) : setIterTy q (setIterDecl q f).2 =
    match f.kind with
    | some κ => .setIter κ q (q != .intoIter)
    | none => .plain := by
  obtain ⟨i, n, v, k⟩ := f
  cases k <;> cases q <;> rfl

theorem mem_complex {F : FieldSet} {κ : KeyTy} : κ ∈ F.complex ↔ ∃ f ∈ F.fields, f.kind = some κ := by
  simp [FieldSet.complex, List.mem_filterMap]

/-- The fields of the emitted structs. -/
theorem mem_mapStorage {F : FieldSet} {t : Ty} (h : t ∈ (genMap F).decls.map fun d => d.2.ty) :
    t = .optVal ∨ ∃ κ ∈ F.complex, t = .map κ := by
  simp only [genMap, List.map_map, List.mem_map, Function.comp] at h
  obtain ⟨f, hf, e⟩ := h
  cases hk : f.kind with
  | none => rw [hk] at e; exact .inl e.symm
  | some κ => rw [hk] at e; exact .inr ⟨κ, mem_complex.mpr ⟨f, hf, hk⟩, e.symm⟩

theorem mem_setStorage {F : FieldSet} {t : Ty} (h : t ∈ (genSet F).decls.map fun d => d.2.ty) :
    t = .plain ∨ ∃ κ ∈ F.complex, t = .set κ := by
  simp only [genSet, List.map_map, List.mem_map, Function.comp] at h
  obtain ⟨f, hf, e⟩ := h
  cases hk : f.kind with
  | none => rw [hk] at e; exact .inl e.symm
  | some κ => rw [hk] at e; exact .inr ⟨κ, mem_complex.mpr ⟨f, hf, hk⟩, e.symm⟩

theorem mem_mapIter {F : FieldSet} {q : MapIt} {t : Ty}
    (h : t ∈ .plain :: .plain :: (genMapIter F q).decls.map fun d => mapIterTy q d.2) :
    t = .plain ∨ t = simpleTy q ∨ ∃ κ ∈ F.complex, t = .mapIter κ q (q != .intoIter) := by
  simp only [genMapIter, List.mem_cons, List.map_map, List.mem_map, Function.comp] at h
  rcases h with h | h | ⟨f, hf, e⟩
  · exact .inl h
  · exact .inl h
  · rw [mapIterTy_decl] at e
    cases hk : f.kind with
    | none => rw [hk] at e; exact .inr (.inl e.symm)
    | some κ => rw [hk] at e; exact .inr (.inr ⟨κ, mem_complex.mpr ⟨f, hf, hk⟩, e.symm⟩)

theorem mem_setIter {F : FieldSet} {q : SetIt} {t : Ty}
    (h : t ∈ .plain :: .plain :: (genSetIter F q).decls.map fun d => setIterTy q d.2) :
    t = .plain ∨ ∃ κ ∈ F.complex, t = .setIter κ q (q != .intoIter) := by
  simp only [genSetIter, List.mem_cons, List.map_map, List.mem_map, Function.comp] at h
  rcases h with h | h | ⟨f, hf, e⟩
  · exact .inl h
  · exact .inl h
  · rw [setIterTy_decl] at e
    cases hk : f.kind with
    | none => rw [hk] at e; exact .inl e.symm
    | some κ => rw [hk] at e; exact .inr ⟨κ, mem_complex.mpr ⟨f, hf, hk⟩, e.symm⟩

theorem mapIter_mem {F : FieldSet} {q : MapIt} {κ : KeyTy} (h : κ ∈ F.complex) :
    .mapIter κ q (q != .intoIter) ∈ .plain :: .plain :: (genMapIter F q).decls.map fun d => mapIterTy q d.2 := by
  obtain ⟨f, hf, hk⟩ := mem_complex.mp h
  simp only [genMapIter, List.mem_cons, List.map_map, List.mem_map, Function.comp]
  exact .inr (.inr ⟨f, hf, by rw [mapIterTy_decl, hk]⟩)

theorem setIter_mem {F : FieldSet} {q : SetIt} {κ : KeyTy} (h : κ ∈ F.complex) :
    .setIter κ q (q != .intoIter) ∈ .plain :: .plain :: (genSetIter F q).decls.map fun d => setIterTy q d.2 := by
  obtain ⟨f, hf, hk⟩ := mem_complex.mp h
  simp only [genSetIter, List.mem_cons, List.map_map, List.mem_map, Function.comp]
  exact .inr (.inr ⟨f, hf, by rw [setIterTy_decl, hk]⟩)

theorem mapStorage_mem {F : FieldSet} {κ : KeyTy} (h : κ ∈ F.complex) : .map κ ∈ (genMap F).decls.map fun d => d.2.ty := by
  obtain ⟨f, hf, hk⟩ := mem_complex.mp h
  simp only [genMap, List.map_map, List.mem_map, Function.comp]
  exact ⟨f, hf, by rw [hk]; rfl⟩

/-! ## Structs -/

/-- The struct of that name. -/
def declOf (F : FieldSet) : ItemName → Decl
  | .mapStorage => ⟨.mapStorage, [.value], false, (genMap F).decls.map fun d => d.2.ty⟩
  | .setStorage => ⟨.setStorage, [], false, (genSet F).decls.map fun d => d.2.ty⟩
  | .mapIter q => ⟨.mapIter q, mapIterParams q, q != .intoIter,
    .plain :: .plain :: (genMapIter F q).decls.map fun d => mapIterTy q d.2⟩
  | .setIter q => ⟨.setIter q, setIterParams q, false,
    .plain :: .plain :: (genSetIter F q).decls.map fun d => setIterTy q d.2⟩

theorem declOf_item (F : FieldSet) (i : ItemName) : (declOf F i).item = i := by cases i <;> rfl

theorem declOf_mem (F : FieldSet) (i : ItemName) : declOf F i ∈ genDecls F := by
  cases i with
  | mapStorage => simp [genDecls, declOf]
  | setStorage => simp [genDecls, declOf]
  | mapIter q => cases q <;> simp [genDecls, declOf, mapIts]
  | setIter q => cases q <;> simp [genDecls, declOf, setIts]

theorem mem_genDecls {F : FieldSet} {d : Decl} (h : d ∈ genDecls F) : ∃ i, d = declOf F i := by
  simp only [genDecls, List.mem_append, List.mem_cons, List.not_mem_nil, or_false, List.mem_map] at h
  rcases h with ((h | h) | ⟨q, -, h⟩) | ⟨q, -, h⟩
  · exact ⟨.mapStorage, h⟩
  · exact ⟨.setStorage, h⟩
  · exact ⟨.mapIter q, h.symm⟩
  · exact ⟨.setIter q, h.symm⟩

theorem declOf_ok (F : FieldSet) (hF : F.complex ≠ []) (i : ItemName) : (declOf F i).ok := by
  obtain ⟨κ, hκ⟩ := List.exists_mem_of_ne_nil _ hF
  cases i with
  | mapStorage =>
    refine ⟨?_, ?_, ?_, ?_, ?_⟩
    · intro t ht
      rcases mem_mapStorage ht with rfl | ⟨κ, -, rfl⟩ <;> exact fun _ h => h
    · intro t ht
      rcases mem_mapStorage ht with rfl | ⟨κ, -, rfl⟩ <;> trivial
    · intro p hp
      exact ⟨.map κ, mapStorage_mem hκ, hp⟩
    · intro κ q ht
      rcases mem_mapStorage ht with h | ⟨κ, -, h⟩ <;> cases h
    · intro h; cases h
  | setStorage =>
    refine ⟨?_, ?_, ?_, ?_, ?_⟩
    · intro t ht
      rcases mem_setStorage ht with rfl | ⟨κ, -, rfl⟩ <;> exact fun _ h => h
    · intro t ht
      rcases mem_setStorage ht with rfl | ⟨κ, -, rfl⟩ <;> trivial
    · intro p hp; cases hp
    · intro κ q ht
      rcases mem_setStorage ht with h | ⟨κ, -, h⟩ <;> cases h
    · intro h; cases h
  | mapIter q =>
    refine ⟨?_, ?_, ?_, ?_, ?_⟩
    · intro t ht
      rcases mem_mapIter ht with rfl | rfl | ⟨κ, -, rfl⟩ <;> cases q <;> intro p hp <;> revert hp <;> cases p <;>
        simp [declOf, Ty.params, mapIterParams, setIterParams, simpleTy]
    · intro t ht
      rcases mem_mapIter ht with rfl | rfl | ⟨κ, -, rfl⟩
      · trivial
      · cases q <;> trivial
      · exact rfl
    · intro p hp
      refine ⟨_, mapIter_mem hκ, ?_⟩
      revert hp
      cases q <;> cases p <;> simp [declOf, Ty.params, mapIterParams, setIterParams, simpleTy]
    · intro κ' q' ht
      rcases mem_mapIter ht with h | h | ⟨κ, -, h⟩
      · cases h
      · cases q <;> cases h
      · injection h with _ _ h3; exact h3.symm
    · cases q <;> intro h <;> first | exact ⟨.head _, .tail _ (.head _)⟩ | cases h
  | setIter q =>
    refine ⟨?_, ?_, ?_, ?_, ?_⟩
    · intro t ht
      rcases mem_setIter ht with rfl | ⟨κ, -, rfl⟩ <;> cases q <;> intro p hp <;> revert hp <;> cases p <;>
        simp [declOf, Ty.params, mapIterParams, setIterParams, simpleTy]
    · intro t ht
      rcases mem_setIter ht with rfl | ⟨κ, -, rfl⟩
      · trivial
      · exact rfl
    · intro p hp
      refine ⟨_, setIter_mem hκ, ?_⟩
      revert hp
      cases q <;> cases p <;> simp [declOf, Ty.params, mapIterParams, setIterParams, simpleTy]
    · intro κ' q' ht
      rcases mem_setIter ht with h | ⟨κ, -, h⟩ <;> cases h
    · intro h; cases h

/-! ## Impls -/

theorem mapImpl_clone (v : Tr → Bool) (κ : KeyTy) : κ.mapImpl v .clone = v .clone := (C59_map v κ).1
theorem mapImpl_partialEq (v : Tr → Bool) (κ : KeyTy) : κ.mapImpl v .partialEq = v .partialEq := (C59_map v κ).2.1

/-- A well-formed clause. -/
def Pred.fine : Pred → Prop
  | .has hr ty tr => ty.arity ∧ (hr = false → ty.params = [] → ∀ v, ty.has v tr = true)
  | .outlives => True

/-- The parts of `Impl.ok` that do not look at bodies and supertraits. -/
structure Impl.fits (h : Impl) (d : Decl) : Prop where
  args : h.args = d.params
  params : h.args = h.params
  scope : ∀ p ∈ h.preds, p.params ⊆ h.params
  fine : ∀ p ∈ h.preds, p.fine
  outlives : d.outlives = true → .outlives ∈ h.preds

theorem mem_mapStorageImpls {F : FieldSet} {h : Impl} (hm : h ∈ mapStorageImpls F) : h.fits (declOf F h.item) := by
  simp only [mapStorageImpls, List.mem_cons, List.not_mem_nil, or_false] at hm
  rcases hm with rfl | rfl | rfl | rfl | rfl <;> constructor <;>
    simp [declOf, Pred.params, Ty.params, Pred.fine, Ty.arity]

theorem mem_setStorageImpls {F : FieldSet} {h : Impl} (hm : h ∈ setStorageImpls F) : h.fits (declOf F h.item) := by
  simp only [setStorageImpls, List.mem_cons, List.not_mem_nil, or_false] at hm
  rcases hm with rfl | rfl | rfl | rfl | rfl <;> constructor <;>
    simp [declOf, Pred.params, Ty.params, Pred.fine, Ty.arity]

theorem mem_mapIterImpls {F : FieldSet} {q : MapIt} {h : Impl} (hm : h ∈ mapIterImpls F q) : h.fits (declOf F h.item) := by
  cases q <;> simp only [mapIterImpls, List.mem_cons, List.not_mem_nil, or_false] at hm <;>
    (try rcases hm with rfl | rfl | rfl) <;> (try rcases hm with rfl | rfl) <;> constructor <;>
    simp [declOf, Pred.params, Ty.params, Pred.fine, Ty.arity, mapIterParams, mapBackPreds, or_imp, forall_and]

theorem mem_setIterImpls {F : FieldSet} {q : SetIt} {h : Impl} (hm : h ∈ setIterImpls F q) : h.fits (declOf F h.item) := by
  cases q <;> simp only [setIterImpls, List.mem_cons, List.not_mem_nil, or_false] at hm <;>
    rcases hm with rfl | rfl | rfl <;> constructor <;>
    simp [declOf, Pred.params, Ty.params, Pred.fine, Ty.arity, setIterParams]

/-! ### Bodies -/

theorem mapStorage_body {F : FieldSet} {h : Impl} (hm : h ∈ mapStorageImpls F) {ty : Ty}
    (ht : ty ∈ (declOf F .mapStorage).fields) {tr : Trait} (hn : h.tr.needs ty = some tr) : h.meets ty tr := by
  simp only [mapStorageImpls, List.mem_cons, List.not_mem_nil, or_false] at hm
  rcases hm with rfl | rfl | rfl | rfl | rfl
  · cases hn
  · cases hn
    refine .inr fun v _ hv => ?_
    have := hv false _ (.head _)
    rcases mem_mapStorage ht with rfl | ⟨κ, -, rfl⟩
    · exact this
    · exact (mapImpl_partialEq v κ).trans this
  · cases hn
  · cases hn
    refine .inr fun v _ hv => ?_
    have := hv false _ (.head _)
    rcases mem_mapStorage ht with rfl | ⟨κ, -, rfl⟩
    · exact this
    · exact (mapImpl_clone v κ).trans this
  · cases hn
    rcases mem_mapStorage ht with rfl | ⟨κ, hκ, rfl⟩
    · exact .inr fun v _ hv => hv false _ (.head _)
    · exact .inl ⟨false, .tail _ (List.mem_map.mpr ⟨κ, hκ, rfl⟩)⟩

theorem setStorage_body {F : FieldSet} {h : Impl} (hm : h ∈ setStorageImpls F) {ty : Ty}
    (ht : ty ∈ (declOf F .setStorage).fields) {tr : Trait} (hn : h.tr.needs ty = some tr) : h.meets ty tr := by
  simp only [setStorageImpls, List.mem_cons, List.not_mem_nil, or_false] at hm
  rcases hm with rfl | rfl | rfl | rfl | rfl
  · cases hn
  · cases hn
    refine .inr fun v _ _ => ?_
    rcases mem_setStorage ht with rfl | ⟨κ, -, rfl⟩
    · rfl
    · exact (C59_set κ).2.1
  · cases hn
  · cases hn
    rcases mem_setStorage ht with rfl | ⟨κ, hκ, rfl⟩
    · exact .inr fun v _ _ => rfl
    · exact .inl ⟨true, List.mem_map.mpr ⟨κ, hκ, rfl⟩⟩
  · cases hn
    rcases mem_setStorage ht with rfl | ⟨κ, hκ, rfl⟩
    · exact .inr fun v _ _ => rfl
    · exact .inl ⟨true, List.mem_map.mpr ⟨κ, hκ, rfl⟩⟩

theorem iterator_meets (h : Impl) (hh : h.tr = .iterator) {ty : Ty} {tr : Trait} (hn : h.tr.needs ty = some tr) : h.meets ty tr := by
  rw [hh] at hn
  cases ty with
  | mapIter κ q lt => cases hn; cases q <;> exact .inr fun v _ _ => rfl
  | setIter κ q lt => cases hn; cases q <;> exact .inr fun v _ _ => rfl
  | _ => cases hn

theorem back_meets {F : FieldSet} {q : MapIt} {h : Impl} (hh : h.tr = .doubleEnded) (hp : h.preds = mapBackPreds F q) {ty : Ty}
    (ht : ty ∈ (declOf F (.mapIter q)).fields) {tr : Trait} (hn : h.tr.needs ty = some tr) : h.meets ty tr := by
  rw [hh] at hn
  rcases mem_mapIter ht with rfl | rfl | ⟨κ, hκ, rfl⟩
  · cases hn
  · cases q <;> cases hn
  · cases hn
    refine .inl ⟨false, ?_⟩
    rw [hp]
    exact List.mem_append_left _ (List.mem_map.mpr ⟨κ, hκ, rfl⟩)

theorem mapIter_body {F : FieldSet} {q : MapIt} {h : Impl} (hm : h ∈ mapIterImpls F q) {ty : Ty}
    (ht : ty ∈ (declOf F (.mapIter q)).fields) {tr : Trait} (hn : h.tr.needs ty = some tr) : h.meets ty tr := by
  have hc : ∀ κ : KeyTy, κ.mapIterClone = true := fun κ => (C59_iterators (fun _ => true) κ).1
  cases q with
  | iter =>
    simp only [mapIterImpls, List.mem_cons, List.not_mem_nil, or_false] at hm
    rcases hm with rfl | rfl | rfl
    · cases hn
      refine .inr fun v _ _ => ?_
      rcases mem_mapIter ht with rfl | rfl | ⟨κ, -, rfl⟩
      · rfl
      · rfl
      · exact hc κ
    · exact iterator_meets _ rfl hn
    · exact back_meets rfl rfl ht hn
  | keys =>
    simp only [mapIterImpls, List.mem_cons, List.not_mem_nil, or_false] at hm
    rcases hm with rfl | rfl | rfl
    · cases hn
      refine .inr fun v _ _ => ?_
      rcases mem_mapIter ht with rfl | rfl | ⟨κ, -, rfl⟩
      · rfl
      · rfl
      · exact hc κ
    · exact iterator_meets _ rfl hn
    · exact back_meets rfl rfl ht hn
  | values =>
    simp only [mapIterImpls, List.mem_cons, List.not_mem_nil, or_false] at hm
    rcases hm with rfl | rfl | rfl
    · cases hn
      refine .inr fun v _ _ => ?_
      rcases mem_mapIter ht with rfl | rfl | ⟨κ, -, rfl⟩
      · rfl
      · rfl
      · exact hc κ
    · exact iterator_meets _ rfl hn
    · exact back_meets rfl rfl ht hn
  | iterMut =>
    simp only [mapIterImpls, List.mem_cons, List.not_mem_nil, or_false] at hm
    rcases hm with rfl | rfl
    · exact iterator_meets _ rfl hn
    · exact back_meets rfl rfl ht hn
  | valuesMut =>
    simp only [mapIterImpls, List.mem_cons, List.not_mem_nil, or_false] at hm
    rcases hm with rfl | rfl
    · exact iterator_meets _ rfl hn
    · exact back_meets rfl rfl ht hn
  | intoIter =>
    simp only [mapIterImpls, List.mem_cons, List.not_mem_nil, or_false] at hm
    rcases hm with rfl | rfl | rfl
    · cases hn
      rcases mem_mapIter ht with rfl | rfl | ⟨κ, hκ, rfl⟩
      · exact .inr fun v _ _ => rfl
      · exact .inr fun v _ hv => hv false _ (.head _)
      · exact .inl ⟨false, .tail _ (List.mem_map.mpr ⟨κ, hκ, rfl⟩)⟩
    · exact iterator_meets _ rfl hn
    · exact back_meets rfl rfl ht hn

theorem setIter_body {F : FieldSet} {q : SetIt} {h : Impl} (hm : h ∈ setIterImpls F q) {ty : Ty}
    (ht : ty ∈ (declOf F (.setIter q)).fields) {tr : Trait} (hn : h.tr.needs ty = some tr) : h.meets ty tr := by
  have hc : ∀ κ : KeyTy, κ.setIterClone = true := fun κ => (C59_iterators (fun _ => true) κ).2.1
  cases q with
  | iter =>
    simp only [setIterImpls, List.mem_cons, List.not_mem_nil, or_false] at hm
    rcases hm with rfl | rfl | rfl
    · cases hn
      refine .inr fun v _ _ => ?_
      rcases mem_setIter ht with rfl | ⟨κ, -, rfl⟩
      · rfl
      · exact hc κ
    · exact iterator_meets _ rfl hn
    · rcases mem_setIter ht with rfl | ⟨κ, hκ, rfl⟩
      · cases hn
      · cases hn
        exact .inl ⟨false, List.mem_map.mpr ⟨κ, hκ, rfl⟩⟩
  | intoIter =>
    simp only [setIterImpls, List.mem_cons, List.not_mem_nil, or_false] at hm
    rcases hm with rfl | rfl | rfl
    · cases hn
      rcases mem_setIter ht with rfl | ⟨κ, hκ, rfl⟩
      · exact .inr fun v _ _ => rfl
      · exact .inl ⟨true, List.mem_map.mpr ⟨κ, hκ, rfl⟩⟩
    · exact iterator_meets _ rfl hn
    · rcases mem_setIter ht with rfl | ⟨κ, hκ, rfl⟩
      · cases hn
      · cases hn
        exact .inl ⟨true, List.mem_map.mpr ⟨κ, hκ, rfl⟩⟩

/-! ### Supertraits -/

/-- There is an `impl` of `t` for the same struct that applies whenever `h` does. -/
def Impl.covered (impls : List Impl) (h : Impl) (t : Trait) : Prop :=
  ∃ g ∈ impls, g.tr = t ∧ g.item = h.item ∧ ∀ v, Lawful v → h.applies v = true → g.applies v = true

theorem applies_cons {ps as : List Param} {tr : Trait} {i : ItemName} {p : Pred} {l : List Pred} {v : Tr → Bool}
    (h : (Impl.mk ps tr i as (p :: l)).applies v = true) : p.holds v = true ∧ ∀ q ∈ l, q.holds v = true := by
  simpa [Impl.applies] using h

theorem mapStorage_supers {F : FieldSet} {h : Impl} (hm : h ∈ mapStorageImpls F) {t : Trait} (ht : t ∈ h.tr.supers) :
    h.covered (mapStorageImpls F) t := by
  simp only [mapStorageImpls, List.mem_cons, List.not_mem_nil, or_false] at hm
  rcases hm with rfl | rfl | rfl | rfl | rfl <;>
    simp only [Trait.supers, Tr.supers, List.map_nil, List.map_cons, List.mem_cons, List.not_mem_nil, or_false] at ht
  · subst ht
    refine ⟨_, .tail _ (.head _), rfl, rfl, fun v hv ha => ?_⟩
    have := hv .eq .partialEq (.head _) (applies_cons ha).1
    simpa [Impl.applies, Pred.holds, Ty.has] using this
  · subst ht
    refine ⟨_, .tail _ (.tail _ (.tail _ (.head _))), rfl, rfl, fun v hv ha => ?_⟩
    have := hv .copy .clone (.head _) (applies_cons ha).1
    simpa [Impl.applies, Pred.holds, Ty.has] using this

theorem setStorage_supers {F : FieldSet} {h : Impl} (hm : h ∈ setStorageImpls F) {t : Trait} (ht : t ∈ h.tr.supers) :
    h.covered (setStorageImpls F) t := by
  simp only [setStorageImpls, List.mem_cons, List.not_mem_nil, or_false] at hm
  rcases hm with rfl | rfl | rfl | rfl | rfl <;>
    simp only [Trait.supers, Tr.supers, List.map_nil, List.map_cons, List.mem_cons, List.not_mem_nil, or_false] at ht
  · subst ht
    exact ⟨_, .tail _ (.head _), rfl, rfl, fun v hv ha => rfl⟩
  · subst ht
    refine ⟨_, .tail _ (.tail _ (.tail _ (.head _))), rfl, rfl, fun v hv ha => ?_⟩
    refine List.all_eq_true.mpr fun p hp => ?_
    obtain ⟨κ, -, rfl⟩ := List.mem_map.mp hp
    exact (C59_set κ).1

theorem mapIter_supers {F : FieldSet} {q : MapIt} {h : Impl} (hm : h ∈ mapIterImpls F q) {t : Trait} (ht : t ∈ h.tr.supers) :
    h.covered (mapIterImpls F q) t := by
  cases q <;> simp only [mapIterImpls, List.mem_cons, List.not_mem_nil, or_false] at hm <;>
    (try rcases hm with rfl | rfl | rfl) <;> (try rcases hm with rfl | rfl) <;>
    simp only [Trait.supers, Tr.supers, List.map_nil, List.map_cons, List.mem_cons, List.not_mem_nil, or_false] at ht <;> subst ht
  all_goals first
    | exact ⟨_, .tail _ (.head _), rfl, rfl, fun v hv ha => rfl⟩
    | exact ⟨_, .head _, rfl, rfl, fun v hv ha => rfl⟩

theorem setIter_supers {F : FieldSet} {q : SetIt} {h : Impl} (hm : h ∈ setIterImpls F q) {t : Trait} (ht : t ∈ h.tr.supers) :
    h.covered (setIterImpls F q) t := by
  cases q <;> simp only [setIterImpls, List.mem_cons, List.not_mem_nil, or_false] at hm <;>
    rcases hm with rfl | rfl | rfl <;>
    simp only [Trait.supers, Tr.supers, List.map_nil, List.map_cons, List.mem_cons, List.not_mem_nil, or_false] at ht <;> subst ht
  all_goals exact ⟨_, .tail _ (.head _), rfl, rfl, fun v hv ha => rfl⟩

/-! ### All together -/

theorem item_mapStorage {F : FieldSet} {h : Impl} (hm : h ∈ mapStorageImpls F) : h.item = .mapStorage := by
  simp only [mapStorageImpls, List.mem_cons, List.not_mem_nil, or_false] at hm
  rcases hm with rfl | rfl | rfl | rfl | rfl <;> rfl

theorem item_setStorage {F : FieldSet} {h : Impl} (hm : h ∈ setStorageImpls F) : h.item = .setStorage := by
  simp only [setStorageImpls, List.mem_cons, List.not_mem_nil, or_false] at hm
  rcases hm with rfl | rfl | rfl | rfl | rfl <;> rfl

theorem item_mapIter {F : FieldSet} {q : MapIt} {h : Impl} (hm : h ∈ mapIterImpls F q) : h.item = .mapIter q := by
  cases q <;> simp only [mapIterImpls, List.mem_cons, List.not_mem_nil, or_false] at hm <;>
    (try rcases hm with rfl | rfl | rfl) <;> (try rcases hm with rfl | rfl) <;> rfl

theorem item_setIter {F : FieldSet} {q : SetIt} {h : Impl} (hm : h ∈ setIterImpls F q) : h.item = .setIter q := by
  cases q <;> simp only [setIterImpls, List.mem_cons, List.not_mem_nil, or_false] at hm <;>
    rcases hm with rfl | rfl | rfl <;> rfl

/-- The `impl`s of a struct. -/
def implsOf (F : FieldSet) : ItemName → List Impl
  | .mapStorage => mapStorageImpls F
  | .setStorage => setStorageImpls F
  | .mapIter q => mapIterImpls F q
  | .setIter q => setIterImpls F q

theorem mem_mapIts (q : MapIt) : q ∈ mapIts := by cases q <;> decide
theorem mem_setIts (q : SetIt) : q ∈ setIts := by cases q <;> decide

theorem mem_genImpls {F : FieldSet} {h : Impl} : h ∈ genImpls F ↔ ∃ i, h ∈ implsOf F i := by
  simp only [genImpls, List.mem_append, List.mem_flatMap]
  constructor
  · rintro (((h | h) | ⟨q, -, h⟩) | ⟨q, -, h⟩)
    · exact ⟨.mapStorage, h⟩
    · exact ⟨.setStorage, h⟩
    · exact ⟨.mapIter q, h⟩
    · exact ⟨.setIter q, h⟩
  · rintro ⟨i, h⟩
    cases i with
    | mapStorage => exact .inl (.inl (.inl h))
    | setStorage => exact .inl (.inl (.inr h))
    | mapIter q => exact .inl (.inr ⟨q, mem_mapIts q, h⟩)
    | setIter q => exact .inr ⟨q, mem_setIts q, h⟩

theorem implsOf_item {F : FieldSet} {i : ItemName} {h : Impl} (hm : h ∈ implsOf F i) : h.item = i := by
  cases i with
  | mapStorage => exact item_mapStorage hm
  | setStorage => exact item_setStorage hm
  | mapIter q => exact item_mapIter hm
  | setIter q => exact item_setIter hm

theorem mem_implsOf {F : FieldSet} {h : Impl} (hm : h ∈ genImpls F) : h ∈ implsOf F h.item := by
  obtain ⟨i, hi⟩ := mem_genImpls.mp hm
  rw [implsOf_item hi]; exact hi

theorem impl_ok {F : FieldSet} {h : Impl} (hm : h ∈ genImpls F) : Impl.ok (genDecls F) (genImpls F) h (declOf F h.item) := by
  obtain ⟨i, hi⟩ := mem_genImpls.mp hm
  have e := implsOf_item hi
  have key : h.fits (declOf F h.item) ∧ (∀ t ∈ h.tr.supers, h.covered (implsOf F i) t) ∧
      ∀ ty ∈ (declOf F i).fields, ∀ tr, h.tr.needs ty = some tr → h.meets ty tr := by
    cases i with
    | mapStorage => exact ⟨mem_mapStorageImpls hi, fun t ht => mapStorage_supers hi ht, fun ty ht tr hn => mapStorage_body hi ht hn⟩
    | setStorage => exact ⟨mem_setStorageImpls hi, fun t ht => setStorage_supers hi ht, fun ty ht tr hn => setStorage_body hi ht hn⟩
    | mapIter q => exact ⟨mem_mapIterImpls hi, fun t ht => mapIter_supers hi ht, fun ty ht tr hn => mapIter_body hi ht hn⟩
    | setIter q => exact ⟨mem_setIterImpls hi, fun t ht => setIter_supers hi ht, fun ty ht tr hn => setIter_body hi ht hn⟩
  obtain ⟨f, hs, hb⟩ := key
  refine ⟨declOf_mem F _, declOf_item F _, f.args, ⟨fun p hp => f.params ▸ hp, f.scope⟩, fun p hp => f.params ▸ hp, ?_, f.outlives, ?_, ?_, ?_⟩
  · intro hr ty tr hp
    exact (f.fine _ hp).1
  · intro ty tr hp h0
    exact (f.fine _ hp).2 rfl h0
  · intro t ht
    obtain ⟨g, hg, h1, h2, h3⟩ := hs t ht
    exact ⟨g, mem_genImpls.mpr ⟨i, hg⟩, h1, h2, h3⟩
  · rw [e]; exact hb

/-! ## Selection -/

theorem emitted_iff {F : FieldSet} {i : ItemName} {t : Trait} {v : Tr → Bool} :
    Emitted F i t v ↔ ∃ h ∈ implsOf F i, h.tr = t ∧ h.applies v = true := by
  constructor
  · rintro ⟨h, hm, rfl, ht, ha⟩
    exact ⟨h, mem_implsOf hm, ht, ha⟩
  · rintro ⟨h, hm, ht, ha⟩
    exact ⟨h, mem_genImpls.mpr ⟨i, hm⟩, implsOf_item hm, ht, ha⟩

theorem complex_from (vs : List Variant) : ∀ i, (fieldsFrom i vs).filterMap (·.kind) = vs.filterMap (·.elem) := by
  induction vs with
  | nil => intro i; rfl
  | cons x vs ih =>
    intro i
    obtain ⟨n, e⟩ := x
    cases e <;> simp [fieldsFrom, fieldAt, ih]

theorem complex_eq (vs : List Variant) : (collect vs).complex = vs.filterMap (·.elem) := by
  rw [FieldSet.complex, collect_fields, complex_from]

theorem bounds_fold (f : KeyTy → Bool) (g : Fields → Bool) (h0 : g .nil = true) (h1 : ∀ fs, g (.simple fs) = g fs)
    (h2 : ∀ κ fs, g (.complex κ fs) = (f κ && g fs)) (vs : List Variant) :
    g (fieldsOf vs) = (vs.filterMap (·.elem)).all f := by
  induction vs with
  | nil => exact h0
  | cons x vs ih =>
    obtain ⟨n, e⟩ := x
    cases e with
    | none => rw [fieldsOf, h1, ih]; rfl
    | some κ => rw [fieldsOf, h2, ih]; rfl

theorem all_has (hr : Bool) (ty : KeyTy → Ty) (tr : Trait) (v : Tr → Bool) (l : List KeyTy) :
    (l.map fun κ => Pred.has hr (ty κ) tr).all (Pred.holds v) = l.all fun κ => (ty κ).has v tr := by
  rw [List.all_map]; rfl

theorem selected (vs : List Variant) (v : Tr → Bool) (i : ItemName) (t : Trait) :
    Emitted (collect vs) i t v ↔ (i.ty (.enum (fieldsOf vs))).has v t = true := by
  rw [emitted_iff]
  have hback : (fieldsOf vs).backImpl = (vs.filterMap (·.elem)).all KeyTy.backImpl :=
    bounds_fold _ Fields.backImpl rfl (fun _ => rfl) (fun _ _ => rfl) vs
  have hcopy : (fieldsOf vs).mapBounds v .copy = (vs.filterMap (·.elem)).all fun κ => κ.mapImpl v .copy :=
    bounds_fold _ (fun fs => fs.mapBounds v .copy) rfl (fun _ => rfl) (fun _ _ => rfl) vs
  have hset : ∀ t, (fieldsOf vs).setBounds t = (vs.filterMap (·.elem)).all fun κ => κ.setImpl t := fun t =>
    bounds_fold _ (fun fs => fs.setBounds t) rfl (fun _ => rfl) (fun _ _ => rfl) vs
  have hmi : (fieldsOf vs).mapIntoIterClone v = (vs.filterMap (·.elem)).all fun κ => κ.mapIntoIterClone v :=
    bounds_fold _ (fun fs => fs.mapIntoIterClone v) rfl (fun _ => rfl) (fun _ _ => rfl) vs
  have hsi : (fieldsOf vs).setIntoIterClone = (vs.filterMap (·.elem)).all fun κ => κ.setIntoIterClone :=
    bounds_fold _ Fields.setIntoIterClone rfl (fun _ => rfl) (fun _ _ => rfl) vs
  cases i with
  | mapStorage =>
    simp only [implsOf, mapStorageImpls, List.mem_cons, List.not_mem_nil, or_false, exists_eq_or_imp, exists_eq_left, Impl.applies,
      List.all_cons, List.all_nil, Pred.holds, Ty.has, ItemName.ty, all_has, complex_eq, Bool.and_true]
    cases t with
    | std t => cases t <;> simp [Ty.has, KeyTy.mapImpl, Tr.basic, hcopy]
    | _ => simp [Ty.has]
  | setStorage =>
    simp only [implsOf, setStorageImpls, List.mem_cons, List.not_mem_nil, or_false, exists_eq_or_imp, exists_eq_left, Impl.applies,
      List.all_cons, List.all_nil, Pred.holds, Ty.has, ItemName.ty, all_has, complex_eq, Bool.and_true]
    cases t with
    | std t => cases t <;> simp [Ty.has, KeyTy.setImpl, Tr.basic, hset]
    | _ => simp [Ty.has]
  | mapIter q =>
    have hclone := (C59_iterators v (.enum (fieldsOf vs))).1
    cases q <;>
    simp only [implsOf, mapIterImpls, mapBackPreds, List.mem_cons, List.not_mem_nil, or_false, exists_eq_or_imp, exists_eq_left,
      Impl.applies, List.all_cons, List.all_nil, List.all_append, Pred.holds, Ty.has, ItemName.ty, all_has, complex_eq, Bool.and_true,
      reduceCtorEq, if_true, if_false]
    all_goals
      cases t with
      | std t => cases t <;> simp [Ty.has, hclone, KeyTy.mapIntoIterClone, hmi]
      | _ => simp [Ty.has, KeyTy.backImpl, hback]
  | setIter q =>
    have hclone := (C59_iterators v (.enum (fieldsOf vs))).2.1
    cases q <;>
    simp only [implsOf, setIterImpls, List.mem_cons, List.not_mem_nil, or_false, exists_eq_or_imp, exists_eq_left,
      Impl.applies, List.all_cons, List.all_nil, List.all_append, Pred.holds, Ty.has, ItemName.ty, all_has, complex_eq, Bool.and_true]
    all_goals
      cases t with
      | std t => cases t <;> simp [Ty.has, hclone, KeyTy.setIntoIterClone, hsi]
      | _ => simp [Ty.has, KeyTy.backImpl, hback]

/-! ## Coherence -/

theorem implsOf_unique {F : FieldSet} {i : ItemName} {g h : Impl} (hg : g ∈ implsOf F i) (hh : h ∈ implsOf F i)
    (ht : g.tr = h.tr) : g = h := by
  cases i with
  | mapStorage =>
    simp only [implsOf, mapStorageImpls, List.mem_cons, List.not_mem_nil, or_false] at hg hh
    rcases hg with rfl | rfl | rfl | rfl | rfl <;> rcases hh with rfl | rfl | rfl | rfl | rfl <;> first | rfl | (exact absurd ht (by simp))
  | setStorage =>
    simp only [implsOf, setStorageImpls, List.mem_cons, List.not_mem_nil, or_false] at hg hh
    rcases hg with rfl | rfl | rfl | rfl | rfl <;> rcases hh with rfl | rfl | rfl | rfl | rfl <;> first | rfl | (exact absurd ht (by simp))
  | mapIter q =>
    cases q <;> simp only [implsOf, mapIterImpls, List.mem_cons, List.not_mem_nil, or_false] at hg hh <;>
    (try rcases hg with rfl | rfl | rfl) <;> (try rcases hg with rfl | rfl) <;>
    (try rcases hh with rfl | rfl | rfl) <;> (try rcases hh with rfl | rfl) <;> first | rfl | (exact absurd ht (by simp))
  | setIter q =>
    cases q <;> simp only [implsOf, setIterImpls, List.mem_cons, List.not_mem_nil, or_false] at hg hh <;>
    rcases hg with rfl | rfl | rfl <;> rcases hh with rfl | rfl | rfl <;> first | rfl | (exact absurd ht (by simp))

/-! ## Without the binder -/

theorem plain_params (p : Pred) : p.plain.params = p.params := by cases p <;> rfl

theorem plain_holds (v : Tr → Bool) (p : Pred) : p.plain.holds v = p.holds v := by cases p <;> rfl

theorem plain_applies (h : Impl) (v : Tr → Bool) : h.plain.applies v = h.applies v := by
  simp only [Impl.applies, Impl.plain, List.all_map]
  congr 1
  funext p; exact plain_holds v p

theorem mem_plain {h : Impl} {hr : Bool} {ty : Ty} {tr : Trait} (hm : .has hr ty tr ∈ h.plain.preds) :
    hr = false ∧ ∃ hr', .has hr' ty tr ∈ h.preds := by
  obtain ⟨p, hp, e⟩ := List.mem_map.mp hm
  cases p with
  | outlives => cases e
  | has a b c => cases e; exact ⟨rfl, a, hp⟩

theorem plain_mem {h : Impl} {hr : Bool} {ty : Ty} {tr : Trait} (hm : .has hr ty tr ∈ h.preds) :
    .has false ty tr ∈ h.plain.preds := List.mem_map.mpr ⟨_, hm, rfl⟩

theorem plain_ok {decls : List Decl} {impls : List Impl} {h : Impl} {d : Decl} (ok : Impl.ok decls impls h d)
    (hg : ∀ hr ty tr, .has hr ty tr ∈ h.preds → ty.params = [] → ∀ v, ty.has v tr = true) :
    Impl.ok decls (impls.map Impl.plain) h.plain d := by
  refine ⟨ok.mem, ok.item, ok.args, ⟨ok.scope.1, ?_⟩, ok.constrained, ?_, ?_, ?_, ?_, ?_⟩
  · intro p hp
    obtain ⟨p, hm, rfl⟩ := List.mem_map.mp hp
    rw [plain_params]; exact ok.scope.2 p hm
  · intro hr ty tr hp
    obtain ⟨-, hr', hp⟩ := mem_plain hp
    exact ok.arity _ _ _ hp
  · intro ho
    exact List.mem_map.mpr ⟨_, ok.outlives ho, rfl⟩
  · intro ty tr hp h0
    obtain ⟨-, hr', hp⟩ := mem_plain hp
    exact hg hr' ty tr hp h0
  · intro t ht
    obtain ⟨g, hm, h1, h2, h3⟩ := ok.supers t ht
    refine ⟨g.plain, List.mem_map.mpr ⟨g, hm, rfl⟩, h1, h2, fun v hv ha => ?_⟩
    rw [plain_applies] at ha ⊢
    exact h3 v hv ha
  · intro ty ht tr hn
    rcases ok.body ty ht tr hn with ⟨hr, hp⟩ | hb
    · exact .inl ⟨false, plain_mem hp⟩
    · exact .inr fun v hv hp => hb v hv fun hr u hu => hp false u (plain_mem hu)

/-- The clauses without parameters, and when they are true. -/
theorem global_pred {F : FieldSet} {h : Impl} (hm : h ∈ genImpls F) {hr : Bool} {ty : Ty} {tr : Trait}
    (hp : .has hr ty tr ∈ h.preds) (h0 : ty.params = []) :
    ∃ κ ∈ F.complex, (κ.hashFree = true → ∀ v, ty.has v tr = true) := by
  obtain ⟨i, hi⟩ := mem_genImpls.mp hm
  cases i with
  | mapStorage =>
    simp only [implsOf, mapStorageImpls, List.mem_cons, List.not_mem_nil, or_false] at hi
    rcases hi with rfl | rfl | rfl | rfl | rfl <;>
      simp only [List.mem_cons, List.not_mem_nil, or_false, Pred.has.injEq, List.mem_map] at hp
    · obtain ⟨-, rfl, -⟩ := hp; cases h0
    · obtain ⟨-, rfl, -⟩ := hp; cases h0
    · obtain ⟨-, rfl, -⟩ := hp; cases h0
    · rcases hp with ⟨-, rfl, -⟩ | ⟨κ, -, -, rfl, -⟩ <;> cases h0
  | setStorage =>
    simp only [implsOf, setStorageImpls, List.mem_cons, List.not_mem_nil, or_false] at hi
    rcases hi with rfl | rfl | rfl | rfl | rfl <;>
      simp only [List.mem_cons, List.not_mem_nil, or_false, Pred.has.injEq, List.mem_map] at hp
    · obtain ⟨κ, hκ, -, rfl, rfl⟩ := hp
      exact ⟨κ, hκ, fun _ v => (C59_set κ).1⟩
    · obtain ⟨κ, hκ, -, rfl, rfl⟩ := hp
      exact ⟨κ, hκ, fun h v => (C59_set κ).2.2.2.1.trans h⟩
  | mapIter q =>
    have hback : ∀ κ : KeyTy, (Ty.mapIter κ q (q != .intoIter)).params ≠ [] := by intro κ; cases q <;> simp [Ty.params]
    have hb : .has hr ty tr ∈ mapBackPreds F q → False := by
      intro hp
      simp only [mapBackPreds, List.mem_append, List.mem_map, Pred.has.injEq] at hp
      rcases hp with ⟨κ, -, -, rfl, -⟩ | hp
      · exact hback κ h0
      · split at hp <;> simp at hp
    cases q <;> simp only [implsOf, mapIterImpls, List.mem_cons, List.not_mem_nil, or_false] at hi
    case iterMut | valuesMut =>
      rcases hi with rfl | rfl
      · simp at hp
      · exact (hb hp).elim
    case intoIter =>
      rcases hi with rfl | rfl | rfl
      · simp only [List.mem_cons, Pred.has.injEq, List.mem_map] at hp
        rcases hp with ⟨-, rfl, -⟩ | ⟨κ, -, -, rfl, -⟩ <;> cases h0
      · simp at hp
      · exact (hb hp).elim
    all_goals
      rcases hi with rfl | rfl | rfl
      · simp at hp
      · simp at hp
      · exact (hb hp).elim
  | setIter q =>
    cases q <;> simp only [implsOf, setIterImpls, List.mem_cons, List.not_mem_nil, or_false] at hi <;>
      rcases hi with rfl | rfl | rfl <;>
      simp only [List.mem_cons, List.not_mem_nil, or_false, Pred.has.injEq, List.mem_map] at hp
    · obtain ⟨κ, -, -, rfl, -⟩ := hp; cases h0
    · obtain ⟨κ, hκ, -, rfl, rfl⟩ := hp
      exact ⟨κ, hκ, fun h v => (setIntoIterClone_eq κ).trans h⟩
    · obtain ⟨κ, hκ, -, rfl, rfl⟩ := hp
      exact ⟨κ, hκ, fun h v => (backImpl_eq κ).trans h⟩

theorem unit_field {vs : List Variant} (hu : ∃ x ∈ vs, x.elem = none) : ∀ i, ∃ f ∈ fieldsFrom i vs, f.kind = none := by
  obtain ⟨x, hx, e⟩ := hu
  induction vs with
  | nil => cases hx
  | cons y vs ih =>
    intro i
    rcases List.mem_cons.1 hx with rfl | hx
    · exact ⟨_, .head _, by obtain ⟨n, k⟩ := x; cases e; rfl⟩
    · obtain ⟨f, hf, hk⟩ := ih hx (i + 1)
      exact ⟨f, .tail _ hf, hk⟩

end Gen

end FixedMap
