import Verif.Proofs.Auto

/-!
# C85: `Send` and `Sync`
-/

set_option autoImplicit false

namespace FixedMap

open Gen (MapIt SetIt)

/-- C85: rustc's rules say `Send` and `Sync` exactly where the accesses to values justify it. -/
theorem C85_rules (v : Auto) (t : RTy) : ((t.auto v).send = true ↔ t.maySend v) ∧ ((t.auto v).sync = true ↔ t.mayShare v) :=
  ⟨RTy.send_iff v t, RTy.sync_iff v t⟩

/-- C85: a map owns its values and nothing else, so it is `Send` and `Sync` exactly if `V` is. -/
theorem C85_map (κ : KeyTy) (h : κ.noEmpty = true) : κ.mapTy.grants .own ∧ ∀ v, κ.mapTy.auto v = v :=
  have hg : κ.mapTy.grants .own := ⟨κ.mapTy_ne h, κ.mapTy_only⟩
  ⟨hg, fun v => hg.auto v⟩

/-- C85: `iter` and `values` may look at values, `iter_mut` and `values_mut` may change them, `into_iter` owns them. So the former are `Send`, and
`Sync`, exactly if `V: Sync`, and the others what `V` is. -/
theorem C85_iter (κ : KeyTy) (h : κ.noEmpty = true) (q : MapIt) (hq : q ≠ .keys) : (κ.mapIterTy q).grants q.grant ∧
    ∀ v, (κ.mapIterTy q).auto v = if q = .iter ∨ q = .values then ⟨v.sync, v.sync⟩ else v := by
  have hg : (κ.mapIterTy q).grants q.grant := ⟨κ.mapIterTy_ne hq h, κ.mapIterTy_only q⟩
  refine ⟨hg, fun v => (hg.auto v).trans ?_⟩
  cases q <;> first | rfl | exact absurd rfl hq

/-- C85: `keys` does not reach the values, except through a hash table. So it is always `Send` and `Sync` if there is no hash table, and otherwise
exactly if `V: Sync`. -/
theorem C85_keys (κ : KeyTy) : (if κ.hashFree then (κ.mapIterTy .keys).access = [] else (κ.mapIterTy .keys).grants .look) ∧
    ∀ v, (κ.mapIterTy .keys).auto v = if κ.hashFree then ⟨true, true⟩ else ⟨v.sync, v.sync⟩ := by
  cases h : κ.hashFree with
  | true =>
    have h0 := κ.keysTy_nil.2 h
    exact ⟨h0, fun v => RTy.auto_of_nil h0 v⟩
  | false =>
    have hg : (κ.mapIterTy .keys).grants .look := ⟨(fun e => by rw [κ.keysTy_nil.1 e] at h; cases h), κ.mapIterTy_only .keys⟩
    exact ⟨hg, fun v => hg.auto v⟩

/-- C85: entries, vacant or occupied, may change values. -/
theorem C85_entry (κ : KeyTy) : κ.entryTy.grants .change ∧ κ.wholeEntryTy.grants .change ∧
    ∀ v, κ.entryTy.auto v = v ∧ κ.wholeEntryTy.auto v = v :=
  have hg : κ.entryTy.grants .change := ⟨κ.entryTy_ne, κ.entryTy_only⟩
  have hw : κ.wholeEntryTy.grants .change := ⟨RTy.pair_ne_left κ.entryTy_ne, RTy.only.pair κ.entryTy_only κ.entryTy_only⟩
  ⟨hg, hw, fun v => ⟨hg.auto v, hw.auto v⟩⟩

/-- C85: sets, their iterators and their intersections are always `Send` and `Sync`. -/
theorem C85_set (κ : KeyTy) (v : Auto) : κ.setTy.auto v = ⟨true, true⟩ ∧ (∀ q, (κ.setIterTy q).auto v = ⟨true, true⟩) ∧
    κ.intersectionTy.auto v = ⟨true, true⟩ :=
  ⟨RTy.auto_of_nil κ.setTy_nil v, fun q => RTy.auto_of_nil (κ.setIterTy_nil q) v,
    RTy.auto_of_nil (by simp only [KeyTy.intersectionTy, RTy.access, κ.setTy_nil, κ.setIterTy_nil, List.map_nil, List.append_nil]) v⟩

/-- C85: the types used above for derived enums are those of the structs and enums emitted by any_variants.rs. -/
theorem C85_emitted (vs : List Gen.Variant) :
    (∀ d ∈ Gen.genDecls (Gen.collect vs), d.rty = (d.item.ty (.enum (Gen.fieldsOf vs))).rty) ∧
    Gen.entriesTy (Gen.genEntry (Gen.collect vs)).occ = (KeyTy.enum (Gen.fieldsOf vs)).entryTy ∧
    Gen.entriesTy (Gen.genEntry (Gen.collect vs)).vac = (KeyTy.enum (Gen.fieldsOf vs)).entryTy :=
  ⟨fun _ hd => Gen.decl_rty vs hd, Gen.entries_rty vs, Gen.entries_rty vs⟩

/-! ## Examples: `enum Key { A, B(Option<u32>), C(bool) }`, with values that are `Send` but not `Sync` (`Cell<u8>`), or neither (`Rc<u8>`). -/

abbrev C85key : KeyTy := .enum (.simple (.complex (.opt (.prim .u32)) (.complex .bool .nil)))

example : C85key.noEmpty = true := rfl

example : C85key.mapTy.auto ⟨true, false⟩ = ⟨true, false⟩ ∧ (C85key.mapIterTy .iter).auto ⟨true, false⟩ = ⟨false, false⟩ ∧
    (C85key.mapIterTy .iterMut).auto ⟨true, false⟩ = ⟨true, false⟩ ∧ (C85key.mapIterTy .keys).auto ⟨true, false⟩ = ⟨false, false⟩ ∧
    C85key.entryTy.auto ⟨false, false⟩ = ⟨false, false⟩ := ⟨rfl, rfl, rfl, rfl, rfl⟩

/-- Without the hash table, the iterator over keys can be sent whatever the values are. -/
example : ((KeyTy.enum (.simple (.complex .bool .nil))).mapIterTy .keys).auto ⟨false, false⟩ = ⟨true, true⟩ := rfl

end FixedMap
