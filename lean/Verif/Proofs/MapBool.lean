import Verif.Proofs.CoreLaws

/-! # `boolean.rs` and `singleton.rs` satisfy the map laws -/

set_option autoImplicit false
set_option linter.unusedSimpArgs false

namespace FixedMap

/-- Boolean map. -/
def boolCore (V : Type) : CoreLaws (boolMap V).toMapCore where
  entries s := slotEntries true s.t ++ slotEntries false s.f
  keyAt (s : BoolMapSt V) (a : Bool) := if (s.slot a).isSome then some a else none
  occFits (e : BoolEntry) (s : BoolMapSt V) k := e.key = k ∧ e.inner = k ∧ (s.slot k).isSome
  vacFits (e : BoolEntry) (s : BoolMapSt V) k := e.key = k ∧ e.inner = k ∧ (s.slot k).isNone
  mem_entries := by rintro ⟨_ | _, _ | _⟩ (_ | _) v <;> simp [boolMap] <;> exact eq_comm
  nodup_keys := by rintro ⟨_ | _, _ | _⟩ <;> simp
  entries_empty := rfl
  len_eq := by rintro ⟨_ | _, _ | _⟩ <;> rfl
  isEmpty_eq := by rintro ⟨_ | _, _ | _⟩ <;> rfl
  containsKey_eq := by rintro ⟨_ | _, _ | _⟩ (_ | _) <;> rfl
  insert_ret := by rintro ⟨_ | _, _ | _⟩ (_ | _) v <;> rfl
  get_insert_self := by rintro ⟨_ | _, _ | _⟩ (_ | _) v <;> rfl
  get_insert_ne := by rintro ⟨_ | _, _ | _⟩ (_ | _) v (_ | _) h <;> first | rfl | exact absurd rfl h
  remove_ret := by rintro ⟨_ | _, _ | _⟩ (_ | _) <;> rfl
  get_remove_self := by rintro ⟨_ | _, _ | _⟩ (_ | _) <;> rfl
  get_remove_ne := by rintro ⟨_ | _, _ | _⟩ (_ | _) (_ | _) h <;> first | rfl | exact absurd rfl h
  retain_entries f s st := by
    rw [retainRef_append]
    simp only [retainSlot_spec, boolMap, RetainOut.mapS, RetainOut.andThen]
    split <;> simp
  retain_st f s st := by
    rw [retainRef_append]
    simp only [retainSlot_spec, boolMap, RetainOut.mapS, RetainOut.andThen]
    split <;> simp
  retain_panicked f s st := by
    rw [retainRef_append]
    simp only [retainSlot_spec, boolMap, RetainOut.mapS, RetainOut.andThen]
    split <;> simp
  retain_dropped f s st := by
    rw [retainRef_append]
    simp only [retainSlot_spec, boolMap, RetainOut.mapS, RetainOut.andThen]
    split <;> simp
  clear_entries _ := rfl
  clear_dropped := by rintro ⟨_ | _, _ | _⟩ <;> exact List.Perm.refl _
  keyAt_live := by rintro ⟨_ | _, _ | _⟩ (_ | _) (_ | _) h <;> simp_all [BoolMapSt.slot, boolMap]
  read_eq := by rintro ⟨_ | _, _ | _⟩ (_ | _) (_ | _) h <;> simp_all [BoolMapSt.slot, boolMap]
  get_write_self := by
    rintro ⟨_ | _, _ | _⟩ (_ | _) (_ | _) v h <;> simp_all [BoolMapSt.slot, boolMap, BoolMapSt.setSlot, writeSlot]
  get_write_ne := by
    rintro ⟨_ | _, _ | _⟩ (_ | _) (_ | _) v (_ | _) h <;>
      simp_all [BoolMapSt.slot, boolMap, BoolMapSt.setSlot, writeSlot]
  keyAt_write := by
    rintro ⟨_ | _, _ | _⟩ (_ | _) (_ | _) v (_ | _) h <;>
      simp_all [BoolMapSt.slot, boolMap, BoolMapSt.setSlot, writeSlot]
  keys_write := by
    rintro ⟨_ | _, _ | _⟩ (_ | _) (_ | _) v h <;> simp_all [BoolMapSt.slot, boolMap, BoolMapSt.setSlot, writeSlot]
  getMut_some := by
    rintro ⟨_ | _, _ | _⟩ (_ | _) v h <;> simp_all [BoolMapSt.slot, boolMap]
  getMut_none := by
    rintro ⟨_ | _, _ | _⟩ (_ | _) h <;> simp_all [boolMap]
  entry_some := by
    rintro ⟨_ | _, _ | _⟩ (_ | _) v h <;>
      first | exact ⟨_, _, rfl, fun _ => rfl, rfl, rfl, rfl⟩ | simp [boolMap] at h; done
  entry_none := by
    rintro ⟨_ | _, _ | _⟩ (_ | _) h <;>
      first | exact ⟨_, _, rfl, fun _ => rfl, rfl, rfl, rfl⟩ | simp [boolMap] at h; done
  occKey_eq := by rintro ⟨k, i⟩ s k' ⟨rfl, h⟩; rfl
  occGet_eq := by
    rintro ⟨k, i⟩ ⟨_ | _, _ | _⟩ (_ | _) ⟨rfl, rfl, h⟩ <;> simp_all [BoolMapSt.slot, boolMap, SomeBucket.asRef]
  occGetMut_eq := by
    rintro ⟨k, i⟩ ⟨_ | _, _ | _⟩ (_ | _) ⟨rfl, rfl, h⟩ <;>
      simp_all [BoolMapSt.slot, boolMap, SomeBucket.asMut, Res.map]
  occIntoMut_eq := by
    rintro ⟨k, i⟩ ⟨_ | _, _ | _⟩ (_ | _) ⟨rfl, rfl, h⟩ <;>
      simp_all [BoolMapSt.slot, boolMap, SomeBucket.intoMut, Res.map]
  occFits_write := by
    rintro ⟨k, i⟩ ⟨_ | _, _ | _⟩ (_ | _) (_ | _) v ⟨rfl, rfl, h⟩ h' <;>
      simp_all [BoolMapSt.slot, boolMap, BoolMapSt.setSlot, writeSlot]
  occInsert_eq := by
    rintro ⟨k, i⟩ ⟨_ | _, _ | _⟩ (_ | _) v ⟨rfl, rfl, h⟩ <;>
      first
      | refine ⟨_, _, rfl, rfl, rfl, ?_, rfl, rfl, rfl⟩; rintro (_ | _) h' <;> first | rfl | exact absurd rfl h'
      | simp [BoolMapSt.slot] at h; done
  occRemove_eq := by
    rintro ⟨k, i⟩ ⟨_ | _, _ | _⟩ (_ | _) ⟨rfl, rfl, h⟩ <;>
      first
      | refine ⟨_, _, rfl, rfl, rfl, ?_⟩; rintro (_ | _) h' <;> first | rfl | exact absurd rfl h'
      | simp [BoolMapSt.slot] at h; done
  vacKey_eq := by rintro ⟨k, i⟩ s k' ⟨rfl, h⟩; rfl
  vacInsert_eq := by
    rintro ⟨k, i⟩ ⟨_ | _, _ | _⟩ (_ | _) v ⟨rfl, rfl, h⟩ <;>
      simp_all [BoolMapSt.slot, boolMap, BoolMapSt.setSlot, NoneBucket.insert, Res.map]
  eq_iff veq s t := by
    simp only [boolMap, Bool.and_eq_true]
    constructor
    · rintro ⟨h1, h2⟩ (_ | _)
      · exact h2
      · exact h1
    · intro h; exact ⟨h true, h false⟩
  get_clone := by rintro c ⟨_ | _, _ | _⟩ (_ | _) <;> rfl

/-- Singleton map. -/
def unitCore (V : Type) : CoreLaws (unitMap V).toMapCore where
  entries s := slotEntries () s
  keyAt (s : Option V) _ := s.map fun _ => ()
  occFits _ (s : Option V) _ := s.isSome
  vacFits _ (s : Option V) _ := s.isNone
  mem_entries := by rintro (_ | _) _ v <;> simp [unitMap, eq_comm]
  nodup_keys := by rintro (_ | _) <;> simp
  entries_empty := rfl
  len_eq := by rintro (_ | _) <;> rfl
  isEmpty_eq := by rintro (_ | _) <;> rfl
  containsKey_eq := by rintro (_ | _) _ <;> rfl
  insert_ret := by rintro (_ | _) _ v <;> rfl
  get_insert_self := by rintro (_ | _) _ v <;> rfl
  get_insert_ne := by rintro (_ | _) _ v _ h <;> exact absurd rfl h
  remove_ret := by rintro (_ | _) _ <;> rfl
  get_remove_self := by rintro (_ | _) _ <;> rfl
  get_remove_ne := by rintro (_ | _) _ _ h <;> exact absurd rfl h
  retain_entries f s st := by
    exact (retainSlot_spec f () s st).symm ▸ List.Perm.refl _
  retain_st f s st := by erw [retainSlot_spec]; rfl
  retain_panicked f s st := by erw [retainSlot_spec]; rfl
  retain_dropped f s st := by erw [retainSlot_spec]; rfl
  clear_entries _ := rfl
  clear_dropped := by rintro (_ | _) <;> exact List.Perm.refl _
  keyAt_live := by rintro (_ | _) _ _ h <;> simp_all [unitMap]
  read_eq := by rintro (_ | _) _ _ h <;> simp_all [unitMap]
  get_write_self := by rintro (_ | _) _ _ v h <;> simp_all [unitMap, writeSlot]
  get_write_ne := by rintro (_ | _) _ _ v _ _ h <;> exact absurd rfl h
  keyAt_write := by rintro (_ | _) _ _ v _ h <;> simp_all [unitMap, writeSlot]
  keys_write := by rintro (_ | _) _ _ v h <;> simp_all [unitMap, writeSlot]
  getMut_some := by rintro (_ | _) _ v h <;> simp_all [unitMap]
  getMut_none := by rintro (_ | _) _ h <;> simp_all [unitMap]
  entry_some := by
    rintro (_ | _) _ v h <;> simp_all [unitMap, optionBucket_new_some, Res.map]
  entry_none := by
    rintro (_ | _) _ h <;> simp_all [unitMap, optionBucket_new_none, Res.map]
  occKey_eq _ _ _ _ := rfl
  occGet_eq := by rintro _ (_ | _) _ h <;> simp_all [unitMap, SomeBucket.asRef]
  occGetMut_eq := by rintro _ (_ | _) _ h <;> simp_all [unitMap, SomeBucket.asMut]
  occIntoMut_eq := by rintro _ (_ | _) _ h <;> simp_all [unitMap, SomeBucket.intoMut]
  occFits_write := by rintro _ (_ | _) _ _ v h _ <;> simp_all [unitMap, writeSlot]
  occInsert_eq := by
    rintro _ (_ | _) _ v h
    · simp at h
    · exact ⟨_, _, rfl, rfl, rfl, fun _ h => absurd rfl h, rfl⟩
  occRemove_eq := by rintro _ (_ | _) _ h <;> simp_all [unitMap, SomeBucket.take]
  vacKey_eq _ _ _ _ := rfl
  vacInsert_eq := by rintro _ (_ | _) _ v h <;> simp_all [unitMap, NoneBucket.insert, Res.map]
  eq_iff veq s t := ⟨fun h _ => h, fun h => h ()⟩
  get_clone := by rintro c (_ | _) _ <;> rfl

/-- Iterators of the boolean map. -/
def boolIters (V : Type) : IterLaws (boolMap V) (boolCore V) true where
  addrs s := (s.t.map fun _ => (true, true)).toList ++ (s.f.map fun _ => (false, false)).toList
  keysL s := boolBitsList ((if s.t.isSome then TRUE_BIT else 0) ||| (if s.f.isSome then FALSE_BIT else 0))
  iter s := (((yields_option s.t).map _).chain ((yields_option s.f).map _)).congr rfl
  intoIter s := (((yields_option s.t).map _).chain ((yields_option s.f).map _)).congr rfl
  values s := ((yields_option s.t).chain (yields_option s.f)).congr (by
    obtain ⟨_ | _, _ | _⟩ := s <;> rfl)
  keys s := by
    apply yields_boolBits
    obtain ⟨_ | _, _ | _⟩ := s <;> simp [boolMap, TRUE_BIT, FALSE_BIT]
  keysL_eq _ s := by
    obtain ⟨_ | _, _ | _⟩ := s <;> simp [boolCore, boolBitsList, TRUE_BIT, FALSE_BIT]
  iterMut s := (((yields_option (s.t.map fun _ => true)).map _).chain
    ((yields_option (s.f.map fun _ => false)).map _)).congr (by obtain ⟨_ | _, _ | _⟩ := s <;> rfl)
  valuesMut s := ((yields_option (s.t.map fun _ => true)).chain
    (yields_option (s.f.map fun _ => false))).congr (by obtain ⟨_ | _, _ | _⟩ := s <;> rfl)
  addrs_keys := by rintro ⟨_ | _, _ | _⟩ <;> rfl
  addrs_at := by
    rintro ⟨_ | _, _ | _⟩ k a h <;> rcases h with _ | ⟨_, _ | ⟨_, _ | _⟩⟩ <;> rfl

/-- Iterators of the singleton map; `keys` is wrong. -/
def unitIters (V : Type) : IterLaws (unitMap V) (unitCore V) false where
  addrs s := (s.map fun _ => ((), ())).toList
  keysL _ := [()]
  iter s := (yields_option (s.map fun v => ((), v))).congr (by cases s <;> rfl)
  intoIter s := (yields_option (s.map fun v => ((), v))).congr (by cases s <;> rfl)
  values s := (yields_option s).congr (by cases s <;> rfl)
  keys s := yields_option (some ())
  keysL_eq h := by simp at h
  iterMut s := (yields_option (s.map fun _ => ((), ()))).congr (by cases s <;> rfl)
  valuesMut s := (yields_option (s.map fun _ => ())).congr (by cases s <;> rfl)
  addrs_keys := by rintro (_ | _) <;> rfl
  addrs_at := by rintro (_ | _) _ _ h <;> rcases h with _ | ⟨_, _ | _⟩ <;> rfl

end FixedMap
