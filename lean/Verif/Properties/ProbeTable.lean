import Verif.Properties.MapHistory
import Verif.Properties.SetExact
import Verif.Proofs.Tables
import Verif.Spec.HashbrownProbe
import Verif.Spec.Traits

/-! # C79: hash tables with open addressing satisfy what is assumed of hashbrown, and no answer depends on the table -/

set_option autoImplicit false
set_option linter.unusedSimpArgs false

namespace FixedMap

open Probe

/-! ## The assumptions hold for open addressing -/

/-- C79: a table with open addressing satisfies every law that is assumed of hashbrown, whatever the hash function, the order of
probing, the policy for growing and the policy for tombstones (`Probing`). The entries are those in the slots. -/
theorem C79_laws (K V : Type) [DecidableEq K] (P : Probing K) :
    ∃ L : HashMapLaws (probeApi P V), ∀ t, L.entries t = t.1.filterMap Slot.entry :=
  ⟨probeLaws P V, fun _ => rfl⟩

section
variable (P : (K : Type) → [DecidableEq K] → Probing K)

/-- C79: also what is assumed about dropping its owning iterator (C69). -/
theorem C79_held (V : Type) : HeldLaw (probeHashbrown P) V (probeHeld P V) := by
  intro K _ t ds outs st h
  have e := scanIter_rest entryOf ds t.1.zipIdx outs st h
  rw [zip_entries] at e
  refine List.Perm.of_eq ?_
  show List.filterMap valOf st = _
  have e' : (dequeRun ds (((probeHashbrown P).laws K V).entries t)).2 = List.filterMap entryOf st := e.symm
  rw [e']
  exact (List.map_filterMap (f := entryOf) (g := Prod.snd) (l := st)).symm

/-- C79: what is assumed about its `clone` (C70). -/
theorem C79_clone (V : Type) : TableCloneLaw (probeHashbrown P) V (probeClone P V) := by
  intro K _ σ c t st
  obtain ⟨h1, h2, h3, h4⟩ := cloneSlots_law c t.1 st
  refine ⟨h1, h2, ?_, ?_⟩
  · refine Iff.trans ?_ h3
    simp only [probeClone]
    split
    · rename_i h; simp [h]
    · rename_i s h; simp [h]
  · intro t' ht
    simp only [probeClone] at ht
    split at ht
    · cases ht
    · rename_i s h
      cases ht
      exact List.Perm.of_eq (h4 s h).1

/-- C79: and its iterators are not double-ended (C59). -/
theorem C79_one_way : (probeHashbrown P).api.oneWay := fun _ _ _ => ⟨rfl, rfl, rfl, rfl, rfl, rfl⟩

end

/-! ## Cases -/

/-- A table of bytes; the hash of a key is the key. -/
abbrev Ex.bytes : HashMapApi (BitVec 8) Nat := probeApi (linear fun k => k.toNat) Nat

/-- A table of bytes; all keys collide. -/
abbrev Ex.collide : HashMapApi (BitVec 8) Nat := probeApi (linear fun _ => 2) Nat

/-- What `iter()` yields. -/
def Ex.listing {K V : Type} [DecidableEq K] (A : HashMapApi K V) (t : A.Table) (n : Nat) : Option (List (K × V)) := A.iter.I.drain n (A.iter.init t)

/-- Case: a table that has grown twice and has tombstones; the order of iteration is that of the slots. -/
example :
    let ins (t : Ex.bytes.Table) (k : BitVec 8) := (Ex.bytes.insert t k k.toNat).2
    let t := [9, 1, 17, 3, 4].foldl ins Ex.bytes.new
    Ex.listing Ex.bytes t 9 = some [(9, 9), (1, 1), (17, 17), (3, 3), (4, 4)] ∧ t.1.length = 8 ∧
      Ex.bytes.get t 17 = some 17 ∧ Ex.bytes.get t 25 = none := by decide

/-- Case: removing and inserting the same entries can change the order; the contents stay the same. -/
example :
    let t := ([1, 2, 3] : List (BitVec 8)).foldl (fun t k => (Ex.collide.insert t k k.toNat).2) Ex.collide.new
    let u := (Ex.collide.insert (Ex.collide.insert (Ex.collide.remove (Ex.collide.remove t 1).2 2).2 2 2).2 1 1).2
    Ex.listing Ex.collide t 9 = some [(3, 3), (1, 1), (2, 2)] ∧ Ex.listing Ex.collide u 9 = some [(3, 3), (2, 2), (1, 1)] := by decide

/-! ## Answers do not depend on the table -/

section
variable (H H' : Hashbrown) (V : Type) (κ : KeyTy)

/-- C79: whichever hash table is used, a history of calls has the same answers (lists of entries up to their order), overwrites, moves out and drops the same
values, and ends with the same contents. The closures of `retain` and `iter_mut` must not keep state or panic: what they see depends on the order. -/
theorem C79_tables {σ : Type} (ops : List (Op σ κ.Key V)) (ho : ∀ op ∈ ops, op.orderBlind) :
    let M := mapStorage H.api V κ
    let M' := mapStorage H'.api V κ
    ∃ rs m rs' m', apiRun M ops (Map.new M) = .ok (rs, m) ∧ apiRun M' ops (Map.new M') = .ok (rs', m') ∧ sameSteps rs rs' ∧
      (∀ k, Map.get M m k = Map.get M' m' k) ∧ Map.len M m = Map.len M' m' := by
  intro M M'
  obtain ⟨rs, m, l, h1, h2, h3, h4, -⟩ := C01_history H V κ ops
  obtain ⟨rs', m', l', h1', h2', h3', h4', -⟩ := C01_history H' V κ ops
  obtain ⟨e1, e2⟩ := refRun_same ho (.refl _) (by simp) h2 h2'
  refine ⟨rs, m, rs', m', h1, h1', e1, fun k => ?_, h4.trans (e2.length_eq.trans h4'.symm)⟩
  refine (h3 k).trans (.trans ?_ (h3' k).symm)
  exact FinMap.get_sameOrder e2 (refRun_nodup h2 (by simp)) k

/-- C79 for sets: the same calls can be made whichever hash table is used; the answers are the same (elements listed up to their order), and so are the contents
at the end. -/
theorem C79_set_tables (cs : List (SetCall κ.Key)) (hc : ∀ c ∈ cs, c.orderBlind) :
    let M := setStorage H.api κ
    let M' := setStorage H'.api κ
    ∃ l s l' s', l.map Sigma.fst = cs ∧ l'.map Sigma.fst = cs ∧ FSet.DoesAll M l (FSet.new M) s ∧ FSet.DoesAll M' l' (FSet.new M') s' ∧
      SetCall.Same l l' ∧ ∀ x, FSet.contains M s x = FSet.contains M' s' x := by
  intro M M'
  obtain ⟨l, e, s, h⟩ := C65_total H κ cs (FSet.new M) .new
  obtain ⟨l', e', s', h'⟩ := C65_total H' κ cs (FSet.new M') .new
  obtain ⟨g1, g2⟩ := SetCall.refRun_same κ (e.trans e'.symm) (e ▸ hc) (fun _ => Iff.rfl) (C65_calls_new H κ l s h) (C65_calls_new H' κ l' s' h')
  exact ⟨l, s, l', s', e, e', h, h', g1, fun x => Bool.eq_iff_iff.mpr (g2 x)⟩

end

/-! ## Cases -/

/-- All keys collide. -/
abbrev Ex.Hc : Hashbrown := probeHashbrown fun _ _ => linear fun _ => 2

/-- A history on `ExKey`: insertions, a removal, one more insertion, `retain`, and two listings. -/
def Ex.blindOps : List (Op Nat Ex.key.Key Nat) :=
  [.insert (Ex.byte 1) 1, .insert (Ex.byte 2) 2, .insert (Ex.byte 3) 3, .remove (Ex.byte 1), .insert Ex.simple 4, .insert (Ex.byte 4) 5, .iter,
    .retain (fun st _ v => (st, v + 1, some (v != 3))) 0, .iter]

/-- The answers with a given table. -/
def Ex.answers (H : Hashbrown) : List (Out Nat Ex.key.Key Nat) :=
  match apiRun (mapStorage H.api Nat Ex.key) Ex.blindOps (Map.new _) with
  | .ok (rs, _) => rs.map StepOut.out
  | _ => []

/-- Case for `C79_tables`: the order of the listings differs, nothing else does. -/
example :
    (∀ op ∈ Ex.blindOps, op.orderBlind) ∧
    Ex.answers Ex.H = [.val none, .val none, .val none, .val (some 1), .val none, .val none,
      .list [(Ex.simple, 4), (Ex.byte 4, 5), (Ex.byte 3, 3), (Ex.byte 2, 2)], .retained 0 false,
      .list [(Ex.simple, 5), (Ex.byte 4, 6), (Ex.byte 2, 3)]] ∧
    Ex.answers Ex.Hc = [.val none, .val none, .val none, .val (some 1), .val none, .val none,
      .list [(Ex.simple, 4), (Ex.byte 3, 3), (Ex.byte 2, 2), (Ex.byte 4, 5)], .retained 0 false,
      .list [(Ex.simple, 5), (Ex.byte 2, 3), (Ex.byte 4, 6)]] := by
  refine ⟨?_, ?_, ?_⟩
  · intro op h
    simp only [Ex.blindOps, List.mem_cons, List.not_mem_nil, or_false] at h
    rcases h with rfl | rfl | rfl | rfl | rfl | rfl | rfl | rfl | rfl
    case inr.inr.inr.inr.inr.inr.inr.inl => exact ⟨fun _ v => (v + 1, v != 3), fun _ _ _ => rfl⟩
    all_goals trivial
  · rfl
  · rfl

end FixedMap
