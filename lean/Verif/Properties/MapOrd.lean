import Verif.Proofs.Ord
import Verif.Properties.MapHistory

/-!
# C24-C27: hashing and ordering of maps

Only maps whose keys are unit-only enums implement `Hash`, `PartialOrd` and `Ord`. Their storage is the same with and without
`#[key(bitset)]` (`mapStorage H V (.bitset n w h)` is `mapStorage H V (.units n)` by definition).
-/

set_option autoImplicit false
set_option linter.unusedSimpArgs false

namespace FixedMap

section
variable (H : Hashbrown) (V : Type) (n : Nat)

theorem unitsEntries_runsTo (a : (mapStorage H.api V (.units n)).S) :
    (Map.iter (mapStorage H.api V (.units n))).runsTo a (unitsEntries (List.finRange n) a) :=
  Yields.runsTo ((mapIters H V (.units n)).iter a)

theorem runsTo_unique {S α : Type} {it : IterOf S α} {s : S} {l l' : List α} (h : it.runsTo s l) (h' : it.runsTo s l') :
    l = l' := by
  obtain ⟨n, hn⟩ := h
  obtain ⟨n', hn'⟩ := h'
  exact Option.some.inj ((hn (max n n') (Nat.le_max_left _ _)).symm.trans (hn' (max n n') (Nat.le_max_right _ _)))

/-- C26: `cmp` is the lexicographic comparison of the entry sequences: position of the variant first, then value; a proper prefix
is less. (No assumption on the values' `cmp`.) -/
theorem C26_lexicographic (c : V → V → Ordering) (a b : (mapStorage H.api V (.units n)).S)
    (la lb : List (Fin n × V)) :
    let M := mapStorage H.api V (.units n)
    (Map.iter M).runsTo a la → (Map.iter M).runsTo b lb →
      MapOrd.cmp c a b = List.compareLex (entryCmp c) la lb := by
  intro M ha hb
  obtain rfl := runsTo_unique ha (unitsEntries_runsTo H V n a)
  obtain rfl := runsTo_unique hb (unitsEntries_runsTo H V n b)
  exact unitsMapCmp_eq c a b

/-- C25: a total order (on maps up to `==`) whenever the values' `cmp` is: reflexive, antisymmetric (swapping the arguments
swaps the result), transitive, total; and consistent with `==`. -/
theorem C25_total_order (c : V → V → Ordering) [Std.TransCmp c] (veq : V → V → Bool)
    (hveq : ∀ v w, veq v w = true ↔ c v w = .eq) :
    let M := mapStorage H.api V (.units n)
    (∀ a : M.S, MapOrd.cmp c a a = .eq) ∧
    (∀ a b : M.S, MapOrd.cmp c b a = (MapOrd.cmp c a b).swap) ∧
    (∀ a b d : M.S, MapOrd.cmp c a b ≠ .gt → MapOrd.cmp c b d ≠ .gt → MapOrd.cmp c a d ≠ .gt) ∧
    (∀ a b d : M.S, MapOrd.cmp c a b = .lt → MapOrd.cmp c b d ≠ .gt → MapOrd.cmp c a d = .lt) ∧
    (∀ a b : M.S, MapOrd.cmp c a b = .eq ↔ Map.eq M veq a b = true) := by
  intro M
  have hle : ∀ o : Ordering, o.isLE ↔ o ≠ .gt := by intro o; cases o <;> simp
  refine ⟨fun a => ?_, fun a b => ?_, fun a b d h h' => ?_, fun a b d h h' => ?_, fun a b => ?_⟩
  · exact Std.ReflCmp.compare_self (cmp := unitsMapCmp c)
  · exact Std.OrientedCmp.eq_swap (cmp := unitsMapCmp c)
  · exact (hle _).mp (Std.TransCmp.isLE_trans (cmp := unitsMapCmp c) ((hle _).mpr h) ((hle _).mpr h'))
  · exact Std.TransCmp.lt_of_lt_of_isLE (cmp := unitsMapCmp c) h ((hle _).mpr h')
  · rw [show MapOrd.cmp c a b = _ from unitsMapCmp_eq c a b, entryLex_eq c a b _ (nodup_finRange n)]
    refine Iff.trans ?_ ((mapCore H V (.units n)).eq_iff veq a b).symm
    have hv : (fun v w => c v w == .eq) = veq := by
      funext v w
      rw [Bool.eq_iff_iff, hveq]
      simp
    rw [hv]
    exact ⟨fun h i => h i (List.mem_finRange i), fun h i _ => h i⟩

/-- C27: if the values' `partial_cmp` is their `cmp`, a total order, then `partial_cmp`, the operators, `max`, `min` and `clamp` of
maps follow `cmp`. -/
theorem C27_follows_cmp (c : V → V → Ordering) [Std.TransCmp c] (pcmp : V → V → Option Ordering)
    (h : ∀ v w, pcmp v w = some (c v w)) :
    FollowsCmp (S := (mapStorage H.api V (.units n)).S) (MapOrd.cmp c) (MapOrd.partialCmp pcmp) (MapOrd.lt pcmp)
      (MapOrd.le pcmp) (MapOrd.gt pcmp) (MapOrd.ge pcmp) (MapOrd.max pcmp) (MapOrd.min pcmp) (MapOrd.clamp pcmp) := by
  exact followsCmp (unitsMapCmp (n := n) c) (unitsMapPartialCmp pcmp) (unitsMapPartialCmp_eq pcmp c h)

/-- Case for C25-C27 on `[None, Some(7), None]`, `[None, Some(7), Some(0)]`, `[Some(1), None, None]` keyed by three unit variants: the
first is a proper prefix of the second and greater than the third, which starts with an earlier variant. -/
example :
    let a : UnitsSt 3 Nat := #v[none, some 7, none]
    let b : UnitsSt 3 Nat := #v[none, some 7, some 0]
    let d : UnitsSt 3 Nat := #v[some 1, none, none]
    MapOrd.cmp compare a b = .lt ∧ MapOrd.cmp compare a d = .gt ∧
      MapOrd.clamp (fun x y => some (compare x y)) d a b = .ok a ∧
      MapOrd.clamp (fun x y => some (compare x y)) d b a = .panic := by
  decide

/-- C24, first half: equal maps feed the same calls to any hasher, when equal values do. -/
theorem C24_hash_of_eq {τ : Type} (vh : V → List τ) (veq : V → V → Bool)
    (hv : ∀ v w, veq v w = true → vh v = vh w) (a b : (mapStorage H.api V (.units n)).S) :
    Map.eq (mapStorage H.api V (.units n)) veq a b = true → unitsMapHash vh a = unitsMapHash vh b := by
  intro h
  exact unitsMapHash_congr vh veq hv a b (((mapCore H V (.units n)).eq_iff veq a b).mp h)

end

/-- C24, second half: maps with different contents feed different sequences of calls, when the values' calls are prefix-free and
determine the value. -/
theorem C24_hash_injective (H : Hashbrown) (V : Type) (n : Nat) (vh : V → List (HashCall Unit))
    (hv : ∀ v w xs ys, vh v ++ xs = vh w ++ ys → v = w) (a b : (mapStorage H.api V (.units n)).S) :
    (unitsMapHash vh a).map rawCall = (unitsMapHash vh b).map rawCall →
      ∀ k, Map.get (mapStorage H.api V (.units n)) a k = Map.get (mapStorage H.api V (.units n)) b k := by
  intro h k
  exact unitsMapHash_inj vh hv a b h k

/-- Case for C24: `vh v = [write_u32(v)]` is prefix-free; two different maps and their calls. -/
example : (∀ (v w : Nat) (xs ys : List (HashCall Unit)), [HashCall.uint 32 v] ++ xs = [HashCall.uint 32 w] ++ ys → v = w) ∧
    (unitsMapHash (fun v => [HashCall.uint (τ := Unit) 32 v]) (#v[some 1, none] : UnitsSt 2 Nat)).map rawCall =
      [.lengthPrefix 2, .isize 1, .uint 32 1, .isize 0] ∧
    (unitsMapHash (fun v => [HashCall.uint (τ := Unit) 32 v]) (#v[none, some 1] : UnitsSt 2 Nat)).map rawCall =
      [.lengthPrefix 2, .isize 0, .isize 1, .uint 32 1] := by
  refine ⟨fun v w xs ys h => by simpa using (List.cons.inj h).1, rfl, rfl⟩

end FixedMap
