import Verif.Properties.MapIter
import Verif.Proofs.Listing

/-! # C09: what `keys()` yields for every key type -/

set_option autoImplicit false
set_option linter.unusedSimpArgs false

namespace FixedMap

variable (H : Hashbrown) (V : Type) (κ : KeyTy)

/-- C09, exactly and for every key type: `keys()` yields the keys of `iter()` in the same order, interleaved with the
absent keys made of a `()` payload (`phantom`); every key once, in declaration order. -/
theorem C09_keys_exact (m : (mapStorage H.api V κ).S) :
    let M := mapStorage H.api V κ
    ∃ keys l, (Map.keys M).runsTo m keys ∧ (Map.iter M).runsTo m l ∧
      (keys.filter fun k => Map.containsKey M m k) = l.map Prod.fst ∧
      (∀ k, k ∈ keys ↔ Map.containsKey M m k = true ∨ κ.phantom k = true) ∧
      keys.Nodup ∧ keys.Pairwise κ.mayPrecede :=
  have h := keyListing H V κ m
  ⟨_, _, Yields.runsTo ((mapIters H V κ).keys m), Yields.runsTo ((mapIters H V κ).iter m), h.filter, h.mem, h.nodup,
    h.sorted⟩

/-- `enum { A, B(()), C(Option<()>), D(bool) }` -/
private abbrev exKey3 : KeyTy := .enum (.simple (.complex .unit (.complex (.opt .unit) (.complex .bool .nil))))

/-- Case: only `C(None)` and `D(false)` are present; `keys()` also yields `B(())` and `C(Some(()))`. -/
example :
    let M := mapStorage Ex.H.api Nat exKey3
    let m := (Map.fromIter M [(Sum.inr (Sum.inr (Sum.inr (Sum.inl false))), 2), (Sum.inr (Sum.inr (Sum.inl none)), 1)]).1
    (Map.keys M).I.drain 9 ((Map.keys M).init m) =
      some [Sum.inr (Sum.inl ()), Sum.inr (Sum.inr (Sum.inl (some ()))), Sum.inr (Sum.inr (Sum.inl none)),
        Sum.inr (Sum.inr (Sum.inr (Sum.inl false)))] ∧
    exKey3.phantom (Sum.inr (Sum.inl ())) = true := ⟨rfl, rfl⟩

end FixedMap
