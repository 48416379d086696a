import Verif.Spec.Collect
import Verif.Properties.DropExact

/-! # Collecting from a source that fails or panics: lemmas -/

set_option autoImplicit false
set_option linter.unusedSimpArgs false

namespace FixedMap

section
variable (H : Hashbrown) {σ V E : Type} (κ : KeyTy) (d : Dtor σ V)

/-- `m` is the map built from the items, newest first, and `replaced` are the values that are no longer in it. -/
structure BuiltFrom (items : List (κ.Key × V)) (replaced : List V) (m : (mapStorage H.api V κ).S) : Prop where
  get : ∀ k, Map.get (mapStorage H.api V κ) m k = FinMap.get items k
  vals : (((mapCore H V κ).entries m).map Prod.snd ++ replaced).Perm (items.map Prod.snd)

theorem BuiltFrom.start : BuiltFrom H κ [] [] (Map.new (mapStorage H.api V κ)) where
  get k := (mapCore H V κ).get_empty k
  vals := by
    have he : (mapCore H V κ).entries (Map.new (mapStorage H.api V κ)) = [] := (mapCore H V κ).entries_empty
    rw [he]; exact .refl _

variable {H κ} in
theorem BuiltFrom.insert {items : List (κ.Key × V)} {replaced : List V} {m : (mapStorage H.api V κ).S} (h : BuiltFrom H κ items replaced m)
    (p : κ.Key × V) :
    (Map.insert (mapStorage H.api V κ) m p.1 p.2).1 = FinMap.get items p.1 ∧
    BuiltFrom H κ (p :: items) (replaced ++ (FinMap.get items p.1).toList) (Map.insert (mapStorage H.api V κ) m p.1 p.2).2 := by
  let L := mapCore H V κ
  have hr : (Map.insert (mapStorage H.api V κ) m p.1 p.2).1 = FinMap.get items p.1 := (L.insert_ret m p.1 p.2).trans (h.get p.1)
  refine ⟨hr, ?_, ?_⟩
  · intro k
    by_cases e : p.1 = k
    · subst e
      simp only [FinMap.get, if_true]
      exact L.get_insert_self m p.1 p.2
    · simp only [FinMap.get, if_neg e]
      exact (L.get_insert_ne m p.1 p.2 k (Ne.symm e)).trans (h.get k)
  · have hv := insert_vals H κ m p.1 p.2
    dsimp only at hv
    have hh := h.vals
    rw [hr] at hv
    classical
    rw [List.perm_iff_count] at hv hh ⊢
    intro a
    have hv := hv a
    have hh := hh a
    simp only [List.count_append, List.map_cons, List.count_cons, List.count_nil] at hv hh ⊢
    omega

/-- The loop takes items as `takeItems` does. -/
theorem collect_law (next : σ → σ × Pull (κ.Key × V) E) : ∀ fuel items replaced m st, BuiltFrom H κ items replaced m →
    match takeItems d next fuel items replaced st with
    | none => collectD H.api d κ next fuel m ⟨st, .normal, replaced, []⟩ = none
    | some t => ∃ m', BuiltFrom H κ t.items t.replaced m' ∧
        collectD H.api d κ next fuel m ⟨st, .normal, replaced, []⟩ = some (t.stop, m', t.drops)
  | 0, items, replaced, m, st, h => rfl
  | fuel + 1, items, replaced, m, st, h => by
    rcases hn : next st with ⟨st', p | _ | err | _⟩
    · obtain ⟨h1, h2⟩ := h.insert p
      simp only [takeItems, collectD, hn, h1]
      cases hg : FinMap.get items p.1 with
      | none =>
        rw [hg] at h2
        simp only [Drops.slot]
        simp only [if_true]
        exact collect_law next fuel (p :: items) replaced _ st' (by simpa using h2)
      | some old =>
        rw [hg] at h2
        simp only [Drops.slot, Drops.value]
        cases hd : (d st' old).2 with
        | true => exact ⟨_, h2, rfl⟩
        | false => exact collect_law next fuel (p :: items) (replaced ++ [old]) _ _ h2
    all_goals
      simp only [takeItems, collectD, hn]
      exact ⟨m, h, rfl⟩
end

theorem takeElems_set {σ T E : Type} (M : SetStorage T) (next : σ → σ × Pull T E) : ∀ fuel xs st,
    collectSet M next fuel (FSet.fromIter M xs) st = (takeElems next fuel xs st).map fun t =>
      ((match t.2.2 with
        | .done => Outcome.ok (FSet.fromIter M t.1)
        | .fail err => .fail err
        | .panicked => .panicked), t.2.1)
  | 0, xs, st => rfl
  | fuel + 1, xs, st => by
    rcases hn : next st with ⟨st', p | _ | err | _⟩
    · simp only [takeElems, collectSet, hn]
      rw [← takeElems_set M next fuel (xs ++ [p]) st']
      simp [FSet.fromIter, List.foldl_append]
    all_goals simp only [takeElems, collectSet, hn, Option.map_some]

end FixedMap
