import Verif.Spec.Operators
import Verif.Properties.Compare
import Verif.Properties.SetOrd

/-! # C74: the other operators of maps with `V` methods that have effects or panic -/

set_option autoImplicit false
set_option linter.unusedSimpArgs false

namespace FixedMap

/-- C74: `a != b` makes the calls of `a == b` and negates its answer. -/
theorem C74_ne {σ V : Type} (H : HashbrownApi) (κ : KeyTy) (e : EqFn σ V) (a b : (mapStorage H V κ).S) (st : σ) :
    (Map.neD H κ e a b st).1 = (Map.eqD H κ e a b st).1 ∧
      ((Map.neD H κ e a b st).2 = none ↔ (Map.eqD H κ e a b st).2 = none) ∧
      ∀ r, (Map.neD H κ e a b st).2 = some r ↔ (Map.eqD H κ e a b st).2 = some !r := by
  rcases h : Map.eqD H κ e a b st with ⟨st', _ | _ | _⟩ <;> simp [Map.neD, h]

section
variable {σ V : Type} {n : Nat} (H : Hashbrown) (c : CmpFn σ V (Option Ordering))

theorem compared_eq (a b : UnitsSt n V) (st : σ) : MapOrd.partialCmpD c a b st = Compared H c a b st := C71_partial_cmp H c a b st

/-- C74: each of `<`, `<=`, `>`, `>=` makes the calls of one `partial_cmp`, and panics with it; incomparable maps are in none of the
relations. -/
theorem C74_operators (a b : UnitsSt n V) (st : σ) :
    let r := Compared H c a b st
    MapOrd.ltD c a b st = (r.1, r.2.map fun o => decide (o = some .lt)) ∧
    MapOrd.leD c a b st = (r.1, r.2.map fun o => decide (o = some .lt ∨ o = some .eq)) ∧
    MapOrd.gtD c a b st = (r.1, r.2.map fun o => decide (o = some .gt)) ∧
    MapOrd.geD c a b st = (r.1, r.2.map fun o => decide (o = some .gt ∨ o = some .eq)) := by
  simp only [MapOrd.ltD, MapOrd.leD, MapOrd.gtD, MapOrd.geD, compared_eq H]
  rcases Compared H c a b st with ⟨st', _ | _ | _ | _ | _⟩ <;> exact ⟨rfl, rfl, rfl, rfl⟩

theorem dropUnits_eq (a : UnitsSt n V) : MapOrd.dropUnits a = a.toList.filterMap id := by
  simp only [MapOrd.dropUnits]
  induction a.toList with
  | nil => rfl
  | cons o l ih => cases o <;> simp [dropSlot, ih]

theorem values_units (a : UnitsSt n V) : (Map.values (mapStorage H.api V (.units n))).runsTo a (MapOrd.dropUnits a) := by
  rw [dropUnits_eq]
  exact Yields.runsTo (yields_flat_init id a.toList)

/-- C74: `a.max(b)` compares once, `b` with `a`. It returns `a` if `b < a`, else `b`, and drops the values of the other map; if the
comparison panics, those of both. -/
theorem C74_max (a b : UnitsSt n V) (st : σ) :
    let M := mapStorage H.api V (.units n)
    let r := Compared H c b a st
    ∃ va vb, (Map.values M).runsTo a va ∧ (Map.values M).runsTo b vb ∧
      (r.2 = none → MapOrd.maxD c a b st = ⟨r.1, none, vb ++ va⟩) ∧
      (r.2 = some (some .lt) → MapOrd.maxD c a b st = ⟨r.1, some a, vb⟩) ∧
      ∀ o, r.2 = some o → o ≠ some .lt → MapOrd.maxD c a b st = ⟨r.1, some b, va⟩ := by
  intro M r
  refine ⟨_, _, values_units H a, values_units H b, ?_⟩
  have h := (C74_operators H c b a st).1
  simp only [MapOrd.maxD, h]
  change (r.2 = none → _) ∧ _
  rcases hr : r.2 with _ | _ | _ | _ | _ <;> simp [show (Compared H c b a st).2 = _ from hr] <;> rfl

/-- C74: `a.min(b)` compares once, `b` with `a`. It returns `b` if `b < a`, else `a`. -/
theorem C74_min (a b : UnitsSt n V) (st : σ) :
    let M := mapStorage H.api V (.units n)
    let r := Compared H c b a st
    ∃ va vb, (Map.values M).runsTo a va ∧ (Map.values M).runsTo b vb ∧
      (r.2 = none → MapOrd.minD c a b st = ⟨r.1, none, vb ++ va⟩) ∧
      (r.2 = some (some .lt) → MapOrd.minD c a b st = ⟨r.1, some b, va⟩) ∧
      ∀ o, r.2 = some o → o ≠ some .lt → MapOrd.minD c a b st = ⟨r.1, some a, vb⟩ := by
  intro M r
  refine ⟨_, _, values_units H a, values_units H b, ?_⟩
  have h := (C74_operators H c b a st).1
  simp only [MapOrd.minD, h]
  change (r.2 = none → _) ∧ _
  rcases hr : r.2 with _ | _ | _ | _ | _ <;> simp [show (Compared H c b a st).2 = _ from hr] <;> rfl

theorem clampD_eq (a lo hi : UnitsSt n V) (st : σ) (r1 r2 r3 : σ × Option (Option Ordering))
    (h1 : MapOrd.leD c lo hi st = (r1.1, r1.2.map fun o => decide (o = some .lt ∨ o = some .eq)))
    (h2 : MapOrd.ltD c a lo r1.1 = (r2.1, r2.2.map fun o => decide (o = some .lt)))
    (h3 : MapOrd.gtD c a hi r2.1 = (r3.1, r3.2.map fun o => decide (o = some .gt))) :
    let r := MapOrd.clampD c a lo hi st
    let (va, vlo, vhi) := (MapOrd.dropUnits a, MapOrd.dropUnits lo, MapOrd.dropUnits hi)
    (r1.2 ≠ some (some .lt) → r1.2 ≠ some (some .eq) → r = ⟨r1.1, none, vhi ++ vlo ++ va⟩) ∧
      (r1.2 = some (some .lt) ∨ r1.2 = some (some .eq) →
        (r2.2 = none → r = ⟨r2.1, none, vhi ++ vlo ++ va⟩) ∧
        (r2.2 = some (some .lt) → r = ⟨r2.1, some lo, vhi ++ va⟩) ∧
        (∀ o, r2.2 = some o → o ≠ some .lt →
          (r3.2 = none → r = ⟨r3.1, none, vhi ++ vlo ++ va⟩) ∧
          (r3.2 = some (some .gt) → r = ⟨r3.1, some hi, vlo ++ va⟩) ∧
          (∀ o', r3.2 = some o' → o' ≠ some .gt → r = ⟨r3.1, some a, vhi ++ vlo⟩))) := by
  obtain ⟨s1, o1⟩ := r1
  obtain ⟨s2, o2⟩ := r2
  obtain ⟨s3, o3⟩ := r3
  dsimp only at h1 h2 h3 ⊢
  by_cases g1 : o1 = some (some .lt) ∨ o1 = some (some .eq)
  · have e1 : MapOrd.leD c lo hi st = (s1, some true) := by rw [h1]; rcases g1 with rfl | rfl <;> rfl
    refine ⟨fun n1 n2 => absurd g1 (by simp [n1, n2]), fun _ => ?_⟩
    rcases o2 with _ | o2
    · have e2 : MapOrd.ltD c a lo s1 = (s2, none) := h2
      simp [MapOrd.clampD, e1, e2]
    · by_cases g2 : o2 = some .lt
      · have e2 : MapOrd.ltD c a lo s1 = (s2, some true) := by rw [h2, g2]; rfl
        simp [MapOrd.clampD, e1, e2, g2]
      · have e2 : MapOrd.ltD c a lo s1 = (s2, some false) := by rw [h2]; simp [g2]
        rcases o3 with _ | o3
        · have e3 : MapOrd.gtD c a hi s2 = (s3, none) := h3
          simp [MapOrd.clampD, e1, e2, e3, g2]
        · by_cases g3 : o3 = some .gt
          · have e3 : MapOrd.gtD c a hi s2 = (s3, some true) := by rw [h3, g3]; rfl
            simp [MapOrd.clampD, e1, e2, e3, g2, g3]
          · have e3 : MapOrd.gtD c a hi s2 = (s3, some false) := by rw [h3]; simp [g3]
            simp [MapOrd.clampD, e1, e2, e3, g2, g3]
  · refine ⟨fun _ _ => ?_, fun h => absurd h g1⟩
    rcases o1 with _ | o1
    · have e1 : MapOrd.leD c lo hi st = (s1, none) := h1
      simp [MapOrd.clampD, e1]
    · have e1 : MapOrd.leD c lo hi st = (s1, some false) := by
        rw [h1]
        simp only [Option.map_some, Prod.mk.injEq, Option.some.injEq, true_and, decide_eq_false_iff_not]
        simpa using g1
      simp [MapOrd.clampD, e1]

/-- C74: `a.clamp(lo, hi)` asks `lo <= hi`, `a < lo`, `a > hi`, in this order, each only if needed. It returns one of the three
maps and drops the values of the other two; if `lo <= hi` does not hold or a comparison panics, those of all three. -/
theorem C74_clamp (a lo hi : UnitsSt n V) (st : σ) :
    let M := mapStorage H.api V (.units n)
    let r1 := Compared H c lo hi st
    let r2 := Compared H c a lo r1.1
    let r3 := Compared H c a hi r2.1
    let r := MapOrd.clampD c a lo hi st
    ∃ va vlo vhi, (Map.values M).runsTo a va ∧ (Map.values M).runsTo lo vlo ∧ (Map.values M).runsTo hi vhi ∧
      (r1.2 ≠ some (some .lt) → r1.2 ≠ some (some .eq) → r = ⟨r1.1, none, vhi ++ vlo ++ va⟩) ∧
      (r1.2 = some (some .lt) ∨ r1.2 = some (some .eq) →
        (r2.2 = none → r = ⟨r2.1, none, vhi ++ vlo ++ va⟩) ∧
        (r2.2 = some (some .lt) → r = ⟨r2.1, some lo, vhi ++ va⟩) ∧
        (∀ o, r2.2 = some o → o ≠ some .lt →
          (r3.2 = none → r = ⟨r3.1, none, vhi ++ vlo ++ va⟩) ∧
          (r3.2 = some (some .gt) → r = ⟨r3.1, some hi, vlo ++ va⟩) ∧
          (∀ o', r3.2 = some o' → o' ≠ some .gt → r = ⟨r3.1, some a, vhi ++ vlo⟩))) := by
  intro M r1 r2 r3 r
  refine ⟨_, _, _, values_units H a, values_units H lo, values_units H hi, ?_⟩
  have h1 : MapOrd.leD c lo hi st = _ := (C74_operators H c lo hi st).2.1
  have h2 : MapOrd.ltD c a lo r1.1 = _ := (C74_operators H c a lo r1.1).1
  have h3 : MapOrd.gtD c a hi r2.1 = _ := (C74_operators H c a hi r2.1).2.2.1
  exact clampD_eq c a lo hi st r1 r2 r3 h1 h2 h3

/-- C74: with a `V::partial_cmp` without effects, these are the operators of C27, and `clamp` panics exactly when it did there. -/
theorem C74_pure (p : V → V → Option Ordering) (hc : ∀ st v w, c st v w = (st, some (p v w))) (a b d : UnitsSt n V) (st : σ) :
    MapOrd.ltD c a b st = (st, some (MapOrd.lt p a b)) ∧ MapOrd.leD c a b st = (st, some (MapOrd.le p a b)) ∧
    MapOrd.gtD c a b st = (st, some (MapOrd.gt p a b)) ∧ MapOrd.geD c a b st = (st, some (MapOrd.ge p a b)) ∧
    (MapOrd.maxD c a b st).out = some (MapOrd.max p a b) ∧ (MapOrd.minD c a b st).out = some (MapOrd.min p a b) ∧
    (∀ r, (MapOrd.clampD c a b d st).out = some r ↔ MapOrd.clamp p a b d = .ok r) ∧
    ((MapOrd.clampD c a b d st).out = none ↔ MapOrd.clamp p a b d = .panic) := by
  have hp : ∀ (x y : UnitsSt n V) st, MapOrd.partialCmpD c x y st = (st, some (unitsMapPartialCmp p x y)) :=
    fun x y st => C71_partial_cmp_pure c p hc x y st
  have hlt : ∀ (x y : UnitsSt n V) st, MapOrd.ltD c x y st = (st, some (ltOf (unitsMapPartialCmp p x y))) :=
    fun x y st => by simp only [MapOrd.ltD, hp]; rfl
  have hle : ∀ (x y : UnitsSt n V) st, MapOrd.leD c x y st = (st, some (leOf (unitsMapPartialCmp p x y))) :=
    fun x y st => by simp only [MapOrd.leD, hp]; rfl
  have hgt : ∀ (x y : UnitsSt n V) st, MapOrd.gtD c x y st = (st, some (gtOf (unitsMapPartialCmp p x y))) :=
    fun x y st => by simp only [MapOrd.gtD, hp]; rfl
  refine ⟨hlt .., hle .., hgt .., by simp only [MapOrd.geD, hp]; rfl, ?_, ?_, ?_⟩
  · simp only [MapOrd.maxD, hlt, MapOrd.max, ordMax]
    cases ltOf (unitsMapPartialCmp p b a) <;> rfl
  · simp only [MapOrd.minD, hlt, MapOrd.min, ordMin]
    cases ltOf (unitsMapPartialCmp p b a) <;> rfl
  · simp only [MapOrd.clampD, hlt, hle, hgt, MapOrd.clamp, ordClamp]
    cases leOf (unitsMapPartialCmp p b d) <;> cases ltOf (unitsMapPartialCmp p a b) <;>
      cases gtOf (unitsMapPartialCmp p a d) <;> simp
end

/-! ## Hash -/

section
variable {σ V : Type} {n : Nat} (H : Hashbrown) (w : HashFn σ (HashCall Empty)) (vh : HashFn σ V)

theorem sliceHash_units (a : Fin n → Option V) (ks : List (Fin n)) (st : σ) :
    sliceHashD (optHashD w vh) (ks.map a) st = hashKeys w vh a ks st := by
  induction ks generalizing st with
  | nil => rfl
  | cons k ks ih =>
    simp only [List.map_cons, sliceHashD, hashKeys]
    rcases a k with _ | v
    · rcases hw : w st (.isize 0) with ⟨st', _ | _⟩ <;> simp [optHashD, thenD, hw, ih]
    · rcases hw : w st (.isize 1) with ⟨st', _ | _⟩
      · simp [optHashD, thenD, hw]
      · rcases hv : vh st' v with ⟨st'', _ | _⟩ <;> simp [optHashD, thenD, hw, hv, ih]

/-- C74: `hash` of a map over a unit enum writes the number of variants, then for every variant in declaration order whether it is
there and its value, by `V::hash`. The first panic ends it. -/
theorem C74_hash (a : UnitsSt n V) (st : σ) :
    let M := mapStorage H.api V (.units n)
    MapOrd.hashD w vh a st = match w st (.lengthPrefix n) with
      | (st', true) => hashKeys w vh (Map.get M a) (KeyTy.allKeys (.units n)) st'
      | (st', false) => (st', false) := by
  intro M
  have e : a.toList = (List.finRange n).map fun i => a[i] := by
    apply List.ext_getElem <;> simp
  show thenD (w st (.lengthPrefix a.toList.length)) _ = _
  rw [show a.toList.length = n by simp]
  rcases hw : w st (.lengthPrefix n) with ⟨st', _ | _⟩
  · rfl
  · rw [e]
    exact sliceHash_units w vh _ _ st'

/-- C74 for sets over a unit enum. -/
theorem C74_set_hash (a : UnitsSetSt n) (st : σ) :
    let M := setStorage H.api (.units n)
    SetOrd.unitsHashD w a st = match w st (.lengthPrefix n) with
      | (st', true) => hashFlags w (FSet.contains M a) (KeyTy.allKeys (.units n)) st'
      | (st', false) => (st', false) := by
  intro M
  have e : a.toList = (List.finRange n).map fun i => a[i] := by
    apply List.ext_getElem <;> simp
  have hs : ∀ (f : Fin n → Bool) (ks : List (Fin n)) st,
      sliceHashD (fun b st => w st (.uint 8 b.toNat)) (ks.map f) st = hashFlags w f ks st := by
    intro f ks
    induction ks with
    | nil => exact fun _ => rfl
    | cons k ks ih =>
      intro st
      simp only [List.map_cons, sliceHashD, hashFlags]
      have : (f k).toNat = if f k = true then 1 else 0 := by cases f k <;> rfl
      rw [this]
      rcases hw : w st (.uint 8 (if f k = true then 1 else 0)) with ⟨st', _ | _⟩ <;> simp [thenD, ih]
  show thenD (w st (.lengthPrefix a.toList.length)) _ = _
  rw [show a.toList.length = n by simp]
  rcases hw : w st (.lengthPrefix n) with ⟨st', _ | _⟩
  · rfl
  · rw [e]
    exact hs _ _ st'

/-- C74: a hasher that writes down the calls gets those of C24. -/
theorem C74_hash_pure {τ : Type} (vl : V → List τ) (a : UnitsSt n V) (l : List (HashCall τ)) :
    MapOrd.hashD (σ := List (HashCall τ)) (fun l x => (l ++ [x.map nofun], true)) (fun l v => (l ++ (vl v).map .value, true)) a l =
      (l ++ unitsMapHash vl a, true) := by
  have hmap : ∀ (f : Empty → τ) i, HashCall.map f (.isize i) = .isize i := fun _ _ => rfl
  have hmap' : ∀ (f : Empty → τ) n, HashCall.map f (.lengthPrefix n) = .lengthPrefix n := fun _ _ => rfl
  have : ∀ (s : List (Option V)) l, sliceHashD (optHashD (σ := List (HashCall τ)) (fun l x => (l ++ [x.map nofun], true))
      (fun l v => (l ++ (vl v).map .value, true))) s l = (l ++ s.flatMap (optHash vl), true) := by
    intro s
    induction s with
    | nil => intro l; simp [sliceHashD]
    | cons o s ih => intro l; cases o <;> simp [sliceHashD, optHashD, thenD, ih, optHash, hmap, hmap']
  simp [MapOrd.hashD, arrayHashD, thenD, this, unitsMapHash, arrayHash, hmap, hmap']
end

/-- A `V::partial_cmp` that writes down its arguments, panics on 13, and finds 99 incomparable. -/
def Ex.noisyCmp : CmpFn (List (Nat × Nat)) Nat (Option Ordering) := fun l v w =>
  (l ++ [(v, w)], if v == 13 then none else some (if v == 99 then none else some (compare v w)))

/-- Maps over two variants: `{0: 1, 1: 5}`, `{0: 1, 1: 7}`, `{0: 99}` and `{0: 13}`. -/
example : let a : UnitsSt 2 Nat := #v[some 1, some 5]
    let b : UnitsSt 2 Nat := #v[some 1, some 7]
    let x : UnitsSt 2 Nat := #v[some 99, none]
    let p : UnitsSt 2 Nat := #v[some 13, none]
    MapOrd.ltD Ex.noisyCmp a b [] = ([(1, 1), (5, 7)], some true) ∧ MapOrd.geD Ex.noisyCmp x b [] = ([(99, 1)], some false) ∧
    MapOrd.leD Ex.noisyCmp p b [] = ([(13, 1)], none) ∧
    MapOrd.maxD Ex.noisyCmp a b [] = ⟨[(1, 1), (7, 5)], some b, [1, 5]⟩ ∧
    MapOrd.minD Ex.noisyCmp a b [] = ⟨[(1, 1), (7, 5)], some a, [1, 7]⟩ ∧
    MapOrd.maxD Ex.noisyCmp a p [] = ⟨[(13, 1)], none, [13, 1, 5]⟩ ∧
    MapOrd.clampD Ex.noisyCmp b a a [] = ⟨[(1, 1), (5, 5), (1, 1), (7, 5), (1, 1), (7, 5)], some a, [1, 5, 1, 7]⟩ ∧
    MapOrd.clampD Ex.noisyCmp b b a [] = ⟨[(1, 1), (7, 5)], none, [1, 5, 1, 7, 1, 7]⟩ := ⟨rfl, rfl, rfl, rfl, rfl, rfl, rfl, rfl⟩

/-- `hash` with a `V::hash` that panics on 13. -/
example : let w : HashFn (List Nat) (HashCall Empty) := fun l x => (l ++ [match x with | .lengthPrefix n => n | .isize i => i | .uint _ n => n], true)
    let vh : HashFn (List Nat) Nat := fun l v => (l ++ [v], v != 13)
    MapOrd.hashD w vh (#v[some 7, none, some 13, some 8] : UnitsSt 4 Nat) [] = ([4, 1, 7, 0, 1, 13], false) ∧
    MapOrd.hashD w vh (#v[some 7, none] : UnitsSt 2 Nat) [] = ([2, 1, 7, 0], true) ∧
    SetOrd.unitsHashD w #v[true, false] [] = ([2, 1, 0], true) := ⟨rfl, rfl, rfl⟩

end FixedMap
