import Verif.Proofs.Cost
import Verif.Spec.Example

/-!
# C83: iterating takes linear time

Calls are counted: one for each call of `next` or `next_back` on any iterator inside the crate or core (`Map`, `Chain`, `FlatMap`, the options,
the arrays, the generated iterators), and one for each round of a generated loop. A call on an iterator of a hash table counts as one.
-/

set_option autoImplicit false
set_option linter.unusedSimpArgs false

namespace FixedMap

/-- C83, maps: each schedule on each of the six iterators costs at most a constant per call and a constant once; both depend on the key type
only. -/
theorem C83_map (H : HashbrownApi) (V : Type) (κ : KeyTy) :
    let M := mapStorage H V κ
    let t := mapTicks H V κ
    Linear M.iter t.iter κ.perCall κ.once ∧ Linear M.keys t.keys κ.perCall κ.once ∧ Linear M.values t.values κ.perCall κ.once ∧
      Linear M.iterMut t.iterMut κ.perCall κ.once ∧ Linear M.valuesMut t.valuesMut κ.perCall κ.once ∧
      Linear M.intoIter t.intoIter κ.perCall κ.once :=
  have h := map_amort H V κ
  ⟨h.iter.linear, h.keys.linear, h.values.linear, h.iterMut.linear, h.valuesMut.linear, h.intoIter.linear⟩

/-- C83, sets. -/
theorem C83_set (H : HashbrownApi) (κ : KeyTy) :
    Linear (setStorage H κ).iter (setTicks H κ).iter κ.perCall κ.once ∧
      Linear (setStorage H κ).intoIter (setTicks H κ).intoIter κ.perCall κ.once :=
  have h := set_amort H κ
  ⟨h.iter.linear, h.intoIter.linear⟩

/-- C83, a `for` loop over a map: linear in the number of entries. -/
theorem C83_traversal (H : HashbrownApi) (V : Type) (κ : KeyTy) (s : (mapStorage H V κ).S) :
    (mapTicks H V κ).iter.total (List.replicate ((mapStorage H V κ).len s + 1) .front) ((mapStorage H V κ).iter.init s) ≤
      κ.perCall * ((mapStorage H V κ).len s + 1) + κ.once := by
  have := (C83_map H V κ).1 s (List.replicate ((mapStorage H V κ).len s + 1) .front)
  rwa [List.length_replicate] at this

/-- Nothing is missed by the count, 1: no call is free. -/
theorem C83_counted (H : HashbrownApi) (V : Type) (κ : KeyTy) :
    (∀ st, 1 ≤ (mapTicks H V κ).iter.front st) ∧ (∀ st, 1 ≤ (mapTicks H V κ).keys.front st) ∧
      (∀ st, 1 ≤ (mapTicks H V κ).values.front st) ∧ (∀ st, 1 ≤ (mapTicks H V κ).iterMut.front st) ∧
      (∀ st, 1 ≤ (mapTicks H V κ).valuesMut.front st) ∧ (∀ st, 1 ≤ (mapTicks H V κ).intoIter.front st) := by
  have one (n : Nat) : 1 ≤ 1 + n := by omega
  have two (n m : Nat) : 1 ≤ 1 + n + m := by omega
  cases κ with
  | bool => exact ⟨fun _ => two _ _, fun _ => Nat.le_refl _, fun _ => two _ _, fun _ => two _ _, fun _ => two _ _, fun _ => two _ _⟩
  | unit => exact ⟨fun _ => Nat.le_refl _, fun _ => Nat.le_refl _, fun _ => Nat.le_refl _, fun _ => Nat.le_refl _, fun _ => Nat.le_refl _,
      fun _ => Nat.le_refl _⟩
  | opt κ => exact ⟨fun _ => two _ _, fun _ => two _ _, fun _ => two _ _, fun _ => two _ _, fun _ => two _ _, fun _ => two _ _⟩
  | prim p => exact ⟨fun _ => one _, fun _ => one _, fun _ => Nat.le_refl _, fun _ => one _, fun _ => Nat.le_refl _, fun _ => Nat.le_refl _⟩
  | units n => exact ⟨fun _ => one _, fun _ => one _, fun _ => one _, fun _ => one _, fun _ => one _, fun _ => one _⟩
  | bitset n w h => exact ⟨fun _ => one _, fun _ => one _, fun _ => one _, fun _ => one _, fun _ => one _, fun _ => one _⟩
  | «enum» fs => exact ⟨fun _ => one _, fun _ => one _, fun _ => one _, fun _ => one _, fun _ => one _, fun _ => one _⟩

/-- Nothing is missed by the count, 2: a generated loop costs at least one for each variant it passes and one for the last. -/
theorem C83_rounds {S α : Type} {F : StepOf S α} (t : StepTicks F) (st : LoopSt F.St) :
    ((F.toIter.I.next st).2.start - st.start) + 1 ≤ t.toIter.front st := by
  have key : ∀ (fuel : Nat) (st : LoopSt F.St), (F.loopNext fuel st).2.start - st.start ≤ t.loop fuel st := by
    intro fuel
    induction fuel with
    | zero => intro st; simp [StepOf.loopNext]
    | succ fuel ih =>
      rintro ⟨start, stop, fs⟩
      by_cases hlt : start < stop
      · simp only [StepTicks.loop, StepOf.loopNext, hlt, ↓reduceIte]
        rcases he : F.next start fs with _ | ⟨_ | x, fs'⟩
        · simp
        · have := ih ⟨min (start + 1) stop, stop, fs'⟩
          have e : min (start + 1) stop = start + 1 := by omega
          simp only [e] at this ⊢
          omega
        · simp
      · simp only [StepTicks.loop, StepOf.loopNext, hlt, ↓reduceIte]
        simp
  have := key (st.stop - st.start) st
  show (F.loopNext (st.stop - st.start) st).2.start - st.start + 1 ≤ 1 + t.loop (st.stop - st.start) st
  omega

/-- The same from the back. -/
theorem C83_rounds_back {S α : Type} {F : StepOf S α} (t : StepTicks F) (nb : LoopSt F.St → Option α × LoopSt F.St) (h : F.toIter.I.nextBack? = some nb) (st : LoopSt F.St) :
    (st.stop - (nb st).2.stop) + 1 ≤ t.toIter.back st := by
  obtain ⟨nb', e', rfl⟩ := Option.map_eq_some_iff.mp (show F.nextBack?.map _ = some nb from h)
  have key : ∀ (fuel : Nat) (st : LoopSt F.St), st.stop - (loopNextBack nb' fuel st).2.stop ≤ loopBackTicks nb' t.back fuel st := by
    intro fuel
    induction fuel with
    | zero => intro st; simp [loopNextBack]
    | succ fuel ih =>
      rintro ⟨start, stop, fs⟩
      by_cases hlt : start < stop
      · simp only [loopBackTicks, loopNextBack, hlt, ↓reduceIte]
        rcases he : nb' (stop - 1) fs with _ | ⟨_ | x, fs'⟩
        · simp
        · have := ih ⟨start, max (stop - 1) start, fs'⟩
          have e : max (stop - 1) start = stop - 1 := by omega
          simp only [e] at this ⊢
          omega
        · simp
      · simp only [loopBackTicks, loopNextBack, hlt, ↓reduceIte]
        simp
  have := key (st.stop - st.start) st
  show st.stop - (loopNextBack nb' (st.stop - st.start) st).2.stop + 1 ≤ 1 + match F.nextBack? with | none => 0 | some nb => loopBackTicks nb t.back (st.stop - st.start) st
  rw [e']
  simp only
  omega

/-! ## Concrete cases -/

namespace CostEx

/-- `enum { A(bool), B, C, D }` -/
abbrev κ : KeyTy := .enum (.complex .bool (.simple (.simple (.simple .nil))))

abbrev M : MapStorage κ.Key Nat := mapStorage Ex.H.api Nat κ

/-- `D` -/
def d : κ.Key := Sum.inr (Sum.inr (Sum.inr (Sum.inl ())))

/-- The map with the one entry `D`. -/
def s : M.S := (M.insert M.empty d 7).2

/-- One call may pass all variants; the following ones do not pass them again. -/
example : ((mapTicks Ex.H.api Nat κ).iter.front (M.iter.init s), (mapTicks Ex.H.api Nat κ).iter.total [.front, .front] (M.iter.init s),
    (mapTicks Ex.H.api Nat κ).iter.total [.front, .front, .back] (M.iter.init s)) = (13, 16, 17) := rfl

example : (κ.perCall, κ.once) = (7, 24) := rfl

/-- The six entries of the map of the other examples. -/
example : ((mapTicks Ex.H.api Nat Ex.key).iter.total (List.replicate 7 .front) (Ex.M.iter.init Ex.map), Ex.key.perCall * 7 + Ex.key.once) =
    (50, 110) := rfl

end CostEx

end FixedMap
