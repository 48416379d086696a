import Verif.Proofs.Order
import Verif.Proofs.History
import Verif.Spec.Exhaust
import Verif.Spec.Example

/-! # C13, C14: `Map::retain` -/

set_option autoImplicit false
set_option linter.unusedSimpArgs false

namespace FixedMap

/-- A closure together with a log of its calls. -/
def logCalls {σ K V : Type} (f : σ → K → V → σ × V × Option Bool) :
    σ × List (K × V) → K → V → (σ × List (K × V)) × V × Option Bool :=
  fun st k v => (((f st.1 k v).1, st.2 ++ [(k, v)]), (f st.1 k v).2)

/-- List lemma: the calls made by `retainRef`. -/
theorem retainRef_calls {σ K V : Type} (f : σ → K → V → σ × V × Option Bool) (l : List (K × V)) (st : σ)
    (log : List (K × V)) :
    let r := retainRef (logCalls f) l (st, log)
    let q := retainRef f l st
    r.s = q.s ∧ r.st.1 = q.st ∧ r.panicked = q.panicked ∧ r.dropped = q.dropped ∧
      (q.panicked = false → r.st.2 = log ++ l) := by
  induction l generalizing st log with
  | nil => simp [retainRef]
  | cons p l ih =>
    obtain ⟨k, v⟩ := p
    rcases h : f st k v with ⟨st', v', _ | _ | _⟩
    · simp [retainRef, logCalls, h]
    all_goals
      have := ih st' (log ++ [(k, v)])
      simp only [retainRef, logCalls, h] at this ⊢
      obtain ⟨h1, h2, h3, h4, h5⟩ := this
      refine ⟨by simp [h1], h2, h3, by simp [h4], ?_⟩
      intro hp
      simpa using h5 hp

/-- List lemma: where `retainRef` panics. -/
theorem retainRef_panic {σ K V : Type} (f : σ → K → V → σ × V × Option Bool) (l : List (K × V)) (st : σ)
    (h : (retainRef f l st).panicked = true) :
    ∃ pre k v post v', l = pre ++ (k, v) :: post ∧ (retainRef f pre st).panicked = false ∧
      f (retainRef f pre st).st k v = ((retainRef f l st).st, v', none) ∧
      (retainRef f l st).s = (retainRef f pre st).s ++ (k, v') :: post ∧
      (retainRef f l st).dropped = (retainRef f pre st).dropped := by
  induction l generalizing st with
  | nil => simp [retainRef] at h
  | cons p l ih =>
    obtain ⟨k, v⟩ := p
    rcases hf : f st k v with ⟨st', v', _ | _ | _⟩
    · exact ⟨[], k, v, l, v', rfl, rfl, by simp [retainRef, hf], by simp [retainRef, hf], by simp [retainRef, hf]⟩
    all_goals
      simp only [retainRef, hf] at h
      obtain ⟨pre, k1, v1, post, v2, rfl, h1, h2, h3, h4⟩ := ih st' h
      refine ⟨(k, v) :: pre, k1, v1, post, v2, rfl, ?_, ?_, ?_, ?_⟩ <;> simp [retainRef, hf, h1, h2, h3, h4]

variable (H : Hashbrown) (V : Type) (κ : KeyTy)

/-- C13/C14: `retain` does what `retainRef` does on the entries in `iter()` order, for every stateful closure that may
change values and panic. -/
theorem C13_retain {σ : Type} (f : σ → κ.Key → V → σ × V × Option Bool) (m : (mapStorage H.api V κ).S) (st : σ) :
    let M := mapStorage H.api V κ
    ∃ l, (Map.iter M).runsTo m l ∧
      (Map.retain M f m st).st = (retainRef f l st).st ∧
      (Map.retain M f m st).panicked = (retainRef f l st).panicked ∧
      (Map.retain M f m st).dropped = (retainRef f l st).dropped ∧
      ∀ k v, Map.get M (Map.retain M f m st).s k = some v ↔ (k, v) ∈ (retainRef f l st).s := by
  refine ⟨(mapCore H V κ).entries m, ⟨_, fun _ hf => ((mapIters H V κ).iter m).drain hf⟩,
    (mapCore H V κ).retain_st f m st, (mapCore H V κ).retain_panicked f m st, (mapCore H V κ).retain_dropped f m st, ?_⟩
  intro k v
  rw [← ((mapCore H V κ).retain_entries f m st).mem_iff]
  exact ((mapCore H V κ).mem_entries _ k v).symm

/-- C13, the calls: without a panic, the closure is called exactly once per entry, in `iter()` order, with the current value
of the entry. -/
theorem C13_calls {σ : Type} (f : σ → κ.Key → V → σ × V × Option Bool) (m : (mapStorage H.api V κ).S) (st : σ) :
    let M := mapStorage H.api V κ
    (Map.retain M (logCalls f) m (st, [])).panicked = false →
      (Map.iter M).runsTo m (Map.retain M (logCalls f) m (st, [])).st.2 := by
  intro M hp
  have hc := retainRef_calls f ((mapCore H V κ).entries m) st []
  have h1 := (mapCore H V κ).retain_st (logCalls f) m (st, [])
  have h2 := (mapCore H V κ).retain_panicked (logCalls f) m (st, [])
  have : (Map.retain M (logCalls f) m (st, [])).st.2 = (mapCore H V κ).entries m := by
    have e : (Map.retain M (logCalls f) m (st, [])).st = _ := h1
    rw [e]
    refine (hc.2.2.2.2 ?_).trans (List.nil_append _)
    exact hc.2.2.1 ▸ h2 ▸ hp
  rw [this]
  exact ⟨_, fun _ hf => ((mapIters H V κ).iter m).drain hf⟩

/-- C13 for closures without state that do not panic: an entry survives exactly if the closure accepts it, with the value
the closure left. -/
theorem C13_stateless (keep : κ.Key → V → Bool) (upd : κ.Key → V → V) (m : (mapStorage H.api V κ).S) (k : κ.Key) :
    let M := mapStorage H.api V κ
    Map.get M (Map.retain M (fun st k v => (st, upd k v, some (keep k v))) m ()).s k =
      (Map.get M m k).bind fun v => if keep k v then some (upd k v) else none := by
  intro M
  have ref : ∀ l : List (κ.Key × V),
      (retainRef (fun (st : Unit) k v => (st, upd k v, some (keep k v))) l ()).s =
        l.filterMap fun p => if keep p.1 p.2 then some (p.1, upd p.1 p.2) else none := by
    intro l
    induction l with
    | nil => rfl
    | cons p l ih =>
      obtain ⟨k, v⟩ := p
      cases h : keep k v <;> simp [retainRef, h, ih]
  have hperm := (mapCore H V κ).retain_entries (fun (st : Unit) k v => (st, upd k v, some (keep k v))) m ()
  apply Option.ext
  intro w
  show (mapStorage H.api V κ).get ((mapStorage H.api V κ).retain (fun st k v => (st, upd k v, some (keep k v))) m ()).s k = some w ↔ _
  rw [← (mapCore H V κ).mem_entries, hperm.mem_iff, ref, List.mem_filterMap]
  constructor
  · rintro ⟨⟨k', v⟩, hm, he⟩
    have hg : Map.get M m k' = some v := ((mapCore H V κ).mem_entries m k' v).mp hm
    simp only at he
    split at he
    · rename_i hk
      cases he
      rw [hg]
      simp [hk]
    · cases he
  · intro h
    obtain ⟨v, hg, he⟩ := Option.bind_eq_some_iff.mp h
    refine ⟨(k, v), ((mapCore H V κ).mem_entries m k v).mpr hg, ?_⟩
    split at he
    · rename_i hk
      cases he
      simp [hk]
    · cases he

/-- Case: keep odd values, and add 10 to every value; a log of the calls. -/
example :
    let r := Map.retain Ex.M (logCalls fun (st : Nat) _ v => (st + 1, v + 10, some (v % 2 == 1))) Ex.map (0, [])
    r.st.1 = 6 ∧ r.st.2.map Prod.snd = [6, 1, 3, 2, 4, 5] ∧ r.panicked = false ∧ r.dropped = [16, 12, 14] ∧
      Map.get Ex.M r.s (Ex.opt none) = some 15 ∧ Map.get Ex.M r.s (Ex.opt (some 1)) = none := by decide

/-- C14: when the closure panics, it does so at an entry `(k, v)` of the `iter()` sequence, leaving `v'` in it. The entries before
are processed as in C13, the entry itself stays with `v'`, the later entries stay as they are. -/
theorem C14_retain_panic {σ : Type} (f : σ → κ.Key → V → σ × V × Option Bool) (m : (mapStorage H.api V κ).S) (st : σ) :
    let M := mapStorage H.api V κ
    let r := Map.retain M f m st
    r.panicked = true →
    ∃ pre k v post v', (Map.iter M).runsTo m (pre ++ (k, v) :: post) ∧
      (retainRef f pre st).panicked = false ∧
      f (retainRef f pre st).st k v = (r.st, v', none) ∧
      r.dropped = (retainRef f pre st).dropped ∧
      ∀ k' w, Map.get M r.s k' = some w ↔ (k', w) ∈ (retainRef f pre st).s ++ (k, v') :: post := by
  intro M r hp
  have h2 : r.panicked = _ := (mapCore H V κ).retain_panicked f m st
  rw [h2] at hp
  obtain ⟨pre, k, v, post, v', hl, h1, h3, h4, h5⟩ := retainRef_panic f _ st hp
  refine ⟨pre, k, v, post, v', ?_, h1, ?_, ?_, ?_⟩
  · rw [← hl]
    exact ⟨_, fun _ hf => ((mapIters H V κ).iter m).drain hf⟩
  · rw [h3]
    exact congrArg (fun st => (st, v', none)) ((mapCore H V κ).retain_st f m st).symm
  · rw [← h5]
    exact (mapCore H V κ).retain_dropped f m st
  · intro k' w
    rw [← h4, ← ((mapCore H V κ).retain_entries f m st).mem_iff]
    exact ((mapCore H V κ).mem_entries _ k' w).symm

/-- C14, what the user sees key by key: the entry at which the closure panicked is still there, and so is every entry that
comes later, unchanged. -/
theorem C14_later_entries_kept {σ : Type} (f : σ → κ.Key → V → σ × V × Option Bool) (m : (mapStorage H.api V κ).S)
    (st : σ) :
    let M := mapStorage H.api V κ
    let r := Map.retain M f m st
    r.panicked = true →
    ∃ pre k v post, (Map.iter M).runsTo m (pre ++ (k, v) :: post) ∧ (Map.get M r.s k).isSome ∧
      ∀ p ∈ post, Map.get M r.s p.1 = some p.2 := by
  intro M r hp
  obtain ⟨pre, k, v, post, v', h1, _, _, _, h⟩ := C14_retain_panic H V κ f m st hp
  refine ⟨pre, k, v, post, h1, ?_, ?_⟩
  · rw [(h k v').mpr (by simp)]; rfl
  · rintro ⟨k', w⟩ hm
    exact (h k' w).mpr (by simp [hm])

/-- Case: reject the first entry, accept the second, panic at the third. -/
example :
    let r := Map.retain Ex.M (fun (st : Nat) _ v => (st + 1, v + 10, if st = 0 then some false else if st = 1 then some true else none))
      Ex.map 0
    r.st = 3 ∧ r.panicked = true ∧ r.dropped = [16] ∧ Map.get Ex.M r.s Ex.simple = none ∧
      Map.get Ex.M r.s (Ex.flag false) = some 11 ∧ Map.get Ex.M r.s (Ex.byte 200) = some 13 ∧
      Map.get Ex.M r.s (Ex.byte 7) = some 2 ∧ Map.get Ex.M r.s (Ex.opt none) = some 5 := by decide

end FixedMap
