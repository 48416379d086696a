import Verif.Proofs.RustTactic
import Verif.Spec.RustApi

/-!
# src/map/entry.rs does what MapApi.lean says
-/

set_option autoImplicit false
set_option linter.unusedSimpArgs false

namespace FixedMap.Rust

variable {K V σ : Type} (M : MapStorage K V)

theorem meets_map {X α β : Type} {o : Obs X σ} {r : Res α} {g : α → β} {k : β → Obs X σ} {w : Val X} {u : σ} (h : o = ofRes r w u fun a => k (g a)) : Meets o (r.map g) k := by
  subst h
  cases r with
  | ok a => exact rfl
  | panic => exact ⟨_, _, _, rfl⟩
  | ub => exact rfl

section
variable (n : Nat) (u : σ) (s : M.S)

/-- The functions that end with `into_mut` or `insert`. -/
theorem entry_or_insert (e : Entry.T M) (v : V) : Meets (entryFn M Progs.mapEntry (n + 40) (entryForeign M) "or_insert" s e [vl v] u) (Entry.orInsert M e s v) fun r =>
    .ok (.ref ⟨0, (apiRep M).addr r.1⟩) (some ((apiRep M).store r.2.1)) u (r.2.2.map .val) := by
  cases e with
  | inl e =>
    refine meets_map (w := (apiRep M).store s) (u := u) ?_
    generalize hR : M.occIntoMut e s = R
    kgen h : M.occIntoMut e s with r
    rw [h] at hR; subst hR
    cases r <;> kernel_rfl
  | inr e =>
    refine meets_map (w := (apiRep M).store s) (u := u) ?_
    generalize hR : M.vacInsert e s v = R
    kgen h : M.vacInsert e s v with r
    rw [h] at hR; subst hR
    cases r <;> kernel_rfl

theorem entry_or_insert_with (e : Entry.T M) (g : σ → σ × Option V) :
    Meets (entryFn M Progs.mapEntry (n + 40) (withForeign M g) "or_insert_with" s e [.user] u) (Entry.orInsertWith M e s g u) (refOrPanic M) := by
  cases e with
  | inl e =>
    refine meets_map (w := (apiRep M).store s) (u := u) ?_
    generalize hR : M.occIntoMut e s = R
    kgen h : M.occIntoMut e s with r
    rw [h] at hR; subst hR
    cases r <;> kernel_rfl
  | inr e =>
    rcases hg : g u with ⟨u', _ | v⟩
    · simp only [Entry.orInsertWith, hg, Meets]
      kgen h : g u with r
      cases h.symm.trans hg
      kernel_rfl
    · simp only [Entry.orInsertWith, hg]
      refine meets_map (w := (apiRep M).store s) (u := u') ?_
      generalize hR : M.vacInsert e s v = R
      kgen h : g u with r
      cases h.symm.trans hg
      kgen h : M.vacInsert e s v with r
      rw [h] at hR; subst hR
      cases r <;> kernel_rfl

theorem entry_or_insert_with_key (e : Entry.T M) (g : σ → K → σ × Option V) :
    Meets (entryFn M Progs.mapEntry (n + 40) (withKeyForeign M g) "or_insert_with_key" s e [.user] u) (Entry.orInsertWithKey M e s g u) (refOrPanic M) := by
  cases e with
  | inl e =>
    refine meets_map (w := (apiRep M).store s) (u := u) ?_
    generalize hR : M.occIntoMut e s = R
    kgen h : M.occIntoMut e s with r
    rw [h] at hR; subst hR
    cases r <;> kernel_rfl
  | inr e =>
    rcases hg : g u (M.vacKey e) with ⟨u', _ | v⟩
    · simp only [Entry.orInsertWithKey, hg, Meets]
      kgen h : g u (M.vacKey e) with r
      cases h.symm.trans hg
      kernel_rfl
    · simp only [Entry.orInsertWithKey, hg]
      refine meets_map (w := (apiRep M).store s) (u := u') ?_
      generalize hR : M.vacInsert e s v = R
      kgen h : g u (M.vacKey e) with r
      cases h.symm.trans hg
      kgen h : M.vacInsert e s v with r
      rw [h] at hR; subst hR
      cases r <;> kernel_rfl

theorem entry_or_default (e : Entry.T M) (g : σ → σ × Option V) :
    Meets (entryFn M Progs.mapEntry (n + 40) (dfltForeign M g) "or_default" s e [] u) (Entry.orDefault M e s g u) (refOrPanic M) := by
  cases e with
  | inl e =>
    refine meets_map (w := (apiRep M).store s) (u := u) ?_
    generalize hR : M.occIntoMut e s = R
    kgen h : M.occIntoMut e s with r
    rw [h] at hR; subst hR
    cases r <;> kernel_rfl
  | inr e =>
    rcases hg : g u with ⟨u', _ | v⟩
    · simp only [Entry.orDefault, hg, Meets]
      kgen h : g u with r
      cases h.symm.trans hg
      kernel_rfl
    · simp only [Entry.orDefault, hg]
      refine meets_map (w := (apiRep M).store s) (u := u') ?_
      generalize hR : M.vacInsert e s v = R
      kgen h : g u with r
      cases h.symm.trans hg
      kgen h : M.vacInsert e s v with r
      rw [h] at hR; subst hR
      cases r <;> kernel_rfl

theorem entry_and_modify (e : Entry.T M) (g : σ → V → σ × V × Bool) :
    Meets (entryFn M Progs.mapEntry (n + 40) (modifyForeign M g) "and_modify" s e [.user] u) (Entry.andModify M e s g u) fun r =>
      match r.1 with
      | some e => .ok (entryV M e) (some ((apiRep M).store r.2.1)) r.2.2 []
      | none => .panic (some ((apiRep M).store r.2.1)) r.2.2 [] := by
  cases e with
  | inr e => exact (by kernel_rfl : _ = _)
  | inl e =>
    cases ho : M.occGetMut e s with
    | panic =>
      simp only [Entry.andModify, ho, Res.bind, Meets]
      refine ⟨some ((apiRep M).store s), u, [], ?_⟩
      kgen h : M.occGetMut e s with r
      cases h.symm.trans ho
      kernel_rfl
    | ub =>
      simp only [Entry.andModify, ho, Res.bind, Meets]
      kgen h : M.occGetMut e s with r
      cases h.symm.trans ho
      kernel_rfl
    | ok a =>
      cases hr : M.read s a with
      | none =>
        simp only [Entry.andModify, ho, Res.bind, hr, Meets]
        kgen h : M.occGetMut e s with r
        cases h.symm.trans ho
        kgen h : M.read s a with r
        cases h.symm.trans hr
        kernel_rfl
      | some v =>
        rcases hg : g u v with ⟨u', v', _ | _⟩
        all_goals
          simp only [Entry.andModify, ho, Res.bind, hr, hg, Meets]
          kgen h : M.occGetMut e s with r
          cases h.symm.trans ho
          kgen h : M.read s a with r
          cases h.symm.trans hr
          kgen h : g u v with r
          cases h.symm.trans hg
          kgen h : M.read s a with r
          cases h.symm.trans hr
          kernel_rfl

end

theorem entryText (n : Nat) : EntryText M Progs.mapEntry (n + 40) σ where
  or_insert u s e v := entry_or_insert M n u s e v
  or_insert_with u s e g := entry_or_insert_with M n u s e g
  or_insert_with_key u s e g := entry_or_insert_with_key M n u s e g
  key u s e := by cases e <;> kernel_rfl
  and_modify u s e g := entry_and_modify M n u s e g
  or_default u s e g := entry_or_default M n u s e g

end FixedMap.Rust
