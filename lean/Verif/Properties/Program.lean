import Verif.Proofs.Program
import Verif.Properties.IterDrop

/-! # C76: whole programs: the crate hands out and drops only values it owns -/

set_option autoImplicit false
set_option linter.unusedSimpArgs false

namespace FixedMap

section
variable (H : Hashbrown) {σ V : Type} (κ : KeyTy) (held : HeldApi H.api V) (hc : TableCloneApi H.api V) (c : Cloner σ V) (d : Dtor σ V)

/-- C76: after any program, without undefined behaviour, what the crate still owns according to the trace is what is in the maps and
in the owning iterators, what hashbrown leaked, and what an abort left behind. -/
theorem C76_conserved (hh : HeldLaw H V held) (hl : TableCloneLaw H V hc) (p : List (Stmt σ κ.Key V)) (st : σ) :
    let w := (World.start st : World H.api κ σ V).run held hc c d p
    w.bad = false ∧ ∃ ms is lost, InAll (Map.values (mapStorage H.api V κ)).runsTo w.maps ms ∧ InAll Remaining w.iters is ∧
      Ledger [] w.st.2 (ms ++ is ++ w.leaked ++ lost) ∧ (w.aborted = false → lost = []) ∧ (κ.hashFree = true → w.leaked = []) := by
  intro w
  obtain ⟨R, hR⟩ := owningIter H κ hh c d
  obtain ⟨ms, is, lost, h⟩ := sound_run hR hl p _ ⟨_, _, _, sound_start (H := H) (κ := κ) (R := R) (d := d) st⟩
  refine ⟨h.bad, ms, is, lost, h.maps.imp ?_, h.iters.imp ?_, h.ledger, h.lost_nil, h.leaked⟩
  · rintro m _ rfl
    exact Yields.runsTo ((mapIters H V κ).values m)
  · rintro it _ ⟨l, hr, rfl⟩
    exact ⟨_, fun fuel hf => congrArg (Option.map _) (Yields.drain (I := (mapStorage H.api V κ).intoIter.I) ⟨R, hR.sim, hr⟩ hf)⟩

/-- C76, at every moment: after any part of the trace, every value handed out or dropped so far had been given before. -/
theorem C76_always (hh : HeldLaw H V held) (hl : TableCloneLaw H V hc) (p : List (Stmt σ κ.Key V)) (st : σ) (t t' : List (Ev V))
    (ht : ((World.start st : World H.api κ σ V).run held hc c d p).st.2 = t ++ t') :
    ∃ g, (gaves t).Perm (g ++ gots t ++ drops t) := by
  obtain ⟨_, ms, is, lost, _, _, h, _⟩ := C76_conserved H κ held hc c d hh hl p st
  rw [ht] at h
  obtain ⟨g, h1, _⟩ := h.split
  exact ⟨g, h1.balance⟩

/-- C76: if the client never gives a value twice, nothing is dropped twice, or dropped and handed out, or dropped and still in a map. -/
theorem C76_once (hh : HeldLaw H V held) (hl : TableCloneLaw H V hc) (p : List (Stmt σ κ.Key V)) (st : σ) :
    let w := (World.start st : World H.api κ σ V).run held hc c d p
    (gaves w.st.2).Nodup → ∃ ms is, InAll (Map.values (mapStorage H.api V κ)).runsTo w.maps ms ∧ InAll Remaining w.iters is ∧
      (ms ++ is ++ gots w.st.2 ++ drops w.st.2).Nodup := by
  intro w hn
  obtain ⟨_, ms, is, lost, h1, h2, h, _⟩ := C76_conserved H κ held hc c d hh hl p st
  refine ⟨ms, is, h1, h2, ?_⟩
  have hb := h.balance.nodup_iff.mp (by simpa using hn)
  refine hb.sublist ?_
  refine List.Sublist.append (List.Sublist.append ?_ (.refl _)) (.refl _)
  rw [List.append_assoc (ms ++ is)]
  exact List.sublist_append_left _ _

/-- C76: if no destructor panics, nothing is leaked and no program aborts. -/
theorem C76_quiet (hh : HeldLaw H V held) (hl : TableCloneLaw H V hc) (p : List (Stmt σ κ.Key V)) (st : σ)
    (hq : ∀ st v, (d st v).2 = false) :
    let w := (World.start st : World H.api κ σ V).run held hc c d p
    w.aborted = false ∧ w.leaked = [] := by
  obtain ⟨R, hR⟩ := owningIter H κ hh c d
  obtain ⟨ms, is, lost, h⟩ := sound_run hR hl p _ ⟨_, _, _, sound_start (H := H) (κ := κ) (R := R) (d := d) st⟩
  exact h.quiet hq

/-- C76: when all maps and iterators are gone, every value was handed out or dropped, exactly once for each time it was given. -/
theorem C76_all_dropped (hh : HeldLaw H V held) (hl : TableCloneLaw H V hc) (p : List (Stmt σ κ.Key V)) (st : σ) :
    let w := (World.start st : World H.api κ σ V).run held hc c d p
    (∀ o ∈ w.maps, o = none) → (∀ o ∈ w.iters, o = none) → (κ.hashFree = true ∧ w.aborted = false ∨ ∀ st v, (d st v).2 = false) →
      (gaves w.st.2).Perm (gots w.st.2 ++ drops w.st.2) := by
  intro w h1 h2 h3
  obtain ⟨_, ms, is, lost, g1, g2, g3, g4, g5⟩ := C76_conserved H κ held hc c d hh hl p st
  have key : ∀ {T : Type} {P : T → List V → Prop} {l : List (Option T)} {vs : List V}, InAll P l vs → (∀ o ∈ l, o = none) → vs = [] := by
    intro T P l vs h
    induction h with
    | nil => exact fun _ => rfl
    | moved _ ih => exact fun h => ih fun o ho => h o (List.mem_cons_of_mem _ ho)
    | live _ _ _ => exact fun h => nomatch h _ List.mem_cons_self
  have h4 : w.leaked = [] ∧ w.aborted = false := by
    rcases h3 with h3 | h3
    · exact ⟨g5 h3.1, h3.2⟩
    · have := C76_quiet H κ held hc c d hh hl p st h3
      exact ⟨this.2, this.1⟩
  have hb := g3.balance
  rw [key g1 h1, key g2 h2, show World.leaked _ = [] from h4.1, g4 h4.2] at hb
  exact hb
end

/-! ## Concrete programs -/

/-- Two maps, a clone, an owning iterator, replaced and removed values, a vector with a repeated key. -/
def Ex.program : List (Stmt Nat Ex.key.Key Nat) :=
  [.new, .call 0 fun _ => .insert (Ex.flag true) 1, .call 0 fun _ => .insert (Ex.flag true) 2, .call 0 fun _ => .insert (Ex.byte 7) 3,
    .clone 0, .call 1 fun st => .orInsert (Ex.byte 7) st, .intoIter 0, .next 0 .front, .dropIter 0,
    .call 1 fun st => .retain (fun st _ v => (st + 1, v + 1000, some (decide (v < 103)))) st,
    .collect [(Ex.simple, 6), (Ex.simple, 7), (Ex.flag false, 8)], .dropMap 1, .dropMap 2]
/-- Its trace, if the destructor panics on `bad`. -/
def Ex.programRun (bad : List Nat) : World Ex.H.api Ex.key Nat Nat :=
  (World.start 50).run Ex.heldHash Ex.cloneHash (Ex.cloner []) (Ex.dtor bad) Ex.program

/-- The hypotheses of the theorems hold here. -/
example (bad : List Nat) := C76_conserved Ex.H Ex.key Ex.heldHash Ex.cloneHash (Ex.cloner []) (Ex.dtor bad) C69_satisfiable C70_satisfiable Ex.program 50
example : (Ex.programRun []).st.2 = [.gave 1, .gave 2, .got 1, .gave 3, .gave 102, .gave 103, .gave 52, .dropped 52, .got 2, .dropped 3,
    .got 102, .gave 1102, .got 103, .gave 1103, .dropped 1103, .gave 6, .gave 7, .gave 8, .dropped 6, .dropped 1102, .dropped 7, .dropped 8] := rfl
/-- All of it is gone, as `C76_all_dropped` says. -/
example : (Ex.programRun []).maps = [none, none, none] ∧ (Ex.programRun []).iters = [none] ∧ (gaves (Ex.programRun []).st.2).length = 11 :=
  ⟨rfl, rfl, rfl⟩
/-- A destructor that panics on the replaced value 6: no map is made from the vector, its other values are dropped. -/
example : (Ex.programRun [6]).maps = [none, none] ∧ (Ex.programRun [6]).aborted = false ∧
    drops (Ex.programRun [6]).st.2 = [52, 3, 1103, 6, 8, 7, 1102] := ⟨rfl, rfl, rfl⟩
/-- Destructors that panic on 6 and on 8: the process aborts while unwinding, and 7 is lost. -/
example : (Ex.programRun [6, 8]).aborted = true ∧ drops (Ex.programRun [6, 8]).st.2 = [52, 3, 1103, 6, 8] ∧
    gots (Ex.programRun [6, 8]).st.2 = [1, 2, 102, 103] := ⟨rfl, rfl, rfl⟩

/-- An owning iterator and its clone, of a key type without hash tables; and a `V::clone` that panics. -/
def Ex.iterProgram : List (Stmt Nat Ex.plainKey.Key Nat) :=
  [.new, .call 0 fun _ => .insert (Sum.inl ()) 1, .call 0 fun _ => .insert (Sum.inr (Sum.inl true)) 2,
    .call 0 fun _ => .modifyOrInsert (Sum.inr (Sum.inl true)) 3 4, .call 0 fun _ => .insert (Sum.inr (Sum.inl false)) 5,
    .intoIter 0, .cloneIter 0, .next 0 .front, .next 1 .back, .dropIter 1, .new, .cloneFrom 1 0]
example : ((World.start 0 : World Ex.H.api Ex.plainKey Nat Nat).run Ex.heldHash Ex.cloneHash (Ex.cloner []) (Ex.dtor []) Ex.iterProgram).st.2 =
    [.gave 1, .gave 2, .gave 3, .got 2, .gave 4, .dropped 4, .gave 5, .gave 101, .gave 103, .gave 105, .got 1, .got 105, .dropped 101,
      .dropped 103] := rfl
example : ((World.start 0 : World Ex.H.api Ex.plainKey Nat Nat).run Ex.heldHash Ex.cloneHash (Ex.cloner [5]) (Ex.dtor []) Ex.iterProgram).st.2 =
    [.gave 1, .gave 2, .gave 3, .got 2, .gave 4, .dropped 4, .gave 5, .gave 101, .gave 103, .dropped 103, .dropped 101, .got 1] := rfl
/-- `C76_all_dropped` fails for hash tables whose destructors panic: the hypothesis is needed. Values are leaked. -/
def Ex.leaking : List (Stmt Nat Ex.key.Key Nat) :=
  [.new, .call 0 fun _ => .insert (Ex.byte 7) 2, .call 0 fun _ => .insert (Ex.byte 8) 1, .dropMap 0]
example : let w := (World.start 0 : World Ex.H.api Ex.key Nat Nat).run Ex.heldHash Ex.cloneHash (Ex.cloner []) (Ex.dtor [1, 2]) Ex.leaking
    w.maps = [none] ∧ w.aborted = false ∧ (drops w.st.2).length = 1 ∧ w.leaked.length = 1 := ⟨rfl, rfl, rfl, rfl⟩

end FixedMap
