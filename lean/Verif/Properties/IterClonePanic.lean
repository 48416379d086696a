import Verif.Proofs.IterClonePanic
import Verif.Properties.IterDrop
import Verif.Properties.IterClone
import Verif.Properties.ClonePanic

/-! # C75: cloning an owning iterator with a `V::clone` that has effects or panics -/

set_option autoImplicit false
set_option linter.unusedSimpArgs false

namespace FixedMap

section
variable (H : HashbrownApi) {σ V : Type} (held : HeldApi H V) (c : Cloner σ V) (d : Dtor σ V)

mutual
theorem cloneIntoIterD_isSome : (κ : KeyTy) → (κ.cloneIntoIterD H held c d).isSome = κ.hashFree
  | .bool | .unit | .prim _ | .units _ | .bitset _ _ _ => rfl
  | .opt κ => (Option.isSome_map ..).trans (cloneIntoIterD_isSome κ)
  | .enum fs => (Option.isSome_map ..).trans (fieldsCloneIntoIterD_isSome fs)
theorem fieldsCloneIntoIterD_isSome : (fs : Fields) → (fs.cloneIntoIterD H held c d).isSome = fs.hashFree
  | .nil => rfl
  | .simple fs => (Option.isSome_map ..).trans (fieldsCloneIntoIterD_isSome fs)
  | .complex κ fs => by
    rw [Fields.hashFree, ← cloneIntoIterD_isSome κ, ← fieldsCloneIntoIterD_isSome fs]
    generalize h : fs.cloneIntoIterD H held c d = o
    rw [Fields.cloneIntoIterD, h]
    cases κ.cloneIntoIterD H held c d with
    | none => rfl
    | some g =>
      rw [Option.isSome_some, Bool.true_and]
      exact Option.isSome_map ..
end

/-- C75: the owning iterator is `Clone` exactly for the key types without hashed parts, as in C64. -/
theorem C75_available (κ : KeyTy) :
    (κ.cloneIntoIterD H held c d).isSome = κ.hashFree ∧ ∀ f, (κ.cloneIntoIterD H held c d).isSome = (κ.cloneIntoIter H V f).isSome :=
  ⟨cloneIntoIterD_isSome H held c d κ, fun f => by rw [cloneIntoIterD_isSome, cloneIntoIter_isSome]⟩

theorem clonePart_pure {T : Type} {f : T → σ → Cloned σ V T} {g : T → T} (h : ∀ t st, f t st = .ok st (g t)) (o : Option T) (st : σ) :
    clonePart f o st = .ok st (o.map g) := by
  cases o with
  | none => rfl
  | some t => simp only [clonePart, h]; rfl

variable {c} {f : V → V} (hcf : ∀ st v, c st v = (st, some (f v)))
include hcf

theorem cloneSlot_pure (o : Option V) (st : σ) : cloneSlot c o st = .ok st (o.map f) := by
  cases o with
  | none => rfl
  | some v => simp [cloneSlot, hcf]

theorem cloneEntry_pure {K : Type} (o : Option (K × V)) (st : σ) : cloneEntry c o st = .ok st (o.map fun p => (p.1, f p.2)) := by
  rcases o with _ | ⟨k, v⟩
  · rfl
  · simp [cloneEntry, cloneSlot_pure hcf, Cloned.map]

theorem cloneElems_pure {K : Type} (l acc : List (K × Option V)) (st : σ) :
    cloneElems c d l acc st = .ok st (acc ++ l.map fun p => (p.1, p.2.map f)) := by
  induction l generalizing acc with
  | nil => simp [cloneElems]
  | cons p l ih => simp [cloneElems, cloneSlot_pure hcf, ih]

theorem cloneFlat_pure {K : Type} (s : FlatSt (K × Option V) (K × V)) (st : σ) :
    cloneFlatD c d s st = .ok st (cloneFlat (fun p => (p.1, f p.2)) (fun p => (p.1, p.2.map f)) s) := by
  simp only [cloneFlatD, cloneElems_pure d hcf, clonePart_pure (fun t st => cloneEntry_pure hcf t st), Cloned.both, Cloned.map]
  rfl

omit hcf in
theorem both_pure {A B : Type} {a : Cloned σ V A} {drop : A → Drops σ V → Drops σ V} {b : σ → Cloned σ V B} {x : A} {y : B} {st : σ}
    (ha : a = .ok st x) (hb : b st = .ok st y) : a.both drop b = .ok st (x, y) := by
  rw [ha, Cloned.both, hb]

mutual
theorem cloneIntoIterD_pure : (κ : KeyTy) → ∀ g, κ.cloneIntoIter H V f = some g → ∀ h, κ.cloneIntoIterD H held c d = some h →
    ∀ s st, h s st = .ok st (g s)
  | .bool, _, rfl, _, rfl => fun (s : Option (Option V) × Option (Option V)) st =>
    both_pure (clonePart_pure (cloneSlot_pure hcf) s.1 st) (clonePart_pure (cloneSlot_pure hcf) s.2 st)
  | .unit, _, rfl, _, rfl => fun (s : Option (Unit × V)) st => cloneEntry_pure hcf s st
  | .opt κ, g, hg, h, hh => by
    obtain ⟨g1, hg1, rfl⟩ := Option.map_eq_some_iff.mp hg
    obtain ⟨h1, hh1, rfl⟩ := Option.map_eq_some_iff.mp hh
    exact fun (s : Option ((mapStorage H V κ).intoIter.I.St) × Option (Option V)) st =>
      both_pure (clonePart_pure (cloneIntoIterD_pure κ g1 hg1 h1 hh1) s.1 st) (clonePart_pure (cloneSlot_pure hcf) s.2 st)
  | .units n, _, rfl, _, rfl => fun s st => cloneFlat_pure d hcf s st
  | .bitset n _ _, _, rfl, _, rfl => fun s st => cloneFlat_pure d hcf s st
  | .enum fs, g, hg, h, hh => by
    obtain ⟨g1, hg1, rfl⟩ := Option.map_eq_some_iff.mp hg
    obtain ⟨h1, hh1, rfl⟩ := Option.map_eq_some_iff.mp hh
    exact fun (s : LoopSt (mapFields H V fs).intoIter.St) st =>
      congrArg (Cloned.map fun fields => (⟨s.start, s.stop, fields⟩ : LoopSt (mapFields H V fs).intoIter.St))
        (fieldsCloneIntoIterD_pure fs g1 hg1 h1 hh1 s.fields st)
theorem fieldsCloneIntoIterD_pure : (fs : Fields) → ∀ g, fs.cloneIntoIter H V f = some g → ∀ h, fs.cloneIntoIterD H held c d = some h →
    ∀ s st, h s st = .ok st (g s)
  | .nil, _, rfl, _, rfl => fun _ _ => rfl
  | .simple fs, g, hg, h, hh => by
    obtain ⟨g1, hg1, rfl⟩ := Option.map_eq_some_iff.mp hg
    obtain ⟨h1, hh1, rfl⟩ := Option.map_eq_some_iff.mp hh
    exact fun (s : Option V × (mapFields H V fs).intoIter.St) st =>
      both_pure (cloneSlot_pure hcf s.1 st) (fieldsCloneIntoIterD_pure fs g1 hg1 h1 hh1 s.2 st)
  | .complex κ fs, g, hg, h, hh => by
    obtain ⟨g', hg', hg2⟩ := Option.bind_eq_some_iff.mp hg
    obtain ⟨h', hh', hh2⟩ := Option.bind_eq_some_iff.mp hh
    obtain ⟨g1, hg1, rfl⟩ := Option.map_eq_some_iff.mp hg2
    obtain ⟨h1, hh1, rfl⟩ := Option.map_eq_some_iff.mp hh2
    exact fun (s : (mapStorage H V κ).intoIter.I.St × (mapFields H V fs).intoIter.St) st =>
      both_pure (cloneIntoIterD_pure κ g' hg' h' hh' s.1 st) (fieldsCloneIntoIterD_pure fs g1 hg1 h1 hh1 s.2 st)
end

/-- C75: with a `V::clone` without effects the clone is that of C64, in any state. -/
theorem C75_pure (κ : KeyTy) (h) (hh : κ.cloneIntoIterD H held c d = some h) :
    ∃ g, κ.cloneIntoIter H V f = some g ∧ ∀ s st, h s st = .ok st (g s) := by
  have hs : (κ.cloneIntoIter H V f).isSome = true := by
    rw [← (C75_available H held c d κ).2 f, hh]
    rfl
  obtain ⟨g, hg⟩ := Option.isSome_iff_exists.mp hs
  exact ⟨g, hg, cloneIntoIterD_pure H held d hcf κ g hg h hh⟩
end

section
variable (H : Hashbrown) {σ V : Type} (κ : KeyTy) (c : Cloner σ V) (d : Dtor σ V) {held : HeldApi H.api V}

theorem cloneIntoIterD_run (f) (hf : κ.cloneIntoIterD H.api held c d = some f) (m : (mapStorage H.api V κ).S) (ds : List Dir) outs it
    (hr : (Map.intoIter (mapStorage H.api V κ)).I.run ds ((Map.intoIter (mapStorage H.api V κ)).init m) = some (outs, it)) (st : σ) :
    κ.hashFree = true ∧ ((dequeRun ds ((mapCore H V κ).entries m)).2.map Prod.fst).Sublist κ.allKeys ∧
    CloneRun c d (Yields (mapStorage H.api V κ).intoIter.I) κ.unwindKeys (dequeRun ds ((mapCore H V κ).entries m)).2 st (f it st) := by
  have hh : κ.hashFree = true := by
    rw [← cloneIntoIterD_isSome H.api held c d κ, hf]
    rfl
  obtain ⟨f', e, R, h1, h2, -, h4, h5⟩ := intoIter_clonesAs H held c d κ hh
  cases hf.symm.trans e
  exact ⟨hh, h4 it _ (h1.run ds (h2 m) hr), (h5 it _ (h1.run ds (h2 m) hr) st).imp fun s l h => ⟨R, h1, h⟩⟩

/-- C75: `map.into_iter()` is used from both ends in any order, then cloned. If this succeeds, `V::clone` was called for the values not
yet handed out, in order, and the clone acts as a deque of the clones. -/
theorem C75_ok (f) (hf : κ.cloneIntoIterD H.api held c d = some f) (m : (mapStorage H.api V κ).S) (ds : List Dir) outs it
    (hr : (Map.intoIter (mapStorage H.api V κ)).I.run ds ((Map.intoIter (mapStorage H.api V κ)).init m) = some (outs, it))
    (st st' : σ) (it') (e : f it st = .ok st' it') :
    ∃ l made, (Map.iter (mapStorage H.api V κ)).runsTo m l ∧ outs = (dequeRun ds l).1 ∧
      cloneRef c (dequeRun ds l).2 st = ⟨st', made, false⟩ ∧ BehavesLike (Map.intoIter (mapStorage H.api V κ)).I it' made ∧
      (∃ N, ∀ fuel, N ≤ fuel → (Map.intoIter (mapStorage H.api V κ)).I.drain fuel it' = some made) ∧
      ∀ ds', ((Map.intoIter (mapStorage H.api V κ)).I.run ds' it').isSome := by
  obtain ⟨hh, -, h⟩ := cloneIntoIterD_run H κ c d f hf m ds outs it hr st
  rw [e] at h
  obtain ⟨made, h1, h2⟩ := h
  refine ⟨_, made, Yields.runsTo ((mapIters H V κ).iter m), Yields.actsAs ((mapIters H V κ).intoIter m) ds outs it hr, h1,
    h2.behavesLike, ⟨made.length + 1, fun fuel hl => h2.drain hl⟩, fun ds' => (C11_doubleEnded H V κ m).2.1 hh |>.2.1 ds' it'⟩

/-- C75, a panic: it happened in the call for one of the values not yet handed out, those before had been cloned, and the later ones
are not looked at. Exactly the clones made are dropped, in the order `unwindKeys`; if one of their destructors panics as well, the
drops end there. -/
theorem C75_panic (f) (hf : κ.cloneIntoIterD H.api held c d = some f) (m : (mapStorage H.api V κ).S) (ds : List Dir) outs it
    (hr : (Map.intoIter (mapStorage H.api V κ)).I.run ds ((Map.intoIter (mapStorage H.api V κ)).init m) = some (outs, it))
    (st : σ) (x : Drops σ V) (e : f it st = .panicked x) :
    ∃ l pre k v post st' lost, (Map.iter (mapStorage H.api V κ)).runsTo m l ∧ outs = (dequeRun ds l).1 ∧
      (dequeRun ds l).2 = pre ++ (k, v) :: post ∧ (cloneRef c pre st).panicked = false ∧ c (cloneRef c pre st).st v = (st', none) ∧
      x.dropped ++ lost = (κ.unwindKeys k).filterMap (FinMap.get (cloneRef c pre st).made) ∧
      (x.dropped ++ lost).Perm ((cloneRef c pre st).made.map Prod.snd) ∧ x.leaked = [] ∧
      (x.fate ≠ .aborted → lost = []) ∧ x.HonestFrom 1 d st' := by
  obtain ⟨hh, hs, h⟩ := cloneIntoIterD_run H κ c d f hf m ds outs it hr st
  rw [e] at h
  obtain ⟨pre, k, v, post, st', h1, h2, h3, h4, dr, lk, lost, h5⟩ := h
  obtain ⟨h6, h7⟩ := h5.exact rfl
  have e1 : x.dropped = dr := h5.dropped
  have e2 : x.leaked = lk := h5.leaked
  refine ⟨_, pre, k, v, post, st', lost, Yields.runsTo ((mapIters H V κ).iter m), Yields.actsAs ((mapIters H V κ).intoIter m) ds outs it hr,
    h1, h2, h3, by rw [e1]; exact h7, ?_, e2.trans h6, h5.lost_nil, h4⟩
  rw [e1, h7]
  rw [h1] at hs
  exact unwindKeys_perm hh hs ((cloneRef_keys pre st).2 h2)

/-- C75: cloning panics exactly if one of the calls does. -/
theorem C75_panics_iff (f) (hf : κ.cloneIntoIterD H.api held c d = some f) (m : (mapStorage H.api V κ).S) (ds : List Dir) outs it
    (hr : (Map.intoIter (mapStorage H.api V κ)).I.run ds ((Map.intoIter (mapStorage H.api V κ)).init m) = some (outs, it)) (st : σ) :
    ∃ l, (Map.iter (mapStorage H.api V κ)).runsTo m l ∧
      ((∃ x, f it st = .panicked x) ↔ (cloneRef c (dequeRun ds l).2 st).panicked = true) := by
  refine ⟨_, Yields.runsTo ((mapIters H V κ).iter m), ?_⟩
  obtain ⟨-, -, h⟩ := cloneIntoIterD_run H κ c d f hf m ds outs it hr st
  cases hx : f it st with
  | ok st' it' =>
    rw [hx] at h
    obtain ⟨made, h1, -⟩ := h
    rw [h1]
    exact ⟨fun ⟨_, e⟩ => (nomatch e), fun e => (nomatch e)⟩
  | panicked x =>
    rw [hx] at h
    obtain ⟨pre, k, v, post, st', h1, h2, h3, -⟩ := h
    refine ⟨fun _ => ?_, fun _ => ⟨x, rfl⟩⟩
    rw [h1, cloneRef_append, h2]
    simp [cloneRef, h3]
end

/-- `enum { A, B(bool), C(Option<bool>) }`: everything present, one `next` and one `next_back`, then a clone. -/
def Ex.plainKey : KeyTy := .enum (.simple (.complex .bool (.complex (.opt .bool) .nil)))
def Ex.plainMap : (mapStorage Ex.H.api Nat Ex.plainKey).S := (some 1, (⟨some 2, some 3⟩, (⟨⟨some 4, some 5⟩, some 6⟩, ())))
/-- Use the owning iterator as `ds` says, clone it with a `V::clone` that panics on `ps`, and drain the clone. -/
def Ex.cloneRest (ps : List Nat) (ds : List Dir) : Option (Option (List Nat) ⊕ (Fate × List Nat)) :=
  (Ex.plainKey.cloneIntoIterD Ex.H.api Ex.heldHash (Ex.cloner ps) (Ex.dtor [])).bind fun f =>
    ((Map.intoIter (mapStorage Ex.H.api Nat Ex.plainKey)).I.run ds ((Map.intoIter (mapStorage Ex.H.api Nat Ex.plainKey)).init Ex.plainMap)).map
      fun r => match f r.2 0 with
        | .ok _ it => .inl (((Map.intoIter (mapStorage Ex.H.api Nat Ex.plainKey)).I.drain 20 it).map (·.map Prod.snd))
        | .panicked x => .inr (x.fate, x.dropped)
example : Ex.cloneRest [] [.front, .back] = some (.inl (some [102, 103, 104, 105])) := rfl
/-- The clone of 5 panics: those of 4, and then of 2 and 3, are dropped. -/
example : Ex.cloneRest [5] [.front, .back] = some (.inr (.unwinding, [104, 102, 103])) := rfl
/-- 1 was handed out, its clone would panic. -/
example : Ex.cloneRest [1] [.front] = some (.inl (some [102, 103, 104, 105, 106])) := rfl

end FixedMap
