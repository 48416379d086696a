import Verif.Proofs.Sound
import Verif.Properties.Custom

/-! # C82: soundness does not depend on the behaviour of storages

`MapStorage` is a safe trait, so a storage of the user may answer whatever it likes. The storages that the crate builds around it contain
`unsafe` blocks, which must be right all the same.

`Safe`: what the types of Rust guarantee of any safe storage, nothing about maps. `Sound.run`: an arbitrary client. -/

set_option autoImplicit false
set_option linter.unusedSimpArgs false

namespace FixedMap

variable {K V : Type}

/-! ## Preservation -/

/-- C82: `Option<K>` over any safe storage is sound. -/
theorem C82_option (M : MapStorage K V) (h : Safe M) : Safe (optMap M) := h.elim fun g => ⟨optSafe g⟩

/-- C82: the storage that the derive makes of an enum is sound, whatever safe storages the payloads have. -/
theorem C82_derive (p : Payloads V K) (h : p.AllSafe) : Safe p.map := h.fields.elim fun g => ⟨g.enum⟩

/-- C82: a storage with the laws of maps is sound. -/
theorem C82_lawful (M : MapStorage K V) (R : K → K → Prop) (h : LawfulMap M R) : Safe M := by
  obtain ⟨L, ⟨I⟩, _⟩ := h
  exact ⟨I.safe⟩

/-- C82: the storages of the crate are sound. -/
theorem C82_builtin (H : Hashbrown) (V : Type) (κ : KeyTy) : Safe (mapStorage H.api V κ) := ⟨(mapIters H V κ).safe⟩

/-! ## Clients -/

namespace Sound

variable {σ : Type} {M : MapStorage K V}

/-- What a client has borrowed is valid. -/
def Valid (h : SafeStorage M) (p : Handle M × M.S) : Prop :=
  match p.1 with
  | .nothing => True
  | .occ e => h.occ e p.2
  | .vac e => h.vac e p.2
  | .refs l => l.Pairwise (h.apart · · p.2) ∧ ∀ a ∈ l, h.ref a p.2

theorem valid_toList (h : SafeStorage M) (o : Option M.Addr) (s : M.S) (ho : ∀ a, o = some a → h.ref a s) : Valid h (.refs o.toList, s) := by
  cases o with
  | none => exact ⟨.nil, fun _ h => by cases h⟩
  | some a =>
    refine ⟨List.pairwise_singleton _ _, fun b hb => ?_⟩
    cases List.mem_singleton.mp hb
    exact ho a rfl

theorem valid_step (h : SafeStorage M) (p : Handle M × M.S) (hp : Valid h p) (c : Cmd σ K V) :
    step M p c ≠ .ub ∧ ∀ q, step M p c = .ok q → Valid h q := by
  obtain ⟨hd, s⟩ := p
  have same : (Res.ok (hd, s) : Res (Handle M × M.S)) ≠ .ub ∧ ∀ q, Res.ok (hd, s) = .ok q → Valid h q :=
    ⟨fun e => (nomatch e), fun q e => by cases e; exact hp⟩
  have calm : ∀ s', (Res.ok (Handle.nothing, s') : Res (Handle M × M.S)) ≠ .ub ∧ ∀ q, Res.ok (Handle.nothing, s') = .ok q → Valid h q :=
    fun s' => ⟨fun e => (nomatch e), fun q e => by cases e; trivial⟩
  cases c with
  | insert k v => exact calm _
  | remove k => exact calm _
  | clear => exact calm _
  | retain f st => exact calm _
  | getMut k => exact ⟨fun e => (nomatch e), fun q e => by cases e; exact valid_toList h _ _ fun a ha => h.getMut s k a ha⟩
  | iterMut ds =>
    simp only [step]
    rcases hr : (Map.iterMut M).I.run ds ((Map.iterMut M).init s) with _ | ⟨outs, st'⟩
    · exact calm _
    · have k := h.iterMut s ds outs st' hr
      refine ⟨fun e => (nomatch e), fun q e => ?_⟩
      cases e
      refine ⟨k.1, fun a ha => ?_⟩
      obtain ⟨x, hx, rfl⟩ := List.mem_map.mp ha
      exact k.2 x hx
  | valuesMut ds =>
    simp only [step]
    rcases hr : (Map.valuesMut M).I.run ds ((Map.valuesMut M).init s) with _ | ⟨outs, st'⟩
    · exact calm _
    · have k := h.valuesMut s ds outs st' hr
      rw [List.map_id] at k
      exact ⟨fun e => (nomatch e), fun q e => by cases e; exact ⟨k.1, k.2⟩⟩
  | entry k =>
    refine ⟨Res.map_ne_ub (h.entry_ub s k), fun q e => ?_⟩
    obtain ⟨⟨b, s'⟩, hb, rfl⟩ := Res.map_eq_ok e
    cases b with
    | inl b => exact h.entry_occ s k b s' hb
    | inr b => exact h.entry_vac s k b s' hb
  | occGet =>
    cases hd with
    | occ e =>
      refine ⟨Res.map_ne_ub (h.occGet_ub e s hp), fun q e' => ?_⟩
      obtain ⟨_, _, rfl⟩ := Res.map_eq_ok e'
      exact hp
    | _ => exact same
  | occSet v =>
    cases hd with
    | occ e =>
      show (M.occGetMut e s).bind _ ≠ _ ∧ _
      have hlive : ∀ a, M.occGetMut e s = .ok a → ∃ w, M.read s a = some w := fun a ha =>
        Option.isSome_iff_exists.mp (h.ref_read a s (h.occGetMut_ref e s a hp ha))
      refine ⟨Res.bind_ne_ub (h.occGetMut_ub e s hp) fun a ha => ?_, fun q e' => ?_⟩
      · obtain ⟨w, hw⟩ := hlive a ha
        show (match M.read s a with | none => Res.ub | some _ => .ok (Handle.occ e, M.write s a v)) ≠ _
        rw [hw]
        exact fun e => nomatch e
      · obtain ⟨a, ha, e2⟩ := Res.bind_eq_ok e'
        obtain ⟨w, hw⟩ := hlive a ha
        have e3 : (match M.read s a with | none => Res.ub | some _ => .ok (Handle.occ e, M.write s a v)) = .ok q := e2
        rw [hw] at e3
        cases e3
        exact h.occGetMut_write e s a v hp ha
    | _ => exact same
  | occInsert v =>
    cases hd with
    | occ e =>
      refine ⟨Res.map_ne_ub (h.occInsert_ub e s v hp), fun q e' => ?_⟩
      obtain ⟨⟨old, s'⟩, hb, rfl⟩ := Res.map_eq_ok e'
      exact h.occInsert_occ e s v old s' hp hb
    | _ => exact same
  | occIntoMut =>
    cases hd with
    | occ e =>
      refine ⟨Res.map_ne_ub (h.occIntoMut_ub e s hp), fun q e' => ?_⟩
      obtain ⟨a, ha, rfl⟩ := Res.map_eq_ok e'
      exact valid_toList h (some a) s fun b hb => by cases hb; exact h.occIntoMut_ref e s a hp ha
    | _ => exact same
  | occRemove =>
    cases hd with
    | occ e =>
      refine ⟨Res.map_ne_ub (h.occRemove_ub e s hp), fun q e' => ?_⟩
      obtain ⟨_, _, rfl⟩ := Res.map_eq_ok e'
      trivial
    | _ => exact same
  | vacInsert v =>
    cases hd with
    | vac e =>
      refine ⟨Res.map_ne_ub (h.vacInsert_ub e s v hp), fun q e' => ?_⟩
      obtain ⟨⟨a, s'⟩, ha, rfl⟩ := Res.map_eq_ok e'
      exact valid_toList h (some a) s' fun b hb => by cases hb; exact h.vacInsert_ref e s v a s' hp ha
    | _ => exact same
  | orInsert v =>
    cases hd with
    | occ e =>
      refine ⟨Res.map_ne_ub (Res.map_ne_ub (h.occIntoMut_ub e s hp)), fun q e' => ?_⟩
      obtain ⟨_, h1, rfl⟩ := Res.map_eq_ok e'
      obtain ⟨a, ha, rfl⟩ := Res.map_eq_ok h1
      exact valid_toList h (some a) s fun b hb => by cases hb; exact h.occIntoMut_ref e s a hp ha
    | vac e =>
      refine ⟨Res.map_ne_ub (Res.map_ne_ub (h.vacInsert_ub e s v hp)), fun q e' => ?_⟩
      obtain ⟨_, h1, rfl⟩ := Res.map_eq_ok e'
      obtain ⟨⟨a, s'⟩, ha, rfl⟩ := Res.map_eq_ok h1
      exact valid_toList h (some a) s' fun b hb => by cases hb; exact h.vacInsert_ref e s v a s' hp ha
    | _ => exact same
  | orInsertWith f st =>
    cases hd with
    | occ e =>
      refine ⟨Res.map_ne_ub (Res.map_ne_ub (h.occIntoMut_ub e s hp)), fun q e' => ?_⟩
      obtain ⟨_, h1, rfl⟩ := Res.map_eq_ok e'
      obtain ⟨a, ha, rfl⟩ := Res.map_eq_ok h1
      exact valid_toList h (some a) s fun b hb => by cases hb; exact h.occIntoMut_ref e s a hp ha
    | vac e =>
      simp only [step, Entry.orInsertWith]
      rcases hf : f st with ⟨st', _ | v⟩
      · exact ⟨fun e => (nomatch e), fun q e' => by cases e'; exact valid_toList h none s fun a ha => (nomatch ha)⟩
      · refine ⟨Res.map_ne_ub (Res.map_ne_ub (h.vacInsert_ub e s v hp)), fun q e' => ?_⟩
        obtain ⟨_, h1, rfl⟩ := Res.map_eq_ok e'
        obtain ⟨⟨a, s'⟩, ha, rfl⟩ := Res.map_eq_ok h1
        exact valid_toList h (some a) s' fun b hb => by cases hb; exact h.vacInsert_ref e s v a s' hp ha
    | _ => exact same
  | orInsertWithKey f st =>
    cases hd with
    | occ e =>
      refine ⟨Res.map_ne_ub (Res.map_ne_ub (h.occIntoMut_ub e s hp)), fun q e' => ?_⟩
      obtain ⟨_, h1, rfl⟩ := Res.map_eq_ok e'
      obtain ⟨a, ha, rfl⟩ := Res.map_eq_ok h1
      exact valid_toList h (some a) s fun b hb => by cases hb; exact h.occIntoMut_ref e s a hp ha
    | vac e =>
      simp only [step, Entry.orInsertWithKey]
      rcases hf : f st (M.vacKey e) with ⟨st', _ | v⟩
      · exact ⟨fun e => (nomatch e), fun q e' => by cases e'; exact valid_toList h none s fun a ha => (nomatch ha)⟩
      · refine ⟨Res.map_ne_ub (Res.map_ne_ub (h.vacInsert_ub e s v hp)), fun q e' => ?_⟩
        obtain ⟨_, h1, rfl⟩ := Res.map_eq_ok e'
        obtain ⟨⟨a, s'⟩, ha, rfl⟩ := Res.map_eq_ok h1
        exact valid_toList h (some a) s' fun b hb => by cases hb; exact h.vacInsert_ref e s v a s' hp ha
    | _ => exact same
  | orDefault f st =>
    cases hd with
    | occ e =>
      refine ⟨Res.map_ne_ub (Res.map_ne_ub (h.occIntoMut_ub e s hp)), fun q e' => ?_⟩
      obtain ⟨_, h1, rfl⟩ := Res.map_eq_ok e'
      obtain ⟨a, ha, rfl⟩ := Res.map_eq_ok h1
      exact valid_toList h (some a) s fun b hb => by cases hb; exact h.occIntoMut_ref e s a hp ha
    | vac e =>
      simp only [step, Entry.orDefault]
      rcases hf : f st with ⟨st', _ | v⟩
      · exact ⟨fun e => (nomatch e), fun q e' => by cases e'; exact valid_toList h none s fun a ha => (nomatch ha)⟩
      · refine ⟨Res.map_ne_ub (Res.map_ne_ub (h.vacInsert_ub e s v hp)), fun q e' => ?_⟩
        obtain ⟨_, h1, rfl⟩ := Res.map_eq_ok e'
        obtain ⟨⟨a, s'⟩, ha, rfl⟩ := Res.map_eq_ok h1
        exact valid_toList h (some a) s' fun b hb => by cases hb; exact h.vacInsert_ref e s v a s' hp ha
    | _ => exact same
  | andModify f st =>
    cases hd with
    | occ e =>
      simp only [step, Entry.andModify]
      cases ha : M.occGetMut e s with
      | panic => exact ⟨fun e => (nomatch e), fun q e' => (nomatch e')⟩
      | ub => exact absurd ha (h.occGetMut_ub e s hp)
      | ok a =>
        obtain ⟨w, hw⟩ := Option.isSome_iff_exists.mp (h.ref_read a s (h.occGetMut_ref e s a hp ha))
        simp only [Res.bind, hw]
        rcases hf : f st w with ⟨st', v', _ | _⟩
        · exact ⟨fun e => (nomatch e), fun q e' => by cases e'; trivial⟩
        · exact ⟨fun e => (nomatch e), fun q e' => by cases e'; exact h.occGetMut_write e s a v' hp ha⟩
    | vac e => exact ⟨fun e => (nomatch e), fun q e' => by cases e'; exact hp⟩
    | _ => exact same
  | read i =>
    cases hd with
    | refs l =>
      simp only [step]
      rcases hl : l[i]? with _ | a
      · exact same
      · obtain ⟨w, hw⟩ := Option.isSome_iff_exists.mp (h.ref_read a s (hp.2 a (List.mem_of_getElem? hl)))
        simp only [hw]
        exact same
    | _ => exact same
  | assign i v =>
    cases hd with
    | refs l =>
      simp only [step]
      rcases hl : l[i]? with _ | a
      · exact same
      · have ha := hp.2 a (List.mem_of_getElem? hl)
        obtain ⟨w, hw⟩ := Option.isSome_iff_exists.mp (h.ref_read a s ha)
        simp only [hw]
        refine ⟨fun e => (nomatch e), fun q e => ?_⟩
        cases e
        refine ⟨hp.1.imp_of_mem fun hb hc hbc => h.apart_write a _ _ s v ha (hp.2 _ hb) (hp.2 _ hc) hbc, fun b hb => ?_⟩
        exact h.ref_write a b s v ha (hp.2 b hb)
    | _ => exact same

theorem valid_run (h : SafeStorage M) (cs : List (Cmd σ K V)) (p : Handle M × M.S) (hp : Valid h p) :
    run M cs p ≠ .ub ∧ ∀ q, run M cs p = .ok q → Valid h q := by
  induction cs generalizing p with
  | nil => exact ⟨fun e => (nomatch e), fun q e => by cases e; exact hp⟩
  | cons c cs ih =>
    obtain ⟨h1, h2⟩ := valid_step h p hp c
    refine ⟨Res.bind_ne_ub h1 fun q hq => (ih q (h2 q hq)).1, fun q hq => ?_⟩
    obtain ⟨q1, hq1, hq2⟩ := Res.bind_eq_ok hq
    exact (ih q1 (h2 q1 hq1)).2 q hq2

end Sound

/-- C82: no client of a sound map has undefined behaviour, from any state. The references it holds are all to live values, and an assignment
through one of them is seen through that one and changes nothing for the others. -/
theorem C82_run {σ : Type} (M : MapStorage K V) (h : Safe M) (cs : List (Sound.Cmd σ K V)) (s : M.S) :
    Sound.run M cs (.nothing, s) ≠ .ub ∧ ∀ l s', Sound.run M cs (.nothing, s) = .ok (.refs l, s') →
      (∀ a ∈ l, (M.read s' a).isSome = true ∧ ∀ v, M.read (M.write s' a v) a = some v) ∧
      l.Pairwise fun a b => ∀ v, M.read (M.write s' a v) b = M.read s' b ∧ M.read (M.write s' b v) a = M.read s' a := by
  obtain ⟨g⟩ := h
  obtain ⟨h1, h2⟩ := Sound.valid_run g cs (.nothing, s) trivial
  refine ⟨h1, fun l s' hr => ?_⟩
  obtain ⟨k1, k2⟩ : l.Pairwise (g.apart · · s') ∧ ∀ a ∈ l, g.ref a s' := h2 _ hr
  refine ⟨fun a ha => ⟨g.ref_read a s' (k2 a ha), fun v => g.write_read a s' v (k2 a ha)⟩, ?_⟩
  exact k1.imp_of_mem fun ha hb hab v =>
    ⟨g.apart_read _ _ s' v (k2 _ ha) (k2 _ hb) hab, g.apart_read _ _ s' v (k2 _ hb) (k2 _ ha) (g.apart_symm _ _ _ hab)⟩

/-! ## Concrete cases -/

namespace Ex

/-- A storage of `bool` keys that lies: it has one place for all keys, `insert` forgets the value, `get` finds nothing, `len` is 7, entries are
occupied as soon as any value is stored, and `iter_mut` yields the place under the key `false`. It is written in safe Rust:
`struct Liar<V> { slot: Option<V> }`. -/
@[reducible] def liar : MapStorage Bool Nat where
  S := Option Nat
  Addr := Unit
  Occ := Bool
  Vac := Bool
  read s _ := s
  write s _ v := writeSlot s v
  empty := some 1
  len _ := 7
  isEmpty _ := true
  insert s _ v := (some v, s)
  containsKey _ _ := true
  get _ _ := none
  getMut s _ := s.map fun _ => ()
  remove s _ := (some 5, s)
  retain _ s st := ⟨s, st, false, []⟩
  clear s := (s, [])
  entry s k := .ok (if s.isSome then .inl k else .inr k, s)
  occKey e := !e
  occGet _ s := match s with | some v => .ok v | none => .panic
  occGetMut _ s := match s with | some _ => .ok () | none => .panic
  occIntoMut _ s := match s with | some _ => .ok () | none => .panic
  occInsert _ s _ := match s with | some v => .ok (v, some v) | none => .panic
  occRemove _ s := match s with | some v => .ok (v, s) | none => .panic
  vacKey e := !e
  vacInsert _ _ _ := .ok ((), some 9)
  eq _ _ _ := false
  clone _ s := s
  iter := (IterOf.option id).map fun v => (false, v)
  keys := IterOf.option fun _ => some true
  values := IterOf.option id
  iterMut := (IterOf.option fun s : Option Nat => s.map fun _ => ()).map fun a => (false, a)
  valuesMut := IterOf.option fun s : Option Nat => s.map fun _ => ()
  intoIter := (IterOf.option id).map fun v => (false, v)

theorem liar_live (s : Option Nat) (a : Unit) (h : (s.map fun _ => ()) = some a) : s.isSome = true := by
  cases s with
  | none => cases h
  | some v => rfl

/-- It keeps what the types of Rust demand: a reference or an occupied entry is only made for a value that is there. -/
theorem liar_safe : Safe liar := ⟨{
  ref := fun _ s => s.isSome = true
  apart := fun _ _ _ => False
  occ := fun _ s => s.isSome = true
  vac := fun _ _ => True
  ref_read := fun _ _ h => h
  ref_write := fun _ _ s v h _ => by cases s with | none => exact absurd h (by decide) | some w => rfl
  write_read := fun _ s v h => by cases s with | none => exact absurd h (by decide) | some w => rfl
  apart_symm := fun _ _ _ h => h
  apart_read := fun _ _ _ _ _ _ h => h.elim
  apart_write := fun _ _ _ _ _ _ _ _ h => h
  getMut := fun s _ a h => liar_live s a h
  entry_ub := fun _ _ h => nomatch h
  entry_occ := fun s k e s' h => by cases s <;> cases h; rfl
  entry_vac := fun _ _ _ _ _ => trivial
  occGet_ub := fun _ s _ => by cases s <;> exact fun h => nomatch h
  occGetMut_ub := fun _ s _ => by cases s <;> exact fun h => nomatch h
  occGetMut_ref := fun _ _ _ h _ => h
  occGetMut_write := fun _ s _ v h _ => by cases s with | none => exact absurd h (by decide) | some w => rfl
  occIntoMut_ub := fun _ s _ => by cases s <;> exact fun h => nomatch h
  occIntoMut_ref := fun _ _ _ h _ => h
  occInsert_ub := fun _ s _ _ => by cases s <;> exact fun h => nomatch h
  occInsert_occ := fun _ s v old s' _ e => by cases s <;> cases e; rfl
  occRemove_ub := fun _ s _ => by cases s <;> exact fun h => nomatch h
  vacInsert_ub := fun _ _ _ _ h => nomatch h
  vacInsert_ref := fun _ _ _ _ _ _ h => by cases h; rfl
  iterMut := fun s => distinct_slot_at _ _ _ _ fun a h => liar_live s a h
  valuesMut := fun s => distinct_option _ fun a h => liar_live s a h }⟩

/-- It is no map. -/
theorem liar_lies (R : Bool → Bool → Prop) : ¬LawfulMap liar R := fun ⟨L, _⟩ => by
  have := L.get_insert_self (some 1) true 3
  cases this

/-- `enum E { A, B(Option<bool>), C(bool) }` where the keys `bool` have the storage `liar`. -/
def liarPayloads : Payloads Nat (Unit ⊕ (Option Bool ⊕ (Bool ⊕ Empty))) :=
  .simple (.complex (optMap liar) (optSet boolSet) (.complex liar boolSet .nil))

theorem liarPayloads_safe : liarPayloads.AllSafe := .simple (.complex (C82_option _ liar_safe) (.complex liar_safe .nil))

end Ex

/-- Case: a client of a map over the lying storage. It fills the two places that the crate adds, takes all four references, and
assigns through two of them. Each reference sees its own value. -/
example :
    let M := Ex.liarPayloads.map
    let cs : List (Sound.Cmd Unit _ Nat) := [.entry (.inl ()), .vacInsert 3, .entry (.inr (.inl none)), .orInsert 4, .insert (.inr (.inl (some true))) 8,
      .iterMut [.front, .back, .front, .front, .back], .assign 1 20, .assign 0 10, .read 3]
    (∃ l s', Sound.run M cs (.nothing, M.empty) = .ok (.refs l, s') ∧ l.length = 4 ∧ l.map (M.read s') = [some 10, some 20, some 1, some 4] ∧
      M.len s' = 16) ∧ Safe M :=
  ⟨⟨_, _, rfl, rfl, rfl, rfl⟩, C82_derive _ Ex.liarPayloads_safe⟩

/-- Case: handing out the same reference twice is not sound. -/
example : ¬Safe ({ Ex.liar with
      valuesMut := IterOf.chain (IterOf.option fun s => s.map fun _ => ()) (IterOf.option fun s => s.map fun _ => ()) } :
    MapStorage Bool Nat) := fun h => by
  have k := ((C82_run _ h ([.valuesMut [.front, .front]] : List (Sound.Cmd Unit Bool Nat)) (some 1)).2 [(), ()] (some 1) rfl).2
  have k1 := ((List.pairwise_cons.mp k).1 () List.mem_cons_self 2).1
  exact absurd k1 (show (some 2 : Option Nat) ≠ some 1 by decide)

/-- Case: an occupied entry for a place without a value is not sound. -/
example : ¬Safe ({ Ex.liar with entry := fun s k => .ok (.inl k, s), occGet := fun _ s => SomeBucket.asRef s } :
    MapStorage Bool Nat) := fun h =>
  (C82_run _ h ([.entry true, .occGet] : List (Sound.Cmd Unit Bool Nat)) none).1 rfl

/-- Case: a storage of the crate. -/
example : Safe (mapStorage (Ex.H).api Nat (.opt .bool)) := C82_builtin _ _ _

end FixedMap
