import Verif.Spec.Custom
import Verif.Spec.Iter
import Verif.Model.MapApi

/-! # Soundness with storages of the user that do not behave: specification

`MapStorage` is a safe trait. A storage that is written in safe Rust may answer whatever it likes: the wrong length, another value
than the one inserted, an occupied entry for an absent key. The `unsafe` blocks of the crate (option_bucket.rs) must be right all the same.

`SafeStorage` is what the types of Rust guarantee of any safe storage, and nothing about maps: references and entries are valid while they are
borrowed, and the mutable references handed out together do not overlap. `Sound.run` is an arbitrary client. -/

set_option autoImplicit false

namespace FixedMap

/-- The references handed out by an iterator, in any order of `next` and `next_back`, are apart from each other, and all are live. -/
def IterImpl.Distinct {α A : Type} (I : IterImpl α) (addr : α → A) (live : A → Prop) (apart : A → A → Prop) (st : I.St) : Prop :=
  ∀ ds outs st', I.run ds st = some (outs, st') →
    ((outs.filterMap id).map addr).Pairwise apart ∧ ∀ x ∈ outs.filterMap id, live (addr x)

/-- What holds of a safe storage without its iterators. `ref a s`: the reference `a` is valid while the storage is `s`. `apart a b s`: they
do not overlap. `occ e s`, `vac e s`: the entry `e` may be used while the storage is `s`. -/
structure SafeCore {K V : Type} (M : MapCore K V) where
  ref : M.Addr → M.S → Prop
  apart : M.Addr → M.Addr → M.S → Prop
  occ : M.Occ → M.S → Prop
  vac : M.Vac → M.S → Prop
  ref_read : ∀ a s, ref a s → (M.read s a).isSome = true
  ref_write : ∀ a b s v, ref a s → ref b s → ref b (M.write s a v)
  write_read : ∀ a s v, ref a s → M.read (M.write s a v) a = some v
  apart_symm : ∀ a b s, apart a b s → apart b a s
  apart_read : ∀ a b s v, ref a s → ref b s → apart a b s → M.read (M.write s a v) b = M.read s b
  apart_write : ∀ a b c s v, ref a s → ref b s → ref c s → apart b c s → apart b c (M.write s a v)
  getMut : ∀ s k a, M.getMut s k = some a → ref a s
  entry_ub : ∀ s k, M.entry s k ≠ .ub
  entry_occ : ∀ s k e s', M.entry s k = .ok (.inl e, s') → occ e s'
  entry_vac : ∀ s k e s', M.entry s k = .ok (.inr e, s') → vac e s'
  occGet_ub : ∀ e s, occ e s → M.occGet e s ≠ .ub
  occGetMut_ub : ∀ e s, occ e s → M.occGetMut e s ≠ .ub
  occGetMut_ref : ∀ e s a, occ e s → M.occGetMut e s = .ok a → ref a s
  occGetMut_write : ∀ e s a v, occ e s → M.occGetMut e s = .ok a → occ e (M.write s a v)
  occIntoMut_ub : ∀ e s, occ e s → M.occIntoMut e s ≠ .ub
  occIntoMut_ref : ∀ e s a, occ e s → M.occIntoMut e s = .ok a → ref a s
  occInsert_ub : ∀ e s v, occ e s → M.occInsert e s v ≠ .ub
  occInsert_occ : ∀ e s v old s', occ e s → M.occInsert e s v = .ok (old, s') → occ e s'
  occRemove_ub : ∀ e s, occ e s → M.occRemove e s ≠ .ub
  vacInsert_ub : ∀ e s v, vac e s → M.vacInsert e s v ≠ .ub
  vacInsert_ref : ∀ e s v a s', vac e s → M.vacInsert e s v = .ok (a, s') → ref a s'

/-- What holds of a safe storage. -/
structure SafeStorage {K V : Type} (M : MapStorage K V) extends SafeCore M.toMapCore where
  iterMut : ∀ s, M.iterMut.I.Distinct Prod.snd (ref · s) (apart · · s) (M.iterMut.init s)
  valuesMut : ∀ s, M.valuesMut.I.Distinct id (ref · s) (apart · · s) (M.valuesMut.init s)

/-- `M` is sound: references and entries are valid while they are borrowed. -/
def Safe {K V : Type} (M : MapStorage K V) : Prop := Nonempty (SafeStorage M)

/-- Every payload of the enum has a safe storage. -/
inductive Payloads.AllSafe {V : Type} : {K : Type} → Payloads V K → Prop where
  | nil : Payloads.AllSafe .nil
  | simple {K : Type} {p : Payloads V K} (h : Payloads.AllSafe p) : Payloads.AllSafe (.simple p)
  | complex {E K : Type} {M : MapStorage E V} {N : SetStorage E} {p : Payloads V K} (hM : Safe M) (h : Payloads.AllSafe p) :
      Payloads.AllSafe (.complex M N p)

namespace Sound

/-- What a client has borrowed from the map. -/
inductive Handle {K V : Type} (M : MapStorage K V) where
  | nothing
  | occ (e : M.Occ)
  | vac (e : M.Vac)
  | refs (l : List M.Addr)

/-- One line of a client. Calls on the map end all borrows. A line that needs a handle that the client does not have does nothing. -/
inductive Cmd (σ K V : Type) where
  | insert (k : K) (v : V)
  | remove (k : K)
  | clear
  | retain (f : σ → K → V → σ × V × Option Bool) (st : σ)
  | getMut (k : K)
  /-- `iter_mut()` and a sequence of `next` and `next_back`, keeping all references -/
  | iterMut (ds : List Dir)
  | valuesMut (ds : List Dir)
  | entry (k : K)
  | occGet
  /-- `*e.get_mut() = v` -/
  | occSet (v : V)
  | occInsert (v : V)
  | occIntoMut
  | occRemove
  | vacInsert (v : V)
  | orInsert (v : V)
  | orInsertWith (f : σ → σ × Option V) (st : σ)
  | orInsertWithKey (f : σ → K → σ × Option V) (st : σ)
  | orDefault (f : σ → σ × Option V) (st : σ)
  | andModify (f : σ → V → σ × V × Bool) (st : σ)
  /-- read through the `i`-th reference -/
  | read (i : Nat)
  /-- assign through the `i`-th reference -/
  | assign (i : Nat) (v : V)

variable {σ K V : Type} (M : MapStorage K V)

/-- Run one line. Using a reference to a place without a value is undefined behaviour. -/
def step (p : Handle M × M.S) : Cmd σ K V → Res (Handle M × M.S)
  | .insert k v => .ok (.nothing, (Map.insert M p.2 k v).2)
  | .remove k => .ok (.nothing, (Map.remove M p.2 k).2)
  | .clear => .ok (.nothing, (Map.clear M p.2).1)
  | .retain f st => .ok (.nothing, (Map.retain M f p.2 st).s)
  | .getMut k => .ok (.refs (Map.getMut M p.2 k).toList, p.2)
  | .iterMut ds =>
    match (Map.iterMut M).I.run ds ((Map.iterMut M).init p.2) with
    | some (outs, _) => .ok (.refs ((outs.filterMap id).map Prod.snd), p.2)
    | none => .ok (.nothing, p.2)
  | .valuesMut ds =>
    match (Map.valuesMut M).I.run ds ((Map.valuesMut M).init p.2) with
    | some (outs, _) => .ok (.refs (outs.filterMap id), p.2)
    | none => .ok (.nothing, p.2)
  | .entry k => (Map.entry M p.2 k).map fun q =>
    match q.1 with
    | .inl e => (.occ e, q.2)
    | .inr e => (.vac e, q.2)
  | .occGet =>
    match p.1 with
    | .occ e => (M.occGet e p.2).map fun _ => p
    | _ => .ok p
  | .occSet v =>
    match p.1 with
    | .occ e => (M.occGetMut e p.2).bind fun a =>
      match M.read p.2 a with
      | none => .ub
      | some _ => .ok (.occ e, M.write p.2 a v)
    | _ => .ok p
  | .occInsert v =>
    match p.1 with
    | .occ e => (M.occInsert e p.2 v).map fun q => (.occ e, q.2)
    | _ => .ok p
  | .occIntoMut =>
    match p.1 with
    | .occ e => (M.occIntoMut e p.2).map fun a => (.refs [a], p.2)
    | _ => .ok p
  | .occRemove =>
    match p.1 with
    | .occ e => (M.occRemove e p.2).map fun q => (.nothing, q.2)
    | _ => .ok p
  | .vacInsert v =>
    match p.1 with
    | .vac e => (M.vacInsert e p.2 v).map fun q => (.refs [q.1], q.2)
    | _ => .ok p
  | .orInsert v =>
    match p.1 with
    | .occ e => (Entry.orInsert M (.inl e) p.2 v).map fun q => (.refs [q.1], q.2.1)
    | .vac e => (Entry.orInsert M (.inr e) p.2 v).map fun q => (.refs [q.1], q.2.1)
    | _ => .ok p
  | .orInsertWith f st =>
    match p.1 with
    | .occ e => (Entry.orInsertWith M (.inl e) p.2 f st).map fun q => (.refs q.1.toList, q.2.1)
    | .vac e => (Entry.orInsertWith M (.inr e) p.2 f st).map fun q => (.refs q.1.toList, q.2.1)
    | _ => .ok p
  | .orInsertWithKey f st =>
    match p.1 with
    | .occ e => (Entry.orInsertWithKey M (.inl e) p.2 f st).map fun q => (.refs q.1.toList, q.2.1)
    | .vac e => (Entry.orInsertWithKey M (.inr e) p.2 f st).map fun q => (.refs q.1.toList, q.2.1)
    | _ => .ok p
  | .orDefault f st =>
    match p.1 with
    | .occ e => (Entry.orDefault M (.inl e) p.2 f st).map fun q => (.refs q.1.toList, q.2.1)
    | .vac e => (Entry.orDefault M (.inr e) p.2 f st).map fun q => (.refs q.1.toList, q.2.1)
    | _ => .ok p
  | .andModify f st =>
    match p.1 with
    | .occ e => (Entry.andModify M (.inl e) p.2 f st).map fun q =>
      match q.1 with
      | some (.inl e) => (.occ e, q.2.1)
      | some (.inr e) => (.vac e, q.2.1)
      | none => (.nothing, q.2.1)
    | .vac e => (Entry.andModify M (.inr e) p.2 f st).map fun q =>
      match q.1 with
      | some (.inl e) => (.occ e, q.2.1)
      | some (.inr e) => (.vac e, q.2.1)
      | none => (.nothing, q.2.1)
    | _ => .ok p
  | .read i =>
    match p.1 with
    | .refs l =>
      match l[i]? with
      | none => .ok p
      | some a =>
        match M.read p.2 a with
        | none => .ub
        | some _ => .ok p
    | _ => .ok p
  | .assign i v =>
    match p.1 with
    | .refs l =>
      match l[i]? with
      | none => .ok p
      | some a =>
        match M.read p.2 a with
        | none => .ub
        | some _ => .ok (p.1, M.write p.2 a v)
    | _ => .ok p

/-- A client, line by line; it ends with the first panic. What an adaptive client does in a given run is such a list. -/
def run : List (Cmd σ K V) → Handle M × M.S → Res (Handle M × M.S)
  | [], p => .ok p
  | c :: cs, p => (step M p c).bind (run cs)

end Sound

end FixedMap
