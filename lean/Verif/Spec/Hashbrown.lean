import Verif.Spec.Iter
import Verif.Spec.Retain
import Verif.Model.Key

/-!
# What is assumed about `hashbrown`

`hashbrown::HashMap` is an external crate. This file states, in terms of its public API, the behaviour
documented for it. Nothing here mentions fixed-map.

* `entries t` is the content of the table in its internal order; all iterators and `retain` go through the
  table in that order; nothing is assumed about the order itself or how operations change it, except that
  writing through a reference keeps it.
* `keyAt t a` is the key whose value the live `&mut V` reference `a` points to.
* `occFits e t k` / `vacFits e t k`: `e` is an entry obtained for the key `k`, and the table is in the state
  the entry expects.
-/

set_option autoImplicit false

namespace FixedMap

/-- Assumed laws of one `hashbrown::HashMap<K, V>`. -/
structure HashMapLaws {K V : Type} (A : HashMapApi K V) where
  entries : A.Table → List (K × V)
  addrs : A.Table → List (K × A.Addr)
  keyAt : A.Table → A.Addr → Option K
  occFits : A.OccupiedEntry → A.Table → K → Prop
  vacFits : A.VacantEntry → A.Table → K → Prop
  mem_entries : ∀ t k v, (k, v) ∈ entries t ↔ A.get t k = some v
  nodup_keys : ∀ t, ((entries t).map Prod.fst).Nodup
  new_entries : entries A.new = []
  len_eq : ∀ t, A.len t = (entries t).length
  is_empty_eq : ∀ t, A.is_empty t = (entries t).isEmpty
  contains_key_eq : ∀ t k, A.contains_key t k = (A.get t k).isSome
  insert_ret : ∀ t k v, (A.insert t k v).1 = A.get t k
  get_insert_self : ∀ t k v, A.get (A.insert t k v).2 k = some v
  get_insert_ne : ∀ t k v k', k' ≠ k → A.get (A.insert t k v).2 k' = A.get t k'
  remove_ret : ∀ t k, (A.remove t k).1 = A.get t k
  get_remove_self : ∀ t k, A.get (A.remove t k).2 k = none
  get_remove_ne : ∀ t k k', k' ≠ k → A.get (A.remove t k).2 k' = A.get t k'
  retain_entries : ∀ {σ : Type} (f : σ → K → V → σ × V × Option Bool) t st,
    (entries (A.retain f t st).s).Perm (retainRef f (entries t) st).s
  retain_st : ∀ {σ : Type} (f : σ → K → V → σ × V × Option Bool) t st,
    (A.retain f t st).st = (retainRef f (entries t) st).st
  retain_panicked : ∀ {σ : Type} (f : σ → K → V → σ × V × Option Bool) t st,
    (A.retain f t st).panicked = (retainRef f (entries t) st).panicked
  retain_dropped : ∀ {σ : Type} (f : σ → K → V → σ × V × Option Bool) t st,
    (A.retain f t st).dropped = (retainRef f (entries t) st).dropped
  clear_entries : ∀ t, entries (A.clear t).1 = []
  clear_dropped : ∀ t, (A.clear t).2.Perm ((entries t).map Prod.snd)
  keyAt_live : ∀ t a k, keyAt t a = some k → (A.get t k).isSome
  read_eq : ∀ t a k, keyAt t a = some k → A.read t a = A.get t k
  get_write_self : ∀ t a k v, keyAt t a = some k → A.get (A.write t a v) k = some v
  get_write_ne : ∀ t a k v k', keyAt t a = some k → k' ≠ k → A.get (A.write t a v) k' = A.get t k'
  keyAt_write : ∀ t a k v a', keyAt t a = some k → keyAt (A.write t a v) a' = keyAt t a'
  keys_write : ∀ t a k v, keyAt t a = some k → (entries (A.write t a v)).map Prod.fst = (entries t).map Prod.fst
  get_mut_some : ∀ t k v, A.get t k = some v → ∃ a, A.get_mut t k = some a ∧ keyAt t a = some k
  get_mut_none : ∀ t k, A.get t k = none → A.get_mut t k = none
  entry_some : ∀ t k v, A.get t k = some v → ∃ e t', A.entry t k = (.inl e, t') ∧
    (∀ k', A.get t' k' = A.get t k') ∧ occFits e t' k
  entry_none : ∀ t k, A.get t k = none → ∃ e t', A.entry t k = (.inr e, t') ∧
    (∀ k', A.get t' k' = A.get t k') ∧ vacFits e t' k
  occ_key_eq : ∀ e t k, occFits e t k → A.occ_key e = k
  occ_get_eq : ∀ e t k, occFits e t k → ∃ v, A.occ_get e t = .ok v ∧ A.get t k = some v
  occ_get_mut_eq : ∀ e t k, occFits e t k → ∃ a, A.occ_get_mut e t = .ok a ∧ keyAt t a = some k
  occ_into_mut_eq : ∀ e t k, occFits e t k → ∃ a, A.occ_into_mut e t = .ok a ∧ keyAt t a = some k
  occFits_write : ∀ e t k a v, occFits e t k → keyAt t a = some k → occFits e (A.write t a v) k
  occ_insert_eq : ∀ e t k v, occFits e t k → ∃ old t', A.occ_insert e t v = .ok (old, t') ∧ A.get t k = some old ∧
    A.get t' k = some v ∧ (∀ k', k' ≠ k → A.get t' k' = A.get t k') ∧ occFits e t' k
  occ_remove_eq : ∀ e t k, occFits e t k → ∃ old t', A.occ_remove e t = .ok (old, t') ∧ A.get t k = some old ∧
    A.get t' k = none ∧ (∀ k', k' ≠ k → A.get t' k' = A.get t k')
  vac_key_eq : ∀ e t k, vacFits e t k → A.vac_key e = k
  vac_insert_eq : ∀ e t k v, vacFits e t k → A.get t k = none ∧ ∃ a t', A.vac_insert e t v = .ok (a, t') ∧
    A.get t' k = some v ∧ (∀ k', k' ≠ k → A.get t' k' = A.get t k') ∧ keyAt t' a = some k
  get_clone : ∀ c t k, A.get (A.clone c t) k = (A.get t k).map c
  iter_like : ∀ t, BehavesLike A.iter.I (A.iter.init t) (entries t)
  into_iter_like : ∀ t, BehavesLike A.into_iter.I (A.into_iter.init t) (entries t)
  keys_like : ∀ t, BehavesLike A.keys.I (A.keys.init t) ((entries t).map Prod.fst)
  values_like : ∀ t, BehavesLike A.values.I (A.values.init t) ((entries t).map Prod.snd)
  iter_mut_like : ∀ t, BehavesLike A.iter_mut.I (A.iter_mut.init t) (addrs t)
  values_mut_like : ∀ t, BehavesLike A.values_mut.I (A.values_mut.init t) ((addrs t).map Prod.snd)
  addrs_keys : ∀ t, (addrs t).map Prod.fst = (entries t).map Prod.fst
  addrs_at : ∀ t k a, (k, a) ∈ addrs t → keyAt t a = some k

/-- hashbrown: its API together with the assumed laws, at every key and value type. -/
structure Hashbrown where
  api : HashbrownApi
  laws : (K V : Type) → [DecidableEq K] → HashMapLaws (api K V)

end FixedMap
