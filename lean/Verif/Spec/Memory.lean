import Verif.Spec.Hashbrown
import Verif.Spec.History
import Verif.Spec.SetExact
import Verif.Spec.Uses

/-!
# Memory: the hash tables inside a map or a set

Only hash tables own memory outside of the map itself. `Map::clear` is documented to keep the allocated memory for reuse (map.rs 673-674), and the crate to
avoid allocating (lib.rs 6-7).
-/

set_option autoImplicit false

namespace FixedMap

/-- What is assumed about the memory of a `hashbrown::HashMap<K, V>` (version 0.13.2). Nothing here mentions fixed-map. -/
structure MemoryLaws {K V : Type} (A : HashMapApi K V) where
  /-- The size of the block of memory that the table owns; 0 if it owns none. -/
  mem : A.Table → Nat
  /-- `capacity()`: the number of entries that the table can hold without reallocating. -/
  room : A.Table → Nat
  /-- "will not allocate until it is first inserted into" -/
  new_mem : mem A.new = 0
  write_mem : ∀ t a v, mem (A.write t a v) = mem t
  remove_mem : ∀ t k, mem (A.remove t k).2 = mem t
  retain_mem : ∀ {σ : Type} (f : σ → K → V → σ × V × Option Bool) t st, mem (A.retain f t st).s = mem t
  /-- "Keeps the allocated memory for reuse" -/
  clear_mem : ∀ t, mem (A.clear t).1 = mem t
  clear_room : ∀ t, A.len t ≤ room (A.clear t).1
  entry_mem : ∀ t k, mem (A.entry t k).2 = mem t
  occ_insert_mem : ∀ e t v old t', A.occ_insert e t v = .ok (old, t') → mem t' = mem t
  occ_remove_mem : ∀ e t old t', A.occ_remove e t = .ok (old, t') → mem t' = mem t
  vac_insert_mem : ∀ e t v a t', A.vac_insert e t v = .ok (a, t') → mem t ≤ mem t'
  /-- the clone gets a block of its own, of the same size -/
  clone_mem : ∀ c t, mem (A.clone c t) = mem t
  insert_mem : ∀ t k v, mem t ≤ mem (A.insert t k v).2
  insert_present : ∀ t k v, (A.get t k).isSome → mem (A.insert t k v).2 = mem t ∧ room t ≤ room (A.insert t k v).2
  insert_fits : ∀ t k v, A.len t < room t → mem (A.insert t k v).2 = mem t ∧ room t ≤ room (A.insert t k v).2

mutual
/-- The hash table a key belongs to; `none` if the map has a place of its own for the key. -/
def KeyTy.home : (κ : KeyTy) → κ.Key → Option Nat
  | .bool => fun _ => none
  | .unit => fun _ => none
  | .opt κ => fun k => Option.bind k κ.home
  | .prim _ => fun _ => some 0
  | .units _ => fun _ => none
  | .bitset _ _ _ => fun _ => none
  | .enum fs => fs.home
def Fields.home : (fs : Fields) → fs.Key → Option Nat
  | .nil => fun _ => none
  | .simple fs => Sum.elim (fun _ => none) fs.home
  | .complex κ fs => Sum.elim κ.home fun k => (fs.home k).map (κ.tables + ·)
end

section
variable (H : HashbrownApi) (V : Type)

mutual
/-- The sizes of the memory blocks of the tables in a map. -/
def mapMem (mem : (p : Prim) → (H p.Key V).Table → Nat) : (κ : KeyTy) → (mapStorage H V κ).S → List Nat
  | .bool => fun _ => []
  | .unit => fun _ => []
  | .opt κ => fun s => mapMem mem κ (OptMapSt.some s)
  | .prim p => fun t => [mem p t]
  | .units _ => fun _ => []
  | .bitset _ _ _ => fun _ => []
  | .enum fs => fieldsMem mem fs
def fieldsMem (mem : (p : Prim) → (H p.Key V).Table → Nat) : (fs : Fields) → (mapFields H V fs).S → List Nat
  | .nil => fun _ => []
  | .simple fs => fun s => fieldsMem mem fs s.2
  | .complex κ fs => fun s => mapMem mem κ s.1 ++ fieldsMem mem fs s.2
end

mutual
/-- The sizes of the memory blocks of the tables in a set. -/
def setMem (mem : (p : Prim) → (H p.Key Unit).Table → Nat) : (κ : KeyTy) → (setStorage H κ).S → List Nat
  | .bool => fun _ => []
  | .unit => fun _ => []
  | .opt κ => fun s => setMem mem κ (OptSetSt.some s)
  | .prim p => fun t => [mem p t]
  | .units _ => fun _ => []
  | .bitset _ _ _ => fun _ => []
  | .enum fs => setFieldsMem mem fs
def setFieldsMem (mem : (p : Prim) → (H p.Key Unit).Table → Nat) : (fs : Fields) → (setFields H fs).S → List Nat
  | .nil => fun _ => []
  | .simple fs => fun s => setFieldsMem mem fs s.2
  | .complex κ fs => fun s => setMem mem κ s.1 ++ setFieldsMem mem fs s.2
end

end

/-- The memory of a map. -/
abbrev mapMemory {H : HashbrownApi} {V : Type} (Q : (p : Prim) → MemoryLaws (H p.Key V)) (κ : KeyTy) (m : (mapStorage H V κ).S) : List Nat :=
  mapMem H V (fun p => (Q p).mem) κ m

/-- The memory of a set. -/
abbrev setMemory {H : HashbrownApi} (Q : (p : Prim) → MemoryLaws (H p.Key Unit)) (κ : KeyTy) (s : (setStorage H κ).S) : List Nat :=
  setMem H (fun p => (Q p).mem) κ s

/-- The key under which a call may store a value. -/
def Op.stores {σ K V : Type} : Op σ K V → Option K
  | .insert k _ => some k
  | .orInsert k _ => some k
  | .orInsertWith k _ _ => some k
  | .orInsertWithKey k _ _ => some k
  | .orDefault k _ _ => some k
  | .modifyOrInsert k _ _ => some k
  | .entryInsert k _ => some k
  | _ => none

/-- The bytes that `size_of` reports for the set of a fieldless enum: an array of `bool`s (unit_variants.rs 588-592), or one integer
(unit_variants.rs 423-426, both structs are `repr(transparent)`). -/
def KeyTy.setBytes : KeyTy → Option Nat
  | .units n => some n
  | .bitset _ w _ => some (w / 8)
  | _ => none

/-- Only the table at `i` may have changed its memory, to a larger block. -/
def GrownAt (i : Nat) (l l' : List Nat) : Prop := ∃ y x, l[i]? = some y ∧ y ≤ x ∧ l' = l.set i x

end FixedMap
