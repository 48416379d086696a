import Verif.Properties.MapHistory
import Verif.Proofs.Memory
import Verif.Spec.MemoryProbe
import Verif.Spec.Example

/-! # C81: memory of maps and sets -/

set_option autoImplicit false
set_option linter.unusedSimpArgs false

namespace FixedMap

/-! ## No tables, no allocation -/

section
variable (H H' : Hashbrown) (V : Type) (κ : KeyTy)

/-- C81: a map or set whose type of keys contains no hash table key does not call the hash table at all: with any two hash tables
its methods are the same functions. -/
theorem C81_heapless (h : κ.tables = 0) :
    mapStorage H.api V κ = mapStorage H'.api V κ ∧ setStorage H.api κ = setStorage H'.api κ :=
  ⟨mapStorage_heapless H.api H'.api V κ h, setStorage_heapless H.api H'.api κ h⟩

end

/-! ## Maps -/

section
variable (H : Hashbrown) (V : Type) (κ : KeyTy) (Q : (p : Prim) → MemoryLaws (H.api p.Key V))

/-- C81: a new map owns no memory. -/
theorem C81_new : mapMemory Q κ (Map.new (mapStorage H.api V κ)) = List.replicate κ.tables 0 := (mapMem_of H.api V Q κ).empty

/-- C81: a call changes the memory of a map only if it stores a value for a key that is absent and belongs to a hash table; then only this table may
change, and it may only grow. -/
theorem C81_step {σ : Type} (m : (mapStorage H.api V κ).S) (op : Op σ κ.Key V) (r : StepOut σ κ.Key V (mapStorage H.api V κ).S)
    (h : apiStep (mapStorage H.api V κ) m op = .ok r) :
    mapMemory Q κ r.s = mapMemory Q κ m ∨
      ∃ k i, op.stores = some k ∧ Map.get (mapStorage H.api V κ) m k = none ∧ κ.home k = some i ∧ GrownAt i (mapMemory Q κ m) (mapMemory Q κ r.s) :=
  (mapMem_of H.api V Q κ).step (mapCore H V κ) m op r h

/-- C81: `clear` keeps the memory, as documented. -/
theorem C81_clear (m : (mapStorage H.api V κ).S) : mapMemory Q κ (Map.clear (mapStorage H.api V κ) m).1 = mapMemory Q κ m :=
  (mapMem_of H.api V Q κ).clear m

/-- C81: and for reuse: keys that were in the map can be inserted again, in any order, any number of times and with any values, and no memory is
allocated. -/
theorem C81_reuse (m : (mapStorage H.api V κ).S) (l : List (κ.Key × V))
    (hl : ∀ p ∈ l, (Map.get (mapStorage H.api V κ) m p.1).isSome) :
    mapMemory Q κ (l.foldl (fun t p => (Map.insert (mapStorage H.api V κ) t p.1 p.2).2) (Map.clear (mapStorage H.api V κ) m).1) = mapMemory Q κ m := by
  obtain ⟨fits, h⟩ := mapReuse H V Q κ
  exact h.mem _ _ (h.inserts m l hl _ (h.clear m))

/-- C81: a clone owns as much memory. -/
theorem C81_clone (c : V → V) (m : (mapStorage H.api V κ).S) : mapMemory Q κ (Map.clone (mapStorage H.api V κ) c m) = mapMemory Q κ m :=
  (mapMem_of H.api V Q κ).clone c m

end

/-! ## Sets -/

section
variable (H : Hashbrown) (κ : KeyTy) (Q : (p : Prim) → MemoryLaws (H.api p.Key Unit))

/-- C81 for sets: a new set owns no memory; only `insert` of an element that is absent and belongs to a hash table changes memory, namely of this table, which
may only grow. -/
theorem C81_set_step :
    setMemory Q κ (FSet.new (setStorage H.api κ)) = List.replicate κ.tables 0 ∧
    ∀ (s : (setStorage H.api κ).S) (c : SetCall κ.Key) (out : c.Out) (s' : (setStorage H.api κ).S), FSet.Does (setStorage H.api κ) s c out s' →
      setMemory Q κ s' = setMemory Q κ s ∨
        ∃ x i, c = .insert x ∧ FSet.contains (setStorage H.api κ) s x = false ∧ κ.home x = some i ∧ GrownAt i (setMemory Q κ s) (setMemory Q κ s') := by
  obtain ⟨fits, h⟩ := setMem_of H Q κ
  refine ⟨h.empty, ?_⟩
  intro s c out s' hd
  cases c with
  | insert x =>
    obtain ⟨-, rfl⟩ := hd
    cases hc : FSet.contains (setStorage H.api κ) s x with
    | true => exact .inl (h.present s x hc)
    | false =>
      rcases h.insert s x with h1 | ⟨i, h1, h2⟩
      · exact .inl h1
      · exact .inr ⟨x, i, rfl, hc, h1, h2⟩
  | remove x => obtain ⟨-, rfl⟩ := hd; exact .inl (h.remove s x)
  | contains x => obtain ⟨-, rfl⟩ := hd; exact .inl rfl
  | len => obtain ⟨-, rfl⟩ := hd; exact .inl rfl
  | isEmpty => obtain ⟨-, rfl⟩ := hd; exact .inl rfl
  | clear => cases hd; exact .inl (h.clear s)
  | retain f st => obtain ⟨-, rfl⟩ := hd; exact .inl (h.retain f s st)
  | iter => obtain ⟨-, rfl⟩ := hd; exact .inl rfl
  | clone => cases hd; exact .inl (h.clone s)

/-- C81 for sets: after `clear`, the elements that were in the set can be inserted again without allocating. -/
theorem C81_set_reuse (s : (setStorage H.api κ).S) (l : List κ.Key) (hl : ∀ x ∈ l, FSet.contains (setStorage H.api κ) s x = true) :
    setMemory Q κ (l.foldl (fun t x => (FSet.insert (setStorage H.api κ) t x).2) (FSet.clear (setStorage H.api κ) s)) = setMemory Q κ s := by
  obtain ⟨fits, h⟩ := setMem_of H Q κ
  exact h.fits_mem _ _ (h.inserts s l hl _ (h.fits_clear s))

end

/-! ## Sizes -/

/-- C81: with `#[key(bitset)]` a set of an enum with `n` variants is never larger than without, unless `n` is 0, and smaller from two variants on; it takes one
bit per variant, rounded up to a power of two of bytes. -/
theorem C81_size (n w : Nat) (h : determineBits n = some w) :
    ∃ b, (KeyTy.units n).setBytes = some n ∧ (KeyTy.bitset n w h).setBytes = some b ∧ (1 ≤ n → b ≤ n) ∧ (b < n ↔ 2 ≤ n) ∧
      n ≤ 8 * b ∧ (∃ j, b = 2 ^ j ∧ ∀ i < j, 8 * 2 ^ i < n) := by
  refine ⟨w / 8, rfl, rfl, ?_⟩
  unfold determineBits at h
  repeat' split at h
  all_goals cases h
  · exact ⟨by omega, by omega, by omega, 0, rfl, by omega⟩
  · exact ⟨by omega, by omega, by omega, 1, rfl, fun i hi => by obtain rfl : i = 0 := by omega
                                                                simp; omega⟩
  · exact ⟨by omega, by omega, by omega, 2, rfl, fun i hi => by rcases (by omega : i = 0 ∨ i = 1) with rfl | rfl <;> simp <;> omega⟩
  · exact ⟨by omega, by omega, by omega, 3, rfl, fun i hi => by
      rcases (by omega : i = 0 ∨ i = 1 ∨ i = 2) with rfl | rfl | rfl <;> simp <;> omega⟩
  · exact ⟨by omega, by omega, by omega, 4, rfl, fun i hi => by
      rcases (by omega : i = 0 ∨ i = 1 ∨ i = 2 ∨ i = 3) with rfl | rfl | rfl | rfl <;> simp <;> omega⟩

/-! ## The assumptions can be met -/

/-- C81: tables with open addressing satisfy the laws about memory, if they are rebuilt only when full and never shrink. The memory is the array of slots. -/
theorem C81_laws (K V : Type) [DecidableEq K] (P : Probing K) (hP : Patient P) :
    ∃ Q : MemoryLaws (probeApi P V), ∀ t, Q.mem t = t.1.length :=
  ⟨probeMemory hP V, fun _ => rfl⟩

/-! ## Cases -/

/-- Tables that are filled before they grow; all keys collide. -/
abbrev Ex.Hm : Hashbrown := probeHashbrown fun _ _ => packed fun _ => 2

def Ex.Qm (p : Prim) : MemoryLaws (Ex.Hm.api p.Key Nat) := probeMemory (packed_patient _) Nat

/-- A key type with three tables: `enum { A, B(u8), C(Option<u8>), D(E) }`, `enum E { F(bool), G(u8) }`. -/
abbrev Ex.three : KeyTy :=
  .enum (.simple (.complex (.prim .u8) (.complex (.opt (.prim .u8)) (.complex (.enum (.complex .bool (.complex (.prim .u8) .nil))) .nil))))

def Ex.three.b (x : BitVec 8) : Ex.three.Key := .inr (.inl x)
def Ex.three.c (x : Option (BitVec 8)) : Ex.three.Key := .inr (.inr (.inl x))
def Ex.three.f (x : Bool) : Ex.three.Key := .inr (.inr (.inr (.inl (.inl x))))
def Ex.three.g (x : BitVec 8) : Ex.three.Key := .inr (.inr (.inr (.inl (.inr (.inl x)))))

abbrev Ex.Mm : MapStorage Ex.three.Key Nat := mapStorage Ex.Hm.api Nat Ex.three

def Ex.fill (l : List Ex.three.Key) (m : Ex.Mm.S) : Ex.Mm.S := l.foldl (fun t k => (Map.insert Ex.Mm t k 1).2) m

def Ex.mems (m : Ex.Mm.S) : List Nat := mapMemory (H := Ex.Hm.api) Ex.Qm Ex.three m

/-- Five keys in the first table, one in the third. -/
def Ex.filled : Ex.Mm.S := Ex.fill [.inl (), Ex.three.b 1, Ex.three.b 2, Ex.three.b 3, Ex.three.b 4, Ex.three.b 5, Ex.three.c none, Ex.three.f true, Ex.three.g 7] (Map.new _)

/-- Case: three tables; which key belongs to which. -/
example : Ex.three.tables = 3 ∧ Ex.three.home (Ex.three.b 1) = some 0 ∧ Ex.three.home (Ex.three.c none) = none ∧
    Ex.three.home (Ex.three.c (some 1)) = some 1 ∧ Ex.three.home (Ex.three.f true) = none ∧ Ex.three.home (Ex.three.g 7) = some 2 := by decide

/-- Case for `C81_step`: the first table has grown twice, the second has no memory. Inserting another `C(Some(_))` allocates there and nowhere else. -/
example : Ex.mems Ex.filled = [8, 0, 4] ∧ Ex.mems (Ex.fill [Ex.three.c (some 0)] Ex.filled) = [8, 4, 4] ∧
    GrownAt 1 [8, 0, 4] [8, 4, 4] := ⟨rfl, rfl, 0, 4, rfl, by omega, rfl⟩

/-- Case for `C81_reuse`: cleared and filled again, in another order. -/
example :
    let m := (Map.clear Ex.Mm Ex.filled).1
    let t := Ex.fill [Ex.three.b 5, Ex.three.g 7, Ex.three.b 3, Ex.three.b 5, Ex.three.b 1, Ex.three.b 2, Ex.three.b 4] m
    Map.len Ex.Mm m = 0 ∧ Ex.mems m = [8, 0, 4] ∧ Map.len Ex.Mm t = 6 ∧ Ex.mems t = [8, 0, 4] := ⟨rfl, rfl, rfl, rfl⟩

/-- Case: other keys may need more memory. -/
example :
    Ex.mems (Ex.fill [Ex.three.b 5, Ex.three.g 7, Ex.three.g 1, Ex.three.g 2, Ex.three.g 3, Ex.three.g 4] (Map.clear Ex.Mm Ex.filled).1) = [8, 0, 8] := rfl

/-- Case for `C81_heapless`: an enum of fieldless enums, booleans and options. -/
example : (KeyTy.enum (.simple (.complex (.opt .bool) (.complex (.units 3) .nil)))).tables = 0 := rfl

/-- Case for `C81_size`, the example of lib.rs 340-358: three bytes against one. -/
example : (KeyTy.units 3).setBytes = some 3 ∧ (KeyTy.bitset 3 8 rfl).setBytes = some 1 ∧ (KeyTy.bitset 0 8 rfl).setBytes = some 1 := ⟨rfl, rfl, rfl⟩

end FixedMap
