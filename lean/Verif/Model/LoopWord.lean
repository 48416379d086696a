import Verif.Model.Key

/-!
# The generated iterator loops on machine words

`Model/MapEnum.lean` runs the loops of `IteratorNext` and `IteratorNextBack` (any_variants.rs 1800-1850) on natural
numbers and gives them enough fuel. Here they are written as generated: `start` and `end` are `usize` values of `w`
bits, `wrapping_add` and `wrapping_sub` wrap around, `match self.start { 0 => …, 1 => …, _ => break }` compares words,
and the `while` loop may run forever: `none` says that `fuel` rounds were not enough.
-/

set_option autoImplicit false

namespace FixedMap

/-- `struct Iter { start: usize, end: usize, fields… }`, any_variants.rs 803-807 -/
structure WordSt (w : Nat) (St : Type) where
  start : BitVec w
  stop : BitVec w
  fields : St

/-- `usize::min` -/
def wordMin {w : Nat} (a b : BitVec w) : BitVec w := if b < a then b else a
/-- `usize::max` -/
def wordMax {w : Nat} (a b : BitVec w) : BitVec w := if b < a then a else b

/-- `IteratorNext::to_tokens`, any_variants.rs 1800-1815. Arm `i` matches the word with value `i`. -/
def StepOf.wordNext {S α : Type} (w : Nat) (F : StepOf S α) : Nat → WordSt w F.St → Option (Option α × WordSt w F.St)
  | 0, _ => none
  | fuel + 1, st =>
    if st.start < st.stop then
      match F.next st.start.toNat st.fields with
      | none => some (none, st)
      | some (some x, fs) => some (some x, { st with fields := fs })
      | some (none, fs) => StepOf.wordNext w F fuel ⟨wordMin (st.start + 1) st.stop, st.stop, fs⟩
    else some (none, st)

/-- `IteratorNextBack::to_tokens`, any_variants.rs 1833-1850. -/
def wordNextBack {St α : Type} (w : Nat) (nb : Nat → St → Option (Option α × St)) :
    Nat → WordSt w St → Option (Option α × WordSt w St)
  | 0, _ => none
  | fuel + 1, st =>
    if st.start < st.stop then
      match nb (st.stop - 1).toNat st.fields with
      | none => some (none, st)
      | some (some x, fs) => some (some x, { st with fields := fs })
      | some (none, fs) => wordNextBack w nb fuel ⟨st.start, wordMax (st.stop - 1) st.start, fs⟩
    else some (none, st)

/-- `start: 0, end: #end` (any_variants.rs 1780-1788): `#end` is the `usize` literal of `fields.len()`. -/
def StepOf.wordInit {S α : Type} (w : Nat) (F : StepOf S α) (s : S) : WordSt w F.St := ⟨0, BitVec.ofNat w F.count, F.init s⟩

end FixedMap
