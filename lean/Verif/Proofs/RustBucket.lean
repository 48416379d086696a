import Verif.Proofs.RustTactic

/-!
# src/option_bucket.rs does what Bucket.lean does, and the iterators of the boolean storages
-/

set_option autoImplicit false

namespace FixedMap.Rust

variable {X σ : Type} (F : Foreign X σ) (n : Nat)

/-- `o`: whether the values in slots are moved. -/
theorem bucketText (o : Bool) : BucketText Progs.optionBucket (n + 40) { F with owned := fun _ => o } where
  some_new_unchecked u s := by cases o <;> cases s <;> kernel_rfl
  some_new u s := by cases o <;> cases s <;> kernel_rfl
  as_ref u s := by cases o <;> cases s <;> kernel_rfl
  as_mut u s := by cases o <;> cases s <;> kernel_rfl
  into_mut u s := by cases o <;> cases s <;> kernel_rfl
  replace u s x := by cases o <;> cases s <;> kernel_rfl
  take u s := by cases o <;> cases s <;> kernel_rfl
  none_new_unchecked u s := by cases o <;> cases s <;> kernel_rfl
  none_new u s := by cases o <;> cases s <;> kernel_rfl
  none_insert u s x := by cases o <;> cases s <;> kernel_rfl
  option_new u s := by cases o <;> cases s <;> kernel_rfl

theorem keysText : BitsText Progs.mapBoolean (n + 40) F "Keys" where
  clone u b := by kernel_rfl
  len u b := by kernel_rfl

theorem setIterText : BitsText Progs.setBoolean (n + 40) F "Iter" where
  clone u b := by kernel_rfl
  len u b := by kernel_rfl

end FixedMap.Rust
