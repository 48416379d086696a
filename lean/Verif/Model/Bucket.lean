import Verif.Model.Std

/-!
# `src/option_bucket.rs`

A bucket in Rust holds `outer: &mut Option<T>`. The model keeps the place in the surrounding storage
and passes its current content to the functions below; they return the new content.
-/

set_option autoImplicit false

namespace FixedMap

/-- `SomeBucket::new_unchecked`, option_bucket.rs 124-131: the caller has to guarantee `opt.is_some()`.
A violation is the documented undefined behaviour (a failing `debug_assert!` in debug builds). -/
def SomeBucket.newUnchecked {V : Type} (opt : Option V) : Res Unit :=
  if opt.isSome then .ok () else .ub

/-- `SomeBucket::new`, option_bucket.rs 138-145. -/
def SomeBucket.new {V : Type} (opt : Option V) : Res (Option Unit) :=
  if opt.isSome then (SomeBucket.newUnchecked opt).map some else .ok none

/-- `SomeBucket::as_ref`, option_bucket.rs 163-167 (`unwrap_unchecked` on `None` is UB). -/
def SomeBucket.asRef {V : Type} : Option V → Res V
  | some v => .ok v
  | none => .ub

/-- `SomeBucket::as_mut`, option_bucket.rs 184-188. The reference points into the bucket's slot;
`.ok ()` says that the slot is live. -/
def SomeBucket.asMut {V : Type} : Option V → Res Unit
  | some _ => .ok ()
  | none => .ub

/-- `SomeBucket::into_mut`, option_bucket.rs 217-221. -/
def SomeBucket.intoMut {V : Type} : Option V → Res Unit
  | some _ => .ok ()
  | none => .ub

/-- `SomeBucket::replace`, option_bucket.rs 239-241: `mem::replace(self.as_mut(), value)`. Returns the old
value and the new slot content. -/
def SomeBucket.replace {V : Type} (outer : Option V) (value : V) : Res (V × Option V) :=
  match outer with
  | some old => .ok (old, some value)
  | none => .ub

/-- `SomeBucket::take`, option_bucket.rs 257-261: `self.outer.take().unwrap_unchecked()`. -/
def SomeBucket.take {V : Type} (outer : Option V) : Res (V × Option V) :=
  match outer with
  | some v => .ok (v, none)
  | none => .ub

/-- `NoneBucket::new_unchecked`, option_bucket.rs 319-326. -/
def NoneBucket.newUnchecked {V : Type} (opt : Option V) : Res Unit :=
  if opt.isNone then .ok () else .ub

/-- `NoneBucket::new`, option_bucket.rs 333-340. -/
def NoneBucket.new {V : Type} (opt : Option V) : Res (Option Unit) :=
  if opt.isNone then (NoneBucket.newUnchecked opt).map some else .ok none

/-- `NoneBucket::insert`, option_bucket.rs 358-367: `ptr::write(outer, Some(value))` without dropping
the old content, then `unwrap_unchecked`. Overwriting a live value would leak it; the model reports
that as `ub` as well, so that "never `ub`" includes "never leaks". Returns the new slot content. -/
def NoneBucket.insert {V : Type} (outer : Option V) (value : V) : Res (Option V) :=
  match outer with
  | some _ => .ub
  | none => .ok (some value)

/-- Which constructor `OptionBucket::new` picked. -/
inductive BucketKind where
  | some
  | none
deriving DecidableEq, Repr

/-- `OptionBucket::new`, option_bucket.rs 412-420. -/
def OptionBucket.new {V : Type} (opt : Option V) : Res BucketKind :=
  if opt.isSome then
    (SomeBucket.newUnchecked opt).map fun _ => BucketKind.some
  else
    (NoneBucket.newUnchecked opt).map fun _ => BucketKind.none

end FixedMap
