import Verif.Spec.Order

/-! # Where sets deviate from ordinary sets

These describe, per key type, what the code really does; the property files use them to delimit the exceptions. -/

set_option autoImplicit false

namespace FixedMap

mutual
/-- The key type contains no `bool`. -/
def KeyTy.noBool : KeyTy → Bool
  | .bool => false
  | .opt κ => κ.noBool
  | .enum fs => fs.noBool
  | _ => true
def Fields.noBool : Fields → Bool
  | .nil => true
  | .simple fs => fs.noBool
  | .complex κ fs => κ.noBool && fs.noBool
end

mutual
/-- The key type contains no `Option`. -/
def KeyTy.noOpt : KeyTy → Bool
  | .opt _ => false
  | .enum fs => fs.noOpt
  | _ => true
def Fields.noOpt : Fields → Bool
  | .nil => true
  | .simple fs => fs.noOpt
  | .complex κ fs => κ.noOpt && fs.noOpt
end

/-- `true` exactly where `Set::insert` answers the wrong way round: `bool` values and `None`. -/
def optQuirk {K : Type} (q : K → Bool) : Option K → Bool
  | none => true
  | some k => q k

mutual
/-- `Set::insert` answers the wrong way round for these elements: `bool` values and `None`, at any depth. -/
def KeyTy.insertInverted : (κ : KeyTy) → κ.Key → Bool
  | .bool => fun _ => true
  | .unit => fun _ => false
  | .opt κ => fun k => optQuirk κ.insertInverted k
  | .prim _ => fun _ => false
  | .units _ => fun _ => false
  | .bitset _ _ _ => fun _ => false
  | .enum fs => fs.insertInverted
def Fields.insertInverted : (fs : Fields) → fs.Key → Bool
  | .nil => fun _ => false
  | .simple fs => Sum.elim (fun _ => false) fs.insertInverted
  | .complex κ fs => Sum.elim κ.insertInverted fs.insertInverted
end

mutual
/-- `Set::remove` answers whether any of these is present. -/
def KeyTy.siblings : (κ : KeyTy) → κ.Key → List κ.Key
  | .bool => fun _ => [true, false]
  | .unit => fun k => [k]
  | .opt κ => fun o => Option.elim o [none] fun k => (κ.siblings k).map some
  | .prim _ => fun k => [k]
  | .units _ => fun k => [k]
  | .bitset _ _ _ => fun k => [k]
  | .enum fs => fs.siblings
def Fields.siblings : (fs : Fields) → fs.Key → List fs.Key
  | .nil => fun _ => []
  | .simple fs => Sum.elim (fun _ => [.inl ()]) fun k => (fs.siblings k).map .inr
  | .complex κ fs => Sum.elim (fun k => (κ.siblings k).map .inl) fun k => (fs.siblings k).map .inr
end

mutual
/-- `Set::is_empty` answers this about the set with elements `P`: inside every `Option`, `None` must be present. -/
def KeyTy.saysEmpty : (κ : KeyTy) → (κ.Key → Prop) → Prop
  | .bool => fun P => ∀ b, ¬P b
  | .unit => fun P => ¬P ()
  | .opt κ => fun P => κ.saysEmpty (fun k => P (some k)) ∧ P none
  | .prim _ => fun P => ∀ k, ¬P k
  | .units _ => fun P => ∀ k, ¬P k
  | .bitset _ _ _ => fun P => ∀ k, ¬P k
  | .enum fs => fs.saysEmpty
def Fields.saysEmpty : (fs : Fields) → (fs.Key → Prop) → Prop
  | .nil => fun _ => True
  | .simple fs => fun P => ¬P (.inl ()) ∧ fs.saysEmpty fun k => P (.inr k)
  | .complex κ fs => fun P => κ.saysEmpty (fun k => P (.inl k)) ∧ fs.saysEmpty fun k => P (.inr k)
end

mutual
/-- `Set::retain` calls the closure with these elements even if they are absent, and adds them when it accepts:
`()` payloads. -/
def KeyTy.phantom : (κ : KeyTy) → κ.Key → Bool
  | .bool => fun _ => false
  | .unit => fun _ => true
  | .opt κ => fun o => Option.elim o false κ.phantom
  | .prim _ => fun _ => false
  | .units _ => fun _ => false
  | .bitset _ _ _ => fun _ => false
  | .enum fs => fs.phantom
def Fields.phantom : (fs : Fields) → fs.Key → Bool
  | .nil => fun _ => false
  | .simple fs => Sum.elim (fun _ => false) fs.phantom
  | .complex κ fs => Sum.elim κ.phantom fs.phantom
end

end FixedMap
