import Verif.Model.Key

/-! # Which key types use hashbrown -/

set_option autoImplicit false

namespace FixedMap

mutual
/-- How many hash tables a map or set over the key type has. -/
def KeyTy.tables : KeyTy → Nat
  | .bool | .unit | .units _ | .bitset _ _ _ => 0
  | .prim _ => 1
  | .opt κ => κ.tables
  | .enum fs => fs.tables
def Fields.tables : Fields → Nat
  | .nil => 0
  | .simple fs => fs.tables
  | .complex κ fs => κ.tables + fs.tables
end

/-- The hash tables of `A` except that `len` always answers `c`. -/
def HashbrownApi.lying (A : HashbrownApi) (c : Nat) : HashbrownApi := fun K V _ => { A K V with len := fun _ => c }

end FixedMap
