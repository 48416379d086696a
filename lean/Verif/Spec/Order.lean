import Verif.Model.Key

/-! # Declaration order of keys -/

set_option autoImplicit false

namespace FixedMap

mutual
/-- No hash table is involved. -/
def KeyTy.hashFree : KeyTy → Bool
  | .prim _ => false
  | .opt κ => κ.hashFree
  | .enum fs => fs.hashFree
  | _ => true
def Fields.hashFree : Fields → Bool
  | .nil => true
  | .simple fs => fs.hashFree
  | .complex κ fs => κ.hashFree && fs.hashFree
end

mutual
/-- The key type contains no `()`. -/
def KeyTy.noUnit : KeyTy → Bool
  | .unit => false
  | .opt κ => κ.noUnit
  | .enum fs => fs.noUnit
  | _ => true
def Fields.noUnit : Fields → Bool
  | .nil => true
  | .simple fs => fs.noUnit
  | .complex κ fs => κ.noUnit && fs.noUnit
end

mutual
/-- All keys in declaration order: `true` before `false`, `Some(_)` before `None`, variants as declared, payloads
of one variant in their own order. (Hash-backed keys are left out.) -/
def KeyTy.allKeys : (κ : KeyTy) → List κ.Key
  | .bool => [true, false]
  | .unit => [()]
  | .opt κ => κ.allKeys.map some ++ [none]
  | .prim _ => []
  | .units n => List.finRange n
  | .bitset n _ _ => List.finRange n
  | .enum fs => fs.allKeys
def Fields.allKeys : (fs : Fields) → List fs.Key
  | .nil => []
  | .simple fs => Sum.inl () :: fs.allKeys.map Sum.inr
  | .complex κ fs => κ.allKeys.map Sum.inl ++ fs.allKeys.map Sum.inr
end

/-- `Some(_)` before `None`. -/
def optBefore {K : Type} (R : K → K → Prop) : Option K → Option K → Prop
  | some a, some b => R a b
  | some _, none => True
  | none, _ => False

/-- One variant before the following ones. -/
def sumBefore {A B : Type} (R : A → A → Prop) (Q : B → B → Prop) : A ⊕ B → A ⊕ B → Prop
  | .inl a, .inl b => R a b
  | .inl _, .inr _ => True
  | .inr _, .inl _ => False
  | .inr a, .inr b => Q a b

mutual
/-- `a` may be yielded before `b`: declared earlier, or different keys of the same hash table (no order). -/
def KeyTy.mayPrecede : (κ : KeyTy) → κ.Key → κ.Key → Prop
  | .bool => fun a b => a = true ∧ b = false
  | .unit => fun _ _ => False
  | .opt κ => optBefore κ.mayPrecede
  | .prim _ => fun a b => a ≠ b
  | .units n => fun a b => LT.lt (α := Fin n) a b
  | .bitset n _ _ => fun a b => LT.lt (α := Fin n) a b
  | .enum fs => fs.mayPrecede
def Fields.mayPrecede : (fs : Fields) → fs.Key → fs.Key → Prop
  | .nil => fun _ _ => False
  | .simple fs => sumBefore (fun _ _ => False) fs.mayPrecede
  | .complex κ fs => sumBefore κ.mayPrecede fs.mayPrecede
end

end FixedMap
