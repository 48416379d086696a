import Verif.Spec.Order

/-!
# What is dropped while a half-made clone unwinds, and in which order

A clone is made part by part. If a part panics, the finished parts are dropped, the last one first, and each part drops its values
in order; the elements of an array are dropped in order.
-/

set_option autoImplicit false

namespace FixedMap

mutual
/-- The keys whose clones are dropped, in this order, if cloning the value of the given key panics. Keys that are not in the map are
to be left out. (For key types without hashed parts.) -/
def KeyTy.unwindKeys : (κ : KeyTy) → κ.Key → List κ.Key
  | .bool => fun k => match k with
    | true => []
    | false => [true]
  | .unit => fun _ => []
  | .opt κ => fun k => match k with
    | some k => (KeyTy.unwindKeys κ k).map some
    | none => κ.allKeys.map some
  | .prim _ => fun _ => []
  | .units n => fun (i : Fin n) => (List.finRange n).filter fun j : Fin n => decide (j < i)
  | .bitset n _ _ => fun (i : Fin n) => (List.finRange n).filter fun j : Fin n => decide (j < i)
  | .enum fs => fs.unwindKeys
/-- The same for the variants of an enum: the variants before that of the key, the last one first. -/
def Fields.unwindKeys : (fs : Fields) → fs.Key → List fs.Key
  | .nil => fun _ => []
  | .simple fs => fun k => match k with
    | .inl _ => []
    | .inr k => (Fields.unwindKeys fs k).map Sum.inr ++ [Sum.inl ()]
  | .complex κ fs => fun k => match k with
    | .inl k => (KeyTy.unwindKeys κ k).map Sum.inl
    | .inr k => (Fields.unwindKeys fs k).map Sum.inr ++ κ.allKeys.map Sum.inl
end

end FixedMap
