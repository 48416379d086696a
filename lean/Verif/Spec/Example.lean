import Verif.Model.SetApi
import Verif.Spec.HashbrownRef

/-!
# A concrete key type, map and set, used in the cases beside the theorems

```
#[derive(Clone, Copy, Key)] enum Part { Left, Right }
#[derive(Clone, Copy, Key)] enum ExKey { Simple, Flag(bool), Byte(u8), Opt(Option<Part>) }
```
-/

set_option autoImplicit false

namespace FixedMap

namespace Ex

/-- `ExKey`. -/
abbrev key : KeyTy := .enum (.simple (.complex .bool (.complex (.prim .u8) (.complex (.opt (.units 2)) .nil))))

/-- `Simple`. -/
def simple : key.Key := Sum.inl ()
/-- `Flag(b)`. -/
def flag (b : Bool) : key.Key := Sum.inr (Sum.inl b)
/-- `Byte(n)`. -/
def byte (n : BitVec 8) : key.Key := Sum.inr (Sum.inr (Sum.inl n))
/-- `Opt(o)`. -/
def opt (o : Option (Fin 2)) : key.Key := Sum.inr (Sum.inr (Sum.inr (Sum.inl o)))

/-- hashbrown as association lists. -/
abbrev H : Hashbrown := assocHashbrown

/-- `Map<ExKey, u32>`. -/
abbrev M : MapStorage key.Key Nat := mapStorage H.api Nat key

/-- A map with six entries: `Flag(false)`, `Byte(7)`, `Byte(200)`, `Opt(Some(Right))`, `Opt(None)`, `Simple`. -/
def map : M.S :=
  (Map.fromIter M [(flag false, 1), (byte 7, 2), (byte 200, 3), (opt (some 1), 4), (opt none, 5), (simple, 6)]).1

/-- `Set<ExKey>`. -/
abbrev N : SetStorage key.Key := setStorage H.api key

/-- A set with five elements. -/
def set : N.S :=
  (([flag false, byte 7, opt (some 1), opt none, simple] : List key.Key).foldl (fun s k => (FSet.insert N s k).2)
    (FSet.new N))

/-- `enum PlainKey { A, Byte(u8), Part(Parts) }` with `#[key(bitset)] enum Parts { X, Y, Z }`: no `bool`, `Option`, `()`. -/
abbrev plain : KeyTy := .enum (.simple (.complex (.prim .u8) (.complex (.bitset 3 8 rfl) .nil)))

/-- `A`. -/
def pa : plain.Key := Sum.inl ()
/-- `Byte(n)`. -/
def pbyte (n : BitVec 8) : plain.Key := Sum.inr (Sum.inl n)
/-- `Part(i)`. -/
def ppart (i : Fin 3) : plain.Key := Sum.inr (Sum.inr (Sum.inl i))

/-- `Set<PlainKey>`. -/
abbrev P : SetStorage plain.Key := setStorage H.api plain

/-- A set with four elements. -/
def pset : P.S := FSet.fromIter P [ppart 2, pbyte 9, pa, ppart 0]

end Ex

end FixedMap
