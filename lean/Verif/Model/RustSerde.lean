import Verif.Model.RustApi

/-!
# What deserialize and expecting take from outside

`Deserialize::deserialize` (src/map.rs 1407-1448, src/set.rs 1026-1065) makes a visitor and hands it to the deserializer, and `expecting` of the visitor writes a string. Here the deserializer
and the formatter answer in any way that depends on the method that is called and, for the deserializer, on the type of the visitor. What is in the string is not looked at.
-/

set_option autoImplicit false

namespace FixedMap.Rust

/-- The foreign values of `deserialize` and `expecting`. -/
inductive VX (O : Type) where
  | deserializer
  | formatter
  | out (o : O)

/-- `answer`: of the deserializer, given the method and the type of the visitor; `write`: of the formatter, given the method. -/
def handForeign {O σ : Type} (answer : String → String → O) (write : String → O) : Foreign (VX O) σ where
  assoc _ _ := none
  call m x _ args _ st k :=
    match x, args with
    | .deserializer, [.con "" visitor [_]] => k (.ext (.out (answer m visitor))) st
    | .formatter, [.unit] => k (.ext (.out (write m))) st
    | _, _ => .stuck
  step _ _ := none
  owned _ := false
  readAt _ _ := none
  writeAt _ _ _ := none
  eq _ _ := false
  user _ _ _ := .stuck

end FixedMap.Rust
