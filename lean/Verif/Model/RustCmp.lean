import Verif.Model.RustApi
import Verif.Model.Compare

/-!
# What src/macro_support.rs takes from outside

Iterators over slices, and the methods of `Iterator` that the file calls. `filter_map` and `filter` call their function for all items at once: those of the file have no effects,
so that it does not matter when they are called.
-/

set_option autoImplicit false

namespace FixedMap.Rust

/-- Values of the user; iterators over `&Option<T>` and `&bool`, enumerated ones, and filtered ones; results of comparisons. -/
inductive CX (V R : Type) where
  | val (v : V)
  | slots (l : List (Option V))
  | numbered (l : List (Nat × Option V))
  | items (l : List (Nat × V))
  | bools (l : List Bool)
  | numberedBools (l : List (Nat × Bool))
  | res (r : R)

section
variable {V R σ : Type}

/-- `filter_map`. -/
def filterMapCall (inv : Val (CX V R) → List (Val (CX V R)) → St (CX V R) σ → Cont (CX V R) σ → Ans (CX V R) σ) (f : Val (CX V R)) (k : Cont (CX V R) σ) :
    List (Nat × Option V) → List (Nat × V) → St (CX V R) σ → Ans (CX V R) σ
  | [], acc, st => k (.ext (.items acc)) st
  | q :: l, acc, st =>
    inv f [pair (.nat q.1) (.shared (optV (fun v => .ext (.val v)) q.2))] st fun r st =>
      match r with
      | .con "Option" "Some" [.con "" "" [.nat i, .shared (.ext (.val v))]] => filterMapCall inv f k l (acc ++ [(i, v)]) st
      | .con "Option" "None" [] => filterMapCall inv f k l acc st
      | _ => .stuck

/-- `filter`. -/
def filterCall (inv : Val (CX V R) → List (Val (CX V R)) → St (CX V R) σ → Cont (CX V R) σ → Ans (CX V R) σ) (f : Val (CX V R)) (k : Cont (CX V R) σ) :
    List (Nat × Bool) → List (Nat × Bool) → St (CX V R) σ → Ans (CX V R) σ
  | [], acc, st => k (.ext (.numberedBools acc)) st
  | q :: l, acc, st =>
    inv f [.shared (pair (.nat q.1) (.shared (.bool q.2)))] st fun r st =>
      match r with
      | .bool b => filterCall inv f k l (if b then acc ++ [q] else acc) st
      | _ => .stuck

/-- `meth` is the method for which `c` is that of the values: `partial_cmp` or `cmp`. -/
def cmpForeign (meth : String) (of : Ordering → R) (isEq : R → Bool) (c : CmpFn σ V R) : Foreign (CX V R) σ where
  assoc _ _ := none
  call m x _ args inv st k :=
    match x, m, args with
    | .slots l, "into_iter", [] => k (.ext (.slots l)) st
    | .slots l, "enumerate", [] => k (.ext (.numbered (enumerate l))) st
    | .numbered l, "filter_map", [f] => filterMapCall inv f k l [] st
    | .bools l, "into_iter", [] => k (.ext (.bools l)) st
    | .bools l, "enumerate", [] => k (.ext (.numberedBools (enumerate l))) st
    | .numberedBools l, "filter", [f] => filterCall inv f k l [] st
    | .items a, m, [.ext (.items b)] => if m == meth then afterUser (iterCmpD of isEq c a b st.user) (fun r => .ext (.res r)) st k else .stuck
    | .numberedBools a, m, [.ext (.numberedBools b)] =>
      if m == meth then afterUser (iterCmpD of isEq (fun u x y => (u, some (of (boolCmp x y)))) a b st.user) (fun r => .ext (.res r)) st k else .stuck
    | _, _, _ => .stuck
  step _ _ := none
  owned _ := false
  readAt _ _ := none
  writeAt _ _ _ := none
  eq _ _ := false
  user _ _ _ := .stuck

end

end FixedMap.Rust
