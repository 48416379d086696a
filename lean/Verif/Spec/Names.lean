/-!
# Name resolution

How rustc resolves the first segment of a path that an emitted item mentions, as far as the derive is concerned: local names (type parameters, function
parameters, variables) first, then the items of the enclosing `const _` block, then what the user has in scope where the enum is
declared, then the prelude and the primitive types. All identifiers that the derive emits have call-site hygiene, so they are resolved like names that the
user wrote there.

An identifier pattern introduces a variable, unless the name is that of a constant, a static, or the constructor of a struct or variant: then it is that
constant, or rejected. (Function parameters, `let` and the arguments of closures are patterns.)
-/

set_option autoImplicit false

namespace FixedMap.Names

/-- Namespaces. -/
inductive Ns where
  | type | value
deriving DecidableEq, Repr

/-- The names that the user has in scope where the enum is declared, not counting the prelude: types, traits and modules; functions; constants, statics, and the
constructors of unit and tuple structs and variants. -/
structure Env where
  types : String → Bool
  funs : String → Bool
  consts : String → Bool

def Env.has (env : Env) : Ns → String → Bool
  | .type, n => env.types n
  | .value, n => env.funs n || env.consts n

/-- What a name can mean. -/
inductive Meaning where
  /-- a type parameter, function parameter or variable -/
  | loc
  /-- an item in the `const _` block -/
  | own
  /-- something of the user's -/
  | user
  /-- something in the prelude, or a primitive type -/
  | std
deriving DecidableEq, Repr

abbrev Scope := List (Ns × String)

def resolve (env : Env) (items sc : Scope) (ns : Ns) (n : String) : Meaning :=
  if (ns, n) ∈ sc then .loc
  else if (ns, n) ∈ items then .own
  else if env.has ns n then .user
  else .std

/-- The names in emitted code, with their intended meaning. Paths that start with `::`, names of fields and methods, and all but the first
segment of a path are not resolved in a scope. -/
inductive Code where
  /-- meant to be in the prelude or primitive -/
  | std (ns : Ns) (n : String)
  /-- meant to be an emitted item -/
  | own (ns : Ns) (n : String)
  /-- meant to be a type parameter, or a variable -/
  | loc (ns : Ns) (n : String)
  /-- a type that the user named in the enum, or the enum itself -/
  | user (n : String)
  /-- a declaration of a type parameter -/
  | tparam (n : String)
  /-- an identifier pattern, meant to introduce a variable -/
  | pat (n : String)
  /-- the end of a scope ends what was declared in it -/
  | scope (l : List Code)

def Code.binds : Code → Scope
  | .tparam n => [(.type, n)]
  | .pat n => [(.value, n)]
  | _ => []

section
variable (env : Env) (items : Scope)

mutual
/-- Every name has the intended meaning. For the names that the user wrote, that is the meaning they have where the enum is declared. -/
def Code.right : Code → Scope → Prop
  | .std ns n, sc => resolve env items sc ns n = .std
  | .own ns n, sc => resolve env items sc ns n = .own
  | .loc ns n, sc => resolve env items sc ns n = .loc
  | .user n, sc => resolve env items sc .type n = resolve env [] [] .type n
  | .tparam _, _ => True
  | .pat n, sc => resolve env items sc .value n = .user → env.consts n = false
  | .scope l, sc => rightAll l sc
def rightAll : List Code → Scope → Prop
  | [], _ => True
  | c :: l, sc => c.right sc ∧ rightAll l (c.binds ++ sc)
end
end

/-! ## Which names the user has to avoid -/

/-- Types that the code emitted for enums with payloads mentions without a path. -/
def anyStd : List String := ["usize", "bool", "FnMut", "Clone", "Option"]

/-- The type parameters that it declares, and its items. -/
def anyTaken : List String :=
  ["V", "F", "__MapStorage", "__MapStorageIter", "__MapStorageKeys", "__MapStorageValues", "__MapStorageIterMut", "__MapStorageValuesMut",
    "__MapStorageIntoIter", "__SetStorage", "__SetStorageIter", "__SetStorageIntoIter", "SimpleVacantEntry", "SimpleOccupiedEntry", "VacantEntry",
    "OccupiedEntry"]

/-- The variables that it declares for every enum. -/
def anyVars : List String := ["key", "value", "other", "func", "next", "entry", "opt", "inner"]

/-- For an enum `E` with payloads: `fs` lists its variants, with the names that occur in the type of the payload. -/
structure AnyClear (env : Env) (E : String) (fs : List (Option (List String))) : Prop where
  enum : E ∉ anyTaken
  payload : ∀ hs, some hs ∈ fs → ∀ h ∈ hs, h ∉ anyTaken
  types : ∀ n ∈ anyStd, env.types n = false
  /-- `None`, if a variant has no payload -/
  none : none ∈ fs → env.funs "None" = false ∧ env.consts "None" = false
  vars : ∀ n ∈ anyVars, env.consts n = false
  unitVars : Option.none ∈ fs → env.consts "val" = false
  payloadVars : ∀ hs, some hs ∈ fs → env.consts "k" = false ∧ env.consts "v" = false

/-- The integer type of a bitset. -/
def bitsTy (n : Nat) : String := if n ≤ 8 then "u8" else if n ≤ 16 then "u16" else if n ≤ 32 then "u32" else if n ≤ 64 then "u64" else "u128"

/-- For an enum `E` with `n` variants, none with a payload. -/
structure UnitsClear (env : Env) (E : String) (n : Nat) (bits : Bool) : Prop where
  enum : E ∉ ["V", "F", "VacantEntry", "OccupiedEntry", "__MapStorage", "__SetStorage"]
  types : ∀ t ∈ ["usize", "bool", "FnMut", "Option"], env.types t = false
  bitsTy : bits = true → env.types (bitsTy n) = false
  /-- `Some` and `None`, if there are variants -/
  opt : 0 < n → ∀ c ∈ ["Some", "None"], env.funs c = false ∧ env.consts c = false
  vars : ∀ x ∈ ["key", "value", "opt", "inner", "other", "state", "func", "f", "k", "v"], env.consts x = false
  val : 0 < n → env.consts "val" = false
  nums : ∀ i < n, env.consts s!"_{i}" = false
  bitsVars : bits = true → ∀ x ∈ ["mask", "update", "data"], env.consts x = false

end FixedMap.Names
