import Verif.Model.RustText
import Verif.Model.Key

/-!
# The text of src/key.rs

`macro_rules!` with one rule and one parameter are expanded, then the `impl`s of `Key` are read off.
-/

set_option autoImplicit false

namespace FixedMap.Rust

/-- src/key.rs without comments and empty lines. -/
def Text.key : Toks := rust! r#"
#[cfg(feature = "hashbrown")]
use crate::map::storage::HashbrownMapStorage;
use crate::map::storage::{BooleanMapStorage, MapStorage, OptionMapStorage, SingletonMapStorage};
#[cfg(feature = "hashbrown")]
use crate::set::storage::HashbrownSetStorage;
use crate::set::storage::{BooleanSetStorage, OptionSetStorage, SetStorage, SingletonSetStorage};
pub trait Key: Copy {
    type MapStorage<V>: MapStorage<Self, V>;
    type SetStorage: SetStorage<Self>;
}
impl Key for bool {
    type MapStorage<V> = BooleanMapStorage<V>;
    type SetStorage = BooleanSetStorage;
}
impl<K> Key for Option<K>
where
    K: Key,
{
    type MapStorage<V> = OptionMapStorage<K, V>;
    type SetStorage = OptionSetStorage<K>;
}
macro_rules! map_key {
    ($ty:ty) => {
        #[cfg(feature = "hashbrown")]
        impl Key for $ty {
            type MapStorage<V> = HashbrownMapStorage<$ty, V>;
            type SetStorage = HashbrownSetStorage<$ty>;
        }
    };
}
macro_rules! singleton_key {
    ($ty:ty) => {
        impl Key for $ty {
            type MapStorage<V> = SingletonMapStorage<V>;
            type SetStorage = SingletonSetStorage;
        }
    };
}
map_key!(char);
map_key!(u8);
map_key!(u32);
map_key!(u64);
map_key!(u128);
map_key!(usize);
map_key!(i8);
map_key!(i32);
map_key!(i64);
map_key!(i128);
map_key!(isize);
map_key!(&'static str);
map_key!(&'static [u8]);
singleton_key!(());
"#

/-! ## Expansion -/

/-- The tokens up to the bracket that closes the current group, and what follows it. -/
def inGroup (o c : String) : Nat → Toks → Toks → Option (Toks × Toks)
  | _, _, [] => none
  | d, acc, t :: l =>
    if t == o then inGroup o c (d + 1) (t :: acc) l
    else if t == c then
      match d with
      | 0 => some (acc.reverse, l)
      | d + 1 => inGroup o c d (t :: acc) l
    else inGroup o c d (t :: acc) l

/-- `macro_rules! name { ($param:ty) => { body }; }` -/
structure MacroRule where
  name : String
  param : String
  body : Toks

def readMacro (name : String) (g : Toks) : Option MacroRule :=
  match g with
  | "(" :: "$" :: p :: ":" :: "ty" :: ")" :: "=>" :: "{" :: l =>
    match inGroup "{" "}" 0 [] l with
    | some (body, [";"]) => some ⟨name, p, body⟩
    | some (body, []) => some ⟨name, p, body⟩
    | _ => none
  | _ => none

/-- `$param` replaced by the argument. -/
def substMacro (p : String) (arg : Toks) : Toks → Toks
  | "$" :: q :: l => if q == p then arg ++ substMacro p arg l else "$" :: q :: substMacro p arg l
  | t :: l => t :: substMacro p arg l
  | [] => []

/-- Expand the macros of a file, which come before they are used. The first argument bounds the number of steps. -/
def expandMacros : Nat → List MacroRule → Toks → Option Toks
  | 0, _, _ => none
  | _ + 1, _, [] => some []
  | n + 1, ms, "macro_rules" :: "!" :: name :: "{" :: l => do
    let (g, l) ← inGroup "{" "}" 0 [] l
    expandMacros n ((← readMacro name g) :: ms) l
  | n + 1, ms, name :: "!" :: "(" :: l => do
    let (arg, l) ← inGroup "(" ")" 0 [] l
    let m ← ms.find? fun m => m.name == name
    match l with
    | ";" :: l => return substMacro m.param arg m.body ++ (← expandMacros n ms l)
    | _ => none
  | n + 1, ms, t :: l => return t :: (← expandMacros n ms l)

/-! ## `impl Key for …` -/

/-- An `impl` of `Key`: its parameters (without lifetimes and bounds), what is written as condition (`cfg`), the type, and the types of the storages. -/
structure KeyImpl where
  cfg : Toks
  params : List String
  ty : Toks
  map : Toks
  set : Toks
deriving Repr, DecidableEq

/-- `type MapStorage<V> = map; type SetStorage = set;` -/
def storageTypes (g : Toks) : Option (Toks × Toks) :=
  match g with
  | "type" :: "MapStorage" :: "<" :: "V" :: ">" :: "=" :: l =>
    match l.takeWhile (· != ";"), (l.dropWhile (· != ";")).drop 1 with
    | map, "type" :: "SetStorage" :: "=" :: l => if (l.dropWhile (· != ";")) == [";"] then some (map, l.takeWhile (· != ";")) else none
    | _, _ => none
  | _ => none

/-- All `impl`s of `Key` in the tokens of a file; other items are skipped. -/
def keyImpls : Nat → Toks → Toks → Option (List KeyImpl)
  | 0, _, _ => none
  | _ + 1, _, [] => some []
  | n + 1, cfg, "impl" :: l => do
    let (params, l) ← match l with
      | "<" :: l => inGroup "<" ">" 0 [] l
      | l => some ([], l)
    match l with
    | "Key" :: "for" :: l =>
      let head := l.takeWhile (· != "{")
      let (g, l) ← inGroup "{" "}" 0 [] ((l.dropWhile (· != "{")).drop 1)
      let (map, set) ← storageTypes g
      return ⟨cfg, params, head.takeWhile (· != "where"), map, set⟩ :: (← keyImpls n [] l)
    | _ => none
  | n + 1, _, "#" :: "[" :: l => do
    let (g, l) ← inGroup "[" "]" 0 [] l
    keyImpls n g l
  | n + 1, _, "use" :: l => keyImpls n [] ((l.dropWhile (· != ";")).drop 1)
  | n + 1, _, "pub" :: "trait" :: l => do
    let (_, l) ← inGroup "{" "}" 0 [] ((l.dropWhile (· != "{")).drop 1)
    keyImpls n [] l
  | _ + 1, _, _ => none

/-- The `impl`s of `Key` in a file. -/
def readKeys (f : Toks) : Option (List KeyImpl) := do
  let l ← expandMacros (f.length + 1) [] f
  keyImpls (l.length + 1) [] l

/-! ## Which `impl` applies -/

/-- Match a type against that of an `impl` with one parameter at most; the parameter stands for a type between `<` and `>`. -/
def matchTy (params : List String) (pat ty : Toks) : Option (List (String × Toks)) :=
  match params, pat with
  | [], pat => if pat == ty then some [] else none
  | [p], [c, "<", q, ">"] =>
    match ty with
    | c' :: "<" :: l => if c == c' && p == q && l.getLast? == some ">" then some [(p, l.dropLast)] else none
    | _ => none
  | _, _ => none

/-- The types that variables stand for. -/
def substTys (s : List (String × Toks)) (l : Toks) : Toks :=
  l.flatMap fun t => match s.find? fun q => q.1 == t with
    | some q => q.2
    | none => [t]

/-- The storages of a type. -/
def storagesOf (table : List KeyImpl) (ty : Toks) : Option (Toks × Toks) :=
  table.findSome? fun i => (matchTy i.params i.ty ty).map fun s => (substTys s i.map, substTys s i.set)

/-- The file that defines a type. -/
def defines (name : String) : Toks → Bool
  | "struct" :: t :: l => t == name || defines name l
  | _ :: l => defines name l
  | [] => false

def storageFiles : List Toks :=
  [Text.mapBoolean, Text.mapSingleton, Text.mapOption, Text.mapHashbrown, Text.setBoolean, Text.setSingleton, Text.setOption, Text.setHashbrown]

def fileOf (name : String) : Option Toks := storageFiles.find? (defines name)

end FixedMap.Rust
