import Verif.Model.Paths
import Verif.Spec.TokenNames

/-!
# The absolute paths in a token stream

`uses` reads the tokens from left to right and finds every path that begins with `::`, and every associated item of a qualified path, `<T as ::path>::name`. To tell an absolute path from the rest of
a relative one, and `<T as ..>` from generic arguments and from a comparison, it keeps a stack of the angle brackets that are open. In `#[derive(..)]`, paths name macros.
-/

set_option autoImplicit false

namespace FixedMap.Paths

open FixedMap.Emit (Toks keywords)

/-- What a token is. -/
inductive Cls where
  | sep | lt | gt | dot | opening | closing | impl | as | derive | word | other
deriving DecidableEq

/-- Keywords that are names. -/
def nameWords : List String := ["Self", "self", "super", "crate"]

def cls (t : String) : Cls :=
  match t.toList with
  | [] => .other
  | c :: _ =>
    if c.isAlpha || c == '_' then
      if t = "impl" then .impl else if t = "as" then .as else if t = "derive" then .derive else if keywords.contains t && !nameWords.contains t then .other else .word
    else if t = "::" then .sep else if t = "<" then .lt else if t = ">" then .gt else if t = "." then .dot else if t = "(" then .opening else if t = ")" then .closing else .other

/-- Where an absolute path stands. -/
inductive Place where
  | plain
  /-- `impl ::path` -/
  | impl
  /-- `<T as ::path>` -/
  | qualified
  /-- `#[derive(::path)]` -/
  | derive
deriving DecidableEq

/-- What was found. -/
inductive Use where
  /-- a path, and the token after it -/
  | path (place : Place) (segs : List String) (next : String)
  /-- `<T as ::trait>::name` -/
  | assoc (trait : List String) (name : String)
  /-- none of these -/
  | bad
deriving DecidableEq

/-- An open bracket. -/
inductive Frame where
  /-- generic arguments or parameters -/
  | args
  /-- `impl<` -/
  | impl
  /-- `<T`, `<T as ::trait` -/
  | qualified (trait : Option (List String))
  /-- `derive(` -/
  | derive
deriving DecidableEq

/-- What was read last. -/
inductive Mode where
  | other
  | word
  /-- `::` after a name -/
  | rel
  | dot
  /-- a name after a dot -/
  | field
  | impl
  | as
  | derive
  /-- `>` of generic arguments -/
  | args
  /-- `>` of `impl<..>` -/
  | params
  /-- in an absolute path, after `::` -/
  | sep (place : Place) (segs : List String)
  /-- in an absolute path, after a name -/
  | abs (place : Place) (segs : List String)
  /-- `<T as ::trait>` -/
  | qualified (trait : List String)
  /-- `<T as ::trait>::` -/
  | item (trait : List String)
deriving DecidableEq

structure State where
  mode : Mode
  stack : List Frame
deriving DecidableEq

/-- `::` -/
def readSep (m : Mode) (st : List Frame) : List Use × State :=
  match m with
  | .word | .args | .field => ([], ⟨.rel, st⟩)
  | .impl | .params => ([], ⟨.sep .impl [], st⟩)
  | .as => ([], ⟨.sep .qualified [], st⟩)
  | .other => ([], ⟨.sep (if st.head? = some .derive then .derive else .plain) [], st⟩)
  | _ => ([.bad], ⟨.other, st⟩)

/-- `<` -/
def readLt (m : Mode) (st : List Frame) : State :=
  match m with
  | .word | .rel | .args => ⟨.other, .args :: st⟩
  | .impl => ⟨.other, .impl :: st⟩
  | .field => ⟨.other, st⟩
  | _ => ⟨.other, .qualified none :: st⟩

/-- `>` -/
def readGt : List Frame → List Use × State
  | .args :: st => ([], ⟨.args, st⟩)
  | .impl :: st => ([], ⟨.params, st⟩)
  | .qualified none :: st => ([], ⟨.args, st⟩)
  | .qualified (some tr) :: st => ([], ⟨.qualified tr, st⟩)
  | st => ([.bad], ⟨.other, st⟩)

/-- A token outside of absolute paths. -/
def idle (m : Mode) (st : List Frame) (t : String) : List Use × State :=
  match cls t with
  | .sep => readSep m st
  | .lt => ([], readLt m st)
  | .gt => readGt st
  | .dot => ([], ⟨.dot, st⟩)
  | .opening => ([], ⟨.other, if m = .derive then .derive :: st else st⟩)
  | .closing => ([], ⟨.other, if st.head? = some .derive then st.tail else st⟩)
  | .impl => ([], ⟨.impl, st⟩)
  | .derive => ([], ⟨.derive, st⟩)
  | .as => ([], ⟨if st.head? = some (.qualified none) then .as else .other, st⟩)
  | .word => ([], ⟨if m = .dot then .field else .word, st⟩)
  | .other => ([], ⟨.other, st⟩)

/-- Remember the trait of a qualified path. -/
def setTrait (segs : List String) : List Frame → List Frame
  | .qualified none :: st => .qualified (some segs) :: st
  | st => st

def step (s : State) (t : String) : List Use × State :=
  match s.mode with
  | .sep place segs => if cls t = .word then ([], ⟨.abs place (segs ++ [t]), s.stack⟩) else ([.bad], ⟨.other, s.stack⟩)
  | .abs place segs =>
    if cls t = .sep then ([], ⟨.sep place segs, s.stack⟩)
    else
      let r := idle .word (if place = .qualified then setTrait segs s.stack else s.stack) t
      (.path place segs t :: r.1, r.2)
  | .qualified tr => if cls t = .sep then ([], ⟨.item tr, s.stack⟩) else ([.bad], ⟨.other, s.stack⟩)
  | .item tr => if cls t = .word then ([.assoc tr t], ⟨.word, s.stack⟩) else ([.bad], ⟨.other, s.stack⟩)
  | m => idle m s.stack t

/-- What is found in tokens, and the state after them. -/
def run : State → Toks → List Use × State
  | s, [] => ([], s)
  | s, t :: l => let (us, s') := step s t
    let (vs, s'') := run s' l
    (us ++ vs, s'')

def start : State := ⟨.other, []⟩

/-- The absolute paths in a token stream. -/
def uses (ts : Toks) : List Use := (run start ts).1

/-! ## What they should be -/

/-- With some features enabled, the path names something that can stand there: a trait in `impl ::path` and `<T as ::path>`, a macro in `derive(::path)` and before `!`, what can be
called before `(`, a type or trait before `<`; and an associated item is one of the trait. -/
def Good (feat : String → Bool) : Use → Prop
  | .path place segs next =>
    ∃ e, resolve feat (next == "!" || place == .derive) segs = some e ∧
      (place = .impl ∨ place = .qualified → ∃ a, e = .trait a) ∧
      (next = "(" → e = .fn ∨ e = .assoc .fn) ∧
      (next = "<" → (∃ a, e = .type a) ∨ (∃ a, e = .trait a)) ∧
      (next = "!" ∨ place = .derive → e = .mac) ∧ e ≠ .mod
  | .assoc tr name => ∃ a k, resolve feat false tr = some (.trait a) ∧ (name, k) ∈ a
  | .bad => False

/-! ## What the user wrote -/

/-- The token cannot be read without knowing the angle brackets around. -/
def outer (s : State) (t : String) : Bool := s.stack.isEmpty && (cls t == .gt || cls t == .as || (match s.mode with
  | .abs .qualified _ => true
  | _ => false))

/-- Reading tokens that close no angle bracket they did not open. -/
def within : State → Toks → Option (List Use × State)
  | s, [] => some ([], s)
  | s, t :: l => if outer s t then none else
    match within (step s t).2 l with
    | some (vs, s'') => some ((step s t).1 ++ vs, s'')
    | none => none

/-- Nothing is left open. -/
def Mode.ended : Mode → Bool
  | .other | .word | .args | .abs .plain _ => true
  | _ => false

/-- A type or a visibility: brackets are closed, and it can stop at its end. -/
def Closed (e : Toks) : Prop := ∃ us m, within start e = some (us, ⟨m, []⟩) ∧ m.ended = true ∧ .bad ∉ us

/-- A path in the tokens of the user, whatever comes after them. -/
def Own (e : Toks) (u : Use) : Prop := u ≠ .bad ∧ ∃ n, u ∈ uses (e ++ [n])

/-- What is taken from the enum: its name, its visibility, its variants, the types of their fields. -/
structure Input (cx : FixedMap.Emit.Cx) (E : String) : Prop where
  ident : cx.ident = [E]
  isIdent : cls E = .word
  vis : Closed cx.vis
  lt : cx.lt = ["'a"]

structure Variants (vs : List FixedMap.Emit.Variant) : Prop where
  idents : ∀ v ∈ vs, cls v.ident = .word
  elements : ∀ v ∈ vs, ∀ e, v.element = some e → Closed e

/-- Written by the user. -/
def OfUser (cx : FixedMap.Emit.Cx) (vs : List FixedMap.Emit.Variant) (u : Use) : Prop :=
  Own cx.vis u ∨ ∃ v ∈ vs, ∃ e, v.element = some e ∧ Own e u

end FixedMap.Paths
