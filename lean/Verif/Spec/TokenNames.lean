import Verif.Model.EmitUnits
import Verif.Model.GenNames

/-!
# The names in a token stream

`Model/GenNames.lean` lists the names that occur in the emitted code, for the theorems about name resolution (C80). Here the names are read off the tokens: an identifier is looked up in a
scope if it is not a keyword, the rest of a path, a field or method, the name of a declaration, or part of an attribute. Only the token before it and the token after it are needed to tell.
-/

set_option autoImplicit false

namespace FixedMap.Emit

def keywords : List String :=
  ["Self", "_", "as", "async", "await", "break", "const", "continue", "crate", "dyn", "else", "enum", "extern", "false", "fn", "for", "if", "impl", "in", "let", "loop", "match",
    "mod", "move", "mut", "pub", "ref", "return", "self", "static", "struct", "super", "trait", "true", "type", "unsafe", "use", "where", "while"]

/-- Words in the attributes of the emitted code. -/
def attributes : List String := ["automatically_derived", "derive", "inline", "repr", "transparent"]

def ident (t : String) : Bool :=
  (match t.toList with
    | c :: _ => c.isAlpha || c == '_'
    | [] => false) && !keywords.contains t && !attributes.contains t

/-- After these, an identifier is a field, a method, the rest of a path, or the name of what is declared. -/
def after (p : String) : Bool := ["::", ".", "fn", "struct", "enum", "type"].contains p

/-- `_0`, `_1` and so on. -/
def numbered (t : String) : Bool :=
  match t.toList with
  | '_' :: c :: _ => c.isDigit
  | _ => false

/-- The name of a field, in a declaration or an initialisation. (Parameters are followed by `:` as well.) -/
def field (p t n : String) : Bool := n == ":" && (p == "{" || p == "," && (t == "end" || t == "inner" || numbered t))

/-- A variant, in its declaration. -/
def variantDecl (p t n : String) : Bool := n == "(" && (p == "{" && t == "Simple" || p == "," && numbered t)

/-- `t`, between `p` and `n`, is looked up in a scope, or declares a type parameter or a variable. -/
def looked (p t n : String) : Bool := ident t && !after p && !field p t n && !variantDecl p t n && !(p == "<" && t == "Item" && n == "=")

/-- The names in a list of tokens; `p` comes before. -/
def scan : String → Toks → List String
  | _, [] => []
  | p, t :: l => if looked p t (l.headD "") then t :: scan t l else scan t l

/-- The names in a list of tokens, in order. -/
def namesIn (ts : Toks) : List String := scan "" ts

mutual
/-- The names in `Model/GenNames.lean`, without their meaning and their scopes. -/
def leaf : Names.Code → List String
  | .std _ n | .own _ n | .loc _ n | .user n | .tparam n | .pat n => [n]
  | .scope l => leaves l
def leaves : List Names.Code → List String
  | [] => []
  | c :: l => leaf c ++ leaves l
end

/-- The tokens of a type can stand between other tokens without changing what its names are. -/
def Payload (e : Toks) : Prop := ∀ p ∈ ["<", ","], ∀ n ∈ ["as", ",", ">"], scan p (e ++ [n]) = namesIn e

/-- What is taken from the enum: its name, and a visibility without a path; the lifetime is that of lib.rs. -/
structure Plain (cx : Cx) (E : String) : Prop where
  ident : cx.ident = [E]
  isIdent : Emit.ident E = true
  vis : ∀ p, ∀ n ∈ ["struct", "enum"], scan p (cx.vis ++ [n]) = []
  lt : cx.lt = ["'a"]

/-- The types of the fields. -/
def AllPayload (vs : List Variant) : Prop := ∀ v ∈ vs, ∀ e, v.element = some e → Payload e

/-- What `Model/GenNames.lean` has for the variants. -/
def heads (vs : List Variant) : List (Option (List String)) := vs.map fun v => v.element.map namesIn

end FixedMap.Emit
