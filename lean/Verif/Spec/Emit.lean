import Verif.Model.Emit
import Verif.Model.GenEntry
import Verif.Model.GenHeader

/-!
# How the code of `Model/Gen*.lean` is written in Rust

`Model/Gen.lean`, `GenIter.lean`, `GenEntry.lean` and `GenHeader.lean` describe emitted code as data, and give it a meaning. Here that data is printed. `el` tells how the user
wrote the type of a payload; `cx` holds the name and the visibility of the enum and the lifetime. Nothing in this file is taken from the derive: the paths are written out, and
what depends on the enum is read off the data.
-/

set_option autoImplicit false
set_option linter.unusedVariables false

namespace FixedMap.Emit

namespace Print

open FixedMap.Gen

section
variable (cx : Cx) (el : KeyTy → Toks)

/-! ## Types and paths -/

/-- The map storage of a payload. -/
def keyMap (κ : KeyTy) : Toks :=
  let e := el κ
  quote! "<#e as ::fixed_map::Key>::MapStorage::<V>"

/-- The same, with the trait. -/
def asMap (κ : KeyTy) : Toks :=
  let e := el κ
  let s := keyMap el κ
  quote! "<#s as ::fixed_map::map::MapStorage<#e, V>>"

def keySet (κ : KeyTy) : Toks :=
  let e := el κ
  quote! "<#e as ::fixed_map::Key>::SetStorage"

def asSet (κ : KeyTy) : Toks :=
  let e := el κ
  let s := keySet el κ
  quote! "<#s as ::fixed_map::set::SetStorage<#e>>"

def optFn : OptFn → String
  | .replace => "replace"
  | .take => "take"
  | .isSome => "is_some"
  | .isNone => "is_none"
  | .asRef => "as_ref"
  | .asMut => "as_mut"

def mapFn : MapFn → String
  | .insert => "insert"
  | .containsKey => "contains_key"
  | .get => "get"
  | .getMut => "get_mut"
  | .remove => "remove"
  | .len => "len"
  | .isEmpty => "is_empty"

def setFn : SetFn → String
  | .insert => "insert"
  | .contains => "contains"
  | .remove => "remove"
  | .len => "len"
  | .isEmpty => "is_empty"

def fn : Fn → Toks
  | .option f => quote! "::core::option::Option::" ++ [optFn f]
  | .memReplace => quote! "::core::mem::replace"
  | .map κ f => asMap el κ ++ ["::", mapFn f]
  | .set κ f => asSet el κ ++ ["::", setFn f]

/-- The function takes `&mut self.name`, not `&self.name`. -/
def isMut : Fn → Bool
  | .option .replace | .option .take | .option .asMut => true
  | .option .isSome | .option .isNone | .option .asRef => false
  | .memReplace => true
  | .map _ .insert | .map _ .getMut | .map _ .remove => true
  | .map _ .containsKey | .map _ .get | .map _ .len | .map _ .isEmpty => false
  | .set _ .insert | .set _ .remove => true
  | .set _ .contains | .set _ .len | .set _ .isEmpty => false

/-- `&mut self.name`, `&self.name` -/
def borrow (m : Bool) (name : String) : Toks := if m then ["&", "mut", "self", ".", name] else ["&", "self", ".", name]

def arg : Arg → Toks
  | .var x => [x]
  | .lit true => ["true"]
  | .lit false => ["false"]

/-! ## Functions -/

def expr : Expr → Toks
  | .zero => ["0"]
  | .tt => ["true"]
  | .place n => ["self", ".", n]
  | .call f n args => fn el f ++ ["("] ++ borrow (isMut f) n ++ (args.flatMap fun a => "," :: arg a) ++ [")"]
  | .usizeFrom e => quote! "usize::from(" ++ expr e ++ [")"]
  | .not e => "!" :: expr e
  | .add a b => expr a ++ ["+"] ++ expr b
  | .and a b => expr a ++ ["&&"] ++ expr b

/-- `Ident::var` -/
def variant (var : String) : Toks := cx.ident ++ ["::", var]
/-- `Ident::var(x)` -/
def variantOf (var : String) (x : Toks) : Toks := cx.ident ++ ["::", var, "("] ++ x ++ [")"]

def pat : Pat → Toks
  | .path var => variant cx var
  | .tuple var x => variantOf cx var [x]

/-- `fn name(recv, params..) -> ret { match scrutinee { arms } }`, the parameters being of the types `tys`. -/
def matchFn (name : String) (recv : Toks) (tys : List Toks) (ret : Toks) (m : MatchFn) : Toks :=
  let name : Toks := [name]
  let params := (List.zipWith (fun p t => [",", p, ":"] ++ t) m.params tys).flatten
  let scrutinee : Toks := [m.scrutinee]
  let arms := (m.arms.map fun (p, e) => pat cx p ++ ["=>"] ++ expr el e ++ [","]).flatten
  quote! "#[inline] fn #name(#recv #params) -> #ret { match #scrutinee { #arms } }"

def stmt : Stmt → Toks
  | .mapRetain κ name var =>
    let f := asMap el κ
    let name : Toks := [name]
    let key := variantOf cx var ["k"]
    quote! "#f::retain(&mut self.#name, |k, v| func(#key, v));"
  | .slotRetain name var =>
    let name : Toks := [name]
    let key := variant cx var
    quote! "if let ::core::option::Option::Some(val) = ::core::option::Option::as_mut(&mut self.#name) { if !func(#key, val) { self.#name = None; } }"
  | .setRetain κ name var =>
    let f := asSet el κ
    let name : Toks := [name]
    let key := variantOf cx var ["k"]
    quote! "#f::retain(&mut self.#name, |k| func(#key));"
  | .flagRetain name var =>
    let name : Toks := [name]
    let key := variant cx var
    quote! "if self.#name { self.#name = func(#key); }"
  | .mapClear κ name =>
    let f := asMap el κ
    let name : Toks := [name]
    quote! "#f::clear(&mut self.#name)"
  | .setClear κ name =>
    let f := asSet el κ
    let name : Toks := [name]
    quote! "#f::clear(&mut self.#name)"
  | .assignNone name =>
    let name : Toks := [name]
    quote! "self.#name = ::core::option::Option::None"
  | .assignFalse name =>
    let name : Toks := [name]
    quote! "self.#name = false"

/-- Statements, with a semicolon after each. -/
def stmts (l : List Stmt) : Toks := (l.map fun s => stmt cx el s ++ [";"]).flatten

def fieldTy : FieldTy → Toks
  | .slot => quote! "::core::option::Option<V>"
  | .map κ => keyMap el κ
  | .flag => ["bool"]
  | .set κ => keySet el κ

def init : Init → Toks
  | .none => quote! "::core::option::Option::None"
  | .false => ["false"]
  | .mapEmpty κ => asMap el κ ++ ["::", "empty", "(", ")"]
  | .setEmpty κ => asSet el κ ++ ["::", "empty", "(", ")"]

/-- `n: x,` -/
def named (n : String) (x : Toks) : Toks := [n, ":"] ++ x ++ [","]

/-- `n: Clone::clone(&self.m),` for the pairs of names. -/
def cloned (l : List (String × String)) : Toks := (l.map fun (n, m) => named n (quote! "::core::clone::Clone::clone(" ++ borrow false m ++ [")"])).flatten

/-- The functions of `impl MapStorage` without those for iterators and entries. -/
def mapFns (c : MapCode) : Toks :=
  let empty := (c.empty.map fun (n, x) => named n (init el x)).flatten
  let len := expr el c.len
  let is_empty := expr el c.isEmpty
  let retain := stmts cx el c.retain
  let clear := stmts cx el c.clear
  (quote! "#[inline] fn empty() -> Self { Self { #empty } }") ++
  matchFn cx el "insert" (quote! "&mut self") [cx.ident, ["V"]] (quote! "::core::option::Option<V>") c.insert ++
  (quote! "#[inline] fn len(&self) -> usize { #len }") ++
  (quote! "#[inline] fn is_empty(&self) -> bool { #is_empty }") ++
  matchFn cx el "contains_key" (quote! "&self") [cx.ident] ["bool"] c.containsKey ++
  matchFn cx el "get" (quote! "&self") [cx.ident] (quote! "::core::option::Option<&V>") c.get ++
  matchFn cx el "get_mut" (quote! "&mut self") [cx.ident] (quote! "::core::option::Option<&mut V>") c.getMut ++
  matchFn cx el "remove" (quote! "&mut self") [cx.ident] (quote! "::core::option::Option<V>") c.remove ++
  (quote! "#[inline] fn retain<F>(&mut self, mut func: F) where F: FnMut(#ident, &mut V) -> bool { #retain }") ++
  (quote! "#[inline] fn clear(&mut self) { #clear }")

/-- The functions of `impl SetStorage` without those for iterators. -/
def setFns (c : SetCode) : Toks :=
  let empty := (c.empty.map fun (n, x) => named n (init el x)).flatten
  let len := expr el c.len
  let is_empty := expr el c.isEmpty
  let retain := stmts cx el c.retain
  let clear := stmts cx el c.clear
  (quote! "#[inline] fn empty() -> Self { Self { #empty } }") ++
  matchFn cx el "insert" (quote! "&mut self") [cx.ident] ["bool"] c.insert ++
  (quote! "#[inline] fn len(&self) -> usize { #len }") ++
  (quote! "#[inline] fn is_empty(&self) -> bool { #is_empty }") ++
  matchFn cx el "contains" (quote! "&self") [cx.ident] ["bool"] c.contains ++
  matchFn cx el "remove" (quote! "&mut self") [cx.ident] ["bool"] c.remove ++
  (quote! "#[inline] fn retain<F>(&mut self, mut func: F) where F: FnMut(#ident) -> bool { #retain }") ++
  (quote! "#[inline] fn clear(&mut self) { #clear }")

/-! ## Headers -/

def mapAssoc : MapIt → String
  | .iter => "Iter"
  | .keys => "Keys"
  | .values => "Values"
  | .iterMut => "IterMut"
  | .valuesMut => "ValuesMut"
  | .intoIter => "IntoIter"

def setAssoc : SetIt → String
  | .iter => "Iter"
  | .intoIter => "IntoIter"

def item : ItemName → String
  | .mapStorage => "__MapStorage"
  | .setStorage => "__SetStorage"
  | .mapIter q => "__MapStorage" ++ mapAssoc q
  | .setIter q => "__SetStorage" ++ setAssoc q

def param : Param → Toks
  | .lt => cx.lt
  | .value => ["V"]

/-- `<'a, V>`, and nothing if there are no parameters. -/
def params (l : List Param) : Toks := if l.isEmpty then [] else "<" :: sepBy [","] (l.map (param cx)) ++ [">"]

def lifetime (lt : Bool) : Toks := if lt then "<" :: cx.lt ++ [">"] else []

def ty : Ty → Toks
  | .plain => quote! "::core::primitive::bool"
  | .value => ["V"]
  | .optVal => quote! "::core::option::Option<V>"
  | .optRef => quote! "::core::option::Option<&#lt V>"
  | .optMut => quote! "::core::option::Option<&#lt mut V>"
  | .map κ => keyMap el κ
  | .set κ => keySet el κ
  | .mapIter κ q lt => asMap el κ ++ ["::", mapAssoc q] ++ lifetime cx lt
  | .setIter κ q lt => asSet el κ ++ ["::", setAssoc q] ++ lifetime cx lt

def isMap : ItemName → Bool
  | .mapStorage | .mapIter _ => true
  | .setStorage | .setIter _ => false

def trait (i : ItemName) : Trait → Toks
  | .std .clone => quote! "::core::clone::Clone"
  | .std .copy => quote! "::core::marker::Copy"
  | .std .partialEq => quote! "::core::cmp::PartialEq"
  | .std .eq => quote! "::core::cmp::Eq"
  | .std .hash => quote! "::core::hash::Hash"
  | .std .partialOrd => quote! "::core::cmp::PartialOrd"
  | .std .ord => quote! "::core::cmp::Ord"
  | .iterator => quote! "::core::iter::Iterator"
  | .doubleEnded => quote! "::core::iter::DoubleEndedIterator"
  | .storage => if isMap i then quote! "::fixed_map::map::MapStorage<#ident, V>" else quote! "::fixed_map::set::SetStorage<#ident>"

/-- A predicate in the header of an `impl` for `i`. The bound on the value of the owning iterator is written `Clone`. -/
def pred (i : ItemName) : Pred → Toks
  | .outlives => quote! "V: #lt"
  | .has hr t tr =>
    (if hr then quote! "for<'trivial_bounds>" else []) ++ ty cx el t ++ [":"] ++
    (if i = .mapIter .intoIter ∧ t = .value ∧ tr = .std .clone then ["Clone"] else trait cx i tr) ++
    (if tr = .doubleEnded then
      let t := ty cx el t
      quote! "<Item = <#t as ::core::iter::Iterator>::Item>"
    else [])

/-- The `where` clause has a comma after each predicate, and is there also without any. -/
def commas : ItemName → Trait → Bool
  | .mapStorage, .std .copy | .setStorage, .std .clone | .setStorage, .std .copy | .mapIter .intoIter, .std .clone | .setIter .intoIter, .std .clone => true
  | _, _ => false

def preds (h : Impl) : Toks :=
  if commas h.item h.tr then "where" :: (h.preds.map fun p => pred cx el h.item p ++ [","]).flatten
  else if h.preds.isEmpty then [] else "where" :: sepBy [","] (h.preds.map (pred cx el h.item))

/-- An `impl`. -/
def impl (body : Trait → Toks) (h : Impl) : Toks :=
  let params' := params cx h.params
  let tr := trait cx h.item h.tr
  let item : Toks := [item h.item]
  let args := params cx h.args
  let preds := preds cx el h
  let body := body h.tr
  quote! "#[automatically_derived] impl " ++ params' ++ tr ++ quote! "for #item #args #preds { #body }"

/-- A struct with fields `fields`. -/
def struct (d : Decl) (fields : Toks) : Toks :=
  let item : Toks := [item d.item]
  let params := params cx d.params
  let outlives := if d.outlives then quote! "where V: #lt" else []
  quote! "#vis struct #item #params #outlives { #fields }"

/-! ## Iterators -/

def stepFn : StepFn → Toks
  | .memTake => quote! "::core::mem::take"
  | .optTake => quote! "::core::option::Option::take"
  | .next => quote! "::core::iter::Iterator::next"
  | .nextBack => quote! "::core::iter::DoubleEndedIterator::next_back"

def itemPat : ItemPat → Toks
  | .flag => []
  | .one x => quote! "let ::core::option::Option::Some(" ++ [x] ++ quote! ") ="
  | .pair x y => quote! "let ::core::option::Option::Some((" ++ [x, ",", y] ++ quote! ")) ="

def keyExpr : KeyExpr → Toks
  | .unit var => variant cx var
  | .of var x => variantOf cx var [x]

def retExpr : RetExpr → Toks
  | .key k => keyExpr cx k
  | .value x => [x]
  | .entry k x => ["("] ++ keyExpr cx k ++ [",", x, ")"]

def iterArm (a : IterArm) : Toks :=
  let index := usizeLit a.index
  let pat := itemPat a.pat
  let f := stepFn a.fn
  let recv := borrow true a.recv
  let ret := retExpr cx a.ret
  quote! "#index => { if #pat #f(#recv) { return ::core::option::Option::Some(#ret); } },"

def iterInit : IterInit → Toks
  | .isSome n => quote! "::core::option::Option::is_some(" ++ borrow false n ++ [")"]
  | .asRef n => quote! "::core::option::Option::as_ref(" ++ borrow false n ++ [")"]
  | .asMut n => quote! "::core::option::Option::as_mut(" ++ borrow true n ++ [")"]
  | .move n => ["self", ".", n]
  | .map κ .iter n => asMap el κ ++ quote! "::iter(" ++ borrow false n ++ [")"]
  | .map κ .keys n => asMap el κ ++ quote! "::keys(" ++ borrow false n ++ [")"]
  | .map κ .values n => asMap el κ ++ quote! "::values(" ++ borrow false n ++ [")"]
  | .map κ .iterMut n => keyMap el κ ++ quote! "::iter_mut(" ++ borrow true n ++ [")"]
  | .map κ .valuesMut n => asMap el κ ++ quote! "::values_mut(" ++ borrow true n ++ [")"]
  | .map κ .intoIter n => keyMap el κ ++ quote! "::into_iter(" ++ ["self", ".", n] ++ [")"]
  | .set κ .iter n => asSet el κ ++ quote! "::iter(" ++ borrow false n ++ [")"]
  | .set κ .intoIter n => asSet el κ ++ quote! "::into_iter(" ++ ["self", ".", n] ++ [")"]

/-- What an iterator yields. -/
inductive Shape where
  | entry | entryMut | entryVal | key | value | valueMut

def itemTy : Shape → Toks
  | .entry => quote! "(#ident, &#lt V)"
  | .entryMut => quote! "(#ident, &#lt mut V)"
  | .entryVal => quote! "(#ident, V)"
  | .key => cx.ident
  | .value => quote! "&#lt V"
  | .valueMut => quote! "&#lt mut V"

def mapShape : MapIt → Shape
  | .iter => .entry
  | .keys => .key
  | .values => .value
  | .iterMut => .entryMut
  | .valuesMut => .valueMut
  | .intoIter => .entryVal

/-- The fields of the struct of an iterator: two numbers, and those of `c` with the types that are in `d` after these. -/
def iterFields (d : Decl) (c : IterCode) : Toks :=
  quote! "start: usize, end: usize," ++ (List.zipWith (fun n t => named n (ty cx el t)) (c.decls.map (·.1)) (d.fields.drop 2)).flatten

/-- The bodies of the `impl`s of an iterator. `opt` is how `Option` is written in the type of `next`. -/
def iterBody (opt : Toks) (sh : Shape) (c : IterCode) : Trait → Toks
  | .iterator =>
    let item := itemTy cx sh
    let arms := (c.next.map (iterArm cx)).flatten
    quote! "
      type Item = #item;
      #[inline]
      fn next(&mut self) -> #opt<Self::Item> {
        while self.start < self.end {
          match self.start { #arms _ => break, }
          self.start = usize::min(self.start.wrapping_add(1), self.end);
        }
        ::core::option::Option::None
      }"
  | .doubleEnded =>
    let arms := (c.nextBack.map (iterArm cx)).flatten
    quote! "
      #[inline]
      fn next_back(&mut self) -> ::core::option::Option<Self::Item> {
        while self.start < self.end {
          let next = self.end.wrapping_sub(1);
          match next { #arms _ => break, }
          self.end = usize::max(next, self.start);
        }
        ::core::option::Option::None
      }"
  | .std .clone =>
    let fields := cloned (c.decls.map fun d => (d.1, d.1))
    quote! "#[inline] fn clone(&self) -> Self { Self { start: self.start, end: self.end, #fields } }"
  | _ => []

/-- The struct and the `impl`s of an iterator of a map. -/
def mapIter (d : Decl) (impls : List Impl) (q : MapIt) (c : IterCode) : Toks :=
  struct cx d (iterFields cx el d c) ++
  (impls.map (impl cx el (iterBody cx (if q = .intoIter then ["Option"] else quote! "::core::option::Option") (mapShape q) c))).flatten

/-- The associated type and the function in `impl MapStorage`. -/
def mapIterFn (d : Decl) (q : MapIt) (c : IterCode) : Toks :=
  let item : Toks := [item d.item]
  let assoc : Toks := [mapAssoc q]
  let lt := lifetime cx (d.params.contains .lt)
  let any : Toks := if d.params.contains .lt then ["<", "'_", ">"] else []
  let args := params cx d.params
  let outlives := if d.outlives then quote! "where V: " ++ cx.lt else []
  let head := match q with
    | .iter => quote! "iter(&self)"
    | .keys => quote! "keys(&self)"
    | .values => quote! "values(&self)"
    | .iterMut => quote! "iter_mut(&mut self)"
    | .valuesMut => quote! "values_mut(&mut self)"
    | .intoIter => quote! "into_iter(self)"
  let stop := usizeLit c.stop
  let init := (c.init.map fun (n, x) => named n (iterInit el x)).flatten
  quote! "type #assoc #lt = #item #args #outlives; #[inline] fn #head -> Self::#assoc #any { #item { start: 0, end: #stop, #init } }"

def setIter (d : Decl) (impls : List Impl) (q : SetIt) (c : IterCode) : Toks :=
  struct cx d (iterFields cx el d c) ++
  (impls.map (impl cx el (iterBody cx (quote! "::core::option::Option") .key c))).flatten

def setIterFn (d : Decl) (q : SetIt) (c : IterCode) : Toks :=
  let item : Toks := [item d.item]
  let assoc : Toks := [setAssoc q]
  let lt := lifetime cx (d.params.contains .lt)
  let any : Toks := if d.params.contains .lt then ["<", "'_", ">"] else []
  let args := params cx d.params
  let head := match q with
    | .iter => quote! "iter(&self)"
    | .intoIter => quote! "into_iter(self)"
  let stop := usizeLit c.stop
  let init := (c.init.map fun (n, x) => named n (iterInit el x)).flatten
  quote! "type #assoc #lt = #item #args; #[inline] fn #head -> Self::#assoc #any { #item { start: 0, end: #stop, #init } }"

/-! ## Entries -/

def occMeth : OccMeth → String
  | .get => "get"
  | .getMut => "get_mut"
  | .intoMut => "into_mut"
  | .insert => "insert"
  | .remove => "remove"

/-- A function of `SomeBucket`, called on `self.inner`. -/
def someFn (f : SomeFn) (args : Toks) : Toks :=
  quote! "::fixed_map::option_bucket::SomeBucket::" ++ match f with
    | .asRef => quote! "as_ref(&self.inner #args)"
    | .asMut => quote! "as_mut(&mut self.inner #args)"
    | .intoMut => quote! "into_mut(self.inner #args)"
    | .replace => quote! "replace(&mut self.inner #args)"
    | .take => quote! "take(self.inner #args)"

/-- `<.. as OccupiedEntry<'a, E, V>>` -/
def asOcc (κ : KeyTy) : Toks :=
  let e := el κ
  let s := asMap el κ
  quote! "<#s::Occupied<#lt> as ::fixed_map::map::OccupiedEntry<#lt, #e, V>>"

def asVac (κ : KeyTy) : Toks :=
  let e := el κ
  let s := asMap el κ
  quote! "<#s::Vacant<#lt> as ::fixed_map::map::VacantEntry<#lt, #e, V>>"

def commaArgs (l : List String) : Toks := l.flatMap fun x => [",", x]

def occBody : OccBody → Toks
  | .keyField => quote! "entry.key"
  | .keyOf var κ => variantOf cx var (asOcc cx el κ ++ quote! "::key(entry)")
  | .inherent m args => ["entry", ".", occMeth m, "("] ++ sepBy [","] (args.map fun x => [x]) ++ [")"]
  | .assoc κ m args => asOcc cx el κ ++ ["::", occMeth m, "(", "entry"] ++ commaArgs args ++ [")"]

def vacBody : VacBody → Toks
  | .keyField => quote! "entry.key"
  | .keyOf var κ => variantOf cx var (asVac cx el κ ++ quote! "::key(entry)")
  | .inherent args => quote! "entry.insert(" ++ sepBy [","] (args.map fun x => [x]) ++ [")"]
  | .assoc κ args => asVac cx el κ ++ quote! "::insert(entry" ++ commaArgs args ++ [")"]

/-- `match self { T::tag(entry) => .., }` -/
def entryMatch {β : Type} (T : String) (body : β → Toks) (arms : List (String × β)) : Toks :=
  let arms := (arms.map fun (tag, b) => [T, "::", tag] ++ quote! "(entry) =>" ++ body b ++ [","]).flatten
  quote! "match self { #arms }"

/-- The variants of an entry. -/
def entryVariants (simple assoc : String) (l : List (String × Option KeyTy)) : Toks :=
  (l.map fun
    | (tag, none) => [tag, "("] ++ [simple] ++ params cx [.lt, .value] ++ [")", ","]
    | (tag, some κ) => [tag, "("] ++ asMap el κ ++ ["::", assoc] ++ lifetime cx true ++ [")", ","]).flatten

def entryBody : EntryBody → Toks
  | .optionToEntry recv arg => quote! "option_to_entry(" ++ borrow true recv ++ [",", arg, ")"]
  | .elem recv arg occ vac =>
    let recv := borrow true recv
    let arg : Toks := [arg]
    let occ : Toks := [occ]
    let vac : Toks := [vac]
    quote! "match ::fixed_map::map::MapStorage::entry(#recv, #arg) {
      ::fixed_map::map::Entry::Occupied(entry) => ::fixed_map::map::Entry::Occupied(OccupiedEntry::#occ(entry)),
      ::fixed_map::map::Entry::Vacant(entry) => ::fixed_map::map::Entry::Vacant(VacantEntry::#vac(entry)),
    }"

/-- The entry types. -/
def entryItems (c : EntryCode) : Toks :=
  let get := someFn (c.simpleOcc .get) []
  let get_mut := someFn (c.simpleOcc .getMut) []
  let into_mut := someFn (c.simpleOcc .intoMut) []
  let insert := someFn (c.simpleOcc .insert) [",", "value"]
  let remove := someFn (c.simpleOcc .remove) []
  let vacant := entryVariants cx el "SimpleVacantEntry" "Vacant" c.vac
  let occupied := entryVariants cx el "SimpleOccupiedEntry" "Occupied" c.occ
  let vacant_key := entryMatch "VacantEntry" (vacBody cx el) c.vacKey
  let vacant_insert := entryMatch "VacantEntry" (vacBody cx el) c.vacInsert
  let occupied_key := entryMatch "OccupiedEntry" (occBody cx el) c.occKey
  let occupied_get := entryMatch "OccupiedEntry" (occBody cx el) c.occGet
  let occupied_get_mut := entryMatch "OccupiedEntry" (occBody cx el) c.occGetMut
  let occupied_into_mut := entryMatch "OccupiedEntry" (occBody cx el) c.occIntoMut
  let occupied_insert := entryMatch "OccupiedEntry" (occBody cx el) c.occInsert
  let occupied_remove := entryMatch "OccupiedEntry" (occBody cx el) c.occRemove
  quote! "
    #vis struct SimpleVacantEntry<#lt, V> { key: #ident, inner: ::fixed_map::option_bucket::NoneBucket<#lt, V>, }

    impl<#lt, V> SimpleVacantEntry<#lt, V> {
      #[inline] fn insert(self, value: V) -> &#lt mut V { ::fixed_map::option_bucket::NoneBucket::insert(self.inner, value) }
    }

    #vis struct SimpleOccupiedEntry<#lt, V> { key: #ident, inner: ::fixed_map::option_bucket::SomeBucket<#lt, V>, }

    impl<#lt, V> SimpleOccupiedEntry<#lt, V> {
      #[inline] fn get(&self) -> &V { #get }
      #[inline] fn get_mut(&mut self) -> &mut V { #get_mut }
      #[inline] fn into_mut(self) -> &#lt mut V { #into_mut }
      #[inline] fn insert(&mut self, value: V) -> V { #insert }
      #[inline] fn remove(self) -> V { #remove }
    }

    #vis enum VacantEntry<#lt, V> { #vacant }
    #vis enum OccupiedEntry<#lt, V> { #occupied }

    #[automatically_derived]
    impl<#lt, V> ::fixed_map::map::VacantEntry<#lt, #ident, V> for VacantEntry<#lt, V> {
      #[inline] fn key(&self) -> #ident { #vacant_key }
      #[inline] fn insert(self, value: V) -> &#lt mut V { #vacant_insert }
    }

    #[automatically_derived]
    impl<#lt, V> ::fixed_map::map::OccupiedEntry<#lt, #ident, V> for OccupiedEntry<#lt, V> {
      #[inline] fn key(&self) -> #ident { #occupied_key }
      #[inline] fn get(&self) -> &V { #occupied_get }
      #[inline] fn get_mut(&mut self) -> &mut V { #occupied_get_mut }
      #[inline] fn into_mut(self) -> &#lt mut V { #occupied_into_mut }
      #[inline] fn insert(&mut self, value: V) -> V { #occupied_insert }
      #[inline] fn remove(self) -> V { #occupied_remove }
    }

    #[inline]
    fn option_to_entry<V>(opt: &mut ::core::option::Option<V>, key: #ident) -> ::fixed_map::map::Entry<'_, __MapStorage<V>, #ident, V> {
      match ::fixed_map::option_bucket::OptionBucket::new(opt) {
        ::fixed_map::option_bucket::OptionBucket::Some(inner) =>
          ::fixed_map::map::Entry::Occupied(OccupiedEntry::Simple(SimpleOccupiedEntry { key, inner })),
        ::fixed_map::option_bucket::OptionBucket::None(inner) =>
          ::fixed_map::map::Entry::Vacant(VacantEntry::Simple(SimpleVacantEntry { key, inner })),
      }
    }"

/-- The associated types and the function in `impl MapStorage`. -/
def entryFns (c : EntryCode) : Toks :=
  let arms := (c.entry.map fun (p, b) => pat cx p ++ ["=>"] ++ entryBody b ++ [","]).flatten
  quote! "
    type Occupied<#lt> = OccupiedEntry<#lt, V> where V: #lt;
    type Vacant<#lt> = VacantEntry<#lt, V> where V: #lt;
    #[inline] fn entry(&mut self, key: #ident) -> ::fixed_map::map::Entry<'_, Self, #ident, V> { match key { #arms } }"

/-! ## Storages -/

/-- `eq` and `clone`, for the names that are compared and the pairs that are cloned. -/
def basicBody (eq : List String) (clone : List (String × String)) : Trait → Toks
  | .std .partialEq =>
    let names : List Toks := eq.map fun n => [n]
    quote! "#[inline] fn eq(&self, other: &Self) -> bool { #(if ::core::cmp::PartialEq::ne(&self.#names, &other.#names) { return false; })* true }"
  | .std .clone =>
    let fields := cloned clone
    quote! "#[inline] fn clone(&self) -> Self { Self { #fields } }"
  | _ => []

/-- All code for an enum with payloads. -/
structure Code where
  map : MapCode
  mapIter : MapIt → IterCode
  entry : EntryCode
  set : SetCode
  setIter : SetIt → IterCode
  decls : List Decl
  impls : List Impl

/-- The declaration of an item. -/
def Code.decl (c : Code) (i : ItemName) : Decl := (c.decls.find? (·.item = i)).getD ⟨i, [], false, []⟩
/-- The `impl` of the storage trait. -/
def Code.storage (c : Code) (i : ItemName) : Impl := (c.impls.find? fun h => h.item = i ∧ h.tr = .storage).getD ⟨[], .storage, i, [], []⟩
/-- The other `impl`s of an item. -/
def Code.others (c : Code) (i : ItemName) : List Impl := c.impls.filter fun h => h.item = i ∧ h.tr ≠ .storage

def mapCode (c : Code) : Toks :=
  struct cx (c.decl .mapStorage) (c.map.decls.map fun (n, t) => named n (fieldTy el t)).flatten ++
  impl cx el (fun _ => (mapIts.flatMap fun q => mapIterFn cx el (c.decl (.mapIter q)) q (c.mapIter q)) ++ entryFns cx c.entry ++ mapFns cx el c.map)
    (c.storage .mapStorage) ++
  (mapIts.flatMap fun q => mapIter cx el (c.decl (.mapIter q)) (c.others (.mapIter q)) q (c.mapIter q)) ++
  entryItems cx el c.entry ++
  ((c.others .mapStorage).map (impl cx el (basicBody c.map.eq c.map.clone))).flatten

def setCode (c : Code) : Toks :=
  struct cx (c.decl .setStorage) (c.set.decls.map fun (n, t) => named n (fieldTy el t)).flatten ++
  impl cx el (fun _ => (setIts.flatMap fun q => setIterFn cx el (c.decl (.setIter q)) q (c.setIter q)) ++ setFns cx el c.set) (c.storage .setStorage) ++
  (setIts.flatMap fun q => setIter cx el (c.decl (.setIter q)) (c.others (.setIter q)) q (c.setIter q)) ++
  ((c.others .setStorage).map (impl cx el (basicBody c.set.eq c.set.clone))).flatten

def code (c : Code) : Toks :=
  let map := mapCode cx el c
  let set := setCode cx el c
  quote! "
    const _: () = {
      #map
      #set
      #[automatically_derived]
      impl ::fixed_map::Key for #ident {
        type MapStorage<V> = __MapStorage<V>;
        type SetStorage = __SetStorage;
      }
    };"

end

end Print

/-- The code that `Model/Gen*.lean` gives for an enum. -/
def codeOf (F : Gen.FieldSet) : Print.Code where
  map := Gen.genMap F
  mapIter := Gen.genMapIter F
  entry := Gen.genEntry F
  set := Gen.genSet F
  setIter := Gen.genSetIter F
  decls := Gen.genDecls F
  impls := Gen.genImpls F

/-- The variants as the derive sees them. -/
def variantsOf (el : KeyTy → Toks) (vs : List Gen.Variant) : List Variant := vs.map fun v => ⟨v.ident, v.elem.map el⟩

end FixedMap.Emit
