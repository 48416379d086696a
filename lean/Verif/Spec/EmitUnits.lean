import Verif.Model.EmitUnits
import Verif.Model.GenUnits

/-!
# How the code of `Model/GenUnits.lean` is written in Rust

As `Spec/Emit.lean`, for enums with only unit variants.
-/

set_option autoImplicit false
set_option linter.unusedVariables false

namespace FixedMap.Emit.Units.Print

open FixedMap.GenUnits

variable (cx : Cx)

/-- `Ident::var` -/
def variant (var : String) : Toks := cx.ident ++ ["::", var]

/-- How `self.data` is destructured. -/
inductive By where
  | ref | mut | val

def by_ : By → Toks
  | .ref => ["&"]
  | .mut => ["&", "mut"]
  | .val => []

/-- `let [binds..] = &self.data;` -/
def lets (b : By) (binds : List String) : Toks :=
  let names := sepBy [","] (binds.map fun n => [n])
  let b := by_ b
  quote! "let [#names] = #b self.data;"

def slotFn : SlotFn → Toks
  | .isSome => quote! "::core::option::Option::is_some"
  | .isNone => quote! "::core::option::Option::is_none"
  | .replace => quote! "::core::option::Option::replace"
  | .asRef => quote! "::core::option::Option::as_ref"
  | .asMut => quote! "::core::option::Option::as_mut"
  | .take => quote! "::core::mem::take"
  | .optionToEntry => ["option_to_entry"]

def expr : Expr → Toks
  | .zero => ["0"]
  | .tt => ["true"]
  | .call f n args => slotFn f ++ ["(", n] ++ (args.flatMap fun a => [",", a]) ++ [")"]
  | .deref n => ["*", n]
  | .memReplace n b => quote! "::core::mem::replace(" ++ [n, ",", if b then "true" else "false"] ++ [")"]
  | .usizeFrom e => quote! "usize::from(" ++ expr e ++ [")"]
  | .not e => "!" :: expr e
  | .add a b => expr a ++ ["+"] ++ expr b
  | .and a b => expr a ++ ["&&"] ++ expr b

/-- `fn name(&self) -> ret { let ..; body }` -/
def exprFn (name ret : String) (m : ExprFn) : Toks :=
  let name : Toks := [name]
  let ret : Toks := [ret]
  let lets := lets .ref m.binds
  let body := expr m.body
  quote! "#[inline] fn #name(&self) -> #ret { #lets #body }"

/-- `fn name(&self, params..) -> ret { let ..; match scrutinee { arms } }`, the parameters being of the types `tys`. -/
def matchFn (name : String) (b : By) (tys : List Toks) (ret : Toks) (m : MatchFn) : Toks :=
  let name : Toks := [name]
  let recv := by_ b
  let params := (List.zipWith (fun p t => [",", p, ":"] ++ t) m.params tys).flatten
  let lets := lets b m.binds
  let scrutinee : Toks := [m.scrutinee]
  let arms := (m.arms.map fun (v, e) => variant cx v ++ ["=>"] ++ expr e ++ [","]).flatten
  quote! "#[inline] fn #name(#recv self #params) -> #ret { #lets match #scrutinee { #arms } }"

/-- `[x, x, ..]` -/
def array (n : Nat) (x : Toks) : Toks := ["["] ++ sepBy [","] (List.replicate n x) ++ ["]"]

def closure : Closure → Toks
  | .asRef => quote! "|(k, v)| ::core::option::Option::Some((k, ::core::option::Option::as_ref(v)?))"
  | .asMut => quote! "|(k, v)| ::core::option::Option::Some((k, ::core::option::Option::as_mut(v)?))"
  | .move => quote! "|(k, v)| ::core::option::Option::Some((k, v?))"

/-- `if .. { Some(Ident::var) } else { None }` -/
def ifSome (c : Toks) (var : String) : Toks :=
  let key := variant cx var
  quote! "if #c { Some(#key) } else { None }"

/-- The body of a function that returns an iterator; `c` is the condition that a place is occupied. -/
def iterBody (b : By) (c : String → Toks) : IterBody → Toks
  | .flatMap binds items f =>
    let lets := lets b binds
    let items := sepBy [","] (items.map fun (v, n) => ["("] ++ variant cx v ++ [",", n, ")"])
    let f := closure f
    quote! "#lets ::core::iter::Iterator::flat_map(::core::iter::IntoIterator::into_iter([#items]), #f)"
  | .flattenIf binds items =>
    let lets := lets b binds
    let items := sepBy [","] (items.map fun (n, v) => ifSome cx (c n) v)
    quote! "#lets ::core::iter::Iterator::flatten(::core::iter::IntoIterator::into_iter([#items]))"
  | .flattenRef => quote! "::core::iter::Iterator::flatten(::core::iter::IntoIterator::into_iter(&self.data))"
  | .flattenMut => quote! "::core::iter::Iterator::flatten(::core::iter::IntoIterator::into_iter(&mut self.data))"

/-- `Option` with an argument. -/
def opt (t : Toks) : Toks := quote! "::core::option::Option<#t>"

/-- `&'a`, `&'a mut`, nothing. -/
def refTy : By → Toks
  | .ref => "&" :: cx.lt
  | .mut => "&" :: cx.lt ++ ["mut"]
  | .val => []

/-- The type of `flat_map(into_iter([..]), ..)` over `count` pairs. -/
def flatMapTy (b : By) (count : Nat) : Toks :=
  let r := refTy cx b
  let o := opt ["V"]
  let count := usizeLit count
  let out := opt (quote! "(#ident, #r V)")
  quote! "::core::iter::FlatMap<::core::array::IntoIter<(#ident, #r #o), #count>, #out, fn((#ident, #r #o)) -> #out>"

/-- The type of `flatten(into_iter([..]))` over `count` keys. -/
def flattenTy (count : Nat) : Toks :=
  let count := usizeLit count
  quote! "::core::iter::Flatten<::core::array::IntoIter<::core::option::Option<#ident>, #count>>"

/-- The entry types; nothing depends on the variants. -/
def entryItems : Toks := quote! "
  #vis struct VacantEntry<#lt, V> { key: #ident, inner: ::fixed_map::option_bucket::NoneBucket<#lt, V>, }

  #[automatically_derived]
  impl<#lt, V> ::fixed_map::map::VacantEntry<#lt, #ident, V> for VacantEntry<#lt, V> {
    #[inline] fn key(&self) -> #ident { self.key }
    #[inline] fn insert(self, value: V) -> &#lt mut V { ::fixed_map::option_bucket::NoneBucket::insert(self.inner, value) }
  }

  #vis struct OccupiedEntry<#lt, V> { key: #ident, inner: ::fixed_map::option_bucket::SomeBucket<#lt, V>, }

  #[automatically_derived]
  impl<#lt, V> ::fixed_map::map::OccupiedEntry<#lt, #ident, V> for OccupiedEntry<#lt, V> {
    #[inline] fn key(&self) -> #ident { self.key }
    #[inline] fn get(&self) -> &V { ::fixed_map::option_bucket::SomeBucket::as_ref(&self.inner) }
    #[inline] fn get_mut(&mut self) -> &mut V { ::fixed_map::option_bucket::SomeBucket::as_mut(&mut self.inner) }
    #[inline] fn into_mut(self) -> &#lt mut V { ::fixed_map::option_bucket::SomeBucket::into_mut(self.inner) }
    #[inline] fn insert(&mut self, value: V) -> V { ::fixed_map::option_bucket::SomeBucket::replace(&mut self.inner, value) }
    #[inline] fn remove(self) -> V { ::fixed_map::option_bucket::SomeBucket::take(self.inner) }
  }

  #[inline]
  fn option_to_entry<V>(opt: &mut ::core::option::Option<V>, key: #ident) -> ::fixed_map::map::Entry<'_, __MapStorage<V>, #ident, V> {
    match ::fixed_map::option_bucket::OptionBucket::new(opt) {
      ::fixed_map::option_bucket::OptionBucket::Some(inner) => ::fixed_map::map::Entry::Occupied(OccupiedEntry { key, inner }),
      ::fixed_map::option_bucket::OptionBucket::None(inner) => ::fixed_map::map::Entry::Vacant(VacantEntry { key, inner }),
    }
  }"

/-- `impl<V> path for __MapStorage<V> where V: path { body }` -/
def mapImpl (path body : Toks) : Toks := quote! "#[automatically_derived] impl<V> #path for __MapStorage<V> where V: #path { #body }"

/-- The array of a map, and the traits that are passed on to it. -/
def mapItems (c : MapCode) : Toks :=
  let count := usizeLit c.count
  (quote! "#[repr(transparent)] #vis struct __MapStorage<V> { data: [::core::option::Option<V>; #count], }") ++
  mapImpl (quote! "::core::clone::Clone") (quote! "#[inline] fn clone(&self) -> Self { Self { data: ::core::clone::Clone::clone(&self.data), } }") ++
  mapImpl (quote! "::core::marker::Copy") [] ++
  mapImpl (quote! "::core::cmp::PartialEq") (quote! "#[inline] fn eq(&self, other: &Self) -> bool { ::core::cmp::PartialEq::eq(&self.data, &other.data) }") ++
  mapImpl (quote! "::core::cmp::Eq") [] ++
  mapImpl (quote! "::core::hash::Hash")
    (quote! "#[inline] fn hash<H>(&self, state: &mut H) where H: ::core::hash::Hasher, { ::core::hash::Hash::hash(&self.data, state); }") ++
  mapImpl (quote! "::core::cmp::PartialOrd") (quote! "#[inline] fn partial_cmp(&self, other: &Self) -> Option<::core::cmp::Ordering> {
    ::fixed_map::macro_support::__storage_iterator_partial_cmp(&self.data, &other.data) }") ++
  mapImpl (quote! "::core::cmp::Ord") (quote! "#[inline] fn cmp(&self, other: &Self) -> ::core::cmp::Ordering {
    ::fixed_map::macro_support::__storage_iterator_cmp(&self.data, &other.data) }")

def mapRetain (m : RetainFn) : Toks :=
  let lets := lets .mut m.binds
  let stmts := (m.stmts.map fun (n, v) =>
    let n : Toks := [n]
    let key := variant cx v
    quote! "if let ::core::option::Option::Some(val) = ::core::option::Option::as_mut(#n) { if !func(#key, val) { *#n = None; } }").flatten
  quote! "#[inline] fn retain<F>(&mut self, mut func: F) where F: FnMut(#ident, &mut V) -> bool { #lets #stmts }"

/-- `impl MapStorage` -/
def mapStorage (c : MapCode) : Toks :=
  let iter_ty := flatMapTy cx .ref c.count
  let keys_ty := flattenTy cx c.count
  let iter_mut_ty := flatMapTy cx .mut c.count
  let into_iter_ty := flatMapTy cx .val c.count
  let none := quote! "::core::option::Option::None"
  let empty := array c.empty none
  let clear := array c.clear none
  let isSome := fun n => [n] ++ quote! ".is_some()"
  let iter := iterBody cx .ref isSome c.iter
  let keys := iterBody cx .ref isSome c.keys
  let values := iterBody cx .ref isSome c.values
  let iter_mut := iterBody cx .mut isSome c.iterMut
  let values_mut := iterBody cx .mut isSome c.valuesMut
  let into_iter := iterBody cx .val isSome c.intoIter
  let fns :=
    (quote! "#[inline] fn empty() -> Self { Self { data: #empty, } }") ++
    exprFn "len" "usize" c.len ++
    exprFn "is_empty" "bool" c.isEmpty ++
    matchFn cx "insert" .mut [cx.ident, ["V"]] (opt ["V"]) c.insert ++
    matchFn cx "contains_key" .ref [cx.ident] ["bool"] c.containsKey ++
    matchFn cx "get" .ref [cx.ident] (opt ["&", "V"]) c.get ++
    matchFn cx "get_mut" .mut [cx.ident] (opt ["&", "mut", "V"]) c.getMut ++
    matchFn cx "remove" .mut [cx.ident] (opt ["V"]) c.remove ++
    mapRetain cx c.retain ++
    (quote! "#[inline] fn clear(&mut self) { self.data = #clear; }") ++
    (quote! "#[inline] fn iter(&self) -> Self::Iter<'_> { #iter }") ++
    (quote! "#[inline] fn keys(&self) -> Self::Keys<'_> { #keys }") ++
    (quote! "#[inline] fn values(&self) -> Self::Values<'_> { #values }") ++
    (quote! "#[inline] fn iter_mut(&mut self) -> Self::IterMut<'_> { #iter_mut }") ++
    (quote! "#[inline] fn values_mut(&mut self) -> Self::ValuesMut<'_> { #values_mut }") ++
    (quote! "#[inline] fn into_iter(self) -> Self::IntoIter { #into_iter }") ++
    matchFn cx "entry" .mut [cx.ident] (quote! "::fixed_map::map::Entry<'_, Self, #ident, V>") c.entry
  quote! "
    #[automatically_derived]
    impl<V> ::fixed_map::map::MapStorage<#ident, V> for __MapStorage<V> {
      type Iter<#lt> = #iter_ty where V: #lt;
      type Keys<#lt> = #keys_ty where V: #lt;
      type Values<#lt> = ::core::iter::Flatten<::core::slice::Iter<#lt, ::core::option::Option<V>>> where V: #lt;
      type IterMut<#lt> = #iter_mut_ty where V: #lt;
      type ValuesMut<#lt> = ::core::iter::Flatten<::core::slice::IterMut<#lt, ::core::option::Option<V>>> where V: #lt;
      type IntoIter = #into_iter_ty;
      type Occupied<#lt> = OccupiedEntry<#lt, V> where V: #lt;
      type Vacant<#lt> = VacantEntry<#lt, V> where V: #lt;
      #fns
    }"

/-- `struct __SetStorage { data: ty, }`, and the two orders. -/
def setItems (ty : Toks) (partialCmp cmp : Toks) : Toks := quote! "
  #[repr(transparent)]
  #[derive(::core::clone::Clone, ::core::marker::Copy, ::core::cmp::PartialEq, ::core::cmp::Eq, ::core::hash::Hash)]
  #vis struct __SetStorage { data: #ty, }

  #[automatically_derived]
  impl ::core::cmp::PartialOrd for __SetStorage {
    #[inline] fn partial_cmp(&self, other: &Self) -> Option<::core::cmp::Ordering> { #partialCmp(&self.data, &other.data) }
  }

  #[automatically_derived]
  impl ::core::cmp::Ord for __SetStorage {
    #[inline] fn cmp(&self, other: &Self) -> ::core::cmp::Ordering { #cmp(&self.data, &other.data) }
  }"

/-- `impl SetStorage` -/
def setStorage (count : Nat) (fns : Toks) : Toks :=
  let ty := flattenTy cx count
  quote! "
    #[automatically_derived]
    impl ::fixed_map::set::SetStorage<#ident> for __SetStorage {
      type Iter<#lt> = #ty;
      type IntoIter = #ty;
      #fns
    }"

def setRetain (m : RetainFn) : Toks :=
  let lets := lets .mut m.binds
  let stmts := (m.stmts.map fun (n, v) =>
    let n : Toks := [n]
    let key := variant cx v
    quote! "if *#n { *#n = f(#key); }").flatten
  quote! "#[inline] fn retain<F>(&mut self, mut f: F) where F: FnMut(#ident) -> bool { #lets #stmts }"

/-- A set on an array. -/
def setCode (c : SetCode) : Toks :=
  let count := usizeLit c.count
  let empty := array c.empty ["false"]
  let clear := array c.clear ["false"]
  let deref := fun n => ["*", n]
  let iter := iterBody cx .ref deref c.iter
  let into_iter := iterBody cx .ref deref c.intoIter
  setItems cx (quote! "[bool; #count]") (quote! "::fixed_map::macro_support::__storage_iterator_partial_cmp_bool")
    (quote! "::fixed_map::macro_support::__storage_iterator_cmp_bool") ++
  setStorage cx c.count (
    (quote! "#[inline] fn empty() -> Self { Self { data: #empty, } }") ++
    exprFn "len" "usize" c.len ++
    exprFn "is_empty" "bool" c.isEmpty ++
    matchFn cx "insert" .mut [cx.ident] ["bool"] c.insert ++
    matchFn cx "contains" .ref [cx.ident] ["bool"] c.contains ++
    matchFn cx "remove" .mut [cx.ident] ["bool"] c.remove ++
    setRetain cx c.retain ++
    (quote! "#[inline] fn clear(&mut self) { self.data = #clear; }") ++
    (quote! "#[inline] fn iter(&self) -> Self::Iter<'_> { #iter }") ++
    (quote! "#[inline] fn into_iter(self) -> Self::IntoIter { #into_iter }"))

/-- A set on an integer of `count` bits in use. -/
def bitsetCode (count : Nat) (c : BitsetCode) : Toks :=
  let ty : Toks := ["u" ++ Nat.repr c.width]
  let lit := fun n => [Nat.repr n]
  let arms := (c.toBits.map fun (v, n) => variant cx v ++ ["=>"] ++ lit n ++ [","]).flatten
  let stmts := (c.retain.map fun (n, v, n') =>
    let n := lit n
    let n' := lit n'
    let key := variant cx v
    quote! "if self.data & #n != 0 { if f(#key) { update |= " ++ n' ++ quote! "; } }").flatten
  let items := fun (l : List (Nat × String)) => sepBy [","] (l.map fun (n, v) => ifSome cx (quote! "self.data &" ++ lit n ++ quote! "!= 0") v)
  let iter := items c.iter
  let into_iter := items c.intoIter
  (quote! "#[inline] const fn to_bits(value: #ident) -> #ty { match value { #arms } }") ++
  setItems cx ty (quote! "::core::cmp::PartialOrd::partial_cmp") (quote! "::core::cmp::Ord::cmp") ++
  setStorage cx count (
    (quote! "#[inline] fn empty() -> Self { Self { data: 0, } }") ++
    (quote! "#[inline] fn len(&self) -> usize { <#ty>::count_ones(self.data) as usize }") ++
    (quote! "#[inline] fn is_empty(&self) -> bool { self.data == 0 }") ++
    (quote! "#[inline] fn insert(&mut self, value: #ident) -> bool {
      let mask = to_bits(value); let update = self.data | mask; ::core::mem::replace(&mut self.data, update) & mask == 0 }") ++
    (quote! "#[inline] fn contains(&self, value: #ident) -> bool { self.data & to_bits(value) != 0 }") ++
    (quote! "#[inline] fn remove(&mut self, value: #ident) -> bool {
      let mask = to_bits(value); let update = self.data & !mask; ::core::mem::replace(&mut self.data, update) & mask != 0 }") ++
    (quote! "#[inline] fn retain<F>(&mut self, mut f: F) where F: FnMut(#ident) -> bool { let mut update = 0; #stmts self.data = update; }") ++
    (quote! "#[inline] fn clear(&mut self) { self.data = 0; }") ++
    (quote! "#[inline] fn iter(&self) -> Self::Iter<'_> { ::core::iter::Iterator::flatten(::core::iter::IntoIterator::into_iter([#iter])) }") ++
    (quote! "#[inline] fn into_iter(self) -> Self::IntoIter { ::core::iter::Iterator::flatten(::core::iter::IntoIterator::into_iter([#into_iter])) }")) ++
  (quote! "
    #[automatically_derived]
    impl ::fixed_map::raw::RawStorage for __SetStorage {
      type Value = #ty;
      #[inline] fn as_raw(&self) -> #ty { self.data }
      #[inline] fn from_raw(data: #ty) -> __SetStorage { __SetStorage { data } }
    }")

/-- All code for an enum with only unit variants. -/
def code (map : MapCode) (set : SetCode ⊕ BitsetCode) : Toks :=
  let entry := entryItems cx
  let map_items := mapItems cx map
  let map_storage := mapStorage cx map
  let set := match set with
    | .inl c => setCode cx c
    | .inr c => bitsetCode cx map.count c
  quote! "
    const _: () = {
      #entry
      #map_items
      #map_storage
      #set
      #[automatically_derived]
      impl ::fixed_map::Key for #ident {
        type MapStorage<V> = __MapStorage<V>;
        type SetStorage = __SetStorage;
      }
    };"

end FixedMap.Emit.Units.Print

namespace FixedMap.Emit.Units

/-- The code of the sets that `Model/GenUnits.lean` gives for an enum. -/
def setOf (bitset : Bool) (en : List String) : Option (GenUnits.SetCode ⊕ GenUnits.BitsetCode) :=
  if bitset then (GenUnits.genBitset en).map .inr else some (.inl (GenUnits.genSet en))

end FixedMap.Emit.Units
