import Verif.Model.Quote

/-!
# The tokens emitted by any_variants.rs

The derive for enums with payloads, with the templates as they stand in the source (their lines are in front of them; the text is copied, up to white space). The Rust code around
them, which collects tokens in vectors, is transcribed: a loop that pushes is a `map`, and closures that destructure a `Field` or a `Complex` are functions that do.

Simplifications: the variants are the accepted ones (`Model/Derive.lean` says which are), and `syn::parse2`, which turns the tokens of a `where` clause into a tree that is printed
again, changes nothing. Line numbers refer to any_variants.rs unless another file is named.
-/

set_option autoImplicit false
set_option linter.unusedVariables false

namespace FixedMap.Emit

/-! ## context.rs -/

/-- `Ctxt`, context.rs 124-133: what is used of the input, and the lifetime (`'a`, lib.rs 40). -/
structure Cx where
  ident : Toks
  vis : Toks
  lt : Toks

/-- `leading_path(["core"])` with a suffix, context.rs 88-113. -/
def core (parts : List String) : Toks := "::" :: "core" :: parts.flatMap fun p => ["::", p]

/-- `leading_path(["fixed_map"])` (lib.rs 41) with a suffix. -/
def crate (parts : List String) : Toks := "::" :: "fixed_map" :: parts.flatMap fun p => ["::", p]

namespace Cx
variable (cx : Cx)
/-! 51-87 -/
def array_into_iter (_ : Cx) : Toks := core ["array", "IntoIter"]
def bool_type (_ : Cx) : Toks := core ["primitive", "bool"]
def clone_t (_ : Cx) : Toks := core ["clone", "Clone"]
def copy_t (_ : Cx) : Toks := core ["marker", "Copy"]
def double_ended_iterator_t (_ : Cx) : Toks := core ["iter", "DoubleEndedIterator"]
def entry_enum (_ : Cx) : Toks := crate ["map", "Entry"]
def eq_t (_ : Cx) : Toks := core ["cmp", "Eq"]
def hash_t (_ : Cx) : Toks := core ["hash", "Hash"]
def hasher_t (_ : Cx) : Toks := core ["hash", "Hasher"]
def into_iterator_t (_ : Cx) : Toks := core ["iter", "IntoIterator"]
def iterator_cmp (_ : Cx) : Toks := crate ["macro_support", "__storage_iterator_cmp"]
def iterator_cmp_bool (_ : Cx) : Toks := crate ["macro_support", "__storage_iterator_cmp_bool"]
def iterator_flat_map (_ : Cx) : Toks := core ["iter", "FlatMap"]
def iterator_flatten (_ : Cx) : Toks := core ["iter", "Flatten"]
def iterator_partial_cmp (_ : Cx) : Toks := crate ["macro_support", "__storage_iterator_partial_cmp"]
def iterator_partial_cmp_bool (_ : Cx) : Toks := crate ["macro_support", "__storage_iterator_partial_cmp_bool"]
def iterator_t (_ : Cx) : Toks := core ["iter", "Iterator"]
def key_t (_ : Cx) : Toks := crate ["Key"]
def mem (_ : Cx) : Toks := core ["mem"]
def occupied_entry_t (_ : Cx) : Toks := crate ["map", "OccupiedEntry"]
def option (_ : Cx) : Toks := core ["option", "Option"]
def option_bucket_none (_ : Cx) : Toks := crate ["option_bucket", "NoneBucket"]
def option_bucket_option (_ : Cx) : Toks := crate ["option_bucket", "OptionBucket"]
def option_bucket_some (_ : Cx) : Toks := crate ["option_bucket", "SomeBucket"]
def ord_t (_ : Cx) : Toks := core ["cmp", "Ord"]
def ordering (_ : Cx) : Toks := core ["cmp", "Ordering"]
def partial_eq_t (_ : Cx) : Toks := core ["cmp", "PartialEq"]
def partial_ord_t (_ : Cx) : Toks := core ["cmp", "PartialOrd"]
def slice_iter (_ : Cx) : Toks := core ["slice", "Iter"]
def slice_iter_mut (_ : Cx) : Toks := core ["slice", "IterMut"]
def map_storage_t (_ : Cx) : Toks := crate ["map", "MapStorage"]
def set_storage_t (_ : Cx) : Toks := crate ["set", "SetStorage"]
def raw_storage_t (_ : Cx) : Toks := crate ["raw", "RawStorage"]
def vacant_entry_t (_ : Cx) : Toks := crate ["map", "VacantEntry"]
end Cx

/-- `usize::to_tokens`: a literal with a suffix. -/
def usizeLit (n : Nat) : Toks := [Nat.repr n ++ "usize"]

/-! ## The fields -/

/-- `struct Complex`, 2117-2128. -/
structure Complex where
  element : Toks
  map_storage : Toks
  as_map_storage : Toks
  set_storage : Toks
  as_set_storage : Toks

/-- `struct Field`, 2100-2108; `none` is `Kind::Simple`. -/
structure Field where
  index : Nat
  name : Toks
  var : Toks
  kind : Option Complex

/-- `struct Fields`, 2131-2134. -/
structure Fields where
  fields : List Field
  patterns : List Toks

/-- 2138-2140 -/
def Fields.names (fields : Fields) : List Toks := fields.fields.map (·.name)
/-- 2143-2148 -/
def Fields.complex (fields : Fields) : List Complex := fields.fields.filterMap (·.kind)
/-- 2156-2158 -/
def Fields.len (fields : Fields) : Nat := fields.fields.length

/-- A variant: its name, and the tokens of the field of a tuple variant. -/
structure Variant where
  ident : String
  element : Option Toks

/-- 23 -/
def fieldName (index : Nat) : Toks := ["_" ++ Nat.repr index]

/-- 41-58 -/
def complexOf (cx : Cx) (element : Toks) : Complex :=
  let map_storage := /- 42 -/ quote! "<#element as #key_t>::MapStorage::<V>"
  let as_map_storage := /- 43 -/ quote! "<#map_storage as #map_storage_t<#element, V>>"
  let set_storage := /- 44 -/ quote! "<#element as #key_t>::SetStorage"
  let as_set_storage := /- 45 -/ quote! "<#set_storage as #set_storage_t<#element>>"
  ⟨element, map_storage, as_map_storage, set_storage, as_set_storage⟩

/-- 92-139; syn prints paths and patterns like this. -/
def buildTupleStructPat (ident var : Toks) : Option Toks → Toks
  | some arg => ident ++ ["::"] ++ var ++ ["("] ++ arg ++ [")"]
  | none => ident ++ ["::"] ++ var

/-- 19-73 -/
def fieldsOf (cx : Cx) (variants : List Variant) : Fields where
  fields := variants.zipIdx.map fun (v, index) => ⟨index, fieldName index, [v.ident], v.element.map (complexOf cx)⟩
  patterns := variants.map fun v => buildTupleStructPat cx.ident [v.ident] (v.element.map fun _ => ["v"])

/-! ## Output -/

/-- `struct Output`, 2094-2097. -/
structure Output where
  impls : Toks
  items : Toks

/-- `impl ToTokens for IteratorNext`, 1800-1815. -/
def iteratorNext (iter_next : List Toks) : Toks :=
  /- 1804-1813 -/ quote! "
      while self.start < self.end {
          match self.start {
              #(#iter_next,)*
              _ => break,
          }

          self.start = usize::min(self.start.wrapping_add(1), self.end);
      }"

/-- `impl ToTokens for IteratorNextBack`, 1833-1850. -/
def iteratorNextBack (iter_next : List Toks) : Toks :=
  /- 1837-1848 -/ quote! "
      while self.start < self.end {
          let next = self.end.wrapping_sub(1);

          match next {
              #(#iter_next,)*
              _ => break,
          }

          self.end = usize::max(next, self.start);
      }"

/-- `impl ToTokens for Option<syn::WhereClause>`: nothing without predicates. -/
def whereClause (predicates : List Toks) : Toks := if predicates.isEmpty then [] else "where" :: sepBy [","] predicates

/-- `format_ident!("{MAP_STORAGE}{assoc_type}")`, with 6. -/
def mapName (assoc_type : String) : Toks := ["__MapStorage" ++ assoc_type]
/-- With 7. -/
def setName (assoc_type : String) : Toks := ["__SetStorage" ++ assoc_type]

/-! ## Iterators -/

/-- `build_iter_next`, 670-745: the arms of `next`. -/
def iterNext (cx : Cx) (fields : Fields) : List Toks :=
  fields.fields.map fun ⟨i, name, var, kind⟩ =>
    let index := usizeLit i
    match kind with
    | none => /- 694-700 -/ quote! "
        #index => {
            if let #option::Some(value) = #option::take(&mut self.#name) {
                return #option::Some((#ident::#var, value));
            }
        }"
    | some ⟨_, _, as_map_storage, _, _⟩ => /- 711-717 -/ quote! "
        #index => {
            if let #option::Some((key, value)) = #iterator_t::next(&mut self.#name) {
                return #option::Some((#ident::#var(key), value));
            }
        }"

/-- The arms of `next_back`. -/
def iterNextBack (cx : Cx) (fields : Fields) : List Toks :=
  fields.fields.map fun ⟨i, name, var, kind⟩ =>
    let index := usizeLit i
    match kind with
    | none => /- 702-708 -/ quote! "
        #index => {
            if let #option::Some(value) = #option::take(&mut self.#name) {
                return #option::Some((#ident::#var, value));
            }
        }"
    | some ⟨_, _, as_map_storage, _, _⟩ => /- 719-725 -/ quote! "
        #index => {
            if let #option::Some((key, value)) = #double_ended_iterator_t::next_back(&mut self.#name) {
                return #option::Some((#ident::#var(key), value));
            }
        }"

/-- The predicates of its `where` clause, 728-739. -/
def iterPreds (cx : Cx) (fields : Fields) (assoc_type : Toks) (lt : Option Toks) : List Toks :=
  fields.complex.map fun ⟨_, _, as_map_storage, _, _⟩ =>
    let assoc_type := match lt with
      | some lt => /- 732 -/ quote! "#as_map_storage::#assoc_type<#lt>"
      | none => /- 734 -/ quote! "#as_map_storage::#assoc_type"
    /- 737-739 -/ quote! "#assoc_type: #double_ended_iterator_t<Item = <#assoc_type as #iterator_t>::Item>"

/-- `map_storage_iter`, 748-854. -/
def map_storage_iter (cx : Cx) (assoc : String) (fields : Fields) : Output :=
  let type_name := mapName assoc
  let assoc_type : Toks := [assoc]
  let step_forward := iteratorNext (iterNext cx fields)
  let step_backward := iteratorNextBack (iterNextBack cx fields)
  let field_decls := fields.fields.map fun ⟨_, name, _, kind⟩ =>
    match kind with
    | none => /- 784 -/ quote! "#name: #option<&#lt V>"
    | some ⟨_, _, as_map_storage, _, _⟩ => /- 788 -/ quote! "#name: #as_map_storage::Iter<#lt>"
  let init := fields.fields.map fun ⟨_, name, _, kind⟩ =>
    match kind with
    | none => /- 785 -/ quote! "#name: #option::as_ref(&self.#name)"
    | some ⟨_, _, as_map_storage, _, _⟩ => /- 789 -/ quote! "#name: #as_map_storage::iter(&self.#name)"
  let double_ended_where_clause := whereClause (iterPreds cx fields assoc_type (some cx.lt) ++ [/- 797 -/ quote! "V: #lt"])
  let names := fields.names
  let «end» := usizeLit fields.len
  { impls := /- 802-840 -/ quote! "
      #vis struct #type_name<#lt, V> where V: #lt {
          start: usize,
          end: usize,
          #(#field_decls,)*
      }

      #[automatically_derived]
      impl<#lt, V> #clone_t for #type_name<#lt, V> where V: #lt {
          #[inline]
          fn clone(&self) -> Self {
              Self {
                  start: self.start,
                  end: self.end,
                  #(#names: #clone_t::clone(&self.#names),)*
              }
          }
      }

      #[automatically_derived]
      impl<#lt, V> #iterator_t for #type_name<#lt, V> where V: #lt {
          type Item = (#ident, &#lt V);

          #[inline]
          fn next(&mut self) -> #option<Self::Item> {
              #step_forward
              #option::None
          }
      }

      #[automatically_derived]
      impl<#lt, V> #double_ended_iterator_t for #type_name<#lt, V> #double_ended_where_clause {
          #[inline]
          fn next_back(&mut self) -> #option<Self::Item> {
              #step_backward
              #option::None
          }
      }"
    items := /- 844-851 -/ quote! "
        type #assoc_type<#lt> = #type_name<#lt, V> where V: #lt;

        #[inline]
        fn iter(&self) -> Self::#assoc_type<'_> {
            #type_name { start: 0, end: #end, #(#init,)* }
        }" }

/-- `map_storage_keys`, 857-1004. -/
def map_storage_keys (cx : Cx) (assoc : String) (fields : Fields) : Output :=
  let type_name := mapName assoc
  let assoc_type : Toks := [assoc]
  let field_decls := fields.fields.map fun ⟨_, name, _, kind⟩ =>
    match kind with
    | none => /- 894 -/ quote! "#name: #bool_type"
    | some ⟨_, _, as_map_storage, _, _⟩ => /- 914 -/ quote! "#name: #as_map_storage::#assoc_type<#lt>"
  let init := fields.fields.map fun ⟨_, name, _, kind⟩ =>
    match kind with
    | none => /- 895 -/ quote! "#name: #option::is_some(&self.#name)"
    | some ⟨_, _, as_map_storage, _, _⟩ => /- 915 -/ quote! "#name: #as_map_storage::keys(&self.#name)"
  let step_forward := iteratorNext (fields.fields.map fun ⟨i, name, var, kind⟩ =>
    let index := usizeLit i
    match kind with
    | none => /- 897-903 -/ quote! "
        #index => {
            if #mem::take(&mut self.#name) {
                return #option::Some(#ident::#var);
            }
        }"
    | some ⟨_, _, as_map_storage, _, _⟩ => /- 917-923 -/ quote! "
        #index => {
            if let #option::Some(key) = #iterator_t::next(&mut self.#name) {
                return #option::Some(#ident::#var(key));
            }
        }")
  let step_backward := iteratorNextBack (fields.fields.map fun ⟨i, name, var, kind⟩ =>
    let index := usizeLit i
    match kind with
    | none => /- 905-911 -/ quote! "
        #index => {
            if #mem::take(&mut self.#name) {
                return #option::Some(#ident::#var);
            }
        }"
    | some ⟨_, _, as_map_storage, _, _⟩ => /- 925-931 -/ quote! "
        #index => {
            if let #option::Some(key) = #double_ended_iterator_t::next_back(&mut self.#name) {
                return #option::Some(#ident::#var(key));
            }
        }")
  let predicates := fields.complex.map fun ⟨_, _, as_map_storage, _, _⟩ =>
    let assoc_type := /- 935 -/ quote! "#as_map_storage::#assoc_type<#lt>"
    /- 937-939 -/ quote! "#assoc_type: #double_ended_iterator_t<Item = <#assoc_type as #iterator_t>::Item>"
  let double_ended_where_clause := whereClause (predicates ++ [/- 947 -/ quote! "V: #lt"])
  let names := fields.names
  let «end» := usizeLit fields.len
  { impls := /- 952-990 -/ quote! "
      #vis struct #type_name<#lt, V> where V: #lt {
          start: usize,
          end: usize,
          #(#field_decls,)*
      }

      #[automatically_derived]
      impl<#lt, V> #clone_t for #type_name<#lt, V> where V: #lt {
          #[inline]
          fn clone(&self) -> Self {
              Self {
                  start: self.start,
                  end: self.end,
                  #(#names: #clone_t::clone(&self.#names),)*
              }
          }
      }

      #[automatically_derived]
      impl<#lt, V> #iterator_t for #type_name<#lt, V> where V: #lt {
          type Item = #ident;

          #[inline]
          fn next(&mut self) -> #option<Self::Item> {
              #step_forward
              #option::None
          }
      }

      #[automatically_derived]
      impl<#lt, V> #double_ended_iterator_t for #type_name<#lt, V> #double_ended_where_clause {
          #[inline]
          fn next_back(&mut self) -> #option<Self::Item> {
              #step_backward
              #option::None
          }
      }"
    items := /- 994-1001 -/ quote! "
        type #assoc_type<#lt> = #type_name<#lt, V> where V: #lt;

        #[inline]
        fn keys(&self) -> Self::#assoc_type<'_> {
            #type_name { start: 0, end: #end, #(#init,)* }
        }" }

/-- `map_storage_values`, 1007-1150. -/
def map_storage_values (cx : Cx) (assoc : String) (fields : Fields) : Output :=
  let type_name := mapName assoc
  let assoc_type : Toks := [assoc]
  let field_decls := fields.fields.map fun ⟨_, name, _, kind⟩ =>
    match kind with
    | none => /- 1040 -/ quote! "#name: #option<&#lt V>"
    | some ⟨_, _, as_map_storage, _, _⟩ => /- 1060 -/ quote! "#name: #as_map_storage::#assoc_type<#lt>"
  let init := fields.fields.map fun ⟨_, name, _, kind⟩ =>
    match kind with
    | none => /- 1041 -/ quote! "#name: #option::as_ref(&self.#name)"
    | some ⟨_, _, as_map_storage, _, _⟩ => /- 1061 -/ quote! "#name: #as_map_storage::values(&self.#name)"
  let step_forward := iteratorNext (fields.fields.map fun ⟨i, name, _, kind⟩ =>
    let index := usizeLit i
    match kind with
    | none => /- 1043-1049 -/ quote! "
        #index => {
            if let #option::Some(value) = #option::take(&mut self.#name) {
                return #option::Some(value);
            }
        }"
    | some ⟨_, _, as_map_storage, _, _⟩ => /- 1063-1069 -/ quote! "
        #index => {
            if let #option::Some(value) = #iterator_t::next(&mut self.#name) {
                return #option::Some(value);
            }
        }")
  let step_backward := iteratorNextBack (fields.fields.map fun ⟨i, name, _, kind⟩ =>
    let index := usizeLit i
    match kind with
    | none => /- 1051-1057 -/ quote! "
        #index => {
            if let #option::Some(value) = #option::take(&mut self.#name) {
                return #option::Some(value);
            }
        }"
    | some ⟨_, _, as_map_storage, _, _⟩ => /- 1071-1077 -/ quote! "
        #index => {
            if let #option::Some(value) = #double_ended_iterator_t::next_back(&mut self.#name) {
                return #option::Some(value);
            }
        }")
  let predicates := fields.complex.map fun ⟨_, _, as_map_storage, _, _⟩ =>
    let assoc_type := /- 1081 -/ quote! "#as_map_storage::#assoc_type<#lt>"
    /- 1083-1085 -/ quote! "#assoc_type: #double_ended_iterator_t<Item = <#assoc_type as #iterator_t>::Item>"
  let double_ended_where_clause := whereClause (predicates ++ [/- 1093 -/ quote! "V: #lt"])
  let names := fields.names
  let «end» := usizeLit fields.len
  { impls := /- 1098-1136 -/ quote! "
      #vis struct #type_name<#lt, V> where V: #lt {
          start: usize,
          end: usize,
          #(#field_decls,)*
      }

      #[automatically_derived]
      impl<#lt, V> #clone_t for #type_name<#lt, V> where V: #lt {
          #[inline]
          fn clone(&self) -> Self {
              Self {
                  start: self.start,
                  end: self.end,
                  #(#names: #clone_t::clone(&self.#names),)*
              }
          }
      }

      #[automatically_derived]
      impl<#lt, V> #iterator_t for #type_name<#lt, V> where V: #lt {
          type Item = &#lt V;

          #[inline]
          fn next(&mut self) -> #option<Self::Item> {
              #step_forward
              #option::None
          }
      }

      #[automatically_derived]
      impl<#lt, V> #double_ended_iterator_t for #type_name<#lt, V> #double_ended_where_clause {
          #[inline]
          fn next_back(&mut self) -> #option<Self::Item> {
              #step_backward
              #option::None
          }
      }"
    items := /- 1140-1147 -/ quote! "
        type #assoc_type<#lt> = #type_name<#lt, V> where V: #lt;

        #[inline]
        fn values(&self) -> Self::#assoc_type<'_> {
            #type_name { start: 0, end: #end, #(#init,)* }
        }" }

/-- `map_storage_iter_mut`, 1153-1249. -/
def map_storage_iter_mut (cx : Cx) (assoc : String) (fields : Fields) : Output :=
  let type_name := mapName assoc
  let assoc_type : Toks := [assoc]
  let step_forward := iteratorNext (iterNext cx fields)
  let step_backward := iteratorNextBack (iterNextBack cx fields)
  let field_decls := fields.fields.map fun ⟨_, name, _, kind⟩ =>
    match kind with
    | none => /- 1188 -/ quote! "#name: #option<&#lt mut V>"
    | some ⟨_, _, as_map_storage, _, _⟩ => /- 1196 -/ quote! "#name: #as_map_storage::#assoc_type<#lt>"
  let init := fields.fields.map fun ⟨_, name, _, kind⟩ =>
    match kind with
    | none => /- 1189 -/ quote! "#name: #option::as_mut(&mut self.#name)"
    | some ⟨_, map_storage, _, _, _⟩ => /- 1197 -/ quote! "#name: #map_storage::iter_mut(&mut self.#name)"
  let double_ended_where := whereClause (iterPreds cx fields assoc_type (some cx.lt) ++ [/- 1205 -/ quote! "V: #lt"])
  let «end» := usizeLit fields.len
  { impls := /- 1209-1235 -/ quote! "
      #vis struct #type_name<#lt, V> where V: #lt {
          start: usize,
          end: usize,
          #(#field_decls,)*
      }

      #[automatically_derived]
      impl<#lt, V> #iterator_t for #type_name<#lt, V> where V: #lt {
          type Item = (#ident, &#lt mut V);

          #[inline]
          fn next(&mut self) -> #option<Self::Item> {
              #step_forward
              #option::None
          }
      }

      #[automatically_derived]
      impl<#lt, V> #double_ended_iterator_t for #type_name<#lt, V> #double_ended_where {
          #[inline]
          fn next_back(&mut self) -> #option<Self::Item> {
              #step_backward
              #option::None
          }
      }"
    items := /- 1239-1246 -/ quote! "
        type #assoc_type<#lt> = #type_name<#lt, V> where V: #lt;

        #[inline]
        fn iter_mut(&mut self) -> Self::#assoc_type<'_> {
            #type_name { start: 0, end: #end, #(#init,)* }
        }" }

/-- `map_storage_values_mut`, 1252-1381. -/
def map_storage_values_mut (cx : Cx) (assoc : String) (fields : Fields) : Output :=
  let type_name := mapName assoc
  let assoc_type : Toks := [assoc]
  let field_decls := fields.fields.map fun ⟨_, name, _, kind⟩ =>
    match kind with
    | none => /- 1284 -/ quote! "#name: #option<&#lt mut V>"
    | some ⟨_, _, as_map_storage, _, _⟩ => /- 1304 -/ quote! "#name: #as_map_storage::#assoc_type<#lt>"
  let init := fields.fields.map fun ⟨_, name, _, kind⟩ =>
    match kind with
    | none => /- 1285 -/ quote! "#name: #option::as_mut(&mut self.#name)"
    | some ⟨_, _, as_map_storage, _, _⟩ => /- 1305 -/ quote! "#name: #as_map_storage::values_mut(&mut self.#name)"
  let step_forward := iteratorNext (fields.fields.map fun ⟨i, name, _, kind⟩ =>
    let index := usizeLit i
    match kind with
    | none => /- 1287-1293 -/ quote! "
        #index => {
            if let #option::Some(value) = #option::take(&mut self.#name) {
                return #option::Some(value);
            }
        }"
    | some ⟨_, _, as_map_storage, _, _⟩ => /- 1307-1313 -/ quote! "
        #index => {
            if let #option::Some(value) = #iterator_t::next(&mut self.#name) {
                return #option::Some(value);
            }
        }")
  let step_backward := iteratorNextBack (fields.fields.map fun ⟨i, name, _, kind⟩ =>
    let index := usizeLit i
    match kind with
    | none => /- 1295-1301 -/ quote! "
        #index => {
            if let #option::Some(value) = #option::take(&mut self.#name) {
                return #option::Some(value);
            }
        }"
    | some ⟨_, _, as_map_storage, _, _⟩ => /- 1315-1321 -/ quote! "
        #index => {
            if let #option::Some(value) = #double_ended_iterator_t::next_back(&mut self.#name) {
                return #option::Some(value);
            }
        }")
  let predicates := fields.complex.map fun ⟨_, _, as_map_storage, _, _⟩ =>
    let assoc_type := /- 1325 -/ quote! "#as_map_storage::#assoc_type<#lt>"
    /- 1327-1329 -/ quote! "#assoc_type: #double_ended_iterator_t<Item = <#assoc_type as #iterator_t>::Item>"
  let double_ended_where_clause := whereClause (predicates ++ [/- 1337 -/ quote! "V: #lt"])
  let «end» := usizeLit fields.len
  { impls := /- 1341-1367 -/ quote! "
      #vis struct #type_name<#lt, V> where V: #lt {
          start: usize,
          end: usize,
          #(#field_decls,)*
      }

      #[automatically_derived]
      impl<#lt, V> #iterator_t for #type_name<#lt, V> where V: #lt {
          type Item = &#lt mut V;

          #[inline]
          fn next(&mut self) -> #option<Self::Item> {
              #step_forward
              #option::None
          }
      }

      #[automatically_derived]
      impl<#lt, V> #double_ended_iterator_t for #type_name<#lt, V> #double_ended_where_clause {
          #[inline]
          fn next_back(&mut self) -> #option<Self::Item> {
              #step_backward
              #option::None
          }
      }"
    items := /- 1371-1378 -/ quote! "
        type #assoc_type<#lt> = #type_name<#lt, V> where V: #lt;

        #[inline]
        fn values_mut(&mut self) -> Self::#assoc_type<'_> {
            #type_name { start: 0, end: #end, #(#init,)* }
        }" }

/-- `map_storage_into_iter`, 1384-1491. -/
def map_storage_into_iter (cx : Cx) (assoc : String) (fields : Fields) : Output :=
  let type_name := mapName assoc
  let assoc_type : Toks := [assoc]
  let step_forward := iteratorNext (iterNext cx fields)
  let step_backward := iteratorNextBack (iterNextBack cx fields)
  let field_decls := fields.fields.map fun ⟨_, name, _, kind⟩ =>
    match kind with
    | none => /- 1419 -/ quote! "#name: #option<V>"
    | some ⟨_, _, as_map_storage, _, _⟩ => /- 1427 -/ quote! "#name: #as_map_storage::#assoc_type"
  let init := fields.fields.map fun ⟨_, name, _, kind⟩ =>
    match kind with
    | none => /- 1420 -/ quote! "#name: self.#name"
    | some ⟨_, map_storage, _, _, _⟩ => /- 1428 -/ quote! "#name: #map_storage::into_iter(self.#name)"
  let double_ended_where := whereClause (iterPreds cx fields assoc_type none)
  let names := fields.names
  let clone_bounds := fields.complex.map fun ⟨_, _, as_map_storage, _, _⟩ => /- 1437 -/ quote! "#as_map_storage::#assoc_type: #clone_t"
  let «end» := usizeLit fields.len
  { impls := /- 1439-1477 -/ quote! "
      #vis struct #type_name<V> {
          start: usize,
          end: usize,
          #(#field_decls,)*
      }

      #[automatically_derived]
      impl<V> #clone_t for #type_name<V> where V: Clone, #(#clone_bounds,)* {
          #[inline]
          fn clone(&self) -> Self {
              Self {
                  start: self.start,
                  end: self.end,
                  #(#names: #clone_t::clone(&self.#names),)*
              }
          }
      }

      #[automatically_derived]
      impl<V> #iterator_t for #type_name<V> {
          type Item = (#ident, V);

          #[inline]
          fn next(&mut self) -> Option<Self::Item> {
              #step_forward
              #option::None
          }
      }

      #[automatically_derived]
      impl<V> #double_ended_iterator_t for #type_name<V> #double_ended_where {
          #[inline]
          fn next_back(&mut self) -> #option<Self::Item> {
              #step_backward
              #option::None
          }
      }"
    items := /- 1481-1488 -/ quote! "
        type #assoc_type = #type_name<V>;

        #[inline]
        fn into_iter(self) -> Self::#assoc_type {
            #type_name { start: 0, end: #end, #(#init,)* }
        }" }

/-- `set_storage_iter`, 1494-1636. -/
def set_storage_iter (cx : Cx) (assoc : String) (fields : Fields) : Output :=
  let type_name := setName assoc
  let assoc_type : Toks := [assoc]
  let field_decls := fields.fields.map fun ⟨_, name, _, kind⟩ =>
    match kind with
    | none => /- 1531 -/ quote! "#name: #bool_type"
    | some ⟨_, _, _, _, as_set_storage⟩ => /- 1551 -/ quote! "#name: #as_set_storage::#assoc_type<#lt>"
  let init := fields.fields.map fun ⟨_, name, _, kind⟩ =>
    match kind with
    | none => /- 1532 -/ quote! "#name: self.#name"
    | some ⟨_, _, _, _, as_set_storage⟩ => /- 1552 -/ quote! "#name: #as_set_storage::iter(&self.#name)"
  let step_forward := iteratorNext (fields.fields.map fun ⟨i, name, var, kind⟩ =>
    let index := usizeLit i
    match kind with
    | none => /- 1534-1540 -/ quote! "
        #index => {
            if #mem::take(&mut self.#name) {
                return #option::Some(#ident::#var);
            }
        }"
    | some ⟨_, _, _, _, as_set_storage⟩ => /- 1554-1560 -/ quote! "
        #index => {
            if let #option::Some(key) = #iterator_t::next(&mut self.#name) {
                return #option::Some(#ident::#var(key));
            }
        }")
  let step_backward := iteratorNextBack (fields.fields.map fun ⟨i, name, var, kind⟩ =>
    let index := usizeLit i
    match kind with
    | none => /- 1542-1548 -/ quote! "
        #index => {
            if #mem::take(&mut self.#name) {
                return #option::Some(#ident::#var);
            }
        }"
    | some ⟨_, _, _, _, as_set_storage⟩ => /- 1562-1568 -/ quote! "
        #index => {
            if let #option::Some(key) = #double_ended_iterator_t::next_back(&mut self.#name) {
                return #option::Some(#ident::#var(key));
            }
        }")
  let predicates := fields.complex.map fun ⟨_, _, _, _, as_set_storage⟩ =>
    let assoc_type := /- 1572 -/ quote! "#as_set_storage::#assoc_type<#lt>"
    /- 1574-1576 -/ quote! "#assoc_type: #double_ended_iterator_t<Item = <#assoc_type as #iterator_t>::Item>"
  let double_ended_where_clause := whereClause predicates
  let names := fields.names
  let «end» := usizeLit fields.len
  { impls := /- 1584-1622 -/ quote! "
      #vis struct #type_name<#lt> {
          start: usize,
          end: usize,
          #(#field_decls,)*
      }

      #[automatically_derived]
      impl<#lt> #clone_t for #type_name<#lt> {
          #[inline]
          fn clone(&self) -> Self {
              Self {
                  start: self.start,
                  end: self.end,
                  #(#names: #clone_t::clone(&self.#names),)*
              }
          }
      }

      #[automatically_derived]
      impl<#lt> #iterator_t for #type_name<#lt> {
          type Item = #ident;

          #[inline]
          fn next(&mut self) -> #option<Self::Item> {
              #step_forward
              #option::None
          }
      }

      #[automatically_derived]
      impl<#lt> #double_ended_iterator_t for #type_name<#lt> #double_ended_where_clause {
          #[inline]
          fn next_back(&mut self) -> #option<Self::Item> {
              #step_backward
              #option::None
          }
      }"
    items := /- 1626-1633 -/ quote! "
        type #assoc_type<#lt> = #type_name<#lt>;

        #[inline]
        fn iter(&self) -> Self::#assoc_type<'_> {
            #type_name { start: 0, end: #end, #(#init,)* }
        }" }

/-- `set_storage_into_iter`, 1639-1793. -/
def set_storage_into_iter (cx : Cx) (assoc : String) (fields : Fields) : Output :=
  let type_name := setName assoc
  let assoc_type : Toks := [assoc]
  let field_decls := fields.fields.map fun ⟨_, name, _, kind⟩ =>
    match kind with
    | none => /- 1675 -/ quote! "#name: #bool_type"
    | some ⟨_, _, _, _, as_set_storage⟩ => /- 1695 -/ quote! "#name: #as_set_storage::#assoc_type"
  let init := fields.fields.map fun ⟨_, name, _, kind⟩ =>
    match kind with
    | none => /- 1676 -/ quote! "#name: self.#name"
    | some ⟨_, _, _, _, as_set_storage⟩ => /- 1696 -/ quote! "#name: #as_set_storage::into_iter(self.#name)"
  let step_forward := iteratorNext (fields.fields.map fun ⟨i, name, var, kind⟩ =>
    let index := usizeLit i
    match kind with
    | none => /- 1678-1684 -/ quote! "
        #index => {
            if #mem::take(&mut self.#name) {
                return #option::Some(#ident::#var);
            }
        }"
    | some ⟨_, _, _, _, as_set_storage⟩ => /- 1698-1704 -/ quote! "
        #index => {
            if let #option::Some(key) = #iterator_t::next(&mut self.#name) {
                return #option::Some(#ident::#var(key));
            }
        }")
  let step_backward := iteratorNextBack (fields.fields.map fun ⟨i, name, var, kind⟩ =>
    let index := usizeLit i
    match kind with
    | none => /- 1686-1692 -/ quote! "
        #index => {
            if #mem::take(&mut self.#name) {
                return #option::Some(#ident::#var);
            }
        }"
    | some ⟨_, _, _, _, as_set_storage⟩ => /- 1706-1712 -/ quote! "
        #index => {
            if let #option::Some(key) = #double_ended_iterator_t::next_back(&mut self.#name) {
                return #option::Some(#ident::#var(key));
            }
        }")
  let predicates := fields.complex.map fun ⟨_, _, _, _, as_set_storage⟩ =>
    let assoc_type := /- 1716 -/ quote! "#as_set_storage::#assoc_type"
    /- 1718-1720 -/ quote! "for<'trivial_bounds> #assoc_type: #double_ended_iterator_t<Item = <#assoc_type as #iterator_t>::Item>"
  let names := fields.names
  let bounds := fields.complex.map fun ⟨_, _, _, _, as_set_storage⟩ => /- 1738 -/ quote! "#as_set_storage::#assoc_type"
  let double_ended_where_clause := whereClause predicates
  let «end» := usizeLit fields.len
  { impls := (/- 1727-1733 -/ quote! "
      #vis struct #type_name {
          start: usize,
          end: usize,
          #(#field_decls,)*
      }") ++ (/- 1740-1752 -/ quote! "
      #[automatically_derived]
      impl #clone_t for #type_name where #(for<'trivial_bounds> #bounds: #clone_t,)* {
          #[inline]
          fn clone(&self) -> Self {
              Self {
                  start: self.start,
                  end: self.end,
                  #(#names: #clone_t::clone(&self.#names),)*
              }
          }
      }") ++ (/- 1755-1766 -/ quote! "
      #[automatically_derived]
      impl #iterator_t for #type_name {
          type Item = #ident;

          #[inline]
          fn next(&mut self) -> #option<Self::Item> {
              #step_forward
              #option::None
          }
      }") ++ (/- 1770-1779 -/ quote! "
      #[automatically_derived]
      impl #double_ended_iterator_t for #type_name #double_ended_where_clause {
          #[inline]
          fn next_back(&mut self) -> #option<Self::Item> {
              #step_backward
              #option::None
          }
      }")
    items := /- 1783-1790 -/ quote! "
        type #assoc_type = #type_name;

        #[inline]
        fn into_iter(self) -> Self::#assoc_type {
            #type_name { start: 0, end: #end, #(#init,)* }
        }" }

/-! ## Entries -/

/-- `map_storage_entry`, 1853-2090. -/
def map_storage_entry (cx : Cx) (fields : Fields) (map_storage : Toks) : Output :=
  let init := fields.fields.map fun ⟨_, name, var, kind⟩ =>
    let pattern := /- 1890 -/ quote! "#ident::#var"
    match kind with
    | none => /- 1894 -/ quote! "#pattern => option_to_entry(&mut self.#name, key)"
    | some ⟨_, _, _, _, _⟩ => /- 1906-1911 -/ quote! "
        #pattern(key) => match #map_storage_t::entry(&mut self.#name, key) {
            #entry_enum::Occupied(entry) => #entry_enum::Occupied(OccupiedEntry::#name(entry)),
            #entry_enum::Vacant(entry) => #entry_enum::Vacant(VacantEntry::#name(entry)),
        }"
  -- what is pushed for the tuple variants
  let each (f : Toks → Toks → Toks → Toks → Toks → Toks → Toks) : List Toks := fields.fields.filterMap fun ⟨_, name, var, kind⟩ =>
    kind.map fun ⟨element, map_storage, _, _, _⟩ =>
      let pattern := /- 1890 -/ quote! "#ident::#var"
      let as_map_storage := /- 1901 -/ quote! "<#map_storage as #map_storage_t<#element, V>>"
      let as_vacant_entry := /- 1914 -/ quote! "<#as_map_storage::Vacant<#lt> as #vacant_entry_t<#lt, #element, V>>"
      let as_occupied_entry := /- 1924 -/ quote! "<#as_map_storage::Occupied<#lt> as #occupied_entry_t<#lt, #element, V>>"
      f name element pattern as_map_storage as_vacant_entry as_occupied_entry
  let occupied_variant := each fun name element pattern as_map_storage as_vacant_entry as_occupied_entry => /- 1903 -/ quote! "#name(#as_map_storage::Occupied<#lt>)"
  let vacant_variant := each fun name element pattern as_map_storage as_vacant_entry as_occupied_entry => /- 1904 -/ quote! "#name(#as_map_storage::Vacant<#lt>)"
  let vacant_key := each fun name element pattern as_map_storage as_vacant_entry as_occupied_entry => /- 1917 -/ quote! "VacantEntry::#name(entry) => #pattern(#as_vacant_entry::key(entry))"
  let vacant_insert := each fun name element pattern as_map_storage as_vacant_entry as_occupied_entry => /- 1920 -/ quote! "VacantEntry::#name(entry) => #as_vacant_entry::insert(entry, value)"
  let occupied_key := each fun name element pattern as_map_storage as_vacant_entry as_occupied_entry => /- 1926 -/ quote! "OccupiedEntry::#name(entry) => #pattern(#as_occupied_entry::key(entry))"
  let occupied_get := each fun name element pattern as_map_storage as_vacant_entry as_occupied_entry => /- 1928 -/ quote! "OccupiedEntry::#name(entry) => #as_occupied_entry::get(entry)"
  let occupied_get_mut := each fun name element pattern as_map_storage as_vacant_entry as_occupied_entry => /- 1930 -/ quote! "OccupiedEntry::#name(entry) => #as_occupied_entry::get_mut(entry)"
  let occupied_into_mut := each fun name element pattern as_map_storage as_vacant_entry as_occupied_entry => /- 1933 -/ quote! "OccupiedEntry::#name(entry) => #as_occupied_entry::into_mut(entry)"
  let occupied_insert := each fun name element pattern as_map_storage as_vacant_entry as_occupied_entry => /- 1935 -/ quote! "OccupiedEntry::#name(entry) => #as_occupied_entry::insert(entry, value)"
  let occupied_remove := each fun name element pattern as_map_storage as_vacant_entry as_occupied_entry => /- 1937 -/ quote! "OccupiedEntry::#name(entry) => #as_occupied_entry::remove(entry)"
  { impls := /- 1943-2075 -/ quote! "
      #vis struct SimpleVacantEntry<#lt, V> {
          key: #ident,
          inner: #option_bucket_none<#lt, V>,
      }

      impl<#lt, V> SimpleVacantEntry<#lt, V> {
          #[inline]
          fn insert(self, value: V) -> &#lt mut V {
              #option_bucket_none::insert(self.inner, value)
          }
      }

      #vis struct SimpleOccupiedEntry<#lt, V> {
          key: #ident,
          inner: #option_bucket_some<#lt, V>,
      }

      impl<#lt, V> SimpleOccupiedEntry<#lt, V> {
          #[inline]
          fn get(&self) -> &V {
              #option_bucket_some::as_ref(&self.inner)
          }

          #[inline]
          fn get_mut(&mut self) -> &mut V {
              #option_bucket_some::as_mut(&mut self.inner)
          }

          #[inline]
          fn into_mut(self) -> &#lt mut V {
              #option_bucket_some::into_mut(self.inner)
          }

          #[inline]
          fn insert(&mut self, value: V) -> V {
              #option_bucket_some::replace(&mut self.inner, value)
          }

          #[inline]
          fn remove(self) -> V {
              #option_bucket_some::take(self.inner)
          }
      }

      #vis enum VacantEntry<#lt, V> {
          Simple(SimpleVacantEntry<#lt, V>),
          #(#vacant_variant,)*
      }

      #vis enum OccupiedEntry<#lt, V> {
          Simple(SimpleOccupiedEntry<#lt, V>),
          #(#occupied_variant,)*
      }

      #[automatically_derived]
      impl<#lt, V> #vacant_entry_t<#lt, #ident, V> for VacantEntry<#lt, V> {
          #[inline]
          fn key(&self) -> #ident {
              match self {
                  VacantEntry::Simple(entry) => entry.key,
                  #(#vacant_key,)*
              }
          }

          #[inline]
          fn insert(self, value: V) -> &#lt mut V {
              match self {
                  VacantEntry::Simple(entry) => entry.insert(value),
                  #(#vacant_insert,)*
              }
          }
      }

      #[automatically_derived]
      impl<#lt, V> #occupied_entry_t<#lt, #ident, V> for OccupiedEntry<#lt, V> {
          #[inline]
          fn key(&self) -> #ident {
              match self {
                  OccupiedEntry::Simple(entry) => entry.key,
                  #(#occupied_key,)*
              }
          }

          #[inline]
          fn get(&self) -> &V {
              match self {
                  OccupiedEntry::Simple(entry) => entry.get(),
                  #(#occupied_get,)*
              }
          }

          #[inline]
          fn get_mut(&mut self) -> &mut V {
              match self {
                  OccupiedEntry::Simple(entry) => entry.get_mut(),
                  #(#occupied_get_mut,)*
              }
          }

          #[inline]
          fn into_mut(self) -> &#lt mut V {
              match self {
                  OccupiedEntry::Simple(entry) => entry.into_mut(),
                  #(#occupied_into_mut,)*
              }
          }

          #[inline]
          fn insert(&mut self, value: V) -> V {
              match self {
                  OccupiedEntry::Simple(entry) => entry.insert(value),
                  #(#occupied_insert,)*
              }
          }

          #[inline]
          fn remove(self) -> V {
              match self {
                  OccupiedEntry::Simple(entry) => entry.remove(),
                  #(#occupied_remove,)*
              }
          }
      }

      #[inline]
      fn option_to_entry<V>(opt: &mut #option<V>, key: #ident) -> #entry_enum<'_, #map_storage<V>, #ident, V> {
          match #option_bucket_option::new(opt) {
              #option_bucket_option::Some(inner) => #entry_enum::Occupied(OccupiedEntry::Simple(SimpleOccupiedEntry { key, inner })),
              #option_bucket_option::None(inner) => #entry_enum::Vacant(VacantEntry::Simple(SimpleVacantEntry { key, inner })),
          }
      }"
    items := /- 2077-2087 -/ quote! "
        type Occupied<#lt> = OccupiedEntry<#lt, V> where V: #lt;
        type Vacant<#lt> = VacantEntry<#lt, V> where V: #lt;

        #[inline]
        fn entry(&mut self, key: #ident) -> #entry_enum<'_, Self, #ident, V> {
            match key {
                #(#init,)*
            }
        }" }

/-! ## Storages -/

/-- `impl_map_storage`, 142-426: the items of `impl MapStorage` after those for iterators and entries. -/
def mapFns (cx : Cx) (fields : Fields) : Toks :=
  let names := fields.names
  let patterns := fields.patterns
  let inits := fields.fields.map fun ⟨_, _, _, kind⟩ =>
    match kind with
    | some ⟨_, _, as_map_storage, _, _⟩ => /- 210 -/ quote! "#as_map_storage::empty()"
    | none => /- 211 -/ quote! "#option::None"
  let insert := fields.fields.map fun ⟨_, name, _, kind⟩ =>
    match kind with
    | some ⟨_, _, as_map_storage, _, _⟩ => /- 231 -/ quote! "#as_map_storage::insert(&mut self.#name, v, value)"
    | none => /- 233 -/ quote! "#option::replace(&mut self.#name, value)"
  let len := fields.fields.map fun ⟨_, name, _, kind⟩ =>
    match kind with
    | some ⟨_, _, as_map_storage, _, _⟩ => /- 249 -/ quote! "#as_map_storage::len(&self.#name)"
    | none => /- 251 -/ quote! "usize::from(#option::is_some(&self.#name))"
  let is_empty := fields.fields.map fun ⟨_, name, _, kind⟩ =>
    match kind with
    | some ⟨_, _, as_map_storage, _, _⟩ => /- 265 -/ quote! "#as_map_storage::is_empty(&self.#name)"
    | none => /- 267 -/ quote! "#option::is_none(&self.#name)"
  let contains_key := fields.fields.map fun ⟨_, name, _, kind⟩ =>
    match kind with
    | some ⟨_, _, as_map_storage, _, _⟩ => /- 283 -/ quote! "#as_map_storage::contains_key(&self.#name, v)"
    | none => /- 285 -/ quote! "#option::is_some(&self.#name)"
  let get := fields.fields.map fun ⟨_, name, _, kind⟩ =>
    match kind with
    | some ⟨_, _, as_map_storage, _, _⟩ => /- 303 -/ quote! "#as_map_storage::get(&self.#name, v)"
    | none => /- 305 -/ quote! "#option::as_ref(&self.#name)"
  let get_mut := fields.fields.map fun ⟨_, name, _, kind⟩ =>
    match kind with
    | some ⟨_, _, as_map_storage, _, _⟩ => /- 323 -/ quote! "#as_map_storage::get_mut(&mut self.#name, v)"
    | none => /- 325 -/ quote! "#option::as_mut(&mut self.#name)"
  let remove := fields.fields.map fun ⟨_, name, _, kind⟩ =>
    match kind with
    | some ⟨_, _, as_map_storage, _, _⟩ => /- 341 -/ quote! "#as_map_storage::remove(&mut self.#name, v)"
    | none => /- 343 -/ quote! "#option::take(&mut self.#name)"
  let retain := fields.fields.map fun ⟨_, name, var, kind⟩ =>
    match kind with
    | some ⟨_, _, as_map_storage, _, _⟩ => /- 363-365 -/ quote! "#as_map_storage::retain(&mut self.#name, |k, v| func(#ident::#var(k), v));"
    | none => /- 366-372 -/ quote! "
        if let #option::Some(val) = #option::as_mut(&mut self.#name) {
            if !func(#ident::#var, val) {
                self.#name = None;
            }
        }"
  let clear := fields.fields.map fun ⟨_, name, _, kind⟩ =>
    match kind with
    | some ⟨_, _, as_map_storage, _, _⟩ => /- 389-391 -/ quote! "#as_map_storage::clear(&mut self.#name)"
    | none => /- 392-394 -/ quote! "self.#name = #option::None"
  (/- 216-223 -/ quote! "
      #[inline]
      fn empty() -> Self {
          Self {
              #(#names: #inits,)*
          }
      }") ++ (/- 236-243 -/ quote! "
      #[inline]
      fn insert(&mut self, key: #ident, value: V) -> #option<V> {
          match key {
              #(#patterns => #insert,)*
          }
      }") ++ (/- 254-259 -/ quote! "
      #[inline]
      fn len(&self) -> usize {
          0 #(+ #len)*
      }") ++ (/- 270-275 -/ quote! "
      #[inline]
      fn is_empty(&self) -> bool {
          true #(&& #is_empty)*
      }") ++ (/- 288-295 -/ quote! "
      #[inline]
      fn contains_key(&self, value: #ident) -> bool {
          match value {
              #(#patterns => #contains_key,)*
          }
      }") ++ (/- 308-315 -/ quote! "
      #[inline]
      fn get(&self, value: #ident) -> #option<&V> {
          match value {
              #(#patterns => #get,)*
          }
      }") ++ (/- 328-335 -/ quote! "
      #[inline]
      fn get_mut(&mut self, value: #ident) -> #option<&mut V> {
          match value {
              #(#patterns => #get_mut,)*
          }
      }") ++ (/- 348-355 -/ quote! "
      #[inline]
      fn remove(&mut self, value: #ident) -> #option<V> {
          match value {
              #(#patterns => #remove,)*
          }
      }") ++ (/- 376-384 -/ quote! "
      #[inline]
      fn retain<F>(&mut self, mut func: F)
      where
          F: FnMut(#ident, &mut V) -> bool
      {
          #(#retain;)*
      }") ++ (/- 397-402 -/ quote! "
      #[inline]
      fn clear(&mut self) {
          #(#clear;)*
      }")

/-- The `impl`s of 159-206. -/
def mapImpls (cx : Cx) (fields : Fields) (type_name : Toks) : Toks :=
  let names := fields.names
  let bounds := fields.complex.map (·.map_storage)
  (/- 166-181 -/ quote! "
      #[automatically_derived]
      impl<V> #partial_eq_t for #type_name<V> where V: #partial_eq_t {
          #[inline]
          fn eq(&self, other: &Self) -> bool {
              #(if #partial_eq_t::ne(&self.#names, &other.#names) {
                  return false;
              })*

              true
          }
      }

      #[automatically_derived]
      impl<V> #eq_t for #type_name<V> where V: #eq_t {}") ++ (/- 192-205 -/ quote! "
      #[automatically_derived]
      impl<V> #clone_t for #type_name<V> where V: #clone_t {
          #[inline]
          fn clone(&self) -> Self {
              Self {
                  #(#names: #clone_t::clone(&self.#names),)*
              }
          }
      }

      #[automatically_derived]
      impl<V> #copy_t for #type_name<V> where V: #copy_t, #(#bounds: #copy_t,)* {}")

/-- `impl_map_storage`, 142-426. -/
def impl_map_storage (cx : Cx) (fields : Fields) : Toks × Toks :=
  let type_name := mapName ""
  let outputs := [map_storage_iter cx "Iter" fields, map_storage_keys cx "Keys" fields, map_storage_values cx "Values" fields,
    map_storage_iter_mut cx "IterMut" fields, map_storage_values_mut cx "ValuesMut" fields, map_storage_into_iter cx "IntoIter" fields,
    map_storage_entry cx fields type_name]
  let impls := outputs.flatMap (·.impls) ++ mapImpls cx fields type_name
  let items := outputs.flatMap (·.items) ++ mapFns cx fields
  let field_decls := fields.fields.map fun ⟨_, name, _, kind⟩ =>
    match kind with
    | some ⟨_, map_storage, _, _, _⟩ => /- 406 -/ quote! "#name: #map_storage"
    | none => /- 407 -/ quote! "#name: #option<V>"
  (type_name, /- 412-423 -/ quote! "
      #vis struct #type_name<V> {
          #(#field_decls,)*
      }

      #[automatically_derived]
      impl<V> #map_storage_t<#ident, V> for #type_name<V> {
          #items
      }

      #impls")

/-- `impl_set_storage`, 429-667: the items of `impl SetStorage` after those for iterators. -/
def setFns (cx : Cx) (fields : Fields) : Toks :=
  let names := fields.names
  let patterns := fields.patterns
  let inits := fields.fields.map fun ⟨_, _, _, kind⟩ =>
    match kind with
    | some ⟨_, _, _, _, as_set_storage⟩ => /- 493 -/ quote! "#as_set_storage::empty()"
    | none => /- 494 -/ quote! "false"
  let insert := fields.fields.map fun ⟨_, name, _, kind⟩ =>
    match kind with
    | some ⟨_, _, _, _, as_set_storage⟩ => /- 514 -/ quote! "#as_set_storage::insert(&mut self.#name, v)"
    | none => /- 516 -/ quote! "!#mem::replace(&mut self.#name, true)"
  let len := fields.fields.map fun ⟨_, name, _, kind⟩ =>
    match kind with
    | some ⟨_, _, _, _, as_set_storage⟩ => /- 532 -/ quote! "#as_set_storage::len(&self.#name)"
    | none => /- 534 -/ quote! "usize::from(self.#name)"
  let is_empty := fields.fields.map fun ⟨_, name, _, kind⟩ =>
    match kind with
    | some ⟨_, _, _, _, as_set_storage⟩ => /- 548 -/ quote! "#as_set_storage::is_empty(&self.#name)"
    | none => /- 550 -/ quote! "!self.#name"
  let contains := fields.fields.map fun ⟨_, name, _, kind⟩ =>
    match kind with
    | some ⟨_, _, _, _, as_set_storage⟩ => /- 566 -/ quote! "#as_set_storage::contains(&self.#name, v)"
    | none => /- 568 -/ quote! "self.#name"
  let remove := fields.fields.map fun ⟨_, name, _, kind⟩ =>
    match kind with
    | some ⟨_, _, _, _, as_set_storage⟩ => /- 584 -/ quote! "#as_set_storage::remove(&mut self.#name, v)"
    | none => /- 586 -/ quote! "#mem::replace(&mut self.#name, false)"
  let retain := fields.fields.map fun ⟨_, name, var, kind⟩ =>
    match kind with
    | some ⟨_, _, _, _, as_set_storage⟩ => /- 606-608 -/ quote! "#as_set_storage::retain(&mut self.#name, |k| func(#ident::#var(k)));"
    | none => /- 609-613 -/ quote! "if self.#name { self.#name = func(#ident::#var); }"
  let clear := fields.fields.map fun ⟨_, name, _, kind⟩ =>
    match kind with
    | some ⟨_, _, _, _, as_set_storage⟩ => /- 630-632 -/ quote! "#as_set_storage::clear(&mut self.#name)"
    | none => /- 633-635 -/ quote! "self.#name = false"
  (/- 499-506 -/ quote! "
      #[inline]
      fn empty() -> Self {
          Self {
              #(#names: #inits,)*
          }
      }") ++ (/- 519-526 -/ quote! "
      #[inline]
      fn insert(&mut self, key: #ident) -> bool {
          match key {
              #(#patterns => #insert,)*
          }
      }") ++ (/- 537-542 -/ quote! "
      #[inline]
      fn len(&self) -> usize {
          0 #(+ #len)*
      }") ++ (/- 553-558 -/ quote! "
      #[inline]
      fn is_empty(&self) -> bool {
          true #(&& #is_empty)*
      }") ++ (/- 571-578 -/ quote! "
      #[inline]
      fn contains(&self, value: #ident) -> bool {
          match value {
              #(#patterns => #contains,)*
          }
      }") ++ (/- 591-598 -/ quote! "
      #[inline]
      fn remove(&mut self, value: #ident) -> bool {
          match value {
              #(#patterns => #remove,)*
          }
      }") ++ (/- 617-625 -/ quote! "
      #[inline]
      fn retain<F>(&mut self, mut func: F)
      where
          F: FnMut(#ident) -> bool
      {
          #(#retain;)*
      }") ++ (/- 638-643 -/ quote! "
      #[inline]
      fn clear(&mut self) {
          #(#clear;)*
      }")

/-- The `impl`s of 443-489. -/
def setImpls (cx : Cx) (fields : Fields) (type_name : Toks) : Toks :=
  let names := fields.names
  let bounds := fields.complex.map (·.set_storage)
  (/- 448-463 -/ quote! "
      #[automatically_derived]
      impl #partial_eq_t for #type_name {
          #[inline]
          fn eq(&self, other: &Self) -> bool {
              #(if #partial_eq_t::ne(&self.#names, &other.#names) {
                  return false;
              })*

              true
          }
      }

      #[automatically_derived]
      impl #eq_t for #type_name  {}") ++ (/- 475-488 -/ quote! "
      #[automatically_derived]
      impl #clone_t for #type_name where #(for<'trivial_bounds> #bounds: #clone_t,)* {
          #[inline]
          fn clone(&self) -> Self {
              Self {
                  #(#names: #clone_t::clone(&self.#names),)*
              }
          }
      }

      #[automatically_derived]
      impl #copy_t for #type_name where #(for<'trivial_bounds> #bounds: #copy_t,)* {}")

/-- `impl_set_storage`, 429-667. -/
def impl_set_storage (cx : Cx) (fields : Fields) : Toks × Toks :=
  let type_name := setName ""
  let outputs := [set_storage_iter cx "Iter" fields, set_storage_into_iter cx "IntoIter" fields]
  let impls := outputs.flatMap (·.impls) ++ setImpls cx fields type_name
  let items := outputs.flatMap (·.items) ++ setFns cx fields
  let field_decls := fields.fields.map fun ⟨_, name, _, kind⟩ =>
    match kind with
    | some ⟨_, _, _, set_storage, _⟩ => /- 647 -/ quote! "#name: #set_storage"
    | none => /- 648 -/ quote! "#name: bool"
  (type_name, /- 653-664 -/ quote! "
      #vis struct #type_name {
          #(#field_decls,)*
      }

      #[automatically_derived]
      impl #set_storage_t<#ident> for #type_name {
          #items
      }

      #impls")

/-- `implement` after the loop, 75-90. -/
def emit (cx : Cx) (fields : Fields) : Toks :=
  let (map_storage_type_name, map_storage_impl) := impl_map_storage cx fields
  let (set_storage_type_name, set_storage_impl) := impl_set_storage cx fields
  /- 78-89 -/ quote! "
      const _: () = {
          #map_storage_impl
          #set_storage_impl

          #[automatically_derived]
          impl #key_t for #ident {
              type MapStorage<V> = #map_storage_type_name<V>;
              type SetStorage = #set_storage_type_name;
          }
      };"

/-- `implement`, 12-90, for accepted variants. -/
def implement (cx : Cx) (variants : List Variant) : Toks := emit cx (fieldsOf cx variants)

end FixedMap.Emit
