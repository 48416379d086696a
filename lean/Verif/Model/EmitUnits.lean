import Verif.Model.Emit

/-!
# The tokens emitted by unit_variants.rs

As in `Model/Emit.lean`. Line numbers refer to unit_variants.rs.
-/

set_option autoImplicit false
set_option linter.unusedVariables false

namespace FixedMap.Emit.Units

/-- `impl_entry`, 47-125. -/
def impl_entry (cx : Cx) (map_storage : Toks) : Toks :=
  /- 60-124 -/ quote! "
      #vis struct VacantEntry<#lt, V> {
          key: #ident,
          inner: #option_bucket_none<#lt, V>,
      }

      #[automatically_derived]
      impl<#lt, V> #vacant_entry_t<#lt, #ident, V> for VacantEntry<#lt, V> {
          #[inline]
          fn key(&self) -> #ident {
              self.key
          }

          #[inline]
          fn insert(self, value: V) -> &#lt mut V {
              #option_bucket_none::insert(self.inner, value)
          }
      }

      #vis struct OccupiedEntry<#lt, V> {
          key: #ident,
          inner: #option_bucket_some<#lt, V>,
      }

      #[automatically_derived]
      impl<#lt, V> #occupied_entry_t<#lt, #ident, V> for OccupiedEntry<#lt, V> {
          #[inline]
          fn key(&self) -> #ident {
              self.key
          }

          #[inline]
          fn get(&self) -> &V {
              #option_bucket_some::as_ref(&self.inner)
          }

          #[inline]
          fn get_mut(&mut self) -> &mut V {
              #option_bucket_some::as_mut(&mut self.inner)
          }

          #[inline]
          fn into_mut(self) -> &#lt mut V {
              #option_bucket_some::into_mut(self.inner)
          }

          #[inline]
          fn insert(&mut self, value: V) -> V {
              #option_bucket_some::replace(&mut self.inner, value)
          }

          #[inline]
          fn remove(self) -> V {
              #option_bucket_some::take(self.inner)
          }
      }

      #[inline]
      fn option_to_entry<V>(opt: &mut #option<V>, key: #ident) -> #entry_enum<'_, #map_storage<V>, #ident, V> {
          match #option_bucket_option::new(opt) {
              #option_bucket_option::Some(inner) => #entry_enum::Occupied(OccupiedEntry { key, inner }),
              #option_bucket_option::None(inner) => #entry_enum::Vacant(VacantEntry { key, inner }),
          }
      }"

/-- `impl_map`, 127-376. -/
def impl_map (cx : Cx) (en : List String) (map_storage : Toks) (names : List Toks) : Toks :=
  let variants : List Toks := en.map fun v => [v]
  let init : List Toks := en.map fun _ => /- 164 -/ quote! "#option::None"
  let count := usizeLit en.length
  /- 168-375 -/ quote! "
      #[repr(transparent)]
      #vis struct #map_storage<V> {
          data: [#option<V>; #count],
      }

      #[automatically_derived]
      impl<V> #clone_t for #map_storage<V> where V: #clone_t {
          #[inline]
          fn clone(&self) -> Self {
              Self {
                  data: #clone_t::clone(&self.data),
              }
          }
      }

      #[automatically_derived]
      impl<V> #copy_t for #map_storage<V> where V: #copy_t {
      }

      #[automatically_derived]
      impl<V> #partial_eq_t for #map_storage<V> where V: #partial_eq_t {
          #[inline]
          fn eq(&self, other: &Self) -> bool {
              #partial_eq_t::eq(&self.data, &other.data)
          }
      }

      #[automatically_derived]
      impl<V> #eq_t for #map_storage<V> where V: #eq_t {}

      #[automatically_derived]
      impl<V> #hash_t for #map_storage<V> where V: #hash_t {
          #[inline]
          fn hash<H>(&self, state: &mut H)
          where
              H: #hasher_t,
          {
              #hash_t::hash(&self.data, state);
          }
      }

      #[automatically_derived]
      impl<V> #partial_ord_t for #map_storage<V> where V: #partial_ord_t {
          #[inline]
          fn partial_cmp(&self, other: &Self) -> Option<#ordering> {
              #iterator_partial_cmp(&self.data, &other.data)
          }
      }

      #[automatically_derived]
      impl<V> #ord_t for #map_storage<V> where V: #ord_t {
          #[inline]
          fn cmp(&self, other: &Self) -> #ordering {
              #iterator_cmp(&self.data, &other.data)
          }
      }

      #[automatically_derived]
      impl<V> #map_storage_t<#ident, V> for #map_storage<V> {
          type Iter<#lt> = #iterator_flat_map<
              #array_into_iter<(#ident, &#lt #option<V>), #count>,
              #option<(#ident, &#lt V)>,
              fn((#ident, &#lt #option<V>)) -> #option<(#ident, &#lt V)>
          > where V: #lt;
          type Keys<#lt> = #iterator_flatten<#array_into_iter<#option<#ident>, #count>> where V: #lt;
          type Values<#lt> = #iterator_flatten<#slice_iter<#lt, #option<V>>> where V: #lt;
          type IterMut<#lt> = #iterator_flat_map<
              #array_into_iter<(#ident, &#lt mut #option<V>), #count>,
              #option<(#ident, &#lt mut V)>,
              fn((#ident, &#lt mut #option<V>)) -> #option<(#ident, &#lt mut V)>
          > where V: #lt;
          type ValuesMut<#lt> = #iterator_flatten<#slice_iter_mut<#lt, #option<V>>> where V: #lt;
          type IntoIter = #iterator_flat_map<
              #array_into_iter<(#ident, #option<V>), #count>,
              #option<(#ident, V)>,
              fn((#ident, #option<V>)) -> #option<(#ident, V)>
          >;
          type Occupied<#lt> = OccupiedEntry<#lt, V> where V: #lt;
          type Vacant<#lt> = VacantEntry<#lt, V> where V: #lt;

          #[inline]
          fn empty() -> Self {
              Self {
                  data: [#(#init),*],
              }
          }

          #[inline]
          fn len(&self) -> usize {
              let [#(#names),*] = &self.data;
              0 #(+ usize::from(#option::is_some(#names)))*
          }

          #[inline]
          fn is_empty(&self) -> bool {
              let [#(#names),*] = &self.data;
              true #(&& #option::is_none(#names))*
          }

          #[inline]
          fn insert(&mut self, key: #ident, value: V) -> #option<V> {
              let [#(#names),*] = &mut self.data;

              match key {
                  #(#ident::#variants => #option::replace(#names, value),)*
              }
          }

          #[inline]
          fn contains_key(&self, value: #ident) -> bool {
              let [#(#names),*] = &self.data;

              match value {
                  #(#ident::#variants => #option::is_some(#names),)*
              }
          }

          #[inline]
          fn get(&self, value: #ident) -> #option<&V> {
              let [#(#names),*] = &self.data;

              match value {
                  #(#ident::#variants => #option::as_ref(#names),)*
              }
          }

          #[inline]
          fn get_mut(&mut self, value: #ident) -> #option<&mut V> {
              let [#(#names),*] = &mut self.data;

              match value {
                  #(#ident::#variants => #option::as_mut(#names),)*
              }
          }

          #[inline]
          fn remove(&mut self, value: #ident) -> #option<V> {
              let [#(#names),*] = &mut self.data;

              match value {
                  #(#ident::#variants => #mem::take(#names),)*
              }
          }

          #[inline]
          fn retain<F>(&mut self, mut func: F)
          where
              F: FnMut(#ident, &mut V) -> bool
          {
              let [#(#names),*] = &mut self.data;

              #(if let #option::Some(val) = #option::as_mut(#names) {
                  if !func(#ident::#variants, val) {
                      *#names = None;
                  }
              })*
          }

          #[inline]
          fn clear(&mut self) {
              self.data = [#(#init),*];
          }

          #[inline]
          fn iter(&self) -> Self::Iter<'_> {
              let [#(#names),*] = &self.data;
              #iterator_t::flat_map(#into_iterator_t::into_iter([#((#ident::#variants, #names)),*]), |(k, v)| #option::Some((k, #option::as_ref(v)?)))
          }

          #[inline]
          fn keys(&self) -> Self::Keys<'_> {
              let [#(#names),*] = &self.data;
              #iterator_t::flatten(#into_iterator_t::into_iter([#(if #names.is_some() { Some(#ident::#variants) } else { None }),*]))
          }

          #[inline]
          fn values(&self) -> Self::Values<'_> {
              #iterator_t::flatten(#into_iterator_t::into_iter(&self.data))
          }

          #[inline]
          fn iter_mut(&mut self) -> Self::IterMut<'_> {
              let [#(#names),*] = &mut self.data;
              #iterator_t::flat_map(#into_iterator_t::into_iter([#((#ident::#variants, #names)),*]), |(k, v)| #option::Some((k, #option::as_mut(v)?)))
          }

          #[inline]
          fn values_mut(&mut self) -> Self::ValuesMut<'_> {
              #iterator_t::flatten(#into_iterator_t::into_iter(&mut self.data))
          }

          #[inline]
          fn into_iter(self) -> Self::IntoIter {
              let [#(#names),*] = self.data;
              #iterator_t::flat_map(#into_iterator_t::into_iter([#((#ident::#variants, #names)),*]), |(k, v)| #option::Some((k, v?)))
          }

          #[inline]
          fn entry(&mut self, key: #ident) -> #entry_enum<'_, Self, #ident, V> {
              let [#(#names),*] = &mut self.data;

              match key {
                  #(#ident::#variants => option_to_entry(#names, key),)*
              }
          }
      }"

/-- `determine_bits`, 533-548; `none`: an error. -/
def determine_bits (en : List String) : Option Toks :=
  let n := en.length
  if n ≤ 8 then some ["u8"] else if n ≤ 16 then some ["u16"] else if n ≤ 32 then some ["u32"] else if n ≤ 64 then some ["u64"]
  else if n ≤ 128 then some ["u128"] else none

/-- `1u128 << n`, 410; `none`: overflow. -/
def shiftOne (n : Nat) : Option Nat := if n < 128 then some (1 <<< n) else none

/-- `LitInt::new(&format!("{}", 1u128 << n), v.span())`, 406-411. -/
def numbersOf (en : List String) : Option (List Toks) := (List.range en.length).mapM fun n => (shiftOne n).map fun b => [Nat.repr b]

/-- `impl_bitset`, 379-531. -/
def impl_bitset (cx : Cx) (en : List String) (set_storage : Toks) : Option Toks :=
  (determine_bits en).bind fun ty =>
    let count := usizeLit en.length
    let variants : List Toks := en.map fun v => [v]
    (numbersOf en).map fun numbers => /- 413-530 -/ quote! "
        #[inline]
        const fn to_bits(value: #ident) -> #ty {
            match value {
                #(#ident::#variants => #numbers,)*
            }
        }

        #[repr(transparent)]
        #[derive(#clone_t, #copy_t, #partial_eq_t, #eq_t, #hash_t)]
        #vis struct #set_storage {
            data: #ty,
        }

        #[automatically_derived]
        impl #partial_ord_t for #set_storage {
            #[inline]
            fn partial_cmp(&self, other: &Self) -> Option<#ordering> {
                #partial_ord_t::partial_cmp(&self.data, &other.data)
            }
        }

        #[automatically_derived]
        impl #ord_t for #set_storage {
            #[inline]
            fn cmp(&self, other: &Self) -> #ordering {
                #ord_t::cmp(&self.data, &other.data)
            }
        }

        #[automatically_derived]
        impl #set_storage_t<#ident> for #set_storage {
            type Iter<#lt> = #iterator_flatten<#array_into_iter<#option<#ident>, #count>>;
            type IntoIter = #iterator_flatten<#array_into_iter<#option<#ident>, #count>>;

            #[inline]
            fn empty() -> Self {
                Self {
                    data: 0,
                }
            }

            #[inline]
            fn len(&self) -> usize {
                <#ty>::count_ones(self.data) as usize
            }

            #[inline]
            fn is_empty(&self) -> bool {
                self.data == 0
            }

            #[inline]
            fn insert(&mut self, value: #ident) -> bool {
                let mask = to_bits(value);
                let update = self.data | mask;
                #mem::replace(&mut self.data, update) & mask == 0
            }

            #[inline]
            fn contains(&self, value: #ident) -> bool {
                self.data & to_bits(value) != 0
            }

            #[inline]
            fn remove(&mut self, value: #ident) -> bool {
                let mask = to_bits(value);
                let update = self.data & !mask;
                #mem::replace(&mut self.data, update) & mask != 0
            }

            #[inline]
            fn retain<F>(&mut self, mut f: F)
            where
                F: FnMut(#ident) -> bool
            {
                let mut update = 0;

                #(if self.data & #numbers != 0 {
                    if f(#ident::#variants) {
                        update |= #numbers;
                    }
                })*

                self.data = update;
            }

            #[inline]
            fn clear(&mut self) {
                self.data = 0;
            }

            #[inline]
            fn iter(&self) -> Self::Iter<'_> {
                #iterator_t::flatten(#into_iterator_t::into_iter([#(if self.data & #numbers != 0 { Some(#ident::#variants) } else { None }),*]))
            }

            #[inline]
            fn into_iter(self) -> Self::IntoIter {
                #iterator_t::flatten(#into_iterator_t::into_iter([#(if self.data & #numbers != 0 { Some(#ident::#variants) } else { None }),*]))
            }
        }

        #[automatically_derived]
        impl #raw_storage_t for #set_storage {
            type Value = #ty;

            #[inline]
            fn as_raw(&self) -> #ty {
                self.data
            }

            #[inline]
            fn from_raw(data: #ty) -> #set_storage {
                #set_storage { data }
            }
        }"

/-- `impl_set`, 551-691. -/
def impl_set (cx : Cx) (en : List String) (set_storage : Toks) (names : List Toks) : Toks :=
  let count := usizeLit en.length
  let variants : List Toks := en.map fun v => [v]
  let init : List Toks := en.map fun _ => /- 584 -/ quote! "false"
  /- 587-690 -/ quote! "
      #[repr(transparent)]
      #[derive(#clone_t, #copy_t, #partial_eq_t, #eq_t, #hash_t)]
      #vis struct #set_storage {
          data: [bool; #count],
      }

      #[automatically_derived]
      impl #partial_ord_t for #set_storage {
          #[inline]
          fn partial_cmp(&self, other: &Self) -> Option<#ordering> {
              #iterator_partial_cmp_bool(&self.data, &other.data)
          }
      }

      #[automatically_derived]
      impl #ord_t for #set_storage {
          #[inline]
          fn cmp(&self, other: &Self) -> #ordering {
              #iterator_cmp_bool(&self.data, &other.data)
          }
      }

      #[automatically_derived]
      impl #set_storage_t<#ident> for #set_storage {
          type Iter<#lt> = #iterator_flatten<#array_into_iter<#option<#ident>, #count>>;
          type IntoIter = #iterator_flatten<#array_into_iter<#option<#ident>, #count>>;

          #[inline]
          fn empty() -> Self {
              Self {
                  data: [#(#init),*],
              }
          }

          #[inline]
          fn len(&self) -> usize {
              let [#(#names),*] = &self.data;
              0 #(+ usize::from(*#names))*
          }

          #[inline]
          fn is_empty(&self) -> bool {
              let [#(#names),*] = &self.data;
              true #(&& !*#names)*
          }

          #[inline]
          fn insert(&mut self, value: #ident) -> bool {
              let [#(#names),*] = &mut self.data;

              match value {
                  #(#ident::#variants => !#mem::replace(#names, true),)*
              }
          }

          #[inline]
          fn contains(&self, value: #ident) -> bool {
              let [#(#names),*] = &self.data;

              match value {
                  #(#ident::#variants => *#names,)*
              }
          }

          #[inline]
          fn remove(&mut self, value: #ident) -> bool {
              let [#(#names),*] = &mut self.data;

              match value {
                  #(#ident::#variants => #mem::replace(#names, false),)*
              }
          }

          #[inline]
          fn retain<F>(&mut self, mut f: F)
          where
              F: FnMut(#ident) -> bool
          {
              let [#(#names),*] = &mut self.data;

              #(if *#names {
                  *#names = f(#ident::#variants);
              })*
          }

          #[inline]
          fn clear(&mut self) {
              self.data = [#(#init),*];
          }

          #[inline]
          fn iter(&self) -> Self::Iter<'_> {
              let [#(#names),*] = &self.data;
              #iterator_t::flatten(#into_iterator_t::into_iter([#(if *#names { Some(#ident::#variants) } else { None }),*]))
          }

          #[inline]
          fn into_iter(self) -> Self::IntoIter {
              let [#(#names),*] = &self.data;
              #iterator_t::flatten(#into_iterator_t::into_iter([#(if *#names { Some(#ident::#variants) } else { None }),*]))
          }
      }"

/-- `implement`, 9-45. -/
def implement (cx : Cx) (bitset : Bool) (en : List String) : Option Toks :=
  let map_storage : Toks := ["__MapStorage"]
  let set_storage : Toks := ["__SetStorage"]
  let names := (List.range en.length).map fieldName
  let entry_impl := impl_entry cx map_storage
  let map_storage_impl := impl_map cx en map_storage names
  (if bitset then impl_bitset cx en set_storage else some (impl_set cx en set_storage names)).map fun set_storage_impl =>
    /- 32-44 -/ quote! "
        const _: () = {
            #entry_impl
            #map_storage_impl
            #set_storage_impl

            #[automatically_derived]
            impl #key_t for #ident {
                type MapStorage<V> = #map_storage<V>;
                type SetStorage = #set_storage;
            }
        };"

end FixedMap.Emit.Units
