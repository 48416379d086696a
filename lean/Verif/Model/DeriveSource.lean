import Verif.Model.DeriveSyntax

/-!
# The text of the derive

The files as they are, without comments and empty lines, cut into pieces between items.
-/

set_option autoImplicit false
set_option maxRecDepth 4000

namespace FixedMap.DeriveText.Text

/-- The definition of the paths in `fixed-map-derive/src/context.rs`, 51-87. -/
def paths : Emit.Toks := derive_rust! r#"
toks! {
    pub(crate) struct Toks<'a> {
        array_into_iter = [core::array::IntoIter],
        bool_type = [core::primitive::bool],
        clone_t = [core::clone::Clone],
        copy_t = [core::marker::Copy],
        double_ended_iterator_t = [core::iter::DoubleEndedIterator],
        entry_enum = [crate::map::Entry],
        eq_t = [core::cmp::Eq],
        hash_t = [core::hash::Hash],
        hasher_t = [core::hash::Hasher],
        into_iterator_t = [core::iter::IntoIterator],
        iterator_cmp = [crate::macro_support::__storage_iterator_cmp],
        iterator_cmp_bool = [crate::macro_support::__storage_iterator_cmp_bool],
        iterator_flat_map = [core::iter::FlatMap],
        iterator_flatten = [core::iter::Flatten],
        iterator_partial_cmp = [crate::macro_support::__storage_iterator_partial_cmp],
        iterator_partial_cmp_bool = [crate::macro_support::__storage_iterator_partial_cmp_bool],
        iterator_t = [core::iter::Iterator],
        key_t = [crate::Key],
        mem = [core::mem],
        occupied_entry_t = [crate::map::OccupiedEntry],
        option = [core::option::Option],
        option_bucket_none = [crate::option_bucket::NoneBucket],
        option_bucket_option = [crate::option_bucket::OptionBucket],
        option_bucket_some = [crate::option_bucket::SomeBucket],
        ord_t = [core::cmp::Ord],
        ordering = [core::cmp::Ordering],
        partial_eq_t = [core::cmp::PartialEq],
        partial_ord_t = [core::cmp::PartialOrd],
        slice_iter = [core::slice::Iter],
        slice_iter_mut = [core::slice::IterMut],
        map_storage_t = [crate::map::MapStorage],
        set_storage_t = [crate::set::SetStorage],
        raw_storage_t = [crate::raw::RawStorage],
        vacant_entry_t = [crate::map::VacantEntry],
    }
"#

/-- `fixed-map-derive/src/any_variants.rs`, piece 1 of 17. -/
def anyVariants1 : Emit.Toks := derive_rust! r#"
use proc_macro2::{Span, TokenStream};
use quote::{format_ident, quote, quote_spanned, ToTokens};
use syn::punctuated::Punctuated;
use syn::spanned::Spanned;
const MAP_STORAGE: &str = "__MapStorage";
const SET_STORAGE: &str = "__SetStorage";
use crate::context::Ctxt;
"#

/-- `fixed-map-derive/src/any_variants.rs`, piece 2 of 17. -/
def anyVariants2 : Emit.Toks := derive_rust! r#"
pub(crate) fn implement(cx: &Ctxt<'_>, en: &syn::DataEnum) -> Result<TokenStream, ()> {
    let ident = &cx.ast.ident;
    let key_t = cx.toks.key_t();
    let map_storage_t = cx.toks.map_storage_t();
    let set_storage_t = cx.toks.set_storage_t();
    let mut fields = Fields::default();
    for (index, variant) in en.variants.iter().enumerate() {
        let var = &variant.ident;
        let name = format_ident!("_{}", index);
        let kind = match &variant.fields {
            syn::Fields::Unit => {
                fields
                    .patterns
                    .push(build_tuple_struct_pat(ident, var, None));
                Kind::Simple
            }
            syn::Fields::Unnamed(unnamed) => {
                if unnamed.unnamed.len() > 1 {
                    cx.span_error(
                        variant.fields.span(),
                        "unnamed variants must have a single field",
                    );
                    continue;
                }
                let element = unnamed.unnamed.first().expect("Expected one element");
                let map_storage = quote!(<#element as #key_t>::MapStorage::<V>);
                let as_map_storage = quote!(<#map_storage as #map_storage_t<#element, V>>);
                let set_storage = quote!(<#element as #key_t>::SetStorage);
                let as_set_storage = quote!(<#set_storage as #set_storage_t<#element>>);
                let pat =
                    build_tuple_struct_pat(ident, var, Some(syn::Ident::new("v", unnamed.span())));
                fields.patterns.push(pat);
                Kind::Complex(Complex {
                    element,
                    map_storage,
                    as_map_storage,
                    set_storage,
                    as_set_storage,
                })
            }
            syn::Fields::Named(_) => {
                cx.span_error(variant.fields.span(), "named fields are not supported");
                continue;
            }
        };
        fields.fields.push(Field {
            span: variant.span(),
            index,
            name,
            var,
            kind,
        });
    }
    let (map_storage_type_name, map_storage_impl) = impl_map_storage(cx, &fields)?;
    let (set_storage_type_name, set_storage_impl) = impl_set_storage(cx, &fields)?;
    Ok(quote! {
        const _: () = {
            #map_storage_impl
            #set_storage_impl
            #[automatically_derived]
            impl #key_t for #ident {
                type MapStorage<V> = #map_storage_type_name<V>;
                type SetStorage = #set_storage_type_name;
            }
        };
    })
}
"#

/-- `fixed-map-derive/src/any_variants.rs`, piece 3 of 17. -/
def anyVariants3 : Emit.Toks := derive_rust! r#"
fn build_tuple_struct_pat(
    ident: &syn::Ident,
    var: &syn::Ident,
    arg: Option<syn::Ident>,
) -> syn::Pat {
    let mut segments = Punctuated::default();
    segments.push(syn::PathSegment {
        ident: ident.clone(),
        arguments: syn::PathArguments::None,
    });
    segments.push(syn::PathSegment {
        ident: var.clone(),
        arguments: syn::PathArguments::None,
    });
    let path = syn::Path {
        leading_colon: None,
        segments,
    };
    if let Some(arg) = arg {
        let mut elems = Punctuated::default();
        elems.push(syn::Pat::Ident(syn::PatIdent {
            attrs: Vec::new(),
            by_ref: None,
            mutability: None,
            ident: arg,
            subpat: None,
        }));
        syn::Pat::TupleStruct(syn::PatTupleStruct {
            attrs: Vec::default(),
            qself: None,
            path,
            paren_token: syn::token::Paren::default(),
            elems,
        })
    } else {
        syn::Pat::Path(syn::PatPath {
            attrs: Vec::default(),
            qself: None,
            path,
        })
    }
}
"#

/-- `fixed-map-derive/src/any_variants.rs`, piece 4 of 17. -/
def anyVariants4 : Emit.Toks := derive_rust! r#"
fn impl_map_storage(cx: &Ctxt<'_>, fields: &Fields<'_>) -> Result<(syn::Ident, TokenStream), ()> {
    let vis = &cx.ast.vis;
    let ident = &cx.ast.ident;
    let option = cx.toks.option();
    let map_storage_t = cx.toks.map_storage_t();
    let type_name = format_ident!("{MAP_STORAGE}");
    let mut output = Output::default();
    map_storage_iter(cx, "Iter", fields, &mut output)?;
    map_storage_keys(cx, "Keys", fields, &mut output)?;
    map_storage_values(cx, "Values", fields, &mut output)?;
    map_storage_iter_mut(cx, "IterMut", fields, &mut output)?;
    map_storage_values_mut(cx, "ValuesMut", fields, &mut output)?;
    map_storage_into_iter(cx, "IntoIter", fields, &mut output)?;
    map_storage_entry(cx, fields, &type_name, &mut output)?;
    {
        let partial_eq_t = cx.toks.partial_eq_t();
        let eq_t = cx.toks.eq_t();
        let names = fields.names();
        output.impls.extend(quote! {
            #[automatically_derived]
            impl<V> #partial_eq_t for #type_name<V> where V: #partial_eq_t {
                #[inline]
                fn eq(&self, other: &Self) -> bool {
                    #(if #partial_eq_t::ne(&self.#names, &other.#names) {
                        return false;
                    })*
                    true
                }
            }
            #[automatically_derived]
            impl<V> #eq_t for #type_name<V> where V: #eq_t {}
        });
    }
    {
        let clone_t = cx.toks.clone_t();
        let copy_t = cx.toks.copy_t();
        let bounds = fields
            .complex()
            .map(|Complex { map_storage, .. }| map_storage);
        let names = fields.names();
        output.impls.extend(quote! {
            #[automatically_derived]
            impl<V> #clone_t for #type_name<V> where V: #clone_t {
                #[inline]
                fn clone(&self) -> Self {
                    Self {
                        #(#names: #clone_t::clone(&self.#names),)*
                    }
                }
            }
            #[automatically_derived]
            impl<V> #copy_t for #type_name<V> where V: #copy_t, #(#bounds: #copy_t,)* {}
        });
    }
    {
        let inits = fields.iter().map(|f| match &f.kind {
            Kind::Complex(Complex { as_map_storage, .. }) => quote!(#as_map_storage::empty()),
            Kind::Simple => quote!(#option::None),
        });
        let names = fields.names();
        output.items.extend(quote! {
            #[inline]
            fn empty() -> Self {
                Self {
                    #(#names: #inits,)*
                }
            }
        });
    }
    {
        let patterns = &fields.patterns;
        let insert = fields.iter().map(|Field { name, kind, .. }| match kind {
            Kind::Complex(Complex { as_map_storage, .. }) => {
                quote!(#as_map_storage::insert(&mut self.#name, v, value))
            }
            Kind::Simple => quote!(#option::replace(&mut self.#name, value)),
        });
        output.items.extend(quote! {
            #[inline]
            fn insert(&mut self, key: #ident, value: V) -> #option<V> {
                match key {
                    #(#patterns => #insert,)*
                }
            }
        });
    }
    {
        let len = fields.iter().map(|Field { name, kind, .. }| match kind {
            Kind::Complex(Complex { as_map_storage, .. }) => {
                quote!(#as_map_storage::len(&self.#name))
            }
            Kind::Simple => quote!(usize::from(#option::is_some(&self.#name))),
        });
        output.items.extend(quote! {
            #[inline]
            fn len(&self) -> usize {
                0 #(+ #len)*
            }
        });
    }
    {
        let is_empty = fields.iter().map(|Field { name, kind, .. }| match kind {
            Kind::Complex(Complex { as_map_storage, .. }) => {
                quote!(#as_map_storage::is_empty(&self.#name))
            }
            Kind::Simple => quote!(#option::is_none(&self.#name)),
        });
        output.items.extend(quote! {
            #[inline]
            fn is_empty(&self) -> bool {
                true #(&& #is_empty)*
            }
        });
    }
    {
        let patterns = &fields.patterns;
        let contains_key = fields.iter().map(|Field { name, kind, .. }| match kind {
            Kind::Complex(Complex { as_map_storage, .. }) => {
                quote!(#as_map_storage::contains_key(&self.#name, v))
            }
            Kind::Simple => quote!(#option::is_some(&self.#name)),
        });
        output.items.extend(quote! {
            #[inline]
            fn contains_key(&self, value: #ident) -> bool {
                match value {
                    #(#patterns => #contains_key,)*
                }
            }
        });
    }
    {
        let patterns = &fields.patterns;
        let get = fields.iter().map(|Field { name, kind, .. }| match kind {
            Kind::Complex(Complex { as_map_storage, .. }) => {
                quote!(#as_map_storage::get(&self.#name, v))
            }
            Kind::Simple => quote!(#option::as_ref(&self.#name)),
        });
        output.items.extend(quote! {
            #[inline]
            fn get(&self, value: #ident) -> #option<&V> {
                match value {
                    #(#patterns => #get,)*
                }
            }
        });
    }
    {
        let patterns = &fields.patterns;
        let get_mut = fields.iter().map(|Field { name, kind, .. }| match kind {
            Kind::Complex(Complex { as_map_storage, .. }) => {
                quote!(#as_map_storage::get_mut(&mut self.#name, v))
            }
            Kind::Simple => quote!(#option::as_mut(&mut self.#name)),
        });
        output.items.extend(quote! {
            #[inline]
            fn get_mut(&mut self, value: #ident) -> #option<&mut V> {
                match value {
                    #(#patterns => #get_mut,)*
                }
            }
        });
    }
    {
        let remove = fields.iter().map(|Field { name, kind, .. }| match kind {
            Kind::Complex(Complex { as_map_storage, .. }) => {
                quote!(#as_map_storage::remove(&mut self.#name, v))
            }
            Kind::Simple => quote!(#option::take(&mut self.#name)),
        });
        let patterns = &fields.patterns;
        output.items.extend(quote! {
            #[inline]
            fn remove(&mut self, value: #ident) -> #option<V> {
                match value {
                    #(#patterns => #remove,)*
                }
            }
        });
    }
    {
        let retain = fields.iter().map(
            |Field {
                 var, name, kind, ..
             }| match kind {
                Kind::Complex(Complex { as_map_storage, .. }) => quote! {
                    #as_map_storage::retain(&mut self.#name, |k, v| func(#ident::#var(k), v));
                },
                Kind::Simple => quote! {
                    if let #option::Some(val) = #option::as_mut(&mut self.#name) {
                        if !func(#ident::#var, val) {
                            self.#name = None;
                        }
                    }
                },
            },
        );
        output.items.extend(quote! {
            #[inline]
            fn retain<F>(&mut self, mut func: F)
            where
                F: FnMut(#ident, &mut V) -> bool
            {
                #(#retain;)*
            }
        });
    }
    {
        let clear = fields.iter().map(|Field { name, kind, .. }| match kind {
            Kind::Complex(Complex { as_map_storage, .. }) => quote! {
                #as_map_storage::clear(&mut self.#name)
            },
            Kind::Simple => quote! {
                self.#name = #option::None
            },
        });
        output.items.extend(quote! {
            #[inline]
            fn clear(&mut self) {
                #(#clear;)*
            }
        });
    }
    let field_decls = fields.iter().map(|Field { name, kind, .. }| match kind {
        Kind::Complex(Complex { map_storage, .. }) => quote!(#name: #map_storage),
        Kind::Simple => quote!(#name: #option<V>),
    });
    let Output { impls, items } = output;
    let map_storage_impl = quote! {
        #vis struct #type_name<V> {
            #(#field_decls,)*
        }
        #[automatically_derived]
        impl<V> #map_storage_t<#ident, V> for #type_name<V> {
            #items
        }
        #impls
    };
    Ok((type_name, map_storage_impl))
}
"#

/-- `fixed-map-derive/src/any_variants.rs`, piece 5 of 17. -/
def anyVariants5 : Emit.Toks := derive_rust! r#"
fn impl_set_storage(cx: &Ctxt<'_>, fields: &Fields<'_>) -> Result<(syn::Ident, TokenStream), ()> {
    let vis = &cx.ast.vis;
    let ident = &cx.ast.ident;
    let mem = cx.toks.mem();
    let set_storage_t = cx.toks.set_storage_t();
    let type_name = format_ident!("{SET_STORAGE}");
    let mut output = Output::default();
    set_storage_iter(cx, "Iter", fields, &mut output)?;
    set_storage_into_iter(cx, "IntoIter", fields, &mut output)?;
    {
        let partial_eq_t = cx.toks.partial_eq_t();
        let eq_t = cx.toks.eq_t();
        let names = fields.names();
        output.impls.extend(quote! {
            #[automatically_derived]
            impl #partial_eq_t for #type_name {
                #[inline]
                fn eq(&self, other: &Self) -> bool {
                    #(if #partial_eq_t::ne(&self.#names, &other.#names) {
                        return false;
                    })*
                    true
                }
            }
            #[automatically_derived]
            impl #eq_t for #type_name  {}
        });
    }
    {
        let clone_t = cx.toks.clone_t();
        let copy_t = cx.toks.copy_t();
        let bounds = fields
            .complex()
            .map(|Complex { set_storage, .. }| set_storage)
            .collect::<Vec<_>>();
        let names = fields.names();
        output.impls.extend(quote! {
            #[automatically_derived]
            impl #clone_t for #type_name where #(for<'trivial_bounds> #bounds: #clone_t,)* {
                #[inline]
                fn clone(&self) -> Self {
                    Self {
                        #(#names: #clone_t::clone(&self.#names),)*
                    }
                }
            }
            #[automatically_derived]
            impl #copy_t for #type_name where #(for<'trivial_bounds> #bounds: #copy_t,)* {}
        });
    }
    {
        let inits = fields.iter().map(|f| match &f.kind {
            Kind::Complex(Complex { as_set_storage, .. }) => quote!(#as_set_storage::empty()),
            Kind::Simple => quote!(false),
        });
        let names = fields.names();
        output.items.extend(quote! {
            #[inline]
            fn empty() -> Self {
                Self {
                    #(#names: #inits,)*
                }
            }
        });
    }
    {
        let patterns = &fields.patterns;
        let insert = fields.iter().map(|Field { name, kind, .. }| match kind {
            Kind::Complex(Complex { as_set_storage, .. }) => {
                quote!(#as_set_storage::insert(&mut self.#name, v))
            }
            Kind::Simple => quote!(!#mem::replace(&mut self.#name, true)),
        });
        output.items.extend(quote! {
            #[inline]
            fn insert(&mut self, key: #ident) -> bool {
                match key {
                    #(#patterns => #insert,)*
                }
            }
        });
    }
    {
        let len = fields.iter().map(|Field { name, kind, .. }| match kind {
            Kind::Complex(Complex { as_set_storage, .. }) => {
                quote!(#as_set_storage::len(&self.#name))
            }
            Kind::Simple => quote!(usize::from(self.#name)),
        });
        output.items.extend(quote! {
            #[inline]
            fn len(&self) -> usize {
                0 #(+ #len)*
            }
        });
    }
    {
        let is_empty = fields.iter().map(|Field { name, kind, .. }| match kind {
            Kind::Complex(Complex { as_set_storage, .. }) => {
                quote!(#as_set_storage::is_empty(&self.#name))
            }
            Kind::Simple => quote!(!self.#name),
        });
        output.items.extend(quote! {
            #[inline]
            fn is_empty(&self) -> bool {
                true #(&& #is_empty)*
            }
        });
    }
    {
        let patterns = &fields.patterns;
        let contains = fields.iter().map(|Field { name, kind, .. }| match kind {
            Kind::Complex(Complex { as_set_storage, .. }) => {
                quote!(#as_set_storage::contains(&self.#name, v))
            }
            Kind::Simple => quote!(self.#name),
        });
        output.items.extend(quote! {
            #[inline]
            fn contains(&self, value: #ident) -> bool {
                match value {
                    #(#patterns => #contains,)*
                }
            }
        });
    }
    {
        let remove = fields.iter().map(|Field { name, kind, .. }| match kind {
            Kind::Complex(Complex { as_set_storage, .. }) => {
                quote!(#as_set_storage::remove(&mut self.#name, v))
            }
            Kind::Simple => quote!(#mem::replace(&mut self.#name, false)),
        });
        let patterns = &fields.patterns;
        output.items.extend(quote! {
            #[inline]
            fn remove(&mut self, value: #ident) -> bool {
                match value {
                    #(#patterns => #remove,)*
                }
            }
        });
    }
    {
        let retain = fields.iter().map(
            |Field {
                 var, name, kind, ..
             }| match kind {
                Kind::Complex(Complex { as_set_storage, .. }) => quote! {
                    #as_set_storage::retain(&mut self.#name, |k| func(#ident::#var(k)));
                },
                Kind::Simple => quote! {
                    if self.#name {
                        self.#name = func(#ident::#var);
                    }
                },
            },
        );
        output.items.extend(quote! {
            #[inline]
            fn retain<F>(&mut self, mut func: F)
            where
                F: FnMut(#ident) -> bool
            {
                #(#retain;)*
            }
        });
    }
    {
        let clear = fields.iter().map(|Field { name, kind, .. }| match kind {
            Kind::Complex(Complex { as_set_storage, .. }) => quote! {
                #as_set_storage::clear(&mut self.#name)
            },
            Kind::Simple => quote! {
                self.#name = false
            },
        });
        output.items.extend(quote! {
            #[inline]
            fn clear(&mut self) {
                #(#clear;)*
            }
        });
    }
    let field_decls = fields.iter().map(|Field { name, kind, .. }| match kind {
        Kind::Complex(Complex { set_storage, .. }) => quote!(#name: #set_storage),
        Kind::Simple => quote!(#name: bool),
    });
    let Output { impls, items } = output;
    let map_storage_impl = quote! {
        #vis struct #type_name {
            #(#field_decls,)*
        }
        #[automatically_derived]
        impl #set_storage_t<#ident> for #type_name {
            #items
        }
        #impls
    };
    Ok((type_name, map_storage_impl))
}
"#

/-- `fixed-map-derive/src/any_variants.rs`, piece 6 of 17. -/
def anyVariants6 : Emit.Toks := derive_rust! r#"
fn build_iter_next(
    cx: &Ctxt<'_>,
    step_forward: &mut IteratorNext,
    step_backward: &mut IteratorNextBack,
    fields: &Fields<'_>,
    assoc_type: &syn::Ident,
    lt: Option<&syn::Lifetime>,
) -> Result<(), ()> {
    let option = cx.toks.option();
    let iterator_t = cx.toks.iterator_t();
    let double_ended_iterator_t = cx.toks.double_ended_iterator_t();
    let ident = &cx.ast.ident;
    for Field {
        span,
        index,
        name,
        var,
        kind,
        ..
    } in fields
    {
        match kind {
            Kind::Simple => {
                step_forward.next.push(quote! {
                    #index => {
                        if let #option::Some(value) = #option::take(&mut self.#name) {
                            return #option::Some((#ident::#var, value));
                        }
                    }
                });
                step_backward.next.push(quote! {
                    #index => {
                        if let #option::Some(value) = #option::take(&mut self.#name) {
                            return #option::Some((#ident::#var, value));
                        }
                    }
                });
            }
            Kind::Complex(Complex { as_map_storage, .. }) => {
                step_forward.next.push(quote! {
                    #index => {
                        if let #option::Some((key, value)) = #iterator_t::next(&mut self.#name) {
                            return #option::Some((#ident::#var(key), value));
                        }
                    }
                });
                step_backward.next.push(quote! {
                    #index => {
                        if let #option::Some((key, value)) = #double_ended_iterator_t::next_back(&mut self.#name) {
                            return #option::Some((#ident::#var(key), value));
                        }
                    }
                });
                let where_clause = step_backward.make_where_clause();
                let assoc_type = if let Some(lt) = lt {
                    quote!(#as_map_storage::#assoc_type<#lt>)
                } else {
                    quote!(#as_map_storage::#assoc_type)
                };
                where_clause.predicates.push(cx.fallible(|| syn::parse2(quote_spanned! {
                    *span => #assoc_type: #double_ended_iterator_t<Item = <#assoc_type as #iterator_t>::Item>
                }))?);
            }
        }
    }
    Ok(())
}
"#

/-- `fixed-map-derive/src/any_variants.rs`, piece 7 of 17. -/
def anyVariants7 : Emit.Toks := derive_rust! r#"
fn map_storage_iter(
    cx: &Ctxt<'_>,
    assoc_type: &str,
    fields: &Fields<'_>,
    output: &mut Output,
) -> Result<(), ()> {
    let type_name = format_ident!("{MAP_STORAGE}{assoc_type}");
    let assoc_type = syn::Ident::new(assoc_type, Span::call_site());
    let lt = cx.lt;
    let ident = &cx.ast.ident;
    let vis = &cx.ast.vis;
    let option = cx.toks.option();
    let iterator_t = cx.toks.iterator_t();
    let double_ended_iterator_t = cx.toks.double_ended_iterator_t();
    let clone_t = cx.toks.clone_t();
    let mut step_forward = IteratorNext::default();
    let mut step_backward = IteratorNextBack::default();
    let mut field_decls = Vec::new();
    let mut init = Vec::new();
    build_iter_next(
        cx,
        &mut step_forward,
        &mut step_backward,
        fields,
        &assoc_type,
        Some(cx.lt),
    )?;
    for Field { name, kind, .. } in fields {
        match kind {
            Kind::Simple => {
                field_decls.push(quote!(#name: #option<&#lt V>));
                init.push(quote!(#name: #option::as_ref(&self.#name)));
            }
            Kind::Complex(Complex { as_map_storage, .. }) => {
                field_decls.push(quote!(#name: #as_map_storage::Iter<#lt>));
                init.push(quote!(#name: #as_map_storage::iter(&self.#name)));
            }
        }
    }
    step_backward
        .make_where_clause()
        .predicates
        .push(cx.fallible(|| syn::parse2(quote!(V: #lt)))?);
    let double_ended_where_clause = &step_backward.where_clause;
    let names = fields.names();
    output.impls.extend(quote! {
        #vis struct #type_name<#lt, V> where V: #lt {
            start: usize,
            end: usize,
            #(#field_decls,)*
        }
        #[automatically_derived]
        impl<#lt, V> #clone_t for #type_name<#lt, V> where V: #lt {
            #[inline]
            fn clone(&self) -> Self {
                Self {
                    start: self.start,
                    end: self.end,
                    #(#names: #clone_t::clone(&self.#names),)*
                }
            }
        }
        #[automatically_derived]
        impl<#lt, V> #iterator_t for #type_name<#lt, V> where V: #lt {
            type Item = (#ident, &#lt V);
            #[inline]
            fn next(&mut self) -> #option<Self::Item> {
                #step_forward
                #option::None
            }
        }
        #[automatically_derived]
        impl<#lt, V> #double_ended_iterator_t for #type_name<#lt, V> #double_ended_where_clause {
            #[inline]
            fn next_back(&mut self) -> #option<Self::Item> {
                #step_backward
                #option::None
            }
        }
    });
    let end = fields.len();
    output.items.extend(quote! {
        type #assoc_type<#lt> = #type_name<#lt, V> where V: #lt;
        #[inline]
        fn iter(&self) -> Self::#assoc_type<'_> {
            #type_name { start: 0, end: #end, #(#init,)* }
        }
    });
    Ok(())
}
"#

/-- `fixed-map-derive/src/any_variants.rs`, piece 8 of 17. -/
def anyVariants8 : Emit.Toks := derive_rust! r#"
fn map_storage_keys(
    cx: &Ctxt<'_>,
    assoc_type: &str,
    fields: &Fields<'_>,
    output: &mut Output,
) -> Result<(), ()> {
    let type_name = format_ident!("{MAP_STORAGE}{assoc_type}");
    let assoc_type = syn::Ident::new(assoc_type, Span::call_site());
    let lt = cx.lt;
    let ident = &cx.ast.ident;
    let vis = &cx.ast.vis;
    let bool_type = cx.toks.bool_type();
    let clone_t = cx.toks.clone_t();
    let double_ended_iterator_t = cx.toks.double_ended_iterator_t();
    let iterator_t = cx.toks.iterator_t();
    let mem = cx.toks.mem();
    let option = cx.toks.option();
    let mut step_forward = IteratorNext::default();
    let mut step_backward = IteratorNextBack::default();
    let mut field_decls = Vec::new();
    let mut init = Vec::new();
    for Field {
        span,
        index,
        name,
        var,
        kind,
        ..
    } in fields
    {
        match kind {
            Kind::Simple => {
                field_decls.push(quote!(#name: #bool_type));
                init.push(quote!(#name: #option::is_some(&self.#name)));
                step_forward.next.push(quote! {
                    #index => {
                        if #mem::take(&mut self.#name) {
                            return #option::Some(#ident::#var);
                        }
                    }
                });
                step_backward.next.push(quote! {
                    #index => {
                        if #mem::take(&mut self.#name) {
                            return #option::Some(#ident::#var);
                        }
                    }
                });
            }
            Kind::Complex(Complex { as_map_storage, .. }) => {
                field_decls.push(quote!(#name: #as_map_storage::#assoc_type<#lt>));
                init.push(quote!(#name: #as_map_storage::keys(&self.#name)));
                step_forward.next.push(quote! {
                    #index => {
                        if let #option::Some(key) = #iterator_t::next(&mut self.#name) {
                            return #option::Some(#ident::#var(key));
                        }
                    }
                });
                step_backward.next.push(quote! {
                    #index => {
                        if let #option::Some(key) = #double_ended_iterator_t::next_back(&mut self.#name) {
                            return #option::Some(#ident::#var(key));
                        }
                    }
                });
                let where_clause = step_backward.make_where_clause();
                let assoc_type = quote!(#as_map_storage::#assoc_type<#lt>);
                where_clause.predicates.push(cx.fallible(|| syn::parse2(quote_spanned! {
                    *span => #assoc_type: #double_ended_iterator_t<Item = <#assoc_type as #iterator_t>::Item>
                }))?);
            }
        }
    }
    step_backward
        .make_where_clause()
        .predicates
        .push(cx.fallible(|| syn::parse2(quote!(V: #lt)))?);
    let double_ended_where_clause = &step_backward.where_clause;
    let names = fields.names();
    output.impls.extend(quote! {
        #vis struct #type_name<#lt, V> where V: #lt {
            start: usize,
            end: usize,
            #(#field_decls,)*
        }
        #[automatically_derived]
        impl<#lt, V> #clone_t for #type_name<#lt, V> where V: #lt {
            #[inline]
            fn clone(&self) -> Self {
                Self {
                    start: self.start,
                    end: self.end,
                    #(#names: #clone_t::clone(&self.#names),)*
                }
            }
        }
        #[automatically_derived]
        impl<#lt, V> #iterator_t for #type_name<#lt, V> where V: #lt {
            type Item = #ident;
            #[inline]
            fn next(&mut self) -> #option<Self::Item> {
                #step_forward
                #option::None
            }
        }
        #[automatically_derived]
        impl<#lt, V> #double_ended_iterator_t for #type_name<#lt, V> #double_ended_where_clause {
            #[inline]
            fn next_back(&mut self) -> #option<Self::Item> {
                #step_backward
                #option::None
            }
        }
    });
    let end = fields.len();
    output.items.extend(quote! {
        type #assoc_type<#lt> = #type_name<#lt, V> where V: #lt;
        #[inline]
        fn keys(&self) -> Self::#assoc_type<'_> {
            #type_name { start: 0, end: #end, #(#init,)* }
        }
    });
    Ok(())
}
"#

/-- `fixed-map-derive/src/any_variants.rs`, piece 9 of 17. -/
def anyVariants9 : Emit.Toks := derive_rust! r#"
fn map_storage_values(
    cx: &Ctxt<'_>,
    assoc_type: &str,
    fields: &Fields<'_>,
    output: &mut Output,
) -> Result<(), ()> {
    let type_name = format_ident!("{MAP_STORAGE}{assoc_type}");
    let assoc_type = syn::Ident::new(assoc_type, Span::call_site());
    let lt = cx.lt;
    let vis = &cx.ast.vis;
    let clone_t = cx.toks.clone_t();
    let double_ended_iterator_t = cx.toks.double_ended_iterator_t();
    let iterator_t = cx.toks.iterator_t();
    let option = cx.toks.option();
    let mut step_forward = IteratorNext::default();
    let mut step_backward = IteratorNextBack::default();
    let mut field_decls = Vec::new();
    let mut init = Vec::new();
    for Field {
        span,
        index,
        name,
        kind,
        ..
    } in fields
    {
        match kind {
            Kind::Simple => {
                field_decls.push(quote!(#name: #option<&#lt V>));
                init.push(quote!(#name: #option::as_ref(&self.#name)));
                step_forward.next.push(quote! {
                    #index => {
                        if let #option::Some(value) = #option::take(&mut self.#name) {
                            return #option::Some(value);
                        }
                    }
                });
                step_backward.next.push(quote! {
                    #index => {
                        if let #option::Some(value) = #option::take(&mut self.#name) {
                            return #option::Some(value);
                        }
                    }
                });
            }
            Kind::Complex(Complex { as_map_storage, .. }) => {
                field_decls.push(quote!(#name: #as_map_storage::#assoc_type<#lt>));
                init.push(quote!(#name: #as_map_storage::values(&self.#name)));
                step_forward.next.push(quote! {
                    #index => {
                        if let #option::Some(value) = #iterator_t::next(&mut self.#name) {
                            return #option::Some(value);
                        }
                    }
                });
                step_backward.next.push(quote! {
                    #index => {
                        if let #option::Some(value) = #double_ended_iterator_t::next_back(&mut self.#name) {
                            return #option::Some(value);
                        }
                    }
                });
                let where_clause = step_backward.make_where_clause();
                let assoc_type = quote!(#as_map_storage::#assoc_type<#lt>);
                where_clause.predicates.push(cx.fallible(|| syn::parse2(quote_spanned! {
                    *span => #assoc_type: #double_ended_iterator_t<Item = <#assoc_type as #iterator_t>::Item>
                }))?);
            }
        }
    }
    step_backward
        .make_where_clause()
        .predicates
        .push(cx.fallible(|| syn::parse2(quote!(V: #lt)))?);
    let double_ended_where_clause = &step_backward.where_clause;
    let names = fields.names();
    output.impls.extend(quote! {
        #vis struct #type_name<#lt, V> where V: #lt {
            start: usize,
            end: usize,
            #(#field_decls,)*
        }
        #[automatically_derived]
        impl<#lt, V> #clone_t for #type_name<#lt, V> where V: #lt {
            #[inline]
            fn clone(&self) -> Self {
                Self {
                    start: self.start,
                    end: self.end,
                    #(#names: #clone_t::clone(&self.#names),)*
                }
            }
        }
        #[automatically_derived]
        impl<#lt, V> #iterator_t for #type_name<#lt, V> where V: #lt {
            type Item = &#lt V;
            #[inline]
            fn next(&mut self) -> #option<Self::Item> {
                #step_forward
                #option::None
            }
        }
        #[automatically_derived]
        impl<#lt, V> #double_ended_iterator_t for #type_name<#lt, V> #double_ended_where_clause {
            #[inline]
            fn next_back(&mut self) -> #option<Self::Item> {
                #step_backward
                #option::None
            }
        }
    });
    let end = fields.len();
    output.items.extend(quote! {
        type #assoc_type<#lt> = #type_name<#lt, V> where V: #lt;
        #[inline]
        fn values(&self) -> Self::#assoc_type<'_> {
            #type_name { start: 0, end: #end, #(#init,)* }
        }
    });
    Ok(())
}
"#

/-- `fixed-map-derive/src/any_variants.rs`, piece 10 of 17. -/
def anyVariants10 : Emit.Toks := derive_rust! r#"
fn map_storage_iter_mut(
    cx: &Ctxt<'_>,
    assoc_type: &str,
    fields: &Fields<'_>,
    output: &mut Output,
) -> Result<(), ()> {
    let type_name = format_ident!("{MAP_STORAGE}{assoc_type}");
    let assoc_type = syn::Ident::new(assoc_type, Span::call_site());
    let ident = &cx.ast.ident;
    let lt = cx.lt;
    let vis = &cx.ast.vis;
    let double_ended_iterator_t = cx.toks.double_ended_iterator_t();
    let iterator_t = cx.toks.iterator_t();
    let option = cx.toks.option();
    let mut step_forward = IteratorNext::default();
    let mut step_backward = IteratorNextBack::default();
    let mut field_decls = Vec::new();
    let mut init = Vec::new();
    build_iter_next(
        cx,
        &mut step_forward,
        &mut step_backward,
        fields,
        &assoc_type,
        Some(cx.lt),
    )?;
    for Field { name, kind, .. } in fields {
        match kind {
            Kind::Simple => {
                field_decls.push(quote!(#name: #option<&#lt mut V>));
                init.push(quote!(#name: #option::as_mut(&mut self.#name)));
            }
            Kind::Complex(Complex {
                as_map_storage,
                map_storage,
                ..
            }) => {
                field_decls.push(quote!(#name: #as_map_storage::#assoc_type<#lt>));
                init.push(quote!(#name: #map_storage::iter_mut(&mut self.#name)));
            }
        }
    }
    step_backward
        .make_where_clause()
        .predicates
        .push(cx.fallible(|| syn::parse2(quote!(V: #lt)))?);
    let double_ended_where = &step_backward.where_clause;
    output.impls.extend(quote! {
        #vis struct #type_name<#lt, V> where V: #lt {
            start: usize,
            end: usize,
            #(#field_decls,)*
        }
        #[automatically_derived]
        impl<#lt, V> #iterator_t for #type_name<#lt, V> where V: #lt {
            type Item = (#ident, &#lt mut V);
            #[inline]
            fn next(&mut self) -> #option<Self::Item> {
                #step_forward
                #option::None
            }
        }
        #[automatically_derived]
        impl<#lt, V> #double_ended_iterator_t for #type_name<#lt, V> #double_ended_where {
            #[inline]
            fn next_back(&mut self) -> #option<Self::Item> {
                #step_backward
                #option::None
            }
        }
    });
    let end = fields.len();
    output.items.extend(quote! {
        type #assoc_type<#lt> = #type_name<#lt, V> where V: #lt;
        #[inline]
        fn iter_mut(&mut self) -> Self::#assoc_type<'_> {
            #type_name { start: 0, end: #end, #(#init,)* }
        }
    });
    Ok(())
}
"#

/-- `fixed-map-derive/src/any_variants.rs`, piece 11 of 17. -/
def anyVariants11 : Emit.Toks := derive_rust! r#"
fn map_storage_values_mut(
    cx: &Ctxt<'_>,
    assoc_type: &str,
    fields: &Fields<'_>,
    output: &mut Output,
) -> Result<(), ()> {
    let type_name = format_ident!("{MAP_STORAGE}{assoc_type}");
    let assoc_type = syn::Ident::new(assoc_type, Span::call_site());
    let lt = cx.lt;
    let vis = &cx.ast.vis;
    let option = cx.toks.option();
    let iterator_t = cx.toks.iterator_t();
    let double_ended_iterator_t = cx.toks.double_ended_iterator_t();
    let mut step_forward = IteratorNext::default();
    let mut step_backward = IteratorNextBack::default();
    let mut field_decls = Vec::new();
    let mut init = Vec::new();
    for Field {
        span,
        index,
        name,
        kind,
        ..
    } in fields
    {
        match kind {
            Kind::Simple => {
                field_decls.push(quote!(#name: #option<&#lt mut V>));
                init.push(quote!(#name: #option::as_mut(&mut self.#name)));
                step_forward.next.push(quote! {
                    #index => {
                        if let #option::Some(value) = #option::take(&mut self.#name) {
                            return #option::Some(value);
                        }
                    }
                });
                step_backward.next.push(quote! {
                    #index => {
                        if let #option::Some(value) = #option::take(&mut self.#name) {
                            return #option::Some(value);
                        }
                    }
                });
            }
            Kind::Complex(Complex { as_map_storage, .. }) => {
                field_decls.push(quote!(#name: #as_map_storage::#assoc_type<#lt>));
                init.push(quote!(#name: #as_map_storage::values_mut(&mut self.#name)));
                step_forward.next.push(quote! {
                    #index => {
                        if let #option::Some(value) = #iterator_t::next(&mut self.#name) {
                            return #option::Some(value);
                        }
                    }
                });
                step_backward.next.push(quote! {
                    #index => {
                        if let #option::Some(value) = #double_ended_iterator_t::next_back(&mut self.#name) {
                            return #option::Some(value);
                        }
                    }
                });
                let where_clause = step_backward.make_where_clause();
                let assoc_type = quote!(#as_map_storage::#assoc_type<#lt>);
                where_clause.predicates.push(cx.fallible(|| syn::parse2(quote_spanned! {
                    *span => #assoc_type: #double_ended_iterator_t<Item = <#assoc_type as #iterator_t>::Item>
                }))?);
            }
        }
    }
    step_backward
        .make_where_clause()
        .predicates
        .push(cx.fallible(|| syn::parse2(quote!(V: #lt)))?);
    let double_ended_where_clause = &step_backward.where_clause;
    output.impls.extend(quote! {
        #vis struct #type_name<#lt, V> where V: #lt {
            start: usize,
            end: usize,
            #(#field_decls,)*
        }
        #[automatically_derived]
        impl<#lt, V> #iterator_t for #type_name<#lt, V> where V: #lt {
            type Item = &#lt mut V;
            #[inline]
            fn next(&mut self) -> #option<Self::Item> {
                #step_forward
                #option::None
            }
        }
        #[automatically_derived]
        impl<#lt, V> #double_ended_iterator_t for #type_name<#lt, V> #double_ended_where_clause {
            #[inline]
            fn next_back(&mut self) -> #option<Self::Item> {
                #step_backward
                #option::None
            }
        }
    });
    let end = fields.len();
    output.items.extend(quote! {
        type #assoc_type<#lt> = #type_name<#lt, V> where V: #lt;
        #[inline]
        fn values_mut(&mut self) -> Self::#assoc_type<'_> {
            #type_name { start: 0, end: #end, #(#init,)* }
        }
    });
    Ok(())
}
"#

/-- `fixed-map-derive/src/any_variants.rs`, piece 12 of 17. -/
def anyVariants12 : Emit.Toks := derive_rust! r#"
fn map_storage_into_iter(
    cx: &Ctxt<'_>,
    assoc_type: &str,
    fields: &Fields<'_>,
    output: &mut Output,
) -> Result<(), ()> {
    let type_name = format_ident!("{MAP_STORAGE}{assoc_type}");
    let assoc_type = syn::Ident::new(assoc_type, Span::call_site());
    let ident = &cx.ast.ident;
    let vis = &cx.ast.vis;
    let option = cx.toks.option();
    let clone_t = cx.toks.clone_t();
    let iterator_t = cx.toks.iterator_t();
    let double_ended_iterator_t = cx.toks.double_ended_iterator_t();
    let mut step_forward = IteratorNext::default();
    let mut step_backward = IteratorNextBack::default();
    let mut field_decls = Vec::new();
    let mut init = Vec::new();
    build_iter_next(
        cx,
        &mut step_forward,
        &mut step_backward,
        fields,
        &assoc_type,
        None,
    )?;
    for Field { name, kind, .. } in fields {
        match kind {
            Kind::Simple => {
                field_decls.push(quote!(#name: #option<V>));
                init.push(quote!(#name: self.#name));
            }
            Kind::Complex(Complex {
                as_map_storage,
                map_storage,
                ..
            }) => {
                field_decls.push(quote!(#name: #as_map_storage::#assoc_type));
                init.push(quote!(#name: #map_storage::into_iter(self.#name)));
            }
        }
    }
    let double_ended_where = &step_backward.where_clause;
    let names = fields.names();
    let clone_bounds = fields
        .complex()
        .map(|Complex { as_map_storage, .. }| quote!(#as_map_storage::#assoc_type: #clone_t));
    output.impls.extend(quote! {
        #vis struct #type_name<V> {
            start: usize,
            end: usize,
            #(#field_decls,)*
        }
        #[automatically_derived]
        impl<V> #clone_t for #type_name<V> where V: Clone, #(#clone_bounds,)* {
            #[inline]
            fn clone(&self) -> Self {
                Self {
                    start: self.start,
                    end: self.end,
                    #(#names: #clone_t::clone(&self.#names),)*
                }
            }
        }
        #[automatically_derived]
        impl<V> #iterator_t for #type_name<V> {
            type Item = (#ident, V);
            #[inline]
            fn next(&mut self) -> Option<Self::Item> {
                #step_forward
                #option::None
            }
        }
        #[automatically_derived]
        impl<V> #double_ended_iterator_t for #type_name<V> #double_ended_where {
            #[inline]
            fn next_back(&mut self) -> #option<Self::Item> {
                #step_backward
                #option::None
            }
        }
    });
    let end = fields.len();
    output.items.extend(quote! {
        type #assoc_type = #type_name<V>;
        #[inline]
        fn into_iter(self) -> Self::#assoc_type {
            #type_name { start: 0, end: #end, #(#init,)* }
        }
    });
    Ok(())
}
"#

/-- `fixed-map-derive/src/any_variants.rs`, piece 13 of 17. -/
def anyVariants13 : Emit.Toks := derive_rust! r#"
fn set_storage_iter(
    cx: &Ctxt<'_>,
    assoc_type: &str,
    fields: &Fields<'_>,
    output: &mut Output,
) -> Result<(), ()> {
    let type_name = format_ident!("{SET_STORAGE}{assoc_type}");
    let assoc_type = syn::Ident::new(assoc_type, Span::call_site());
    let lt = cx.lt;
    let ident = &cx.ast.ident;
    let vis = &cx.ast.vis;
    let bool_type = cx.toks.bool_type();
    let clone_t = cx.toks.clone_t();
    let double_ended_iterator_t = cx.toks.double_ended_iterator_t();
    let iterator_t = cx.toks.iterator_t();
    let mem = cx.toks.mem();
    let option = cx.toks.option();
    let mut step_forward = IteratorNext::default();
    let mut step_backward = IteratorNextBack::default();
    let mut field_decls = Vec::new();
    let mut init = Vec::new();
    for Field {
        span,
        index,
        name,
        var,
        kind,
        ..
    } in fields
    {
        match kind {
            Kind::Simple => {
                field_decls.push(quote!(#name: #bool_type));
                init.push(quote!(#name: self.#name));
                step_forward.next.push(quote! {
                    #index => {
                        if #mem::take(&mut self.#name) {
                            return #option::Some(#ident::#var);
                        }
                    }
                });
                step_backward.next.push(quote! {
                    #index => {
                        if #mem::take(&mut self.#name) {
                            return #option::Some(#ident::#var);
                        }
                    }
                });
            }
            Kind::Complex(Complex { as_set_storage, .. }) => {
                field_decls.push(quote!(#name: #as_set_storage::#assoc_type<#lt>));
                init.push(quote!(#name: #as_set_storage::iter(&self.#name)));
                step_forward.next.push(quote! {
                    #index => {
                        if let #option::Some(key) = #iterator_t::next(&mut self.#name) {
                            return #option::Some(#ident::#var(key));
                        }
                    }
                });
                step_backward.next.push(quote! {
                    #index => {
                        if let #option::Some(key) = #double_ended_iterator_t::next_back(&mut self.#name) {
                            return #option::Some(#ident::#var(key));
                        }
                    }
                });
                let where_clause = step_backward.make_where_clause();
                let assoc_type = quote!(#as_set_storage::#assoc_type<#lt>);
                where_clause.predicates.push(cx.fallible(|| syn::parse2(quote_spanned! {
                    *span => #assoc_type: #double_ended_iterator_t<Item = <#assoc_type as #iterator_t>::Item>
                }))?);
            }
        }
    }
    let double_ended_where_clause = &step_backward.where_clause;
    let names = fields.names();
    output.impls.extend(quote! {
        #vis struct #type_name<#lt> {
            start: usize,
            end: usize,
            #(#field_decls,)*
        }
        #[automatically_derived]
        impl<#lt> #clone_t for #type_name<#lt> {
            #[inline]
            fn clone(&self) -> Self {
                Self {
                    start: self.start,
                    end: self.end,
                    #(#names: #clone_t::clone(&self.#names),)*
                }
            }
        }
        #[automatically_derived]
        impl<#lt> #iterator_t for #type_name<#lt> {
            type Item = #ident;
            #[inline]
            fn next(&mut self) -> #option<Self::Item> {
                #step_forward
                #option::None
            }
        }
        #[automatically_derived]
        impl<#lt> #double_ended_iterator_t for #type_name<#lt> #double_ended_where_clause {
            #[inline]
            fn next_back(&mut self) -> #option<Self::Item> {
                #step_backward
                #option::None
            }
        }
    });
    let end = fields.len();
    output.items.extend(quote! {
        type #assoc_type<#lt> = #type_name<#lt>;
        #[inline]
        fn iter(&self) -> Self::#assoc_type<'_> {
            #type_name { start: 0, end: #end, #(#init,)* }
        }
    });
    Ok(())
}
"#

/-- `fixed-map-derive/src/any_variants.rs`, piece 14 of 17. -/
def anyVariants14 : Emit.Toks := derive_rust! r#"
fn set_storage_into_iter(
    cx: &Ctxt<'_>,
    assoc_type: &str,
    fields: &Fields<'_>,
    output: &mut Output,
) -> Result<(), ()> {
    let type_name = format_ident!("{SET_STORAGE}{assoc_type}");
    let assoc_type = syn::Ident::new(assoc_type, Span::call_site());
    let ident = &cx.ast.ident;
    let vis = &cx.ast.vis;
    let bool_type = cx.toks.bool_type();
    let clone_t = cx.toks.clone_t();
    let double_ended_iterator_t = cx.toks.double_ended_iterator_t();
    let iterator_t = cx.toks.iterator_t();
    let mem = cx.toks.mem();
    let option = cx.toks.option();
    let mut step_forward = IteratorNext::default();
    let mut step_backward = IteratorNextBack::default();
    let mut field_decls = Vec::new();
    let mut init = Vec::new();
    for Field {
        span,
        index,
        name,
        var,
        kind,
        ..
    } in fields
    {
        match kind {
            Kind::Simple => {
                field_decls.push(quote!(#name: #bool_type));
                init.push(quote!(#name: self.#name));
                step_forward.next.push(quote! {
                    #index => {
                        if #mem::take(&mut self.#name) {
                            return #option::Some(#ident::#var);
                        }
                    }
                });
                step_backward.next.push(quote! {
                    #index => {
                        if #mem::take(&mut self.#name) {
                            return #option::Some(#ident::#var);
                        }
                    }
                });
            }
            Kind::Complex(Complex { as_set_storage, .. }) => {
                field_decls.push(quote!(#name: #as_set_storage::#assoc_type));
                init.push(quote!(#name: #as_set_storage::into_iter(self.#name)));
                step_forward.next.push(quote! {
                    #index => {
                        if let #option::Some(key) = #iterator_t::next(&mut self.#name) {
                            return #option::Some(#ident::#var(key));
                        }
                    }
                });
                step_backward.next.push(quote! {
                    #index => {
                        if let #option::Some(key) = #double_ended_iterator_t::next_back(&mut self.#name) {
                            return #option::Some(#ident::#var(key));
                        }
                    }
                });
                let where_clause = step_backward.make_where_clause();
                let assoc_type = quote!(#as_set_storage::#assoc_type);
                where_clause.predicates.push(cx.fallible(|| syn::parse2(quote_spanned! {
                    *span => for<'trivial_bounds> #assoc_type: #double_ended_iterator_t<Item = <#assoc_type as #iterator_t>::Item>
                }))?);
            }
        }
    }
    let names = fields.names();
    output.impls.extend(quote! {
        #vis struct #type_name {
            start: usize,
            end: usize,
            #(#field_decls,)*
        }
    });
    {
        let bounds = fields
            .complex()
            .map(|Complex { as_set_storage, .. }| quote!(#as_set_storage::#assoc_type));
        output.impls.extend(quote! {
            #[automatically_derived]
            impl #clone_t for #type_name where #(for<'trivial_bounds> #bounds: #clone_t,)* {
                #[inline]
                fn clone(&self) -> Self {
                    Self {
                        start: self.start,
                        end: self.end,
                        #(#names: #clone_t::clone(&self.#names),)*
                    }
                }
            }
        });
    }
    output.impls.extend(quote! {
        #[automatically_derived]
        impl #iterator_t for #type_name {
            type Item = #ident;
            #[inline]
            fn next(&mut self) -> #option<Self::Item> {
                #step_forward
                #option::None
            }
        }
    });
    let double_ended_where_clause = &step_backward.where_clause;
    output.impls.extend(quote! {
        #[automatically_derived]
        impl #double_ended_iterator_t for #type_name #double_ended_where_clause {
            #[inline]
            fn next_back(&mut self) -> #option<Self::Item> {
                #step_backward
                #option::None
            }
        }
    });
    let end = fields.len();
    output.items.extend(quote! {
        type #assoc_type = #type_name;
        #[inline]
        fn into_iter(self) -> Self::#assoc_type {
            #type_name { start: 0, end: #end, #(#init,)* }
        }
    });
    Ok(())
}
"#

/-- `fixed-map-derive/src/any_variants.rs`, piece 15 of 17. -/
def anyVariants15 : Emit.Toks := derive_rust! r#"
#[derive(Default)]
struct IteratorNext {
    next: Vec<TokenStream>,
}
impl ToTokens for IteratorNext {
    fn to_tokens(&self, tokens: &mut TokenStream) {
        let iter_next = &self.next;
        tokens.extend(quote! {
            while self.start < self.end {
                match self.start {
                    #(#iter_next,)*
                    _ => break,
                }
                self.start = usize::min(self.start.wrapping_add(1), self.end);
            }
        });
    }
}
#[derive(Default)]
struct IteratorNextBack {
    next: Vec<TokenStream>,
    where_clause: Option<syn::WhereClause>,
}
impl IteratorNextBack {
    pub(crate) fn make_where_clause(&mut self) -> &mut syn::WhereClause {
        self.where_clause.get_or_insert_with(|| syn::WhereClause {
            where_token: <syn::Token![where]>::default(),
            predicates: Punctuated::new(),
        })
    }
}
impl ToTokens for IteratorNextBack {
    fn to_tokens(&self, tokens: &mut TokenStream) {
        let iter_next = &self.next;
        tokens.extend(quote! {
            while self.start < self.end {
                let next = self.end.wrapping_sub(1);
                match next {
                    #(#iter_next,)*
                    _ => break,
                }
                self.end = usize::max(next, self.start);
            }
        });
    }
}
"#

/-- `fixed-map-derive/src/any_variants.rs`, piece 16 of 17. -/
def anyVariants16 : Emit.Toks := derive_rust! r#"
fn map_storage_entry(
    cx: &Ctxt<'_>,
    fields: &Fields<'_>,
    map_storage: &syn::Ident,
    output: &mut Output,
) -> Result<(), ()> {
    let ident = &cx.ast.ident;
    let vis = &cx.ast.vis;
    let lt = cx.lt;
    let entry_enum = cx.toks.entry_enum();
    let occupied_entry_t = cx.toks.occupied_entry_t();
    let option = cx.toks.option();
    let option_bucket_none = cx.toks.option_bucket_none();
    let option_bucket_option = cx.toks.option_bucket_option();
    let option_bucket_some = cx.toks.option_bucket_some();
    let map_storage_t = cx.toks.map_storage_t();
    let vacant_entry_t = cx.toks.vacant_entry_t();
    let mut init = Vec::new();
    let mut occupied_variant = Vec::new();
    let mut vacant_variant = Vec::new();
    let mut vacant_key = Vec::new();
    let mut vacant_insert = Vec::new();
    let mut occupied_key = Vec::new();
    let mut occupied_get = Vec::new();
    let mut occupied_get_mut = Vec::new();
    let mut occupied_into_mut = Vec::new();
    let mut occupied_insert = Vec::new();
    let mut occupied_remove = Vec::new();
    for Field {
        name, kind, var, ..
    } in fields
    {
        let pattern = quote!(#ident::#var);
        match kind {
            Kind::Simple => {
                init.push(quote!( #pattern => option_to_entry(&mut self.#name, key) ));
            }
            Kind::Complex(Complex {
                element,
                map_storage,
                ..
            }) => {
                let as_map_storage = quote!(<#map_storage as #map_storage_t<#element, V>>);
                occupied_variant.push(quote!( #name(#as_map_storage::Occupied<#lt>) ));
                vacant_variant.push(quote!( #name(#as_map_storage::Vacant<#lt>) ));
                init.push(quote! {
                    #pattern(key) => match #map_storage_t::entry(&mut self.#name, key) {
                        #entry_enum::Occupied(entry) => #entry_enum::Occupied(OccupiedEntry::#name(entry)),
                        #entry_enum::Vacant(entry) => #entry_enum::Vacant(VacantEntry::#name(entry)),
                    }
                });
                let as_vacant_entry =
                    quote!(<#as_map_storage::Vacant<#lt> as #vacant_entry_t<#lt, #element, V>>);
                vacant_key.push(
                    quote!( VacantEntry::#name(entry) => #pattern(#as_vacant_entry::key(entry)) ),
                );
                vacant_insert.push(
                    quote!( VacantEntry::#name(entry) => #as_vacant_entry::insert(entry, value) ),
                );
                let as_occupied_entry =
                    quote!(<#as_map_storage::Occupied<#lt> as #occupied_entry_t<#lt, #element, V>>);
                occupied_key.push(quote!( OccupiedEntry::#name(entry) => #pattern(#as_occupied_entry::key(entry)) ));
                occupied_get
                    .push(quote!( OccupiedEntry::#name(entry) => #as_occupied_entry::get(entry) ));
                occupied_get_mut.push(
                    quote!( OccupiedEntry::#name(entry) => #as_occupied_entry::get_mut(entry) ),
                );
                occupied_into_mut.push(
                    quote!( OccupiedEntry::#name(entry) => #as_occupied_entry::into_mut(entry) ),
                );
                occupied_insert.push(quote!( OccupiedEntry::#name(entry) => #as_occupied_entry::insert(entry, value) ));
                occupied_remove.push(
                    quote!( OccupiedEntry::#name(entry) => #as_occupied_entry::remove(entry) ),
                );
            }
        }
    }
    output.impls.extend(quote! {
        #vis struct SimpleVacantEntry<#lt, V> {
            key: #ident,
            inner: #option_bucket_none<#lt, V>,
        }
        impl<#lt, V> SimpleVacantEntry<#lt, V> {
            #[inline]
            fn insert(self, value: V) -> &#lt mut V {
                #option_bucket_none::insert(self.inner, value)
            }
        }
        #vis struct SimpleOccupiedEntry<#lt, V> {
            key: #ident,
            inner: #option_bucket_some<#lt, V>,
        }
        impl<#lt, V> SimpleOccupiedEntry<#lt, V> {
            #[inline]
            fn get(&self) -> &V {
                #option_bucket_some::as_ref(&self.inner)
            }
            #[inline]
            fn get_mut(&mut self) -> &mut V {
                #option_bucket_some::as_mut(&mut self.inner)
            }
            #[inline]
            fn into_mut(self) -> &#lt mut V {
                #option_bucket_some::into_mut(self.inner)
            }
            #[inline]
            fn insert(&mut self, value: V) -> V {
                #option_bucket_some::replace(&mut self.inner, value)
            }
            #[inline]
            fn remove(self) -> V {
                #option_bucket_some::take(self.inner)
            }
        }
        #vis enum VacantEntry<#lt, V> {
            Simple(SimpleVacantEntry<#lt, V>),
            #(#vacant_variant,)*
        }
        #vis enum OccupiedEntry<#lt, V> {
            Simple(SimpleOccupiedEntry<#lt, V>),
            #(#occupied_variant,)*
        }
        #[automatically_derived]
        impl<#lt, V> #vacant_entry_t<#lt, #ident, V> for VacantEntry<#lt, V> {
            #[inline]
            fn key(&self) -> #ident {
                match self {
                    VacantEntry::Simple(entry) => entry.key,
                    #(#vacant_key,)*
                }
            }
            #[inline]
            fn insert(self, value: V) -> &#lt mut V {
                match self {
                    VacantEntry::Simple(entry) => entry.insert(value),
                    #(#vacant_insert,)*
                }
            }
        }
        #[automatically_derived]
        impl<#lt, V> #occupied_entry_t<#lt, #ident, V> for OccupiedEntry<#lt, V> {
            #[inline]
            fn key(&self) -> #ident {
                match self {
                    OccupiedEntry::Simple(entry) => entry.key,
                    #(#occupied_key,)*
                }
            }
            #[inline]
            fn get(&self) -> &V {
                match self {
                    OccupiedEntry::Simple(entry) => entry.get(),
                    #(#occupied_get,)*
                }
            }
            #[inline]
            fn get_mut(&mut self) -> &mut V {
                match self {
                    OccupiedEntry::Simple(entry) => entry.get_mut(),
                    #(#occupied_get_mut,)*
                }
            }
            #[inline]
            fn into_mut(self) -> &#lt mut V {
                match self {
                    OccupiedEntry::Simple(entry) => entry.into_mut(),
                    #(#occupied_into_mut,)*
                }
            }
            #[inline]
            fn insert(&mut self, value: V) -> V {
                match self {
                    OccupiedEntry::Simple(entry) => entry.insert(value),
                    #(#occupied_insert,)*
                }
            }
            #[inline]
            fn remove(self) -> V {
                match self {
                    OccupiedEntry::Simple(entry) => entry.remove(),
                    #(#occupied_remove,)*
                }
            }
        }
        #[inline]
        fn option_to_entry<V>(opt: &mut #option<V>, key: #ident) -> #entry_enum<'_, #map_storage<V>, #ident, V> {
            match #option_bucket_option::new(opt) {
                #option_bucket_option::Some(inner) => #entry_enum::Occupied(OccupiedEntry::Simple(SimpleOccupiedEntry { key, inner })),
                #option_bucket_option::None(inner) => #entry_enum::Vacant(VacantEntry::Simple(SimpleVacantEntry { key, inner })),
            }
        }
    });
    output.items.extend(quote! {
        type Occupied<#lt> = OccupiedEntry<#lt, V> where V: #lt;
        type Vacant<#lt> = VacantEntry<#lt, V> where V: #lt;
        #[inline]
        fn entry(&mut self, key: #ident) -> #entry_enum<'_, Self, #ident, V> {
            match key {
                #(#init,)*
            }
        }
    });
    Ok(())
}
"#

/-- `fixed-map-derive/src/any_variants.rs`, piece 17 of 17. -/
def anyVariants17 : Emit.Toks := derive_rust! r#"
#[derive(Default)]
struct Output {
    impls: TokenStream,
    items: TokenStream,
}
pub(crate) struct Field<'a> {
    pub(crate) span: Span,
    pub(crate) index: usize,
    pub(crate) name: syn::Ident,
    pub(crate) var: &'a syn::Ident,
    pub(crate) kind: Kind<'a>,
}
pub(crate) enum Kind<'a> {
    Simple,
    Complex(Complex<'a>),
}
pub(crate) struct Complex<'a> {
    pub(crate) element: &'a syn::Field,
    pub(crate) map_storage: TokenStream,
    pub(crate) as_map_storage: TokenStream,
    pub(crate) set_storage: TokenStream,
    pub(crate) as_set_storage: TokenStream,
}
#[derive(Default)]
pub(crate) struct Fields<'a> {
    fields: Vec<Field<'a>>,
    patterns: Vec<syn::Pat>,
}
impl<'a> Fields<'a> {
    fn names(&self) -> impl Iterator<Item = &'_ syn::Ident> {
        self.fields.iter().map(|f| &f.name)
    }
    fn complex(&self) -> impl Iterator<Item = &'_ Complex<'a>> {
        self.fields.iter().filter_map(|f| match &f.kind {
            Kind::Complex(c) => Some(c),
            Kind::Simple => None,
        })
    }
    fn iter(&self) -> core::slice::Iter<'_, Field<'a>> {
        self.fields.iter()
    }
    fn len(&self) -> usize {
        self.fields.len()
    }
}
impl<'b, 'a> IntoIterator for &'b Fields<'a> {
    type Item = &'b Field<'a>;
    type IntoIter = core::slice::Iter<'b, Field<'a>>;
    #[inline]
    fn into_iter(self) -> Self::IntoIter {
        self.fields.iter()
    }
}
"#

/-- `fixed-map-derive/src/any_variants.rs`. -/
def anyVariants : List Emit.Toks := [anyVariants1, anyVariants2, anyVariants3, anyVariants4, anyVariants5, anyVariants6, anyVariants7, anyVariants8, anyVariants9, anyVariants10, anyVariants11, anyVariants12, anyVariants13, anyVariants14, anyVariants15, anyVariants16, anyVariants17]

/-- `fixed-map-derive/src/unit_variants.rs`, piece 1 of 7. -/
def unitVariants1 : Emit.Toks := derive_rust! r#"
use proc_macro2::{Span, TokenStream};
use quote::{format_ident, quote};
use syn::spanned::Spanned;
use syn::{DataEnum, Ident, LitInt};
use crate::context::{Ctxt, Opts};
"#

/-- `fixed-map-derive/src/unit_variants.rs`, piece 2 of 7. -/
def unitVariants2 : Emit.Toks := derive_rust! r#"
pub(crate) fn implement(cx: &Ctxt<'_>, opts: &Opts, en: &DataEnum) -> Result<TokenStream, ()> {
    let map_storage = format_ident!("__MapStorage");
    let set_storage = format_ident!("__SetStorage");
    let count = en.variants.len();
    let mut names = Vec::with_capacity(count);
    for (index, _) in en.variants.iter().enumerate() {
        names.push(format_ident!("_{}", index));
    }
    let entry_impl = impl_entry(cx, &map_storage)?;
    let map_storage_impl = impl_map(cx, en, &map_storage, &names)?;
    let set_storage_impl = if opts.bitset.is_some() {
        impl_bitset(cx, en, &set_storage)?
    } else {
        impl_set(cx, en, &set_storage, &names)?
    };
    let ident = &cx.ast.ident;
    let key_t = cx.toks.key_t();
    Ok(quote! {
        const _: () = {
            #entry_impl
            #map_storage_impl
            #set_storage_impl
            #[automatically_derived]
            impl #key_t for #ident {
                type MapStorage<V> = #map_storage<V>;
                type SetStorage = #set_storage;
            }
        };
    })
}
"#

/-- `fixed-map-derive/src/unit_variants.rs`, piece 3 of 7. -/
def unitVariants3 : Emit.Toks := derive_rust! r#"
fn impl_entry(cx: &Ctxt<'_>, map_storage: &Ident) -> Result<TokenStream, ()> {
    let ident = &cx.ast.ident;
    let lt = cx.lt;
    let vis = &cx.ast.vis;
    let vacant_entry_t = cx.toks.vacant_entry_t();
    let occupied_entry_t = cx.toks.occupied_entry_t();
    let option_bucket_none = cx.toks.option_bucket_none();
    let option_bucket_option = cx.toks.option_bucket_option();
    let option_bucket_some = cx.toks.option_bucket_some();
    let option = cx.toks.option();
    let entry_enum = cx.toks.entry_enum();
    Ok(quote! {
        #vis struct VacantEntry<#lt, V> {
            key: #ident,
            inner: #option_bucket_none<#lt, V>,
        }
        #[automatically_derived]
        impl<#lt, V> #vacant_entry_t<#lt, #ident, V> for VacantEntry<#lt, V> {
            #[inline]
            fn key(&self) -> #ident {
                self.key
            }
            #[inline]
            fn insert(self, value: V) -> &#lt mut V {
                #option_bucket_none::insert(self.inner, value)
            }
        }
        #vis struct OccupiedEntry<#lt, V> {
            key: #ident,
            inner: #option_bucket_some<#lt, V>,
        }
        #[automatically_derived]
        impl<#lt, V> #occupied_entry_t<#lt, #ident, V> for OccupiedEntry<#lt, V> {
            #[inline]
            fn key(&self) -> #ident {
                self.key
            }
            #[inline]
            fn get(&self) -> &V {
                #option_bucket_some::as_ref(&self.inner)
            }
            #[inline]
            fn get_mut(&mut self) -> &mut V {
                #option_bucket_some::as_mut(&mut self.inner)
            }
            #[inline]
            fn into_mut(self) -> &#lt mut V {
                #option_bucket_some::into_mut(self.inner)
            }
            #[inline]
            fn insert(&mut self, value: V) -> V {
                #option_bucket_some::replace(&mut self.inner, value)
            }
            #[inline]
            fn remove(self) -> V {
                #option_bucket_some::take(self.inner)
            }
        }
        #[inline]
        fn option_to_entry<V>(opt: &mut #option<V>, key: #ident) -> #entry_enum<'_, #map_storage<V>, #ident, V> {
            match #option_bucket_option::new(opt) {
                #option_bucket_option::Some(inner) => #entry_enum::Occupied(OccupiedEntry { key, inner }),
                #option_bucket_option::None(inner) => #entry_enum::Vacant(VacantEntry { key, inner }),
            }
        }
    })
}
"#

/-- `fixed-map-derive/src/unit_variants.rs`, piece 4 of 7. -/
def unitVariants4 : Emit.Toks := derive_rust! r#"
fn impl_map(
    cx: &Ctxt<'_>,
    en: &DataEnum,
    map_storage: &Ident,
    names: &[Ident],
) -> Result<TokenStream, ()> {
    let ident = &cx.ast.ident;
    let lt = &cx.lt;
    let vis = &cx.ast.vis;
    let iterator_t = cx.toks.iterator_t();
    let into_iterator_t = cx.toks.into_iterator_t();
    let array_into_iter = cx.toks.array_into_iter();
    let clone_t = cx.toks.clone_t();
    let copy_t = cx.toks.copy_t();
    let entry_enum = cx.toks.entry_enum();
    let eq_t = cx.toks.eq_t();
    let hash_t = cx.toks.hash_t();
    let hasher_t = cx.toks.hasher_t();
    let iterator_cmp = cx.toks.iterator_cmp();
    let iterator_flat_map = cx.toks.iterator_flat_map();
    let iterator_flatten = cx.toks.iterator_flatten();
    let iterator_partial_cmp = cx.toks.iterator_partial_cmp();
    let mem = cx.toks.mem();
    let option = cx.toks.option();
    let ord_t = cx.toks.ord_t();
    let ordering = cx.toks.ordering();
    let partial_eq_t = cx.toks.partial_eq_t();
    let partial_ord_t = cx.toks.partial_ord_t();
    let slice_iter = cx.toks.slice_iter();
    let slice_iter_mut = cx.toks.slice_iter_mut();
    let map_storage_t = cx.toks.map_storage_t();
    let variants = en.variants.iter().map(|v| &v.ident).collect::<Vec<_>>();
    let init = en
        .variants
        .iter()
        .map(|_| quote!(#option::None))
        .collect::<Vec<_>>();
    let count = en.variants.len();
    Ok(quote! {
        #[repr(transparent)]
        #vis struct #map_storage<V> {
            data: [#option<V>; #count],
        }
        #[automatically_derived]
        impl<V> #clone_t for #map_storage<V> where V: #clone_t {
            #[inline]
            fn clone(&self) -> Self {
                Self {
                    data: #clone_t::clone(&self.data),
                }
            }
        }
        #[automatically_derived]
        impl<V> #copy_t for #map_storage<V> where V: #copy_t {
        }
        #[automatically_derived]
        impl<V> #partial_eq_t for #map_storage<V> where V: #partial_eq_t {
            #[inline]
            fn eq(&self, other: &Self) -> bool {
                #partial_eq_t::eq(&self.data, &other.data)
            }
        }
        #[automatically_derived]
        impl<V> #eq_t for #map_storage<V> where V: #eq_t {}
        #[automatically_derived]
        impl<V> #hash_t for #map_storage<V> where V: #hash_t {
            #[inline]
            fn hash<H>(&self, state: &mut H)
            where
                H: #hasher_t,
            {
                #hash_t::hash(&self.data, state);
            }
        }
        #[automatically_derived]
        impl<V> #partial_ord_t for #map_storage<V> where V: #partial_ord_t {
            #[inline]
            fn partial_cmp(&self, other: &Self) -> Option<#ordering> {
                #iterator_partial_cmp(&self.data, &other.data)
            }
        }
        #[automatically_derived]
        impl<V> #ord_t for #map_storage<V> where V: #ord_t {
            #[inline]
            fn cmp(&self, other: &Self) -> #ordering {
                #iterator_cmp(&self.data, &other.data)
            }
        }
        #[automatically_derived]
        impl<V> #map_storage_t<#ident, V> for #map_storage<V> {
            type Iter<#lt> = #iterator_flat_map<
                #array_into_iter<(#ident, &#lt #option<V>), #count>,
                #option<(#ident, &#lt V)>,
                fn((#ident, &#lt #option<V>)) -> #option<(#ident, &#lt V)>
            > where V: #lt;
            type Keys<#lt> = #iterator_flatten<#array_into_iter<#option<#ident>, #count>> where V: #lt;
            type Values<#lt> = #iterator_flatten<#slice_iter<#lt, #option<V>>> where V: #lt;
            type IterMut<#lt> = #iterator_flat_map<
                #array_into_iter<(#ident, &#lt mut #option<V>), #count>,
                #option<(#ident, &#lt mut V)>,
                fn((#ident, &#lt mut #option<V>)) -> #option<(#ident, &#lt mut V)>
            > where V: #lt;
            type ValuesMut<#lt> = #iterator_flatten<#slice_iter_mut<#lt, #option<V>>> where V: #lt;
            type IntoIter = #iterator_flat_map<
                #array_into_iter<(#ident, #option<V>), #count>,
                #option<(#ident, V)>,
                fn((#ident, #option<V>)) -> #option<(#ident, V)>
            >;
            type Occupied<#lt> = OccupiedEntry<#lt, V> where V: #lt;
            type Vacant<#lt> = VacantEntry<#lt, V> where V: #lt;
            #[inline]
            fn empty() -> Self {
                Self {
                    data: [#(#init),*],
                }
            }
            #[inline]
            fn len(&self) -> usize {
                let [#(#names),*] = &self.data;
                0 #(+ usize::from(#option::is_some(#names)))*
            }
            #[inline]
            fn is_empty(&self) -> bool {
                let [#(#names),*] = &self.data;
                true #(&& #option::is_none(#names))*
            }
            #[inline]
            fn insert(&mut self, key: #ident, value: V) -> #option<V> {
                let [#(#names),*] = &mut self.data;
                match key {
                    #(#ident::#variants => #option::replace(#names, value),)*
                }
            }
            #[inline]
            fn contains_key(&self, value: #ident) -> bool {
                let [#(#names),*] = &self.data;
                match value {
                    #(#ident::#variants => #option::is_some(#names),)*
                }
            }
            #[inline]
            fn get(&self, value: #ident) -> #option<&V> {
                let [#(#names),*] = &self.data;
                match value {
                    #(#ident::#variants => #option::as_ref(#names),)*
                }
            }
            #[inline]
            fn get_mut(&mut self, value: #ident) -> #option<&mut V> {
                let [#(#names),*] = &mut self.data;
                match value {
                    #(#ident::#variants => #option::as_mut(#names),)*
                }
            }
            #[inline]
            fn remove(&mut self, value: #ident) -> #option<V> {
                let [#(#names),*] = &mut self.data;
                match value {
                    #(#ident::#variants => #mem::take(#names),)*
                }
            }
            #[inline]
            fn retain<F>(&mut self, mut func: F)
            where
                F: FnMut(#ident, &mut V) -> bool
            {
                let [#(#names),*] = &mut self.data;
                #(if let #option::Some(val) = #option::as_mut(#names) {
                    if !func(#ident::#variants, val) {
                        *#names = None;
                    }
                })*
            }
            #[inline]
            fn clear(&mut self) {
                self.data = [#(#init),*];
            }
            #[inline]
            fn iter(&self) -> Self::Iter<'_> {
                let [#(#names),*] = &self.data;
                #iterator_t::flat_map(#into_iterator_t::into_iter([#((#ident::#variants, #names)),*]), |(k, v)| #option::Some((k, #option::as_ref(v)?)))
            }
            #[inline]
            fn keys(&self) -> Self::Keys<'_> {
                let [#(#names),*] = &self.data;
                #iterator_t::flatten(#into_iterator_t::into_iter([#(if #names.is_some() { Some(#ident::#variants) } else { None }),*]))
            }
            #[inline]
            fn values(&self) -> Self::Values<'_> {
                #iterator_t::flatten(#into_iterator_t::into_iter(&self.data))
            }
            #[inline]
            fn iter_mut(&mut self) -> Self::IterMut<'_> {
                let [#(#names),*] = &mut self.data;
                #iterator_t::flat_map(#into_iterator_t::into_iter([#((#ident::#variants, #names)),*]), |(k, v)| #option::Some((k, #option::as_mut(v)?)))
            }
            #[inline]
            fn values_mut(&mut self) -> Self::ValuesMut<'_> {
                #iterator_t::flatten(#into_iterator_t::into_iter(&mut self.data))
            }
            #[inline]
            fn into_iter(self) -> Self::IntoIter {
                let [#(#names),*] = self.data;
                #iterator_t::flat_map(#into_iterator_t::into_iter([#((#ident::#variants, #names)),*]), |(k, v)| #option::Some((k, v?)))
            }
            #[inline]
            fn entry(&mut self, key: #ident) -> #entry_enum<'_, Self, #ident, V> {
                let [#(#names),*] = &mut self.data;
                match key {
                    #(#ident::#variants => option_to_entry(#names, key),)*
                }
            }
        }
    })
}
"#

/-- `fixed-map-derive/src/unit_variants.rs`, piece 5 of 7. -/
def unitVariants5 : Emit.Toks := derive_rust! r#"
fn impl_bitset(cx: &Ctxt<'_>, en: &DataEnum, set_storage: &Ident) -> Result<TokenStream, ()> {
    let (ty, _) = determine_bits(cx, en)?;
    let vis = &cx.ast.vis;
    let ident = &cx.ast.ident;
    let lt = cx.lt;
    let iterator_t = cx.toks.iterator_t();
    let count = en.variants.len();
    let into_iterator_t = cx.toks.into_iterator_t();
    let array_into_iter = cx.toks.array_into_iter();
    let clone_t = cx.toks.clone_t();
    let copy_t = cx.toks.copy_t();
    let eq_t = cx.toks.eq_t();
    let hash_t = cx.toks.hash_t();
    let iterator_flatten = cx.toks.iterator_flatten();
    let mem = cx.toks.mem();
    let option = cx.toks.option();
    let ord_t = cx.toks.ord_t();
    let ordering = cx.toks.ordering();
    let partial_eq_t = cx.toks.partial_eq_t();
    let partial_ord_t = cx.toks.partial_ord_t();
    let set_storage_t = cx.toks.set_storage_t();
    let raw_storage_t = cx.toks.raw_storage_t();
    let variants = en.variants.iter().map(|v| &v.ident).collect::<Vec<_>>();
    let numbers = en
        .variants
        .iter()
        .enumerate()
        .map(|(n, v)| LitInt::new(&format!("{}", 1u128 << n), v.span()))
        .collect::<Vec<_>>();
    Ok(quote! {
        #[inline]
        const fn to_bits(value: #ident) -> #ty {
            match value {
                #(#ident::#variants => #numbers,)*
            }
        }
        #[repr(transparent)]
        #[derive(#clone_t, #copy_t, #partial_eq_t, #eq_t, #hash_t)]
        #vis struct #set_storage {
            data: #ty,
        }
        #[automatically_derived]
        impl #partial_ord_t for #set_storage {
            #[inline]
            fn partial_cmp(&self, other: &Self) -> Option<#ordering> {
                #partial_ord_t::partial_cmp(&self.data, &other.data)
            }
        }
        #[automatically_derived]
        impl #ord_t for #set_storage {
            #[inline]
            fn cmp(&self, other: &Self) -> #ordering {
                #ord_t::cmp(&self.data, &other.data)
            }
        }
        #[automatically_derived]
        impl #set_storage_t<#ident> for #set_storage {
            type Iter<#lt> = #iterator_flatten<#array_into_iter<#option<#ident>, #count>>;
            type IntoIter = #iterator_flatten<#array_into_iter<#option<#ident>, #count>>;
            #[inline]
            fn empty() -> Self {
                Self {
                    data: 0,
                }
            }
            #[inline]
            fn len(&self) -> usize {
                <#ty>::count_ones(self.data) as usize
            }
            #[inline]
            fn is_empty(&self) -> bool {
                self.data == 0
            }
            #[inline]
            fn insert(&mut self, value: #ident) -> bool {
                let mask = to_bits(value);
                let update = self.data | mask;
                #mem::replace(&mut self.data, update) & mask == 0
            }
            #[inline]
            fn contains(&self, value: #ident) -> bool {
                self.data & to_bits(value) != 0
            }
            #[inline]
            fn remove(&mut self, value: #ident) -> bool {
                let mask = to_bits(value);
                let update = self.data & !mask;
                #mem::replace(&mut self.data, update) & mask != 0
            }
            #[inline]
            fn retain<F>(&mut self, mut f: F)
            where
                F: FnMut(#ident) -> bool
            {
                let mut update = 0;
                #(if self.data & #numbers != 0 {
                    if f(#ident::#variants) {
                        update |= #numbers;
                    }
                })*
                self.data = update;
            }
            #[inline]
            fn clear(&mut self) {
                self.data = 0;
            }
            #[inline]
            fn iter(&self) -> Self::Iter<'_> {
                #iterator_t::flatten(#into_iterator_t::into_iter([#(if self.data & #numbers != 0 { Some(#ident::#variants) } else { None }),*]))
            }
            #[inline]
            fn into_iter(self) -> Self::IntoIter {
                #iterator_t::flatten(#into_iterator_t::into_iter([#(if self.data & #numbers != 0 { Some(#ident::#variants) } else { None }),*]))
            }
        }
        #[automatically_derived]
        impl #raw_storage_t for #set_storage {
            type Value = #ty;
            #[inline]
            fn as_raw(&self) -> #ty {
                self.data
            }
            #[inline]
            fn from_raw(data: #ty) -> #set_storage {
                #set_storage { data }
            }
        }
    })
}
"#

/-- `fixed-map-derive/src/unit_variants.rs`, piece 6 of 7. -/
def unitVariants6 : Emit.Toks := derive_rust! r#"
fn determine_bits(cx: &Ctxt<'_>, en: &DataEnum) -> Result<(Ident, usize), ()> {
    Ok(match en.variants.len() {
        0..=8 => (Ident::new("u8", Span::call_site()), 8),
        9..=16 => (Ident::new("u16", Span::call_site()), 16),
        17..=32 => (Ident::new("u32", Span::call_site()), 32),
        33..=64 => (Ident::new("u64", Span::call_site()), 64),
        65..=128 => (Ident::new("u128", Span::call_site()), 128),
        other => {
            cx.span_error(
                cx.ast.ident.span(),
                format_args!("only support up until 128 variants, got {other}"),
            );
            return Err(());
        }
    })
}
"#

/-- `fixed-map-derive/src/unit_variants.rs`, piece 7 of 7. -/
def unitVariants7 : Emit.Toks := derive_rust! r#"
fn impl_set(
    cx: &Ctxt<'_>,
    en: &DataEnum,
    set_storage: &Ident,
    names: &[Ident],
) -> Result<TokenStream, ()> {
    let vis = &cx.ast.vis;
    let ident = &cx.ast.ident;
    let lt = cx.lt;
    let iterator_t = cx.toks.iterator_t();
    let count = en.variants.len();
    let into_iterator_t = cx.toks.into_iterator_t();
    let array_into_iter = cx.toks.array_into_iter();
    let clone_t = cx.toks.clone_t();
    let copy_t = cx.toks.copy_t();
    let eq_t = cx.toks.eq_t();
    let hash_t = cx.toks.hash_t();
    let iterator_cmp_bool = cx.toks.iterator_cmp_bool();
    let iterator_flatten = cx.toks.iterator_flatten();
    let iterator_partial_cmp_bool = cx.toks.iterator_partial_cmp_bool();
    let mem = cx.toks.mem();
    let option = cx.toks.option();
    let ord_t = cx.toks.ord_t();
    let ordering = cx.toks.ordering();
    let partial_eq_t = cx.toks.partial_eq_t();
    let partial_ord_t = cx.toks.partial_ord_t();
    let set_storage_t = cx.toks.set_storage_t();
    let variants = en.variants.iter().map(|v| &v.ident).collect::<Vec<_>>();
    let init = en
        .variants
        .iter()
        .map(|_| quote!(false))
        .collect::<Vec<_>>();
    Ok(quote! {
        #[repr(transparent)]
        #[derive(#clone_t, #copy_t, #partial_eq_t, #eq_t, #hash_t)]
        #vis struct #set_storage {
            data: [bool; #count],
        }
        #[automatically_derived]
        impl #partial_ord_t for #set_storage {
            #[inline]
            fn partial_cmp(&self, other: &Self) -> Option<#ordering> {
                #iterator_partial_cmp_bool(&self.data, &other.data)
            }
        }
        #[automatically_derived]
        impl #ord_t for #set_storage {
            #[inline]
            fn cmp(&self, other: &Self) -> #ordering {
                #iterator_cmp_bool(&self.data, &other.data)
            }
        }
        #[automatically_derived]
        impl #set_storage_t<#ident> for #set_storage {
            type Iter<#lt> = #iterator_flatten<#array_into_iter<#option<#ident>, #count>>;
            type IntoIter = #iterator_flatten<#array_into_iter<#option<#ident>, #count>>;
            #[inline]
            fn empty() -> Self {
                Self {
                    data: [#(#init),*],
                }
            }
            #[inline]
            fn len(&self) -> usize {
                let [#(#names),*] = &self.data;
                0 #(+ usize::from(*#names))*
            }
            #[inline]
            fn is_empty(&self) -> bool {
                let [#(#names),*] = &self.data;
                true #(&& !*#names)*
            }
            #[inline]
            fn insert(&mut self, value: #ident) -> bool {
                let [#(#names),*] = &mut self.data;
                match value {
                    #(#ident::#variants => !#mem::replace(#names, true),)*
                }
            }
            #[inline]
            fn contains(&self, value: #ident) -> bool {
                let [#(#names),*] = &self.data;
                match value {
                    #(#ident::#variants => *#names,)*
                }
            }
            #[inline]
            fn remove(&mut self, value: #ident) -> bool {
                let [#(#names),*] = &mut self.data;
                match value {
                    #(#ident::#variants => #mem::replace(#names, false),)*
                }
            }
            #[inline]
            fn retain<F>(&mut self, mut f: F)
            where
                F: FnMut(#ident) -> bool
            {
                let [#(#names),*] = &mut self.data;
                #(if *#names {
                    *#names = f(#ident::#variants);
                })*
            }
            #[inline]
            fn clear(&mut self) {
                self.data = [#(#init),*];
            }
            #[inline]
            fn iter(&self) -> Self::Iter<'_> {
                let [#(#names),*] = &self.data;
                #iterator_t::flatten(#into_iterator_t::into_iter([#(if *#names { Some(#ident::#variants) } else { None }),*]))
            }
            #[inline]
            fn into_iter(self) -> Self::IntoIter {
                let [#(#names),*] = &self.data;
                #iterator_t::flatten(#into_iterator_t::into_iter([#(if *#names { Some(#ident::#variants) } else { None }),*]))
            }
        }
    })
}
"#

/-- `fixed-map-derive/src/unit_variants.rs`. -/
def unitVariants : List Emit.Toks := [unitVariants1, unitVariants2, unitVariants3, unitVariants4, unitVariants5, unitVariants6, unitVariants7]

/-- `impl_storage` and `is_all_unit_variants`, `fixed-map-derive/src/lib.rs`, 50-73. -/
def lib : Emit.Toks := derive_rust! r#"
fn impl_storage(cx: &context::Ctxt<'_>) -> Result<TokenStream, ()> {
    let opts = attrs::parse(cx)?;
    if let Data::Enum(en) = &cx.ast.data {
        if is_all_unit_variants(en) {
            unit_variants::implement(cx, &opts, en)
        } else {
            any_variants::implement(cx, en)
        }
    } else {
        cx.span_error(cx.ast.span(), "named fields are not supported");
        Err(())
    }
}
fn is_all_unit_variants(en: &DataEnum) -> bool {
    for v in &en.variants {
        if !matches!(&v.fields, Fields::Unit) {
            return false;
        }
    }
    true
}
"#

end FixedMap.DeriveText.Text
