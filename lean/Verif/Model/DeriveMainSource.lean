import Verif.Model.DeriveSyntax

/-!
# The text of storage_derive and of the methods of Ctxt

As they are, without comments and empty lines.
-/

set_option autoImplicit false
set_option maxRecDepth 4000

namespace FixedMap.DeriveText.Text

/-- The `impl` of `Ctxt` in `fixed-map-derive/src/context.rs`, 133-173. -/
def ctxt : Emit.Toks := derive_rust! r#"
impl<'a> Ctxt<'a> {
    pub(crate) fn new(tokens: &'a Toks<'a>, ast: &'a DeriveInput, lt: &'a syn::Lifetime) -> Self {
        Self {
            errors: RefCell::new(Vec::new()),
            toks: tokens,
            ast,
            lt,
        }
    }
    pub(crate) fn error(&self, error: syn::Error) {
        self.errors.borrow_mut().push(error);
    }
    pub(crate) fn span_error(&self, span: Span, message: impl fmt::Display) {
        self.error(syn::Error::new(span, message));
    }
    pub(crate) fn into_errors(self) -> Vec<syn::Error> {
        self.errors.into_inner()
    }
    pub(crate) fn fallible<T, O>(&self, op: T) -> Result<O, ()>
    where
        T: FnOnce() -> Result<O, syn::Error>,
    {
        match op() {
            Ok(output) => Ok(output),
            Err(error) => {
                self.errors.borrow_mut().push(error);
                Err(())
            }
        }
    }
}
"#

/-- `storage_derive` of `fixed-map-derive/src/lib.rs`, 30-48. -/
def storageDerive : Emit.Toks := derive_rust! r#"
#[proc_macro_derive(Key, attributes(key))]
pub fn storage_derive(input: proc_macro::TokenStream) -> proc_macro::TokenStream {
    let ast = syn::parse_macro_input!(input as DeriveInput);
    let lt = syn::Lifetime::new("'a", ast.span());
    let crate_prefix = context::leading_path(["fixed_map"]);
    let tokens = context::Toks::new(&crate_prefix);
    let cx = context::Ctxt::new(&tokens, &ast, &lt);
    let result = impl_storage(&cx);
    if let Ok(g) = result {
        return g.into();
    }
    let errors = cx.into_errors();
    let compile_errors = errors.iter().map(syn::Error::to_compile_error);
    quote!(#(#compile_errors)*).into()
}
"#

end FixedMap.DeriveText.Text
