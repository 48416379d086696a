import Verif.Model.DeriveSyntax

/-!
# The text of attrs.rs, symbol.rs and the paths of context.rs

As they are, without comments and empty lines.
-/

set_option autoImplicit false
set_option maxRecDepth 4000

namespace FixedMap.DeriveText.Text

/-- `fixed-map-derive/src/attrs.rs` -/
def attrs : Emit.Toks := derive_rust! r#"
use crate::context::{Ctxt, Opts};
use crate::symbol;
pub(crate) fn parse(cx: &Ctxt<'_>) -> Result<Opts, ()> {
    let mut opts = Opts::default();
    for attr in &cx.ast.attrs {
        if attr.path() != symbol::KEY {
            continue;
        }
        let result = attr.parse_nested_meta(|input| {
            if input.path == symbol::BITSET {
                opts.bitset = Some(input.input.span());
            } else {
                return Err(syn::Error::new(input.input.span(), "Unsupported attribute"));
            }
            Ok(())
        });
        if let Err(error) = result {
            cx.error(error);
        }
    }
    Ok(opts)
}
"#

/-- The constants and comparisons of `fixed-map-derive/src/symbol.rs`, 8-33. -/
def symbol : Emit.Toks := derive_rust! r#"
pub(crate) const KEY: Symbol = Symbol("key");
pub(crate) const BITSET: Symbol = Symbol("bitset");
impl PartialEq<Symbol> for Ident {
    fn eq(&self, word: &Symbol) -> bool {
        self == word.0
    }
}
impl PartialEq<Symbol> for &Ident {
    fn eq(&self, word: &Symbol) -> bool {
        *self == word.0
    }
}
impl PartialEq<Symbol> for Path {
    fn eq(&self, word: &Symbol) -> bool {
        self.is_ident(word.0)
    }
}
impl PartialEq<Symbol> for &Path {
    fn eq(&self, word: &Symbol) -> bool {
        self.is_ident(word.0)
    }
}
"#

/-- `leading_path` and `suffixed` of `fixed-map-derive/src/context.rs`, 91-115. -/
def pathFns : Emit.Toks := derive_rust! r#"
pub(crate) fn leading_path<const N: usize>(parts: [&'static str; N]) -> Path {
    let mut path = Path {
        leading_colon: Some(<syn::Token![::]>::default()),
        segments: syn::punctuated::Punctuated::default(),
    };
    for part in parts {
        let segment = syn::PathSegment::from(syn::Ident::new(part, Span::call_site()));
        path.segments.push(segment);
    }
    path
}
fn suffixed<const N: usize>(prefix: &Path, parts: [&'static str; N]) -> Path {
    let mut path = prefix.clone();
    for part in parts {
        let segment = syn::PathSegment::from(syn::Ident::new(part, Span::call_site()));
        path.segments.push(segment);
    }
    path
}
"#

end FixedMap.DeriveText.Text
