import Verif.Model.RustKey
import Verif.Spec.RustSource

/-!
# Key types as they are written, and what running the text of their storages means
-/

set_option autoImplicit false

namespace FixedMap.Rust

def primTy : Prim → Toks
  | .char => ["char"]
  | .u8 => ["u8"]
  | .u32 => ["u32"]
  | .u64 => ["u64"]
  | .u128 => ["u128"]
  | .usize => ["usize"]
  | .i8 => ["i8"]
  | .i32 => ["i32"]
  | .i64 => ["i64"]
  | .i128 => ["i128"]
  | .isize => ["isize"]
  | .str => ["&", "'static", "str"]
  | .bytes => ["&", "'static", "[", "u8", "]"]

/-- How a key type is written; `user` names the enums. -/
def rustTy (user : KeyTy → Toks) : KeyTy → Toks
  | .bool => ["bool"]
  | .unit => ["(", ")"]
  | .opt κ => "Option" :: "<" :: (rustTy user κ ++ [">"])
  | .prim p => primTy p
  | κ => user κ

/-- The key types of the library itself; their payloads may be enums. -/
def ofLibrary : KeyTy → Bool
  | .bool | .unit | .opt _ | .prim _ => true
  | _ => false

/-- The parameters and the condition of the `impl` of `Key`. -/
def implParams : KeyTy → List String
  | .opt _ => ["K"]
  | _ => []

def implCfg : KeyTy → Toks
  | .prim _ => ["cfg", "(", "feature", "=", "\"hashbrown", ")"]
  | _ => []

/-- All but the hash tables are written with the buckets of src/option_bucket.rs. -/
def withBucket (P B : Prog) : KeyTy → Prog
  | .prim _ => P
  | _ => P.and B

section
variable (H : HashbrownApi) (V : Type)

/-- The functions of `P`, run by the interpreter, are those of the model's storage for the key type `κ`. -/
def MapSource : KeyTy → Prog → Prop
  | .bool, P => ∀ {K σ : Type} (M : MapStorage K V) (n : Nat) (c : V → V) (veq : V → V → Bool) (f : σ → Bool → V → σ × V × Option Bool) (d : Val (MX M)),
    MapText P (n + 40) (mapStorage H V .bool) (boolRep M) (mapForeign M c veq d decBool f) (mapIters M) c veq f
  | .unit, P => ∀ {K σ : Type} (M : MapStorage K V) (n : Nat) (c : V → V) (veq : V → V → Bool) (f : σ → Unit → V → σ × V × Option Bool),
    MapText P (n + 40) (mapStorage H V .unit) (unitRep M) (mapForeign M c veq .unit decUnit f) (mapIters M) c veq f
  -- the inner storage is foreign, and that of the model
  | .opt κ, P => ∀ {σ : Type} (n : Nat) (c : V → V) (veq : V → V → Bool) (f : σ → Option κ.Key → V → σ × V × Option Bool) (d : Val (MX (mapStorage H V κ))),
    MapText P (n + 40) (mapStorage H V (.opt κ)) (optRep (mapStorage H V κ)) (mapForeign (mapStorage H V κ) c veq d (decOpt (mapStorage H V κ)) f) (mapIters (mapStorage H V κ)) c veq f
  | .prim p, P => ∀ {σ : Type} (n : Nat) (c : V → V) (veq : V → V → Bool) (f : σ → p.Key → V → σ × V × Option Bool),
    MapText P (n + 40) (mapStorage H V (.prim p)) (hashRep (H p.Key V)) (hashForeign (H p.Key V) c veq f) (hashIters (H p.Key V)) c veq f
  | _, _ => False

def SetSource : KeyTy → Prog → Prop
  | .bool, P => ∀ {T σ : Type} (M : SetStorage T) (n : Nat) (f : σ → Bool → σ × Option Bool) (d : Val (SX M)),
    SetText P (n + 40) (setStorage H .bool) (boolSetRep M) (setForeign M d decBool f) (setIters M) f
  | .unit, P => ∀ {T σ : Type} (M : SetStorage T) (n : Nat) (f : σ → Unit → σ × Option Bool),
    SetText P (n + 40) (setStorage H .unit) (unitSetRep M) (setForeign M .unit decUnit f) (setIters M) f
  | .opt κ, P => ∀ {σ : Type} (n : Nat) (f : σ → Option κ.Key → σ × Option Bool) (d : Val (SX (setStorage H κ))),
    SetText P (n + 40) (setStorage H (.opt κ)) (optSetRep (setStorage H κ)) (setForeign (setStorage H κ) d (decOptSet (setStorage H κ)) f) (setIters (setStorage H κ)) f
  | .prim p, P => ∀ {σ : Type} (n : Nat) (f : σ → p.Key → σ × Option Bool),
    SetText P (n + 40) (setStorage H (.prim p)) (hashSetRep (H p.Key Unit)) (hashSetForeign (H p.Key Unit) f) (hashSetIters (H p.Key Unit)) f
  | _, _ => False

end

end FixedMap.Rust
