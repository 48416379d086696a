import Verif.Proofs.DeriveLoop

/-!
# The text of unit_variants.rs writes the tokens of the model

`implement`, run on any list of variants without payload, against EmitUnits.lean.
-/

set_option autoImplicit false
set_option linter.unusedSimpArgs false
set_option linter.unusedVariables false

namespace FixedMap.DeriveText

open Emit (Toks Cx Complex Field)

theorem units_set_run (cx : Cx) (data : Emit.Macro.Data) (en : List String) (R : Type) (err : Stop → R) (k : Val → Heap → R) (n : Nat) (F : Emit.Fields) (e : List String) {loops : Loops} (hL : loops = ⟨forLoop, forVariants⟩) :
    runFn unitProgram loops (n + 100) R err "implement" [.cx cx data, .opts false, .unitEnum en] ⟨[], F, e⟩ k =
      match Emit.Units.implement cx false en with
      | some t => k (.toks t) ⟨[], F, e⟩
      | none => err (.err (e ++ ["only support up until 128 variants, got " ++ Nat.repr en.length])) := by
  dexpose
  refine variants_rule hL (fun pre => ⟨[(List.range pre.length).map Emit.fieldName], F, e⟩) (by derive_rfl) ?_ ?_
  · rintro pre v k
    rw [List.length_append, List.length_singleton, List.range_succ, List.map_append]
    derive_rfl
  · rw [List.length_map]
    derive_rfl

/-! ## Bit sets -/

theorem ble_true {a b : Nat} (h : a ≤ b) : Nat.ble a b = true := Nat.ble_eq_true_of_le h

theorem ble_false {a b : Nat} (h : b < a) : Nat.ble a b = false := by
  cases e : Nat.ble a b
  · rfl
  · have := Nat.le_of_ble_eq_true e
    omega

/-- What `LitInt::new(&format!("{}", 1u128 << n), v.span())` prints. -/
def bitToks (i : Nat) : Toks :=
  match Nat.blt i 128 with
  | true => [Nat.repr (1 <<< i)]
  | false => ["?"]

theorem numbersOf_zipIdx (en : List String) (h : en.length ≤ 128) : Emit.Units.numbersOf en = some (en.zipIdx.map fun p => bitToks p.2) := by
  have key : ∀ l : List Nat, (∀ i ∈ l, i < 128) → (l.mapM fun n => (Emit.Units.shiftOne n).map fun b => [Nat.repr b]) = some (l.map bitToks) := by
    intro l
    induction l with
    | nil => intro _; rfl
    | cons i l ih =>
      intro hl
      have hi : i < 128 := hl i (by simp)
      have hb : bitToks i = [Nat.repr (1 <<< i)] := by
        unfold bitToks
        rw [show Nat.blt i 128 = true from ble_true hi]
      rw [List.mapM_cons, ih fun j hj => hl j (by simp [hj])]
      simp [Emit.Units.shiftOne, hi, hb]
  unfold Emit.Units.numbersOf
  rw [key _ fun i hi => by have := List.mem_range.mp hi; omega]
  have e : (en.zipIdx.map fun p => bitToks p.2) = (en.zipIdx.map (·.2)).map bitToks := by rw [List.map_map]; rfl
  rw [e, List.zipIdx_map_snd, List.range_eq_range']

/-- The template of `impl_bitset`. -/
def bitsetWith (cx : Cx) (en : List String) (set_storage ty : Toks) (numbers : List Toks) : Toks :=
  let count := Emit.usizeLit en.length
  let variants : List Toks := en.map fun v => [v]
  quote! "
        #[inline]
        const fn to_bits(value: #ident) -> #ty {
            match value {
                #(#ident::#variants => #numbers,)*
            }
        }

        #[repr(transparent)]
        #[derive(#clone_t, #copy_t, #partial_eq_t, #eq_t, #hash_t)]
        #vis struct #set_storage {
            data: #ty,
        }

        #[automatically_derived]
        impl #partial_ord_t for #set_storage {
            #[inline]
            fn partial_cmp(&self, other: &Self) -> Option<#ordering> {
                #partial_ord_t::partial_cmp(&self.data, &other.data)
            }
        }

        #[automatically_derived]
        impl #ord_t for #set_storage {
            #[inline]
            fn cmp(&self, other: &Self) -> #ordering {
                #ord_t::cmp(&self.data, &other.data)
            }
        }

        #[automatically_derived]
        impl #set_storage_t<#ident> for #set_storage {
            type Iter<#lt> = #iterator_flatten<#array_into_iter<#option<#ident>, #count>>;
            type IntoIter = #iterator_flatten<#array_into_iter<#option<#ident>, #count>>;

            #[inline]
            fn empty() -> Self {
                Self {
                    data: 0,
                }
            }

            #[inline]
            fn len(&self) -> usize {
                <#ty>::count_ones(self.data) as usize
            }

            #[inline]
            fn is_empty(&self) -> bool {
                self.data == 0
            }

            #[inline]
            fn insert(&mut self, value: #ident) -> bool {
                let mask = to_bits(value);
                let update = self.data | mask;
                #mem::replace(&mut self.data, update) & mask == 0
            }

            #[inline]
            fn contains(&self, value: #ident) -> bool {
                self.data & to_bits(value) != 0
            }

            #[inline]
            fn remove(&mut self, value: #ident) -> bool {
                let mask = to_bits(value);
                let update = self.data & !mask;
                #mem::replace(&mut self.data, update) & mask != 0
            }

            #[inline]
            fn retain<F>(&mut self, mut f: F)
            where
                F: FnMut(#ident) -> bool
            {
                let mut update = 0;

                #(if self.data & #numbers != 0 {
                    if f(#ident::#variants) {
                        update |= #numbers;
                    }
                })*

                self.data = update;
            }

            #[inline]
            fn clear(&mut self) {
                self.data = 0;
            }

            #[inline]
            fn iter(&self) -> Self::Iter<'_> {
                #iterator_t::flatten(#into_iterator_t::into_iter([#(if self.data & #numbers != 0 { Some(#ident::#variants) } else { None }),*]))
            }

            #[inline]
            fn into_iter(self) -> Self::IntoIter {
                #iterator_t::flatten(#into_iterator_t::into_iter([#(if self.data & #numbers != 0 { Some(#ident::#variants) } else { None }),*]))
            }
        }

        #[automatically_derived]
        impl #raw_storage_t for #set_storage {
            type Value = #ty;

            #[inline]
            fn as_raw(&self) -> #ty {
                self.data
            }

            #[inline]
            fn from_raw(data: #ty) -> #set_storage {
                #set_storage { data }
            }
        }"

/-- Go on at a comparison. -/
macro "dbranch " e:term:max : tactic => `(tactic| (dexpose; rw [$e:term]))

/-- The template of `implement`. -/
def unitsWith (cx : Cx) (en : List String) (set_storage_impl : Toks) : Toks :=
  let map_storage : Toks := ["__MapStorage"]
  let set_storage : Toks := ["__SetStorage"]
  let names := (List.range en.length).map Emit.fieldName
  let entry_impl := Emit.Units.impl_entry cx map_storage
  let map_storage_impl := Emit.Units.impl_map cx en map_storage names
  quote! "
        const _: () = {
            #entry_impl
            #map_storage_impl
            #set_storage_impl

            #[automatically_derived]
            impl #key_t for #ident {
                type MapStorage<V> = #map_storage<V>;
                type SetStorage = #set_storage;
            }
        };"

theorem unitsWith_eq (cx : Cx) (en : List String) : Emit.Units.implement cx true en = (Emit.Units.impl_bitset cx en ["__SetStorage"]).map (unitsWith cx en) := rfl

theorem unitsWith_some (cx : Cx) (en : List String) (ty : Toks) (h1 : Emit.Units.determine_bits en = some ty) (h2 : en.length ≤ 128) :
    Emit.Units.implement cx true en = some (unitsWith cx en (bitsetWith cx en ["__SetStorage"] ty (en.zipIdx.map fun p => bitToks p.2))) := by
  rw [unitsWith_eq]
  unfold Emit.Units.impl_bitset
  rw [h1, numbersOf_zipIdx en h2]
  rfl

/-- The names of the fields. -/
macro "dnames " hL:ident F:ident e:ident : tactic =>
  `(tactic| (dexpose
             refine variants_rule $hL (fun pre => ⟨[(List.range pre.length).map Emit.fieldName], $F, $e⟩) (by derive_rfl)
               (by rintro pre v k; rw [List.length_append, List.length_singleton, List.range_succ, List.map_append]; derive_rfl) ?_
             rw [List.length_map]))

set_option maxHeartbeats 2000000 in
theorem units_bitset_run (cx : Cx) (data : Emit.Macro.Data) (en : List String) (R : Type) (err : Stop → R) (k : Val → Heap → R) (n : Nat) (F : Emit.Fields) (e : List String)
    {loops : Loops} (hL : loops = ⟨forLoop, forVariants⟩) :
    runFn unitProgram loops (n + 100) R err "implement" [.cx cx data, .opts true, .unitEnum en] ⟨[], F, e⟩ k =
      match Emit.Units.implement cx true en with
      | some t => k (.toks t) ⟨[], F, e⟩
      | none => err (.err (e ++ ["only support up until 128 variants, got " ++ Nat.repr en.length])) := by
  by_cases h8 : en.length ≤ 8
  · rw [unitsWith_some cx en ["u8"] (by unfold Emit.Units.determine_bits; simp [h8]) (by omega)]
    dnames hL F e
    dbranch (ble_true h8)
    derive_rfl
  by_cases h16 : en.length ≤ 16
  · rw [unitsWith_some cx en ["u16"] (by unfold Emit.Units.determine_bits; simp [h8, h16]) (by omega)]
    dnames hL F e
    dbranch (ble_false (show 8 < en.length by omega))
    dbranch (ble_true (show 9 ≤ en.length by omega))
    dbranch (ble_true h16)
    derive_rfl
  by_cases h32 : en.length ≤ 32
  · rw [unitsWith_some cx en ["u32"] (by unfold Emit.Units.determine_bits; simp [h8, h16, h32]) (by omega)]
    dnames hL F e
    dbranch (ble_false (show 8 < en.length by omega))
    dbranch (ble_true (show 9 ≤ en.length by omega))
    dbranch (ble_false (show 16 < en.length by omega))
    dbranch (ble_true (show 17 ≤ en.length by omega))
    dbranch (ble_true h32)
    derive_rfl
  by_cases h64 : en.length ≤ 64
  · rw [unitsWith_some cx en ["u64"] (by unfold Emit.Units.determine_bits; simp [h8, h16, h32, h64]) (by omega)]
    dnames hL F e
    dbranch (ble_false (show 8 < en.length by omega))
    dbranch (ble_true (show 9 ≤ en.length by omega))
    dbranch (ble_false (show 16 < en.length by omega))
    dbranch (ble_true (show 17 ≤ en.length by omega))
    dbranch (ble_false (show 32 < en.length by omega))
    dbranch (ble_true (show 33 ≤ en.length by omega))
    dbranch (ble_true h64)
    derive_rfl
  by_cases h128 : en.length ≤ 128
  · rw [unitsWith_some cx en ["u128"] (by unfold Emit.Units.determine_bits; simp [h8, h16, h32, h64, h128]) (by omega)]
    dnames hL F e
    dbranch (ble_false (show 8 < en.length by omega))
    dbranch (ble_true (show 9 ≤ en.length by omega))
    dbranch (ble_false (show 16 < en.length by omega))
    dbranch (ble_true (show 17 ≤ en.length by omega))
    dbranch (ble_false (show 32 < en.length by omega))
    dbranch (ble_true (show 33 ≤ en.length by omega))
    dbranch (ble_false (show 64 < en.length by omega))
    dbranch (ble_true (show 65 ≤ en.length by omega))
    dbranch (ble_true h128)
    derive_rfl
  have hn : Emit.Units.determine_bits en = none := by unfold Emit.Units.determine_bits; simp [h8, h16, h32, h64, h128]
  have hi : Emit.Units.implement cx true en = none := by rw [unitsWith_eq]; unfold Emit.Units.impl_bitset; rw [hn]; rfl
  rw [hi]
  dnames hL F e
  dbranch (ble_false (show 8 < en.length by omega))
  dbranch (ble_true (show 9 ≤ en.length by omega))
  dbranch (ble_false (show 16 < en.length by omega))
  dbranch (ble_true (show 17 ≤ en.length by omega))
  dbranch (ble_false (show 32 < en.length by omega))
  dbranch (ble_true (show 33 ≤ en.length by omega))
  dbranch (ble_false (show 64 < en.length by omega))
  dbranch (ble_true (show 65 ≤ en.length by omega))
  dbranch (ble_false (show 128 < en.length by omega))
  derive_rfl

end FixedMap.DeriveText
