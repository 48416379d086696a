import Verif.Proofs.ImplsAccepted
import Verif.Proofs.ImplsAcceptedUnits
import Verif.Proofs.PathsMacro
import Verif.Spec.ImplsMacro
import Verif.Properties.Macro
import Verif.Properties.TokenNames

/-!
# C92: the emitted impls have the items that their traits ask for

Whatever the enum is: each emitted impl has every item of its trait and no other one, functions have the signature that the trait says, associated types have the impls that the trait asks for, and
no trait is implemented twice for one type.
-/

set_option autoImplicit false
set_option maxRecDepth 20000

namespace FixedMap.Impls

open FixedMap.Emit (Toks Cx Variant implement)
open FixedMap.Emit.Macro (Ast Env storageDerive implStorage)

/-- Of the emitted code: all impls are finished and accepted, and the enum is a key. -/
structure Good (E : String) (ts : Toks) : Prop where
  finished : Finished ts
  accepted : Accepted (read ts)
  key : ∃ i ∈ read ts, i.target = some (⟨["fixed_map", "Key"], []⟩, [E])

theorem read_of {ts : Toks} {L : List Impl} (h : Reads ⟨.out, L.reverse, [], [], []⟩ start ts) : read ts = L ∧ Finished ts := by
  unfold Reads at h
  rw [read, Finished, h]
  exact ⟨List.reverse_reverse _, rfl⟩

theorem emit_read {cx : Cx} {E : String} (hx : Written cx E) {vs : List (Variant × Nat)} (hv : ∀ x ∈ vs, Calm [x.1.ident]) (he : ∀ x ∈ vs, ∀ e, x.1.element = some e → Calm e) :
    read (Emit.emit cx (Paths.Any.fieldsAt cx vs)) = Any.impls [E] ∧ Finished (Emit.emit cx (Paths.Any.fieldsAt cx vs)) := read_of (Any.reads_emit hx hv he rfl)

theorem good_any {E : String} (hE : E ∉ special) {ts : Toks} (h : read ts = Any.impls [E] ∧ Finished ts) : Good E ts := by
  refine ⟨h.2, ?_, ?_⟩
  · rw [h.1]; exact Any.accepted hE
  · rw [h.1]
    exact ⟨Any.key_Enum [E], by simp [Any.impls], Any.target_key_Enum hE⟩

theorem any_read (cx : Cx) (E : String) (vs : List Variant) (hx : Written cx E) (hv : WrittenVs vs) : read (implement cx vs) = Any.impls [E] ∧ Finished (implement cx vs) := by
  have hf : Emit.fieldsOf cx vs = Paths.Any.fieldsAt cx vs.zipIdx := by
    unfold Emit.fieldsOf Paths.Any.fieldsAt
    congr 1
    conv => lhs; rw [← List.zipIdx_map_fst 0 vs]
    rw [List.map_map]
    rfl
  unfold implement
  rw [hf]
  exact emit_read hx (fun x hx' => hv.idents _ (List.fst_mem_of_mem_zipIdx hx')) (fun x hx' => hv.elements _ (List.fst_mem_of_mem_zipIdx hx'))

theorem units_read (cx : Cx) (E : String) (bitset : Bool) (en : List String) (ts : Toks) (hx : Written cx E) (hv : ∀ v ∈ en, Calm [v]) (h : Emit.Units.implement cx bitset en = some ts) :
    read ts = Units.implsOf E bitset en ∧ Finished ts := read_of (Units.reads_implement hx hv h rfl)

/-- C92, enums with payloads. -/
theorem C92_any (cx : Cx) (E : String) (vs : List Variant) (hx : Written cx E) (hv : WrittenVs vs) : Good E (implement cx vs) := good_any hx.name (any_read cx E vs hx hv)

/-- C92, enums without payloads, with or without `#[key(bitset)]`. -/
theorem C92_units (cx : Cx) (E : String) (bitset : Bool) (en : List String) (ts : Toks) (hx : Written cx E) (hv : ∀ v ∈ en, Calm [v]) (h : Emit.Units.implement cx bitset en = some ts) :
    Good E ts := by
  have hr := units_read cx E bitset en ts hx hv h
  have hn := count_special en.length
  cases bitset with
  | false =>
    have hr' : read ts = Units.impls [E] [Nat.repr en.length ++ "usize"] := hr.1
    refine ⟨hr.2, ?_, ?_⟩
    · rw [hr']; exact Units.accepted hx.name hn hn
    · rw [hr']
      exact ⟨Units.key_Enum [E], by simp [Units.impls], Units.target_key_Enum hx.name hn hn⟩
  | true =>
    obtain ⟨ty, hty⟩ : ∃ ty, Emit.Units.determine_bits en = some ty := by
      simp only [Emit.Units.implement, ↓reduceIte, Option.map_eq_some_iff, Emit.Units.impl_bitset, Option.bind_eq_some_iff] at h
      obtain ⟨t, ⟨ty, hty, -⟩, -⟩ := h
      exact ⟨ty, hty⟩
    obtain ⟨w, rfl, hw⟩ := Units.word_special hty
    have hr' : read ts = Units.bitsetImpls [E] [Nat.repr en.length ++ "usize"] [w] := by
      rw [hr.1, Units.implsOf, hty]; rfl
    refine ⟨hr.2, ?_, ?_⟩
    · rw [hr']; exact Units.accepted_bitset hx.name hn hw
    · rw [hr']
      exact ⟨Units.key_Enum [E], by simp [Units.bitsetImpls], Units.target_key_Enum hx.name hn hw⟩

theorem good_units {cx : Cx} {E : String} (hx : Written cx E) {st : Emit.Macro.State} {vs : List Emit.Macro.Variant} (hv : ∀ v ∈ vs, Calm [v.ident]) {ts : Toks}
    (h : Emit.Macro.units cx st vs = .ok ts) : Good E ts := by
  unfold Emit.Macro.units at h
  generalize ho : Emit.Units.implement cx st.bitset (vs.map fun v => v.ident) = o at h
  cases o with
  | none => cases h
  | some ts' =>
    cases h
    refine C92_units cx E _ _ _ hx ?_ ho
    intro v hv'
    obtain ⟨w, hw, rfl⟩ := List.mem_map.mp hv'
    exact hv w hw

theorem good_payloads {cx : Cx} {E : String} (hx : Written cx E) {st : Emit.Macro.State} {vs : List Emit.Macro.Variant} (hv : ∀ v ∈ vs, Calm [v.ident])
    (he : ∀ v ∈ vs, ∀ e, v.fields = .unnamed [e] → Calm e) {ts : Toks} (h : Emit.Macro.any cx st vs = .ok ts) : Good E ts := by
  unfold Emit.Macro.any at h
  generalize ho : Emit.Macro.loop cx 0 vs ⟨[], []⟩ st.errors = o at h
  match o, ho, h with
  | some (F, errs), ho, h =>
    obtain ⟨l, hF, hl⟩ := Paths.loop_fields cx vs 0 [] _ _ _ ho
    have h : Emit.emit cx F = ts := Emit.Macro.Result.ok.inj h
    rw [← h, hF]
    refine good_any hx.name (emit_read hx ?_ ?_)
    · intro x hx'
      obtain ⟨v, hv', h1, -⟩ := hl x hx'
      rw [h1]
      exact hv v hv'
    · intro x hx' e hxe
      obtain ⟨v, hv', -, h2⟩ := hl x hx'
      exact he v hv' e (h2 e hxe)

/-- C92, the whole macro: if it accepts an item, its output is good. -/
theorem C92_macro (env : Env) (ast : Ast) (E : String) (hx : WrittenItem ast E) (ts : Toks) (h : implStorage env ⟨ast.ident, ast.vis, ["'a"]⟩ ast = .ok ts) : Good E ts := by
  have hin : Written ⟨ast.ident, ast.vis, ["'a"]⟩ E := ⟨hx.ident, hx.name, hx.vis, rfl⟩
  unfold implStorage at h
  dsimp only at h
  split at h
  · rename_i vs hd
    split at h
    · exact good_units hin (hx.idents vs hd) h
    · exact good_payloads hin (hx.idents vs hd) (hx.elements vs hd) h
  · cases h

/-- C92: if it does not, there are only calls of `compile_error!`, and no impls at all. -/
theorem C92_errors (env : Env) (hl : ∀ m, Calm [env.lit m]) (ast : Ast) (errors : List String) (h : implStorage env ⟨ast.ident, ast.vis, ["'a"]⟩ ast = .err errors) (ts : Toks)
    (ht : storageDerive env ast = some ts) : read ts = [] ∧ Finished ts := by
  unfold storageDerive at ht
  rw [h] at ht
  cases ht
  refine read_of (L := []) ?_
  rw [Emit.Scan.flatten_map, ← List.append_nil (List.flatMap _ _)]
  refine reads_rep _ rfl fun m _ r hr => ?_
  have hm := hl m _ (List.mem_singleton.mpr rfl)
  unfold start at hr ⊢
  simp only [Emit.Macro.toCompileError, List.cons_append, List.nil_append, readLit, reads_calm hm, quiet_out]
  exact hr

/-- C92: which impls there are does not depend on the variants of an enum with payloads. -/
theorem C92_same (cx : Cx) (E : String) (vs ws : List Variant) (hx : Written cx E) (hv : WrittenVs vs) (hw : WrittenVs ws) : read (implement cx vs) = read (implement cx ws) := by
  rw [(any_read cx E vs hx hv).1, (any_read cx E ws hx hw).1]

/-- C92, what being accepted means for a function: nothing that the trait asks for is missing. -/
theorem C92_complete {L : List Impl} (h : Accepted L) {i : Impl} (hi : i ∈ L) {r : TraitRef} {self : Toks} (ht : i.target = some (r, self)) :
    ∃ tr ∈ traits, tr.path = r.path ∧ ∀ want ∈ tr.items, want.head? = some "fn" → ∃ item ∈ i.items, nameOf item = nameOf want ∧ SigOk i tr r.args self item want := by
  have hk := h.impls i hi
  unfold ImplOk at hk
  rw [ht] at hk
  obtain ⟨tr, htr, hp, -, -, hperm, hk⟩ := hk
  refine ⟨tr, htr, hp, fun want hw hf => ?_⟩
  obtain ⟨item, hit, hn⟩ := List.mem_map.mp (hperm.mem_iff.mpr (List.mem_map_of_mem (f := nameOf) hw))
  obtain ⟨k1, k2, -⟩ := hk item hit want hw hn
  exact ⟨item, hit, hn, k2 (k1.trans hf)⟩

/-! ## Concrete cases -/

/-- `pub(crate) enum Part { One, Two(bool), Three(Option<module::Sub>) }` -/
theorem exImpls_written : Written Emit.exNames "Part" := ⟨rfl, by decide, by unfold Calm; decide, rfl⟩

theorem exImpls_variants : WrittenVs Emit.exNamesVs := by
  constructor
  · unfold Calm; decide
  · intro v hv e he
    simp only [Emit.exNamesVs, List.mem_cons, List.not_mem_nil, or_false] at hv
    rcases hv with rfl | rfl | rfl <;> cases he <;> (unfold Calm; decide)

example : Good "Part" (implement Emit.exNames Emit.exNamesVs) := C92_any _ _ _ exImpls_written exImpls_variants

/-- There are 37 impls, and 15 for a unit enum with a bitset. -/
example : (read (implement Emit.exNames Emit.exNamesVs)).length = 37 := by rw [(any_read _ _ _ exImpls_written exImpls_variants).1]; rfl

example (ts : Toks) (h : Emit.Units.implement Emit.exNames true ["A", "B"] = some ts) : Good "Part" ts ∧ (read ts).length = 15 := by
  have hv : ∀ v ∈ ["A", "B"], Calm [v] := by unfold Calm; decide
  refine ⟨C92_units _ _ _ _ _ exImpls_written hv h, ?_⟩
  rw [(units_read _ _ _ _ _ exImpls_written hv h).1]; rfl

example : (Emit.Units.implement Emit.exNames true ["A", "B"]).isSome = true := by rfl

/-- How tokens are read. -/
example : read (quote! "struct X { a: bool } #[automatically_derived] impl<V> ::core::iter::Iterator for X<V> where V: Copy { type Item = V; #[inline] fn next(&mut self) -> Option<V> { if a { b } else { c } } } impl X { }") =
    [⟨quote! "<V> ::core::iter::Iterator for X<V>", [quote! "type Item = V", quote! "fn next(&mut self) -> Option<V>"]⟩, ⟨["X"], []⟩] := by decide +kernel

/-- Names of parameters do not matter, and `Self::Item` can be written as what it is. -/
example : SigOk ⟨[], [quote! "type Item = (E, bool)"]⟩ trIterator [] ["X"] (quote! "fn next(&mut self) -> ::core::option::Option<(E, bool)>") (quote! "fn next(&mut self) -> Option<Self::Item>") := by
  unfold SigOk; decide +kernel
example : SigOk ⟨[], []⟩ trSetStorage [["E"]] ["X"] (quote! "fn insert(&mut self, mut v: E) -> bool") (quote! "fn insert(&mut self, value: T) -> bool") := by unfold SigOk; decide +kernel

/-- Types, `&` and `mut` do. -/
example : ¬SigOk ⟨[], [quote! "type Item = E"]⟩ trIterator [] ["X"] (quote! "fn next(&self) -> Option<E>") (quote! "fn next(&mut self) -> Option<Self::Item>") := by unfold SigOk; decide +kernel
example : ¬SigOk ⟨[], [quote! "type Item = E"]⟩ trIterator [] ["X"] (quote! "fn next(&mut self) -> E") (quote! "fn next(&mut self) -> Option<Self::Item>") := by unfold SigOk; decide +kernel
example : ¬SigOk ⟨[], []⟩ trSetStorage [["E"]] ["X"] (quote! "fn insert(&mut self, value: bool) -> bool") (quote! "fn insert(&mut self, value: T) -> bool") := by unfold SigOk; decide +kernel

/-- What rustc rejects: an item is missing, or there is one more. -/
example (L : List Impl) : ¬ImplOk L ⟨quote! "::core::iter::Iterator for X", [quote! "type Item = bool"]⟩ := by
  intro h
  obtain ⟨tr, htr, hp, -, -, hperm, -⟩ : ∃ tr ∈ traits, tr.path = ["core", "iter", "Iterator"] ∧ _ := h
  simp only [traits, List.mem_cons, List.not_mem_nil, or_false] at htr
  rcases htr with rfl | rfl | rfl | rfl | rfl | rfl | rfl | rfl | rfl | rfl | rfl | rfl | rfl | rfl | rfl <;> first | exact absurd hp (by decide) | exact absurd hperm.length_eq (by decide)

example (L : List Impl) : ¬ImplOk L ⟨quote! "::core::marker::Copy for X", [quote! "fn copy(&self) -> Self"]⟩ := by
  intro h
  obtain ⟨tr, htr, hp, -, -, hperm, -⟩ : ∃ tr ∈ traits, tr.path = ["core", "marker", "Copy"] ∧ _ := h
  simp only [traits, List.mem_cons, List.not_mem_nil, or_false] at htr
  rcases htr with rfl | rfl | rfl | rfl | rfl | rfl | rfl | rfl | rfl | rfl | rfl | rfl | rfl | rfl | rfl <;> first | exact absurd hp (by decide) | exact absurd hperm.length_eq (by decide)

/-- Twice the same. -/
example : ¬Accepted [⟨quote! "::core::cmp::Eq for X", []⟩, ⟨quote! "::core::cmp::Eq for X", []⟩] := by
  intro h
  exact (List.pairwise_cons.mp h.once).1 _ (List.mem_singleton.mpr rfl) _ _ _ rfl rfl rfl

/-- An iterator over something else than what the trait says does not provide it. -/
example : ¬Provides [⟨quote! "::core::iter::Iterator for X", [quote! "type Item = bool"]⟩] ⟨["core", "iter", "Iterator"], [quote! "Item = E"]⟩ ["X"] := by
  rintro ⟨j, hj, r, ht, -, -, h⟩
  rw [List.mem_singleton] at hj
  subst hj
  exact absurd (h _ (List.mem_singleton.mpr rfl) "Item" ["E"] rfl) (by decide +kernel)

/-- Items of adapters of core. -/
example : coreItem (quote! "::core::iter::FlatMap<::core::array::IntoIter<(E, &'a ::core::option::Option<V>), 3usize>, ::core::option::Option<(E, &'a V)>, fn((E, &'a ::core::option::Option<V>)) -> ::core::option::Option<(E, &'a V)>>") =
    some (quote! "(E, &'a V)") := by decide +kernel
example : coreItem (quote! "::core::iter::Flatten<::core::slice::IterMut<'a, ::core::option::Option<V>>>") = some (quote! "&'a mut V") := by decide +kernel

end FixedMap.Impls
