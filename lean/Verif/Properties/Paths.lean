import Verif.Proofs.PathsMacro
import Verif.Properties.Macro
import Verif.Properties.TokenNames

/-!
# C91: the absolute paths in the emitted code exist

The derive writes paths like `::fixed_map::option_bucket::OptionBucket::new` into the crate of the user. Here: each of them names a public item, whatever features of fixed-map are enabled, and
it is of the right sort where it stands. Only core and fixed-map are named, so that neither std nor alloc is needed.
-/

set_option autoImplicit false

namespace FixedMap.Paths

open FixedMap.Emit (Toks Cx Variant implement)
open FixedMap.Emit.Macro (Ast Env storageDerive)

theorem ok_good {feat : String → Bool} {U : Use → Prop} {ts : Toks} (h : Ok feat U start ts) : ∀ u ∈ uses ts, Good feat u ∨ U u :=
  fun u hu => (h u hu).imp (good_iff feat u).mp id

/-- C91, the whole macro: for any item, the paths in the output are good or the user's. -/
theorem C91_macro (feat : String → Bool) (env : Env) (hl : ∀ m, cls (env.lit m) = .other) (ast : Ast) (E : String) (hx : OfSyn ast E) (ts : Toks) (h : storageDerive env ast = some ts) :
    ∀ u ∈ uses ts, Good feat u ∨ OfItem ast u := ok_good (ok_macro hl hx (fun _ h => h) h)

/-- C91, enums with payloads. -/
theorem C91_any (feat : String → Bool) (cx : Cx) (E : String) (vs : List Variant) (hx : Input cx E) (hv : Variants vs) :
    ∀ u ∈ uses (implement cx vs), Good feat u ∨ OfUser cx vs u := by
  have hf : Emit.fieldsOf cx vs = Any.fieldsAt cx vs.zipIdx := by
    unfold Emit.fieldsOf Any.fieldsAt
    congr 1
    conv => lhs; rw [← List.zipIdx_map_fst 0 vs]
    rw [List.map_map]
    rfl
  refine ok_good ?_
  unfold implement
  rw [hf]
  refine Any.ok_emit hx (fun x hx' => hv.idents _ (List.fst_mem_of_mem_zipIdx hx')) (fun x hx' => hv.elements _ (List.fst_mem_of_mem_zipIdx hx')) (fun u hu => .inl hu)
    fun x hx' e he u hu => .inr ⟨x.1, List.fst_mem_of_mem_zipIdx hx', e, he, hu⟩

/-- C91, enums without payloads, with or without `#[key(bitset)]`. -/
theorem C91_units (feat : String → Bool) (cx : Cx) (E : String) (bitset : Bool) (en : List String) (ts : Toks) (hx : Input cx E) (hv : ∀ v ∈ en, cls v = .word)
    (h : Emit.Units.implement cx bitset en = some ts) : ∀ u ∈ uses ts, Good feat u ∨ Own cx.vis u := ok_good (Units.ok_implement hx (fun _ h => h) hv h)

/-- C91: what is good is in core or in fixed-map. -/
theorem C91_crates (feat : String → Bool) (place : Place) (segs : List String) (next : String) (h : Good feat (.path place segs next)) :
    segs.head? = some "core" ∨ segs.head? = some "fixed_map" := by
  obtain ⟨e, h, -⟩ := h
  cases segs with
  | nil => cases h
  | cons n rest =>
    rw [resolve] at h
    split at h
    · rename_i c hc
      unfold crateOf at hc
      split at hc
      · rename_i hn; subst hn; exact .inl rfl
      · split at hc
        · rename_i hn; subst hn; exact .inr rfl
        · cases hc
    · cases h

/-- C91: if the user wrote no absolute path, there is nothing else. -/
theorem C91_only (feat : String → Bool) (env : Env) (hl : ∀ m, cls (env.lit m) = .other) (ast : Ast) (E : String) (hx : OfSyn ast E) (hu : ∀ u, ¬OfItem ast u) (ts : Toks)
    (h : storageDerive env ast = some ts) : ∀ u ∈ uses ts, Good feat u :=
  fun u hm => (C91_macro feat env hl ast E hx ts h u hm).resolve_right (hu u)

/-! ## Concrete cases -/

/-- `pub(crate) enum Part { One, Two(bool), Three(Option<module::Sub>), Four(::a::B) }` -/
def exPaths : List Variant := Emit.exNamesVs ++ [⟨"Four", some ["::", "a", "::", "B"]⟩]

theorem exPaths_input : Input Emit.exNames "Part" := ⟨rfl, by decide, ⟨_, _, rfl, rfl, by decide⟩, rfl⟩

theorem exPaths_variants : Variants exPaths := by
  constructor
  · decide
  · intro v hv e he
    simp only [exPaths, Emit.exNamesVs, List.cons_append, List.nil_append, List.mem_cons, List.not_mem_nil, or_false] at hv
    rcases hv with rfl | rfl | rfl | rfl <;> cases he <;> exact ⟨_, _, rfl, rfl, by decide⟩

example (feat : String → Bool) : ∀ u ∈ uses (implement Emit.exNames exPaths), Good feat u ∨ OfUser Emit.exNames exPaths u := C91_any feat _ _ _ exPaths_input exPaths_variants

/-- Paths found in a part of the output. -/
example : .path .plain ["a", "B"] "as" ∈ uses (Emit.mapImpls Emit.exNames (Emit.fieldsOf Emit.exNames exPaths) ["S"]) ∧
    (uses (Emit.mapImpls Emit.exNames (Emit.fieldsOf Emit.exNames exPaths) ["S"])).length = 26 := by decide +kernel

/-- The last one is the user's. -/
example : uses ["<", "::", "a", "::", "B", "as", "::", "fixed_map", "::", "Key", ">", "::", "MapStorage", "<", "V", ">"] =
    [.path .plain ["a", "B"] "as", .path .qualified ["fixed_map", "Key"] ">", .assoc ["fixed_map", "Key"] "MapStorage"] := by decide +kernel

/-- How tokens are read: after `impl<V>`, `::` begins a path; after `<T as ..>` and after a name it does not; in `self.start < self.end` nothing is opened. -/
example : uses (Emit.exNames.vis ++ quote! "impl<V> ::core::clone::Clone for X<V> { fn f(&self) { if self.start < self.end { <V as ::core::clone::Clone>::clone(a::b) } else { ::core::mem::take(x) } } }") =
    [.path .impl ["core", "clone", "Clone"] "for", .path .qualified ["core", "clone", "Clone"] ">", .assoc ["core", "clone", "Clone"] "clone", .path .plain ["core", "mem", "take"] "("] := by
  decide +kernel

example : uses (quote! "#[derive(::core::clone::Clone, ::core::cmp::Eq)] struct S;") = [.path .derive ["core", "clone", "Clone"] ",", .path .derive ["core", "cmp", "Eq"] ")"] := by decide +kernel

/-- The module where the traits are written is not public: this is why the derive goes through the re-exports. -/
example (feat : String → Bool) : ¬Good feat (.path .impl ["fixed_map", "map", "storage", "MapStorage"] "<") := by
  rintro ⟨e, h, -⟩; exact nomatch (show (none : Option Entity) = some e from h)
example (feat : String → Bool) : Good feat (.path .impl ["fixed_map", "map", "MapStorage"] "<") := (good_iff _ _).mp rfl
example (feat : String → Bool) : ¬Good feat (.path .impl ["fixed_map", "key", "Key"] "for") := by rintro ⟨e, h, -⟩; exact nomatch (show (none : Option Entity) = some e from h)

/-- Features matter for what the derive does not name. -/
example : (resolve (fun _ => true) false ["fixed_map", "set", "storage", "HashbrownSetStorage"]).isSome = true ∧
    resolve (fun _ => false) false ["fixed_map", "set", "storage", "HashbrownSetStorage"] = none := by decide +kernel

/-- Literals begin with a quote. -/
theorem exLit (m : String) : cls (Emit.Macro.exE.lit m) = .other := by
  have h : ("\"" ++ m ++ "\"").toList = '"' :: (m.toList ++ ['"']) := by simp [String.toList_append]
  have hn : ∀ t : String, t.toList.head? ≠ some '"' → "\"" ++ m ++ "\"" ≠ t := by
    intro t ht he
    rw [← he, h] at ht
    exact ht rfl
  show cls ("\"" ++ m ++ "\"") = .other
  unfold cls
  rw [h]
  dsimp only
  rw [if_neg (by decide), if_neg (hn "::" (by decide)), if_neg (hn "<" (by decide)), if_neg (hn ">" (by decide)), if_neg (hn "." (by decide)), if_neg (hn "(" (by decide)), if_neg (hn ")" (by decide))]

/-- `pub enum E { A, B(bool), C {}, D(T, T) }`; the last two are passed over. -/
def exItem : Ast := ⟨["E"], ["pub"], [], .enum [⟨"A", .unit⟩, ⟨"B", .unnamed [["bool"]]⟩, ⟨"C", .named []⟩, ⟨"D", .unnamed [["T"], ["T"]]⟩]⟩

theorem exItem_syn : OfSyn exItem "E" := by
  refine ⟨rfl, by decide, ⟨_, _, rfl, rfl, by decide⟩, ?_, ?_⟩
  · intro vs h; cases h; decide
  · intro vs h v hv e he
    cases h
    simp only [List.mem_cons, List.not_mem_nil, or_false] at hv
    rcases hv with rfl | rfl | rfl | rfl <;> cases he
    exact ⟨_, _, rfl, rfl, by decide⟩

example (feat : String → Bool) : ∃ ts, storageDerive Emit.Macro.exE exItem = some ts ∧ ∀ u ∈ uses ts, Good feat u ∨ OfItem exItem u := by
  cases h : storageDerive Emit.Macro.exE exItem with
  | none => exact nomatch h
  | some ts => exact ⟨ts, rfl, C91_macro feat _ exLit exItem "E" exItem_syn ts h⟩

/-- std is not there. -/
example (feat : String → Bool) (place : Place) (next : String) : ¬Good feat (.path place ["std", "option", "Option"] next) := by
  intro h
  have := C91_crates feat _ _ _ h
  simp at this

end FixedMap.Paths
