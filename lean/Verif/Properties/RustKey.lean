import Verif.Spec.RustKey
import Verif.Properties.RustSource

/-!
# C96: the text of src/key.rs gives every key type the storage that the model gives it
-/

set_option autoImplicit false

namespace FixedMap.Rust

/-- The `impl`s of `Key` in src/key.rs. -/
def keyTable : List KeyImpl := (readKeys Text.key).getD []

theorem keyTable_read : readKeys Text.key = some keyTable := by kernel_rfl

theorem storagesOf_opt (l : Toks) :
    storagesOf keyTable ("Option" :: "<" :: (l ++ [">"])) = some ("OptionMapStorage" :: "<" :: (l ++ [",", "V", ">"]), "OptionSetStorage" :: "<" :: (l ++ [">"])) := by
  have h1 : matchTy ["K"] ["Option", "<", "K", ">"] ("Option" :: "<" :: (l ++ [">"])) = some [("K", l)] := by
    simp [matchTy]
  have h0 : matchTy [] ["bool"] ("Option" :: "<" :: (l ++ [">"])) = none := by kernel_rfl
  have ht : ∃ rest, keyTable = ⟨[], [], ["bool"], ["BooleanMapStorage", "<", "V", ">"], ["BooleanSetStorage"]⟩ ::
      ⟨[], ["K"], ["Option", "<", "K", ">"], ["OptionMapStorage", "<", "K", ",", "V", ">"], ["OptionSetStorage", "<", "K", ">"]⟩ :: rest := ⟨keyTable.drop 2, by kernel_rfl⟩
  obtain ⟨rest, ht⟩ := ht
  rw [ht, storagesOf, List.findSome?_cons, h0, Option.map_none]
  simp only [List.findSome?_cons, h1, Option.map_some]
  simp [substTys]

/-- **C96** For every key type of the library there is an `impl` of `Key` in the text of src/key.rs, and the file that defines its map storage and the one that defines its set
storage do what the model's storages for this key type do. -/
theorem C96_storages (user : KeyTy → Toks) (H : HashbrownApi) (V : Type) (κ : KeyTy) (h : ofLibrary κ) :
    ∃ table B, readKeys Text.key = some table ∧ parseFile Text.optionBucket = some B ∧
      ∃ m margs s sargs mf sf P Q, storagesOf table (rustTy user κ) = some (m :: margs, s :: sargs) ∧
        fileOf m = some mf ∧ parseFile mf = some P ∧ MapSource H V κ (withBucket P B κ) ∧
        fileOf s = some sf ∧ parseFile sf = some Q ∧ SetSource H κ Q := by
  refine ⟨_, _, keyTable_read, Progs.optionBucket_parsed, ?_⟩
  cases κ with
  | bool =>
    exact ⟨"BooleanMapStorage", ["<", "V", ">"], "BooleanSetStorage", [], Text.mapBoolean, Text.setBoolean, _, _, by kernel_rfl, by kernel_rfl, Progs.mapBoolean_parsed, fun M n c veq f d => mapBoolText M n c veq f d, by kernel_rfl, Progs.setBoolean_parsed,
      fun M n f d => setBoolText M n f d⟩
  | unit =>
    exact ⟨"SingletonMapStorage", ["<", "V", ">"], "SingletonSetStorage", [], Text.mapSingleton, Text.setSingleton, _, _, by kernel_rfl, by kernel_rfl, Progs.mapSingleton_parsed, fun M n c veq f => mapUnitText M n c veq f, by kernel_rfl, Progs.setSingleton_parsed,
      fun M n f => setUnitText M n f⟩
  | opt κ =>
    exact ⟨_, _, _, _, _, _, _, _, storagesOf_opt _, by kernel_rfl, Progs.mapOption_parsed, fun n c veq f d => mapOptText _ n c veq f d, by kernel_rfl, Progs.setOption_parsed,
      fun n f d => setOptText _ n f d⟩
  | prim p =>
    have hs : storagesOf keyTable (primTy p) = some ("HashbrownMapStorage" :: "<" :: (primTy p ++ [",", "V", ">"]), "HashbrownSetStorage" :: "<" :: (primTy p ++ [">"])) := by
      cases p <;> kernel_rfl
    exact ⟨_, _, _, _, _, _, _, _, hs, by kernel_rfl, Progs.mapHashbrown_parsed, fun n c veq f => mapHashText _ n c veq f, by kernel_rfl, Progs.setHashbrown_parsed,
      fun n f => setHashText _ n f⟩
  | _ => cases h

/-- One of each; `K` is any key type. -/
def libKeys : List KeyTy :=
  [.bool, .opt (.units 0), .prim .char, .prim .u8, .prim .u32, .prim .u64, .prim .u128, .prim .usize, .prim .i8, .prim .i32, .prim .i64, .prim .i128, .prim .isize, .prim .str,
    .prim .bytes, .unit]

/-- **C96** The key types of the library are all: every `impl` in the text is for one of them, generic for `Option<K>` only, and the ones that need the feature `hashbrown` are exactly
the hash table keys. -/
theorem C96_only :
    ∃ table, readKeys Text.key = some table ∧
      ∀ i ∈ table, ∃ κ, ofLibrary κ = true ∧ rustTy (fun _ => ["K"]) κ = i.ty ∧ i.params = implParams κ ∧ i.cfg = implCfg κ := by
  refine ⟨_, keyTable_read, fun i hi => ?_⟩
  have h : keyTable.map (fun i => (i.ty, i.params, i.cfg)) = libKeys.map fun κ => (rustTy (fun _ => ["K"]) κ, implParams κ, implCfg κ) := by kernel_rfl
  have hl : libKeys.all ofLibrary = true := by kernel_rfl
  have hm := List.mem_map_of_mem (f := fun i : KeyImpl => (i.ty, i.params, i.cfg)) hi
  rw [h] at hm
  obtain ⟨κ, hκ, he⟩ := List.mem_map.1 hm
  injection he with h1 he
  injection he with h2 h3
  exact ⟨κ, List.all_eq_true.1 hl κ hκ, h1, h2.symm, h3.symm⟩

/-- **C96** No type has two `impl`s: the one that is found is the only one that matches. -/
theorem C96_unique :
    ∃ table, readKeys Text.key = some table ∧ (table.map KeyImpl.ty).Nodup := ⟨_, keyTable_read, by decide +kernel⟩

theorem storagesOf_isSome (ty : Toks) :
    (storagesOf keyTable ty).isSome = true ↔ ty = ["bool"] ∨ ty = ["(", ")"] ∨ (∃ p, ty = primTy p) ∨ ∃ l, ty = "Option" :: "<" :: (l ++ [">"]) := by
  constructor
  · intro h
    rw [storagesOf, List.findSome?_isSome_iff] at h
    obtain ⟨i, hi, hm⟩ := h
    rw [Option.isSome_map] at hm
    have h : keyTable.map (fun i => (i.ty, i.params, i.cfg)) = libKeys.map fun κ => (rustTy (fun _ => ["K"]) κ, implParams κ, implCfg κ) := by kernel_rfl
    have hl : libKeys.all ofLibrary = true := by kernel_rfl
    have ho : ∀ κ ∈ libKeys, ∀ κ', κ = .opt κ' → rustTy (fun _ => ["K"]) κ' = ["K"] := by
      intro κ hκ κ' e
      subst e
      have e : κ' = .units 0 := by simpa [libKeys] using hκ
      rw [e]
      rfl
    have hk := List.mem_map_of_mem (f := fun i : KeyImpl => (i.ty, i.params, i.cfg)) hi
    rw [h] at hk
    obtain ⟨κ, hκ, he⟩ := List.mem_map.1 hk
    injection he with h1 he
    injection he with h2 h3
    rw [← h1, ← h2] at hm
    have lib := List.all_eq_true.1 hl κ hκ
    have eq : ∀ pat, (matchTy [] pat ty).isSome = true → ty = pat := by
      intro pat hp
      by_cases e : pat = ty
      · exact e.symm
      · simp [matchTy, e] at hp
    cases κ with
    | bool => exact .inl (eq _ hm)
    | unit => exact .inr (.inl (eq _ hm))
    | prim p => exact .inr (.inr (.inl ⟨p, eq _ hm⟩))
    | opt κ' =>
      refine .inr (.inr (.inr ?_))
      rw [rustTy, ho _ hκ κ' rfl] at hm
      simp only [implParams, List.cons_append, List.nil_append, matchTy] at hm
      split at hm
      · rename_i c' l
        split at hm
        · rename_i hc
          simp only [Bool.and_eq_true, beq_iff_eq] at hc
          obtain ⟨⟨hc, -⟩, hg⟩ := hc
          obtain ⟨l', rfl⟩ := List.getLast?_eq_some_iff.1 hg
          exact ⟨l', by rw [hc]⟩
        · cases hm
      · cases hm
    | _ => cases lib
  · rintro (rfl | rfl | ⟨p, rfl⟩ | ⟨l, rfl⟩)
    · kernel_rfl
    · kernel_rfl
    · cases p <;> kernel_rfl
    · rw [storagesOf_opt]
      rfl

/-- **C96** A type has storages exactly if it is one of those without parameters in the model, or an `Option`. -/
theorem C96_exact (ty : Toks) :
    ∃ table, readKeys Text.key = some table ∧
      ((storagesOf table ty).isSome = true ↔ ty = ["bool"] ∨ ty = ["(", ")"] ∨ (∃ p, ty = primTy p) ∨ ∃ l, ty = "Option" :: "<" :: (l ++ [">"])) :=
  ⟨_, keyTable_read, storagesOf_isSome ty⟩

/-- **C96** Of the integer types, `u16` and `i16` are those that are no keys. -/
theorem C96_integers (t : String) (h : t ∈ ["u8", "u16", "u32", "u64", "u128", "usize", "i8", "i16", "i32", "i64", "i128", "isize"]) :
    ∃ table, readKeys Text.key = some table ∧ (storagesOf table [t] = none ↔ t = "u16" ∨ t = "i16") := by
  refine ⟨_, keyTable_read, ?_⟩
  rw [← Option.not_isSome_iff_eq_none, storagesOf_isSome]
  simp only [List.mem_cons, List.not_mem_nil, or_false] at h
  have hp : (∃ p, [t] = primTy p) ↔ t ∈ ["char", "u8", "u32", "u64", "u128", "usize", "i8", "i32", "i64", "i128", "isize"] := by
    constructor
    · rintro ⟨p, e⟩
      cases p <;> simp_all [primTy]
    · intro hm
      simp only [List.mem_cons, List.not_mem_nil, or_false] at hm
      rcases hm with rfl | rfl | rfl | rfl | rfl | rfl | rfl | rfl | rfl | rfl | rfl
      · exact ⟨.char, rfl⟩
      · exact ⟨.u8, rfl⟩
      · exact ⟨.u32, rfl⟩
      · exact ⟨.u64, rfl⟩
      · exact ⟨.u128, rfl⟩
      · exact ⟨.usize, rfl⟩
      · exact ⟨.i8, rfl⟩
      · exact ⟨.i32, rfl⟩
      · exact ⟨.i64, rfl⟩
      · exact ⟨.i128, rfl⟩
      · exact ⟨.isize, rfl⟩
  rw [hp]
  rcases h with rfl | rfl | rfl | rfl | rfl | rfl | rfl | rfl | rfl | rfl | rfl | rfl <;> simp

/-! ## Examples -/

/-- `Option<Option<&'static str>>`. -/
example : storagesOf keyTable (rustTy (fun _ => []) (.opt (.opt (.prim .str)))) =
    some (["OptionMapStorage", "<", "Option", "<", "&", "'static", "str", ">", ",", "V", ">"], ["OptionSetStorage", "<", "Option", "<", "&", "'static", "str", ">", ">"]) := by
  kernel_rfl

/-- `u16` has no `impl`. -/
example : storagesOf keyTable ["u16"] = none := by kernel_rfl

/-- With `singleton_key!(bool)` as well, `bool` would have two. -/
example : (readKeys (Text.key ++ ["singleton_key", "!", "(", "bool", ")", ";"])).map (fun t => decide (t.map KeyImpl.ty).Nodup) = some false := by decide +kernel

/-- A macro that is not defined. -/
example : readKeys (Text.key ++ ["other_key", "!", "(", "bool", ")", ";"]) = none := by kernel_rfl

end FixedMap.Rust
