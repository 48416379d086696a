{"claims": [
  {"property": "C01", "status": "proved", "theorems": ["FixedMap.C01_history", "FixedMap.C01_history_from"], "note": "Refinement to an association list, for all histories from new and from any reachable map. For every key type (any nesting), every value type, every lawful hashbrown."},
  {"property": "C02", "status": "proved", "theorems": ["FixedMap.C02_insert"], "note": "For every key type (any nesting), every value type, every lawful hashbrown."},
  {"property": "C03", "status": "proved", "theorems": ["FixedMap.C03_remove"], "note": "For every key type (any nesting), every value type, every lawful hashbrown."},
  {"property": "C04", "status": "proved", "theorems": ["FixedMap.C04_getMut"], "note": "For every key type (any nesting), every value type, every lawful hashbrown."},
  {"property": "C05", "status": "proved", "theorems": ["FixedMap.C05_agree"], "note": "For every key type (any nesting), every value type, every lawful hashbrown."},
  {"property": "C06", "status": "proved", "theorems": ["FixedMap.C06_len", "FixedMap.C06_len_changes"], "note": "For every key type (any nesting), every value type, every lawful hashbrown."},
  {"property": "C07", "status": "proved", "theorems": ["FixedMap.C07_isEmpty", "FixedMap.C07_new"], "note": "For every key type (any nesting), every value type, every lawful hashbrown."},
  {"property": "C08", "status": "proved", "theorems": ["FixedMap.C08_iter", "FixedMap.C08_allKeys"], "note": "For every key type (any nesting), every value type, every lawful hashbrown. Declaration order is a relation on keys; the full-enumeration clause is for key types without hash-backed parts."},
  {"property": "C09", "status": "partial", "theorems": ["FixedMap.C09_values", "FixedMap.C09_projections_partial", "FixedMap.C09_false_for_unit", "FixedMap.C09_unit_keys", "FixedMap.C09_keys_exact"], "note": "False for Map<(), V>: keys() yields the key of an empty map. The same happens to () payloads inside other key types. Proved: values for all keys; keys for all key types without (); the exact list yielded by keys() for every key type; the counterexample for ()."},
  {"property": "C10", "status": "proved", "theorems": ["FixedMap.C10_iterMut"], "note": "For every key type (any nesting), every value type, every lawful hashbrown."},
  {"property": "C11", "status": "proved", "theorems": ["FixedMap.C11_doubleEnded", "FixedMap.C11_exhausted"], "note": "Any schedule of next/next_back; For every key type (any nesting), every value type, every lawful hashbrown."},
  {"property": "C12", "status": "proved", "theorems": ["FixedMap.C12_sizeHint", "FixedMap.C12_bool_keys_exact", "FixedMap.C12_set_sizeHint", "FixedMap.C12_set_bool_exact"], "note": "For every key type (any nesting), every value type, every lawful hashbrown."},
  {"property": "C13", "status": "proved", "theorems": ["FixedMap.C13_retain", "FixedMap.C13_calls", "FixedMap.C13_stateless"], "note": "Closures with state; For every key type (any nesting), every value type, every lawful hashbrown."},
  {"property": "C14", "status": "proved", "theorems": ["FixedMap.C14_retain_panic", "FixedMap.C14_later_entries_kept"], "note": "For every key type (any nesting), every value type, every lawful hashbrown."},
  {"property": "C15", "status": "proved", "theorems": ["FixedMap.C15_clear"], "note": "For every key type (any nesting), every value type, every lawful hashbrown."},
  {"property": "C16", "status": "proved", "theorems": ["FixedMap.C16_entry"], "note": "For every key type (any nesting), every value type, every lawful hashbrown."},
  {"property": "C17", "status": "proved", "theorems": ["FixedMap.C17_orInsertWithKey", "FixedMap.C17_orInsertWith", "FixedMap.C17_orDefault", "FixedMap.C17_orInsert"], "note": "For every key type (any nesting), every value type, every lawful hashbrown."},
  {"property": "C18", "status": "proved", "theorems": ["FixedMap.C18_andModify", "FixedMap.C18_modify_or_insert"], "note": "For every key type (any nesting), every value type, every lawful hashbrown."},
  {"property": "C19", "status": "proved", "theorems": ["FixedMap.C19_occupied", "FixedMap.C19_vacant"], "note": "For every key type (any nesting), every value type, every lawful hashbrown."},
  {"property": "C20", "status": "proved", "theorems": ["FixedMap.C20_no_ub", "FixedMap.C20_buckets"], "note": "ub is an explicit outcome of the bucket operations; no history reaches it. Memory layout and lifetimes are outside the model."},
  {"property": "C21", "status": "proved", "theorems": ["FixedMap.C21_conservation"], "note": "Multiset accounting over all histories. For every key type (any nesting), every value type, every lawful hashbrown."},
  {"property": "C22", "status": "proved", "theorems": ["FixedMap.C22_fromIter"], "note": "For every key type (any nesting), every value type, every lawful hashbrown."},
  {"property": "C23", "status": "proved", "theorems": ["FixedMap.C23_eq", "FixedMap.C23_eq_congr", "FixedMap.C23_equivalence"], "note": "For every key type (any nesting), every value type, every lawful hashbrown."},
  {"property": "C24", "status": "proved", "theorems": ["FixedMap.C24_hash_of_eq", "FixedMap.C24_hash_injective", "FixedMap.C24_units_set", "FixedMap.C24_unit_set", "FixedMap.C24_bitset_set"], "note": "Unit-only enums (maps and sets), bitset sets, Set<()>."},
  {"property": "C25", "status": "proved", "theorems": ["FixedMap.C25_total_order"], "note": "Unit-only enum keys (the only maps with Ord)."},
  {"property": "C26", "status": "proved", "theorems": ["FixedMap.C26_lexicographic"], "note": "Unit-only enum keys."},
  {"property": "C27", "status": "proved", "theorems": ["FixedMap.C27_follows_cmp", "FixedMap.C27_units_set", "FixedMap.C27_unit_set", "FixedMap.C27_bitset"], "note": "Maps and sets with Ord. max/min/clamp are the provided methods of core."},
  {"property": "C28", "status": "proved", "theorems": ["FixedMap.C28_clone", "FixedMap.C28_set_clone"], "note": "Independence holds because the model's states are values: mutation returns a new state."},
  {"property": "C29", "status": "proved", "theorems": ["FixedMap.C29_map_serialize", "FixedMap.C29_set_serialize", "FixedMap.C29_map_deserialize", "FixedMap.C29_map_round_trip", "FixedMap.C29_set_round_trip"], "note": "Serializer/deserializer as event streams; formats themselves are parameters."},
  {"property": "C30", "status": "proved", "theorems": ["FixedMap.C30_map_debug", "FixedMap.C30_set_debug", "FixedMap.C30_intersection_debug", "FixedMap.C30_any_formatter"], "note": "The non-pretty format; Debug of keys and values are parameters."},
  {"property": "C31", "status": "partial", "theorems": ["FixedMap.C31_step", "FixedMap.C31_history_from_partial", "FixedMap.C31_history_partial", "FixedMap.C31_reachable", "FixedMap.C31_deterministic", "FixedMap.C31_false_for_unit"], "note": "False for sets containing a () storage (retain). Proved: all histories without retain for every key type, and all histories for key types without (); counterexample. The exact behaviour for every key type is C65."},
  {"property": "C32", "status": "partial", "theorems": ["FixedMap.C32_insert_contents", "FixedMap.C32_insert_partial", "FixedMap.C32_insert_partial_scope", "FixedMap.C32_insert_inverted", "FixedMap.C32_false_for_bool", "FixedMap.C32_false_for_none"], "note": "False for bool (inverted) and for inserting None. Proved for all other elements of every key type, plus the exact set of elements for which the answer is inverted."},
  {"property": "C33", "status": "partial", "theorems": ["FixedMap.C33_remove_contents", "FixedMap.C33_remove_exact", "FixedMap.C33_remove_partial", "FixedMap.C33_remove_partial_scope", "FixedMap.C33_false_for_bool"], "note": "False for bool. Proved: exact answer for every key type; the claim for every element not below a bool."},
  {"property": "C34", "status": "partial", "theorems": ["FixedMap.C34_len_zero", "FixedMap.C34_isEmpty_exact", "FixedMap.C34_isEmpty_partial", "FixedMap.C34_false_for_option"], "note": "False for Option keys. Proved: exact condition; the claim for key types without Option; len() = 0 for all."},
  {"property": "C35", "status": "proved", "theorems": ["FixedMap.C35_len", "FixedMap.C35_len_changes"], "note": "For every key type (any nesting), every value type, every lawful hashbrown."},
  {"property": "C36", "status": "proved", "theorems": ["FixedMap.C36_iter"], "note": "For every key type (any nesting), every value type, every lawful hashbrown."},
  {"property": "C37", "status": "partial", "theorems": ["FixedMap.C37_retain_exact", "FixedMap.C37_retain_partial", "FixedMap.C37_calls_partial", "FixedMap.C37_stateless_partial", "FixedMap.C37_false_for_unit"], "note": "False for sets containing a () storage: the closure is also called on the absent element and can insert it. Proved: exact behaviour for all key types, the claim for key types without ()."},
  {"property": "C38", "status": "partial", "theorems": ["FixedMap.C38_retain_panic_exact", "FixedMap.C38_retain_panic_partial", "FixedMap.C38_false_for_unit"], "note": "False for sets containing a () storage. Proved for all other key types; for every key type the exact contents after a panic (C38_retain_panic_exact)."},
  {"property": "C39", "status": "proved", "theorems": ["FixedMap.C39_clear_new"], "note": "For every key type (any nesting), every value type, every lawful hashbrown."},
  {"property": "C40", "status": "proved", "theorems": ["FixedMap.C40_intersection", "FixedMap.C40_operand", "FixedMap.C40_symmetric", "FixedMap.C40_collect"], "note": "For every key type (any nesting), every value type, every lawful hashbrown."},
  {"property": "C41", "status": "proved", "theorems": ["FixedMap.C41_fold_hint"], "note": "For every key type (any nesting), every value type, every lawful hashbrown."},
  {"property": "C42", "status": "proved", "theorems": ["FixedMap.C42_eq", "FixedMap.C42_equivalence"], "note": "For every key type (any nesting), every value type, every lawful hashbrown."},
  {"property": "C43", "status": "partial", "theorems": ["FixedMap.C43_units_lexicographic", "FixedMap.C43_units_total_order", "FixedMap.C43_unit", "FixedMap.C43_unit_total_order", "FixedMap.C43_bitset_exact", "FixedMap.C43_bitset_partial", "FixedMap.C43_bitset_agrees_iff"], "note": "False for bitset enums with at least two variants: the order is colexicographic. Proved: the claim for array sets and Set<()>, the exact order and totality for bitsets, equivalence of both orders iff n <= 1."},
  {"property": "C44", "status": "proved", "theorems": ["FixedMap.C44_round_trip", "FixedMap.C44_declared_bits"], "note": "All widths 8..128 and all n <= width."},
  {"property": "C45", "status": "partial", "theorems": ["FixedMap.C45_exact", "FixedMap.C45_coherent_partial", "FixedMap.C45_full_width", "FixedMap.C45_false"], "note": "False whenever n < width (undeclared bits survive). Proved: exact characterisation, and the claim for raw values without undeclared bits (all raw values if n = width)."},
  {"property": "C46", "status": "partial", "theorems": ["FixedMap.C46_same_contents", "FixedMap.C46_interchangeable_partial", "FixedMap.C46_false_after_panic", "FixedMap.C46_retain_exact"], "note": "False if a retain closure panics: the array set has already lost elements, the bitset has not. Proved for all histories without panics; C46_retain_exact says what a retain with a panicking closure does to either set, and when they still agree."},
  {"property": "C47", "status": "proved", "theorems": ["FixedMap.C47_collect", "FixedMap.C47_deserialize"], "note": "For every key type (any nesting), every value type, every lawful hashbrown."},
  {"property": "C48", "status": "proved", "theorems": ["FixedMap.C48_width", "FixedMap.C48_masks", "FixedMap.C48_derive"], "note": "All n; decision logic of the derive."},
  {"property": "C49", "status": "partial", "theorems": ["FixedMap.Derive.C49_non_enum", "FixedMap.Derive.C49_accepts_partial", "FixedMap.Derive.C49_code", "FixedMap.Derive.C49_diagnosed_iff", "FixedMap.Derive.C49_panics_iff", "FixedMap.Derive.C49_false_attributes", "FixedMap.Derive.C49_false_panic", "FixedMap.Derive.C49_false_no_diagnostic"], "note": "False: unsupported attributes are silently accepted, A() panics the macro, and named or multi-field variants are rejected only by rustc's exhaustiveness check. Proved: the exact acceptance condition, the exact diagnosed and panicking inputs."},
  {"property": "C50", "status": "proved", "theorems": ["FixedMap.C50_empty_map", "FixedMap.C50_empty_set"], "note": "Derived enum without variants, array and bitset flavours."},
  {"property": "C51", "status": "proved", "theorems": ["FixedMap.C51_canonical", "FixedMap.C51_eq_identical", "FixedMap.C51_answers"], "note": "Value identity for key types without hash-backed parts; equality of answers for all key types, up to the order-exposing calls named in the claim."},
  {"property": "C52", "status": "proved", "theorems": ["FixedMap.C52_canonical", "FixedMap.C52_eq_identical", "FixedMap.C52_answers"], "note": "retain is not among the calls of the second part (its closure sees the iteration order)."},
  {"property": "C53", "status": "proved", "theorems": ["FixedMap.C53_map_len", "FixedMap.C53_set_len", "FixedMap.C53_full", "FixedMap.C53_map_full", "FixedMap.C53_set_full"], "note": "The number of keys is computed by recursion on the key type."},
  {"property": "C54", "status": "partial", "theorems": ["FixedMap.C54_step", "FixedMap.C54_set_as_map_partial", "FixedMap.C54_false_for_unit", "FixedMap.C54_false_after_panic", "FixedMap.C54_retain_exact"], "note": "False for key types with () (retain calls the closure on an absent element) and after a closure panicked (the bitset is then unchanged, the map is not); both counterexamples proved. Proved for all histories otherwise; with hash-backed keys the closures must decide by the element alone, since the two hashbrown tables may iterate in different orders. C54_retain_exact says exactly which elements the set keeps beyond the map when a closure panics."},
  {"property": "C55", "status": "proved", "theorems": ["FixedMap.C55_comm", "FixedMap.C55_last_wins", "FixedMap.C55_undo", "FixedMap.C55_retain"], "note": "For every key type (any nesting), every value type, every lawful hashbrown. Value identity without hash-backed parts."},
  {"property": "C56", "status": "proved", "theorems": ["FixedMap.C56_collect", "FixedMap.C56_order", "FixedMap.C56_set_collect"], "note": "For every key type (any nesting), every value type, every lawful hashbrown."},
  {"property": "C57", "status": "partial", "theorems": ["FixedMap.C57_set", "FixedMap.C57_set_retain_partial", "FixedMap.C57_retain_contents", "FixedMap.C57_retain_exact"], "note": "The retain laws are proved for key types without (); C37_false_for_unit refutes 'accepting everything does nothing' for (). C57_retain_exact says for every key type exactly when they hold."},
  {"property": "C58", "status": "proved", "theorems": ["FixedMap.C58_map", "FixedMap.C58_set", "FixedMap.C58_bound_needed"], "note": "Machine words of any width w with the number of variants below 2^w; C58_bound_needed shows the bound is needed."},
  {"property": "C59", "status": "proved", "theorems": ["FixedMap.C59_map", "FixedMap.C59_set", "FixedMap.C59_supertraits", "FixedMap.C59_iterators", "FixedMap.C59_bodies"], "note": "Model of trait selection for the impls of the crate; facts about core and hashbrown types (e.g. hash_map::IntoIter is not Clone) are written into the model."},
  {"property": "C60", "status": "proved", "theorems": ["FixedMap.C60_map", "FixedMap.C60_set"], "note": "Assumes that the iterators of hashbrown have no next_back; the reference instance satisfies it."},
  {"property": "C61", "status": "proved", "theorems": ["FixedMap.C61_keys", "FixedMap.C61_map_key", "FixedMap.C61_map_all", "FixedMap.C61_map_ref", "FixedMap.C61_map_iter", "FixedMap.C61_map_entry", "FixedMap.C61_map_occupied", "FixedMap.C61_map_vacant", "FixedMap.C61_history", "FixedMap.C61_set_key", "FixedMap.C61_set_all", "FixedMap.C61_set_iter"], "note": "The generator is transcribed as a function from variants to syntax, run by an interpreter that is stuck on unbound names. Paths, lifetimes, visibility, attributes, where clauses and hygiene are left out."},
  {"property": "C62", "status": "proved", "theorems": ["FixedMap.C62_map_key", "FixedMap.C62_map_all", "FixedMap.C62_map_entry", "FixedMap.C62_map_iter", "FixedMap.C62_history", "FixedMap.C62_set", "FixedMap.C62_bitset"], "note": "As C61 for unit_variants.rs. Derived and fixed-text impls (Clone, PartialEq, Ord, Hash, RawStorage) do not depend on the variants and are not part of the emitted syntax; flatten/flat_map are the state machine of Model/Std."},
  {"property": "C63", "status": "proved", "theorems": ["FixedMap.C63_decision", "FixedMap.C63_accepts", "FixedMap.C63_map_history", "FixedMap.C63_set_history", "FixedMap.C63_set_exact", "FixedMap.C63_set_exact_unique"], "note": "Composes the decision model (C49) with the emitted code (C61, C62). C63_set_history gives the returned values of an ordinary set for payload types without bool and Option (C32-C34 are false for those); C63_set_exact gives the exact returned values for all payload types."},
  {"property": "C64", "status": "proved", "theorems": ["FixedMap.C64_map", "FixedMap.Gen.C64_emitted_map", "FixedMap.Gen.C64_emitted_map_into", "FixedMap.Gen.C64_emitted_set", "FixedMap.Gen.C64_typed"], "note": "Adapters of core are assumed to clone their parts. Shared iterators of the non-derived storages hold references and positions only; their clone is the identity on the modelled state."},
  {"property": "C65", "status": "proved", "theorems": ["FixedMap.C65_call", "FixedMap.C65_calls", "FixedMap.C65_calls_new", "FixedMap.C65_total", "FixedMap.C65_indistinguishable"], "note": "The reference (Spec/SetExact) states the deviations of C31-C34, C37 and C38 explicitly; it is a relation where hash tables choose the order, and deterministic otherwise."},
  {"property": "C66", "status": "proved", "theorems": ["FixedMap.C66_builtin_map", "FixedMap.C66_option_map", "FixedMap.C66_derive_map", "FixedMap.C66_history", "FixedMap.C66_eq", "FixedMap.C66_option_set_false", "FixedMap.C66_derive_set", "FixedMap.C66_builtin_set", "FixedMap.C66_set_calls", "FixedMap.C66_set_iter"], "note": "The contract is the laws CoreLaws and IterLaws (maps) and SetLaws, SetIterLaws and SetAnswers (sets), stated for arbitrary storages; Payloads is an enum over arbitrary storages. The violation of the set contract by Option is a theorem."},
  {"property": "C67", "status": "proved", "theorems": ["FixedMap.C67_clear_exact", "FixedMap.C67_drop_exact", "FixedMap.C67_clear_plain", "FixedMap.C67_drop_plain", "FixedMap.C67_fromIter_panic", "FixedMap.C67_retain", "FixedMap.C67_retain_quiet", "FixedMap.C67_retain_panic", "FixedMap.C67_clear", "FixedMap.C67_clear_again", "FixedMap.C67_drop", "FixedMap.C67_fromIter"], "note": "Drops records what a run of destructors did: the world, whether it is unwinding or aborted, the values dropped in order, the values leaked. Honest says that the record is what running the destructors gives. How Rust drops struct fields, arrays and assigned places, and how hashbrown clears, retains and drops under panics, is part of the trusted base. The exact theorems describe the run by batches (Spec/DropBatches): IsBatches cuts the entries in iter() order by KeyTy.together and KeyTy.inTable, which are defined on keys; only the order inside one hash table is left open."},
  {"property": "C68", "status": "proved", "theorems": ["FixedMap.C68_map_exact", "FixedMap.C68_set_exact", "FixedMap.C68_units", "FixedMap.C68_units_set", "FixedMap.C68_bitset", "FixedMap.C68_enum", "FixedMap.C68_satisfiable"], "note": "hashbrown being exact (ExactSizeIterator) is a hypothesis of the first two theorems, and C68_satisfiable shows that it can be met. The hint of Flatten is the general one of core; newer versions specialise it for Option items."},
  {"property": "C69", "status": "proved", "theorems": ["FixedMap.C69_drop_exact", "FixedMap.C69_drop", "FixedMap.C69_once", "FixedMap.C69_exhausted", "FixedMap.C69_satisfiable"], "note": "What hash_map::IntoIter holds is a parameter with the law HeldLaw (the values not yet handed out, in any order), met by the example table (C69_satisfiable). The drop order of the fields of Chain, FlatMap and array::IntoIter is that of core."},
  {"property": "C70", "status": "proved", "theorems": ["FixedMap.C70_ok", "FixedMap.C70_panic", "FixedMap.C70_unwind_keys", "FixedMap.C70_order", "FixedMap.C70_panics_iff", "FixedMap.C70_pure", "FixedMap.C70_clone_from", "FixedMap.C70_satisfiable"], "note": "hashbrown's clone is a parameter with the law TableCloneLaw (clones in iter() order, same keys), met by the example table (C70_satisfiable). C70_order gives the exact order of the drops while unwinding for key types without hashed parts; C70_unwind_keys says that this order lists the keys before the one that panicked. How Rust and core drop half-built structs and arrays while unwinding is part of the trusted base. For V: Copy core copies arrays without calling clone, which is not modelled."},
  {"property": "C71", "status": "proved", "theorems": ["FixedMap.C71_eq", "FixedMap.C71_eq_plain", "FixedMap.C71_eq_pure", "FixedMap.C71_partial_cmp", "FixedMap.C71_cmp", "FixedMap.C71_partial_cmp_pure", "FixedMap.C71_cmp_pure"], "note": "The order in which core and hashbrown call V::eq (Option, arrays, HashMap::eq through self.iter()) and V::cmp (Iterator::cmp, tuples) is part of the trusted base. ne, the operators, max, min and clamp are in C74."},
  {"property": "C72", "status": "proved", "theorems": ["FixedMap.C72_from_iter", "FixedMap.C72_visit_map", "FixedMap.C72_conserved", "FixedMap.C72_visit_list", "FixedMap.C72_set_visit", "FixedMap.C72_set_from_iter"], "note": "The source is an arbitrary function on the world; loops take fuel, and the theorems hold for every fuel (none on both sides if it does not suffice). That a for loop drops its iterator before the map, and ? drops the map before the visitor, is a rule of Rust. What dropping the MapAccess or SeqAccess does is not modelled."},
  {"property": "C73", "status": "proved", "theorems": ["FixedMap.C73_map", "FixedMap.C73_set", "FixedMap.C73_history", "FixedMap.C73_set_calls", "FixedMap.C73_asks", "FixedMap.C73_iff"], "note": "HashbrownApi.lying replaces len of the tables by a constant. The program is the modelled one (records of functions), so the equality covers every modelled operation."},
  {"property": "C74", "status": "proved", "theorems": ["FixedMap.C74_ne", "FixedMap.C74_operators", "FixedMap.C74_max", "FixedMap.C74_min", "FixedMap.C74_clamp", "FixedMap.C74_pure", "FixedMap.C74_hash", "FixedMap.C74_set_hash", "FixedMap.C74_hash_pure"], "note": "The default methods lt, le, gt, ge, max, min, clamp and ne are those of core, as in Model/OrdHash; the order in which core drops the two or three maps (the later argument first) is part of the trusted base. Destructors are quiet here. Maps over the bitset flavour share the array storage."},
  {"property": "C75", "status": "proved", "theorems": ["FixedMap.C75_available", "FixedMap.C75_pure", "FixedMap.C75_ok", "FixedMap.C75_panic", "FixedMap.C75_panics_iff"], "note": "How core clones Chain, FlatMap, option::IntoIter and array::IntoIter, and drops the parts made if a later one panics, is part of the trusted base. What a hash_map::IntoIter holds (HeldApi) is a parameter that plays no role, as an iterator with one is not Clone."},
  {"property": "C76", "status": "proved", "theorems": ["FixedMap.C76_conserved", "FixedMap.C76_always", "FixedMap.C76_once", "FixedMap.C76_quiet", "FixedMap.C76_all_dropped"], "note": "Combines the models behind C10, C16 to C18, C48, C67, C69, C70, C72 and C75 in one machine with variables (Spec/Program); assumes HeldLaw and TableCloneLaw for hash tables. clone_from is the default method; a vector stands for the source of collect. A statement on a variable that is not in use does nothing, as rustc rejects it. modify_or_insert drops the closure of and_modify before the argument of or_insert is made. Values are counted, so equal values need no identity; C76_once is the case in which all are different."},
  {"property": "C77", "status": "proved", "theorems": ["FixedMap.C77_map", "FixedMap.C77_into_iter", "FixedMap.C77_units", "FixedMap.C77_set", "FixedMap.C77_set_iter"], "note": "A second interpreter of the emitted syntax (Model/GenEffects) with a world. The rules of Rust it uses are: statements in order, assignment drops the old value, fields are dropped in declaration order, operands of a struct literal are evaluated as written and dropped in reverse if a later one panics. The equality with the storage model makes C67, C69, C70, C71, C75 and C76 statements about the emitted code. C77_set and C77_set_iter: the emitted code of sets runs no code of the user. clone, eq and the iterators of unit enums are calls of core on the array and do not depend on the variants."},
  {"property": "C78", "status": "proved", "theorems": ["FixedMap.Gen.C78_structs", "FixedMap.Gen.C78_impls", "FixedMap.Gen.C78_coherent", "FixedMap.Gen.C78_selected", "FixedMap.Gen.C78_back", "FixedMap.Gen.C78_binder", "FixedMap.Gen.C78_mut"], "note": "The checks are those of Spec/GenHeader (scope, arity of associated types, unused and unconstrained parameters, lifetime bounds, false global where clauses, supertraits, bounds needed by bodies); they transcribe rules of rustc and are trusted as such. Lifetimes are not tracked beyond the presence of V: a. The headers of the entry types (no where clauses), of impl Key and of unit_variants.rs are not modelled."},
  {"property": "C79", "status": "proved", "theorems": ["FixedMap.C79_laws", "FixedMap.C79_held", "FixedMap.C79_clone", "FixedMap.C79_one_way", "FixedMap.C79_tables", "FixedMap.C79_set_tables"], "note": "The table probes slots one by one, not in groups, and stores no hash bits. hashbrown itself is not modelled; the theorem shows that its contract is met by tables of this design, so that the assumptions of the other theorems are not too strong for it. C79_tables excludes closures with state in retain and iter_mut, because what they see depends on the order of iteration."},
  {"property": "C80", "status": "proved", "theorems": ["FixedMap.Names.C80_any", "FixedMap.Names.C80_units", "FixedMap.Names.C80_enum_F", "FixedMap.Names.C80_payload_V", "FixedMap.Names.C80_own_option"], "note": "The emitted code is written out once more, reduced to its names and scopes (Model/GenNames). Name resolution is that of Spec/Names: locals, emitted items, the names of the user, prelude and primitive types; call-site hygiene. Not covered: lookup of methods and associated functions through traits in scope, attributes (a whole syn::Field is emitted for a payload), visibilities, lifetimes, and absolute paths, which the user can redirect only by naming another crate core or fixed_map. C80_enum_F, C80_payload_V and C80_own_option are consequences: enums for which the derive emits code that is rejected or means something else."},
  {"property": "C81", "status": "proved", "theorems": ["FixedMap.C81_heapless", "FixedMap.C81_new", "FixedMap.C81_step", "FixedMap.C81_clear", "FixedMap.C81_reuse", "FixedMap.C81_clone", "FixedMap.C81_set_step", "FixedMap.C81_set_reuse", "FixedMap.C81_size", "FixedMap.C81_laws"], "note": "What is assumed of hashbrown 0.13.2 about memory is MemoryLaws (Spec/Memory): new allocates nothing, clear, remove, retain, entry, the methods of occupied entries and writes keep the block, insert keeps it if the key is present or there is room (capacity), and never shrinks it; clone makes a block of the same size. C81_laws shows that tables with open addressing meet these laws. Only the size of the block a table owns is tracked, not the sequence of allocator calls. Everything else in a map is stored inline, in the fields of the storage struct."},
  {"property": "C82", "status": "proved", "theorems": ["FixedMap.C82_option", "FixedMap.C82_derive", "FixedMap.C82_lawful", "FixedMap.C82_builtin", "FixedMap.C82_run"], "note": "Safe (Spec/Sound) is what the types of Rust guarantee of a safe storage in terms of the model: a reference or entry it hands out is valid while it is borrowed, references handed out together do not overlap, its methods have no undefined behaviour on valid entries. Sound.run is the client: calls on the map end all borrows, so what it holds is nothing, one entry, or the references of one call. Methods of storages other than those of entries do not panic in the model. The examples contain a storage that is safe but lies about everything, and two storages that are not safe."},
  {"property": "C83", "status": "proved", "theorems": ["FixedMap.C83_map", "FixedMap.C83_set", "FixedMap.C83_traversal", "FixedMap.C83_counted", "FixedMap.C83_rounds", "FixedMap.C83_rounds_back"], "note": "The count (Model/Cost) is one for each call of next or next_back on an iterator of the crate or of core, and one for each round of a generated loop; it follows the control flow of the iterators in the model. A call on an iterator of hashbrown counts as one; a traversal of a table is in fact linear in its capacity. C83_counted and C83_rounds show that no call and no round is left out. The constants are KeyTy.perCall and KeyTy.once (Spec/Cost)."},
  {"property": "C84", "status": "proved", "theorems": ["FixedMap.C84_map", "FixedMap.C84_set", "FixedMap.C84_map_after", "FixedMap.C84_set_after", "FixedMap.C84_intersection"], "note": "What fold and rfold of Map, Copied, Chain, FlatMap, Flatten and array iterators in core do is modelled in Model/Fold (trusted, like the rest of core); iterators of hashbrown 0.13.2, option iterators, Keys and Iter of bool and the generated iterators have the default loop. The closure returns Except: an error is a panic. C84_map and C84_set hold in all states, also unreachable ones, and for any hash table. What is dropped when a closure panics is not part of C84. This closes the gap in C41, whose fold took the inner fold to be the loop."},
  {"property": "C85", "status": "proved", "theorems": ["FixedMap.C85_rules", "FixedMap.C85_map", "FixedMap.C85_iter", "FixedMap.C85_keys", "FixedMap.C85_entry", "FixedMap.C85_set", "FixedMap.C85_emitted"], "note": "Model/Auto gives the field types of the storages, iterators and entries, core's adapters by their fields, and rustc's rules. What hashbrown 0.13.2 implements is assumed (HashTy.auto). C85_emitted shows that the types for derived enums are those of the emitted structs of Model/GenHeader and Model/GenEntry; the types of unit enums are cited from unit_variants.rs. Spec/Auto is the independent account by accesses. Key types are those of the crate, which are Send and Sync. The hypothesis noEmpty leaves out only an enum type without variants in the position of an enum with payloads, which the derive never produces. That keys with a hash table needs V: Sync although it hands out no reference to a value is a property of hashbrown."},
  {"property": "C86", "status": "proved", "theorems": ["FixedMap.Emit.C86_any", "FixedMap.Emit.C86_units", "FixedMap.Emit.C86_bounds", "FixedMap.Emit.C86_separators"], "note": "Model/Quote gives quote! as an elaborator that turns template text into a list of tokens; Model/Emit and Model/EmitUnits have the templates and the Rust code around them as in the source (184 templates of any_variants.rs, copied by a script). Spec/Emit and Spec/EmitUnits print the data of Model/Gen*.lean and GenUnits.lean and take nothing from the derive. C86_bounds: the field bounds, which is not printed itself, agrees with the where clauses. Assumed: one spelling per payload type (el); syn::parse2 of a where clause and printing it again changes nothing; spans, spacing and grouping of tokens are left out."},
  {"property": "C87", "status": "proved", "theorems": ["FixedMap.Emit.C87_any", "FixedMap.Emit.C87_units", "FixedMap.Emit.C87_payload_path", "FixedMap.Emit.C87_payload_generic"], "note": "Spec/TokenNames reads the names off the tokens: an identifier counts unless it is a keyword, an attribute word, comes after ::, ., fn, struct, enum or type, or is a field or a variant in its declaration; decided from the tokens before and after it. Assumed (Plain, AllPayload): the name of the enum is an identifier other than a keyword, the visibility names nothing, the lifetime is the derive's own, and what counts in a payload does not depend on the tokens around it; C87_payload_path and C87_payload_generic show this for paths and for generic types. The scopes in Model/GenNames and the list of declared items are not checked against the tokens. Proving this turned up uses missing from the list (other, and the type aliases of unit enums), which are there now."},
  {"property": "C88", "status": "proved", "theorems": ["FixedMap.C88_map", "FixedMap.C88_set", "FixedMap.C88_map_memory", "FixedMap.C88_set_memory", "FixedMap.C88_finite", "FixedMap.C88_intersection", "FixedMap.C88_overflow"], "note": "That a hash table counts its own entries in a usize without overflow is assumed (mapTablesFit, setTablesFit) where lengths may not fit. mapBytes and setBytes (Spec/LenWord) are lower bounds for the memory of a storage: one byte for each Option and bool, the width of a bitset, one control byte for each entry of a table; that Rust and hashbrown use at least this much is trusted. C88_overflow is the counterexample for 16 bits; the widths of 32 and 64 bits would need bitsets of 512 MB and more."},
  {"property": "C89", "status": "proved", "theorems": ["FixedMap.Emit.Macro.C89_macro", "FixedMap.Emit.Macro.C89_total", "FixedMap.Emit.Macro.C89_unsupported", "FixedMap.Emit.Macro.C89_output", "FixedMap.Emit.Macro.C89_history"], "note": "syn is modelled as far as it reads attributes (parse_nested_meta, is_ident) and writes errors (to_compile_error, for one message); which tokens are identifiers and what syn says about malformed attributes are parameters. The parsing of the item itself is not modelled."},
  {"property": "C90", "status": "proved", "theorems": ["FixedMap.C90_map", "FixedMap.C90_set", "FixedMap.C90_map_queries", "FixedMap.C90_set_queries"], "note": "The methods of core's Map, Copied, Chain, FlatMap and Flatten are modelled by hand from core (Model/IterMethods), those of the traits as loops. Array and slice iterators are lists. count does not overflow. Intersections, which get the loops of the trait for all of these but fold (C84), are left out."},
  {"property": "C91", "status": "proved", "theorems": ["FixedMap.Paths.C91_macro", "FixedMap.Paths.C91_any", "FixedMap.Paths.C91_units", "FixedMap.Paths.C91_crates", "FixedMap.Paths.C91_only"], "note": "Model/Paths is the module tree of src/ with pub, re-exports and features; the table of core in it is written from the documentation and trusted. Spec/Paths reads the absolute paths off the tokens with a stack of brackets. Not covered: relative paths and method calls (C87 lists names), generic arguments, and a dependency that the user renames: the name fixed_map is fixed in context.rs. Assumed of the input (OfSyn): names are identifiers other than derive, and brackets are closed in payload types and visibilities."},
  {"property": "C92", "status": "proved", "theorems": ["FixedMap.Impls.C92_any", "FixedMap.Impls.C92_units", "FixedMap.Impls.C92_macro", "FixedMap.Impls.C92_errors", "FixedMap.Impls.C92_same", "FixedMap.Impls.C92_complete"], "note": "Spec/Impls reads the impls off the tokens with a small machine and says what rustc asks of them as far as items and signatures go. The traits of fixed-map are given with the text of the source, those of core are trusted (Model/TraitItems), and so are the items of FlatMap, Flatten and array and slice iterators (coreItem). Not covered: where clauses of impls (C78), supertraits, bodies, and traits written in a derive attribute. Assumed: the enum is not called Option (unit_variants.rs writes Option without a path), and payload types and visibilities have no braces."},
  {"property": "C93", "status": "proved", "theorems": ["FixedMap.Rust.C93_option_bucket", "FixedMap.Rust.C93_map_boolean", "FixedMap.Rust.C93_map_singleton", "FixedMap.Rust.C93_map_option", "FixedMap.Rust.C93_map_hashbrown", "FixedMap.Rust.C93_set_boolean", "FixedMap.Rust.C93_set_singleton", "FixedMap.Rust.C93_set_option", "FixedMap.Rust.C93_set_hashbrown"], "note": "Trusted: the interpreter (Model/RustSem) as a reading of Rust, and the methods of core's Option, u8, iterator adapters and mem functions in it. Types and lifetimes are not looked at. Values of the user, the inner storage of option.rs and hashbrown's map are outside the text and reached by calls (Model/RustMap); closures that are passed out change only the caller's state and the value they are given. Derived Clone and PartialEq go field by field. Map keys of singleton.rs are (). Fuel 40 suffices for every call. Not in these theorems: the derived PartialOrd, Ord and Hash of SingletonSetStorage, and drops of local variables at the end of a scope."},
  {"property": "C94", "status": "proved", "theorems": ["FixedMap.Rust.C94_map", "FixedMap.Rust.C94_entry", "FixedMap.Rust.C94_map_serde", "FixedMap.Rust.C94_set", "FixedMap.Rust.C94_set_serde", "FixedMap.Rust.C94_intersection", "FixedMap.Rust.C94_operators", "FixedMap.Rust.C94_deserialize", "FixedMap.Rust.C94_deserialized"], "note": "Trusted as for C93. The storage is outside the text. visit_map drops on an error are left open (the half-built map goes out of scope). serialize, next and fold are compared whenever the model's run ends, which it does for all storages of keys (C15, C30). For fold the inner iterator's fold is taken to call the closure on what its next yields. In deserialize and expecting the deserializer and the formatter answer arbitrarily; the string of expecting is not looked at. Not in these theorems: the empty impls of Copy and Eq."},
  {"property": "C95", "status": "proved", "theorems": ["FixedMap.Rust.C95_slots", "FixedMap.Rust.C95_bools", "FixedMap.Rust.C95_maps"], "note": "Trusted as for C93, and core's enumerate, filter_map, filter, partial_cmp and cmp of iterators and tuples (Model/RustCmp, Model/Compare). filter_map and filter are run at once: the functions of the file have no effects."},
  {"property": "C96", "status": "proved", "theorems": ["FixedMap.Rust.C96_storages", "FixedMap.Rust.C96_only", "FixedMap.Rust.C96_unique", "FixedMap.Rust.C96_exact", "FixedMap.Rust.C96_integers"], "note": "Trusted as for C93, and the expansion of macro_rules! with one rule and one parameter, and the selection of impls (Model/RustKey). The use declarations of key.rs are not followed: a storage is looked for in the file that defines a struct of its name. Enums get their impl from the derive (C61, C62)."},
  {"property": "C97", "status": "proved", "theorems": ["FixedMap.DeriveText.C97_any", "FixedMap.DeriveText.C97_units", "FixedMap.DeriveText.C97_refused", "FixedMap.DeriveText.C97_complex", "FixedMap.DeriveText.C97_bits", "FixedMap.DeriveText.C97_printed", "FixedMap.DeriveText.C97_accepted"], "note": "Trusted: the parser and the interpreter (Model/DeriveSyntax, Model/DeriveSem) as a reading of the Rust of the derive, of quote! and of how syn prints the paths and patterns that it is given; parse2 returns what prints as its input. Variants that are skipped (named fields, several fields) are the subject of C98. The paths of context.rs are read from its text, the functions that put them together are run in C99. Fields::complex is a primitive of the interpreter; C97_complex runs its text."},
  {"property": "C98", "status": "proved", "theorems": ["FixedMap.DeriveText.C98_any", "FixedMap.DeriveText.C98_macro", "FixedMap.DeriveText.C98_derive", "FixedMap.DeriveText.C98_panics", "FixedMap.DeriveText.C98_refused", "FixedMap.DeriveText.C98_runs", "FixedMap.DeriveText.C98_accepted"], "note": "Trusted: what C97 trusts; continue, return, expect and span_error as the interpreter has them. attrs::parse is the function parse of Model/Macro here; C99 runs it from its text. storage_derive (lib.rs 31-48), which prints the errors, is the definition written of the specification; C100 runs its text. unit_variants::implement is given the names of the variants, which is all of them as none has a payload."},
  {"property": "C99", "status": "proved", "theorems": ["FixedMap.DeriveText.C99_attrs", "FixedMap.DeriveText.C99_macro", "FixedMap.DeriveText.C99_derive", "FixedMap.DeriveText.C99_bitset", "FixedMap.DeriveText.C99_suffixed", "FixedMap.DeriveText.C99_paths", "FixedMap.DeriveText.C99_table"], "note": "Trusted: the parser, the interpreter of Model/DeriveAttrs and its header (derived Default of Opts, cx.error, syn::Error::new, PathSegment::from, Punctuated, clone); parse_nested_meta of syn is that of Model/Macro with the closure as a parameter. That syn prints a path as its segments with :: between is the definition pathTokens. Toks::new (context.rs 20-30) is not run; storage_derive is, in C100."},
  {"property": "C100", "status": "proved", "theorems": ["FixedMap.DeriveText.C100_derive", "FixedMap.DeriveText.C100_syntax", "FixedMap.DeriveText.C100_total", "FixedMap.DeriveText.C100_accepted", "FixedMap.DeriveText.C100_impls", "FixedMap.DeriveText.C100_refused", "FixedMap.DeriveText.C100_errors", "FixedMap.DeriveText.C100_fallible"], "note": "Trusted: the parser, the interpreter of Model/DeriveMain and its header (parse_macro_input!, Error::new, Lifetime::new, RefCell; Toks::new keeps the prefix). syn reading the item is not modelled: the input is an item or an error message. After Ok the errors in the context are not known to the interpreter; a program that looked at them would be wrong, and storage_derive does not."},
  {"property": "C101", "status": "proved", "theorems": ["FixedMap.DeriveText.C101_map", "FixedMap.DeriveText.C101_set", "FixedMap.DeriveText.C101_iter", "FixedMap.DeriveText.C101_units_iter"], "note": "Trusted: what C100, C86, C89 and C63 trust. The code is the one that the interpreters of Model/Gen and Model/GenUnits run; that rustc reads the printed tokens as this code is trusted (C84 to C92 say what is proved about the tokens)."},
  {"property": "C102", "status": "proved", "theorems": ["FixedMap.Rust.C102_iterators", "FixedMap.Rust.C102_storages", "FixedMap.Rust.C102_map", "FixedMap.Rust.C102_set"], "note": "Trusted: the tokenizer, the reader of derives and impl headers (Model/RustTraits), and that rustc selects impls by their where clauses and that a derive bounds every type parameter; for the iterators the rules of Model/RustIterTraits for the types of core and hashbrown, and that the parameters of a type of the file have the same names where it is used. Keys are Clone and Copy, and keys of hash tables Eq and Hash. The impls that the derive macro writes are not among the files; their headers are the tokens of C86 to C92."}
]}
