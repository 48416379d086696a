import Verif.Properties.Algebra
import Verif.Properties.Auto
import Verif.Properties.Bitset
import Verif.Properties.ClonePanic
import Verif.Properties.Collect
import Verif.Properties.Compare
import Verif.Properties.Contents
import Verif.Properties.Cost
import Verif.Properties.Custom
import Verif.Properties.Derive
import Verif.Properties.DeriveAttrs
import Verif.Properties.DeriveMacro
import Verif.Properties.DeriveMain
import Verif.Properties.DeriveText
import Verif.Properties.DeriveWhole
import Verif.Properties.DropExact
import Verif.Properties.DropPanic
import Verif.Properties.Emit
import Verif.Properties.Exact
import Verif.Properties.ExactHint
import Verif.Properties.Expand
import Verif.Properties.Fold
import Verif.Properties.Gen
import Verif.Properties.GenEffects
import Verif.Properties.GenHeader
import Verif.Properties.GenUnits
import Verif.Properties.HashFree
import Verif.Properties.Impls
import Verif.Properties.IterClone
import Verif.Properties.IterClonePanic
import Verif.Properties.IterDrop
import Verif.Properties.IterMethods
import Verif.Properties.LenWord
import Verif.Properties.LoopWord
import Verif.Properties.Macro
import Verif.Properties.MapBasic
import Verif.Properties.MapEntry
import Verif.Properties.MapHistory
import Verif.Properties.MapIter
import Verif.Properties.MapKeys
import Verif.Properties.MapOrd
import Verif.Properties.MapRetain
import Verif.Properties.Memory
import Verif.Properties.Names
import Verif.Properties.Operators
import Verif.Properties.Paths
import Verif.Properties.ProbeTable
import Verif.Properties.Program
import Verif.Properties.RustApi
import Verif.Properties.RustCmp
import Verif.Properties.RustIterTraits
import Verif.Properties.RustKey
import Verif.Properties.RustSerde
import Verif.Properties.RustSource
import Verif.Properties.RustTraits
import Verif.Properties.SetBasic
import Verif.Properties.SetExact
import Verif.Properties.SetHistory
import Verif.Properties.SetIntersection
import Verif.Properties.SetIter
import Verif.Properties.SetOrd
import Verif.Properties.SetRetain
import Verif.Properties.Sound
import Verif.Properties.Text
import Verif.Properties.TokenNames
import Verif.Properties.Traits

/-! # Axioms each property theorem depends on

Building this file prints them; nothing beyond `propext`, `Classical.choice` and `Quot.sound` is expected. -/

#print axioms FixedMap.C01_history
#print axioms FixedMap.C01_history_from

#print axioms FixedMap.C02_insert

#print axioms FixedMap.C03_remove

#print axioms FixedMap.C04_getMut

#print axioms FixedMap.C05_agree

#print axioms FixedMap.C06_len
#print axioms FixedMap.C06_len_changes

#print axioms FixedMap.C07_isEmpty
#print axioms FixedMap.C07_new

#print axioms FixedMap.C08_iter
#print axioms FixedMap.C08_allKeys

#print axioms FixedMap.C09_values
#print axioms FixedMap.C09_projections_partial
#print axioms FixedMap.C09_false_for_unit
#print axioms FixedMap.C09_unit_keys
#print axioms FixedMap.C09_keys_exact

#print axioms FixedMap.C10_iterMut

#print axioms FixedMap.C11_doubleEnded
#print axioms FixedMap.C11_exhausted

#print axioms FixedMap.C12_sizeHint
#print axioms FixedMap.C12_bool_keys_exact
#print axioms FixedMap.C12_set_sizeHint
#print axioms FixedMap.C12_set_bool_exact

#print axioms FixedMap.C13_retain
#print axioms FixedMap.C13_calls
#print axioms FixedMap.C13_stateless

#print axioms FixedMap.C14_retain_panic
#print axioms FixedMap.C14_later_entries_kept

#print axioms FixedMap.C15_clear

#print axioms FixedMap.C16_entry

#print axioms FixedMap.C17_orInsertWithKey
#print axioms FixedMap.C17_orInsertWith
#print axioms FixedMap.C17_orDefault
#print axioms FixedMap.C17_orInsert

#print axioms FixedMap.C18_andModify
#print axioms FixedMap.C18_modify_or_insert

#print axioms FixedMap.C19_occupied
#print axioms FixedMap.C19_vacant

#print axioms FixedMap.C20_no_ub
#print axioms FixedMap.C20_buckets

#print axioms FixedMap.C21_conservation

#print axioms FixedMap.C22_fromIter

#print axioms FixedMap.C23_eq
#print axioms FixedMap.C23_eq_congr
#print axioms FixedMap.C23_equivalence

#print axioms FixedMap.C24_hash_of_eq
#print axioms FixedMap.C24_hash_injective
#print axioms FixedMap.C24_units_set
#print axioms FixedMap.C24_unit_set
#print axioms FixedMap.C24_bitset_set

#print axioms FixedMap.C25_total_order

#print axioms FixedMap.C26_lexicographic

#print axioms FixedMap.C27_follows_cmp
#print axioms FixedMap.C27_units_set
#print axioms FixedMap.C27_unit_set
#print axioms FixedMap.C27_bitset

#print axioms FixedMap.C28_clone
#print axioms FixedMap.C28_set_clone

#print axioms FixedMap.C29_map_serialize
#print axioms FixedMap.C29_set_serialize
#print axioms FixedMap.C29_map_deserialize
#print axioms FixedMap.C29_map_round_trip
#print axioms FixedMap.C29_set_round_trip

#print axioms FixedMap.C30_map_debug
#print axioms FixedMap.C30_set_debug
#print axioms FixedMap.C30_intersection_debug
#print axioms FixedMap.C30_any_formatter

#print axioms FixedMap.C31_step
#print axioms FixedMap.C31_history_from_partial
#print axioms FixedMap.C31_history_partial
#print axioms FixedMap.C31_reachable
#print axioms FixedMap.C31_deterministic
#print axioms FixedMap.C31_false_for_unit

#print axioms FixedMap.C32_insert_contents
#print axioms FixedMap.C32_insert_partial
#print axioms FixedMap.C32_insert_partial_scope
#print axioms FixedMap.C32_insert_inverted
#print axioms FixedMap.C32_false_for_bool
#print axioms FixedMap.C32_false_for_none

#print axioms FixedMap.C33_remove_contents
#print axioms FixedMap.C33_remove_exact
#print axioms FixedMap.C33_remove_partial
#print axioms FixedMap.C33_remove_partial_scope
#print axioms FixedMap.C33_false_for_bool

#print axioms FixedMap.C34_len_zero
#print axioms FixedMap.C34_isEmpty_exact
#print axioms FixedMap.C34_isEmpty_partial
#print axioms FixedMap.C34_false_for_option

#print axioms FixedMap.C35_len
#print axioms FixedMap.C35_len_changes

#print axioms FixedMap.C36_iter

#print axioms FixedMap.C37_retain_exact
#print axioms FixedMap.C37_retain_partial
#print axioms FixedMap.C37_calls_partial
#print axioms FixedMap.C37_stateless_partial
#print axioms FixedMap.C37_false_for_unit

#print axioms FixedMap.C38_retain_panic_exact
#print axioms FixedMap.C38_retain_panic_partial
#print axioms FixedMap.C38_false_for_unit

#print axioms FixedMap.C39_clear_new

#print axioms FixedMap.C40_intersection
#print axioms FixedMap.C40_operand
#print axioms FixedMap.C40_symmetric
#print axioms FixedMap.C40_collect

#print axioms FixedMap.C41_fold_hint

#print axioms FixedMap.C42_eq
#print axioms FixedMap.C42_equivalence

#print axioms FixedMap.C43_units_lexicographic
#print axioms FixedMap.C43_units_total_order
#print axioms FixedMap.C43_unit
#print axioms FixedMap.C43_unit_total_order
#print axioms FixedMap.C43_bitset_exact
#print axioms FixedMap.C43_bitset_partial
#print axioms FixedMap.C43_bitset_agrees_iff

#print axioms FixedMap.C44_round_trip
#print axioms FixedMap.C44_declared_bits

#print axioms FixedMap.C45_exact
#print axioms FixedMap.C45_coherent_partial
#print axioms FixedMap.C45_full_width
#print axioms FixedMap.C45_false

#print axioms FixedMap.C46_same_contents
#print axioms FixedMap.C46_interchangeable_partial
#print axioms FixedMap.C46_false_after_panic
#print axioms FixedMap.C46_retain_exact

#print axioms FixedMap.C47_collect
#print axioms FixedMap.C47_deserialize

#print axioms FixedMap.C48_width
#print axioms FixedMap.C48_masks
#print axioms FixedMap.C48_derive

#print axioms FixedMap.Derive.C49_non_enum
#print axioms FixedMap.Derive.C49_accepts_partial
#print axioms FixedMap.Derive.C49_code
#print axioms FixedMap.Derive.C49_diagnosed_iff
#print axioms FixedMap.Derive.C49_panics_iff
#print axioms FixedMap.Derive.C49_false_attributes
#print axioms FixedMap.Derive.C49_false_panic
#print axioms FixedMap.Derive.C49_false_no_diagnostic

#print axioms FixedMap.C50_empty_map
#print axioms FixedMap.C50_empty_set

#print axioms FixedMap.C51_canonical
#print axioms FixedMap.C51_eq_identical
#print axioms FixedMap.C51_answers

#print axioms FixedMap.C52_canonical
#print axioms FixedMap.C52_eq_identical
#print axioms FixedMap.C52_answers

#print axioms FixedMap.C53_map_len
#print axioms FixedMap.C53_set_len
#print axioms FixedMap.C53_full
#print axioms FixedMap.C53_map_full
#print axioms FixedMap.C53_set_full

#print axioms FixedMap.C54_step
#print axioms FixedMap.C54_set_as_map_partial
#print axioms FixedMap.C54_false_for_unit
#print axioms FixedMap.C54_false_after_panic
#print axioms FixedMap.C54_retain_exact

#print axioms FixedMap.C55_comm
#print axioms FixedMap.C55_last_wins
#print axioms FixedMap.C55_undo
#print axioms FixedMap.C55_retain

#print axioms FixedMap.C56_collect
#print axioms FixedMap.C56_order
#print axioms FixedMap.C56_set_collect

#print axioms FixedMap.C57_set
#print axioms FixedMap.C57_set_retain_partial
#print axioms FixedMap.C57_retain_contents
#print axioms FixedMap.C57_retain_exact

#print axioms FixedMap.C58_map
#print axioms FixedMap.C58_set
#print axioms FixedMap.C58_bound_needed

#print axioms FixedMap.C59_map
#print axioms FixedMap.C59_set
#print axioms FixedMap.C59_supertraits
#print axioms FixedMap.C59_iterators
#print axioms FixedMap.C59_bodies

#print axioms FixedMap.C60_map
#print axioms FixedMap.C60_set

#print axioms FixedMap.C61_keys
#print axioms FixedMap.C61_map_key
#print axioms FixedMap.C61_map_all
#print axioms FixedMap.C61_map_ref
#print axioms FixedMap.C61_map_iter
#print axioms FixedMap.C61_map_entry
#print axioms FixedMap.C61_map_occupied
#print axioms FixedMap.C61_map_vacant
#print axioms FixedMap.C61_history
#print axioms FixedMap.C61_set_key
#print axioms FixedMap.C61_set_all
#print axioms FixedMap.C61_set_iter

#print axioms FixedMap.C62_map_key
#print axioms FixedMap.C62_map_all
#print axioms FixedMap.C62_map_entry
#print axioms FixedMap.C62_map_iter
#print axioms FixedMap.C62_history
#print axioms FixedMap.C62_set
#print axioms FixedMap.C62_bitset

#print axioms FixedMap.C63_decision
#print axioms FixedMap.C63_accepts
#print axioms FixedMap.C63_map_history
#print axioms FixedMap.C63_set_history
#print axioms FixedMap.C63_set_exact
#print axioms FixedMap.C63_set_exact_unique

#print axioms FixedMap.C64_map
#print axioms FixedMap.Gen.C64_emitted_map
#print axioms FixedMap.Gen.C64_emitted_map_into
#print axioms FixedMap.Gen.C64_emitted_set
#print axioms FixedMap.Gen.C64_typed

#print axioms FixedMap.C65_call
#print axioms FixedMap.C65_calls
#print axioms FixedMap.C65_calls_new
#print axioms FixedMap.C65_total
#print axioms FixedMap.C65_indistinguishable

#print axioms FixedMap.C66_builtin_map
#print axioms FixedMap.C66_option_map
#print axioms FixedMap.C66_derive_map
#print axioms FixedMap.C66_history
#print axioms FixedMap.C66_eq
#print axioms FixedMap.C66_option_set_false
#print axioms FixedMap.C66_derive_set
#print axioms FixedMap.C66_builtin_set
#print axioms FixedMap.C66_set_calls
#print axioms FixedMap.C66_set_iter

#print axioms FixedMap.C67_clear_exact
#print axioms FixedMap.C67_drop_exact
#print axioms FixedMap.C67_clear_plain
#print axioms FixedMap.C67_drop_plain
#print axioms FixedMap.C67_fromIter_panic
#print axioms FixedMap.C67_retain
#print axioms FixedMap.C67_retain_quiet
#print axioms FixedMap.C67_retain_panic
#print axioms FixedMap.C67_clear
#print axioms FixedMap.C67_clear_again
#print axioms FixedMap.C67_drop
#print axioms FixedMap.C67_fromIter

#print axioms FixedMap.C68_map_exact
#print axioms FixedMap.C68_set_exact
#print axioms FixedMap.C68_units
#print axioms FixedMap.C68_units_set
#print axioms FixedMap.C68_bitset
#print axioms FixedMap.C68_enum
#print axioms FixedMap.C68_satisfiable

#print axioms FixedMap.C69_drop_exact
#print axioms FixedMap.C69_drop
#print axioms FixedMap.C69_once
#print axioms FixedMap.C69_exhausted
#print axioms FixedMap.C69_satisfiable

#print axioms FixedMap.C70_ok
#print axioms FixedMap.C70_panic
#print axioms FixedMap.C70_unwind_keys
#print axioms FixedMap.C70_order
#print axioms FixedMap.C70_panics_iff
#print axioms FixedMap.C70_pure
#print axioms FixedMap.C70_clone_from
#print axioms FixedMap.C70_satisfiable

#print axioms FixedMap.C71_eq
#print axioms FixedMap.C71_eq_plain
#print axioms FixedMap.C71_eq_pure
#print axioms FixedMap.C71_partial_cmp
#print axioms FixedMap.C71_cmp
#print axioms FixedMap.C71_partial_cmp_pure
#print axioms FixedMap.C71_cmp_pure

#print axioms FixedMap.C72_from_iter
#print axioms FixedMap.C72_visit_map
#print axioms FixedMap.C72_conserved
#print axioms FixedMap.C72_visit_list
#print axioms FixedMap.C72_set_visit
#print axioms FixedMap.C72_set_from_iter

#print axioms FixedMap.C73_map
#print axioms FixedMap.C73_set
#print axioms FixedMap.C73_history
#print axioms FixedMap.C73_set_calls
#print axioms FixedMap.C73_asks
#print axioms FixedMap.C73_iff

#print axioms FixedMap.C74_ne
#print axioms FixedMap.C74_operators
#print axioms FixedMap.C74_max
#print axioms FixedMap.C74_min
#print axioms FixedMap.C74_clamp
#print axioms FixedMap.C74_pure
#print axioms FixedMap.C74_hash
#print axioms FixedMap.C74_set_hash
#print axioms FixedMap.C74_hash_pure

#print axioms FixedMap.C75_available
#print axioms FixedMap.C75_pure
#print axioms FixedMap.C75_ok
#print axioms FixedMap.C75_panic
#print axioms FixedMap.C75_panics_iff

#print axioms FixedMap.C76_conserved
#print axioms FixedMap.C76_always
#print axioms FixedMap.C76_once
#print axioms FixedMap.C76_quiet
#print axioms FixedMap.C76_all_dropped

#print axioms FixedMap.C77_map
#print axioms FixedMap.C77_into_iter
#print axioms FixedMap.C77_units
#print axioms FixedMap.C77_set
#print axioms FixedMap.C77_set_iter

#print axioms FixedMap.Gen.C78_structs
#print axioms FixedMap.Gen.C78_impls
#print axioms FixedMap.Gen.C78_coherent
#print axioms FixedMap.Gen.C78_selected
#print axioms FixedMap.Gen.C78_back
#print axioms FixedMap.Gen.C78_binder
#print axioms FixedMap.Gen.C78_mut

#print axioms FixedMap.C79_laws
#print axioms FixedMap.C79_held
#print axioms FixedMap.C79_clone
#print axioms FixedMap.C79_one_way
#print axioms FixedMap.C79_tables
#print axioms FixedMap.C79_set_tables

#print axioms FixedMap.Names.C80_any
#print axioms FixedMap.Names.C80_units
#print axioms FixedMap.Names.C80_enum_F
#print axioms FixedMap.Names.C80_payload_V
#print axioms FixedMap.Names.C80_own_option

#print axioms FixedMap.C81_heapless
#print axioms FixedMap.C81_new
#print axioms FixedMap.C81_step
#print axioms FixedMap.C81_clear
#print axioms FixedMap.C81_reuse
#print axioms FixedMap.C81_clone
#print axioms FixedMap.C81_set_step
#print axioms FixedMap.C81_set_reuse
#print axioms FixedMap.C81_size
#print axioms FixedMap.C81_laws

#print axioms FixedMap.C82_option
#print axioms FixedMap.C82_derive
#print axioms FixedMap.C82_lawful
#print axioms FixedMap.C82_builtin
#print axioms FixedMap.C82_run

#print axioms FixedMap.C83_map
#print axioms FixedMap.C83_set
#print axioms FixedMap.C83_traversal
#print axioms FixedMap.C83_counted
#print axioms FixedMap.C83_rounds
#print axioms FixedMap.C83_rounds_back

#print axioms FixedMap.C84_map
#print axioms FixedMap.C84_set
#print axioms FixedMap.C84_map_after
#print axioms FixedMap.C84_set_after
#print axioms FixedMap.C84_intersection

#print axioms FixedMap.C85_rules
#print axioms FixedMap.C85_map
#print axioms FixedMap.C85_iter
#print axioms FixedMap.C85_keys
#print axioms FixedMap.C85_entry
#print axioms FixedMap.C85_set
#print axioms FixedMap.C85_emitted

#print axioms FixedMap.Emit.C86_any
#print axioms FixedMap.Emit.C86_units
#print axioms FixedMap.Emit.C86_bounds
#print axioms FixedMap.Emit.C86_separators

#print axioms FixedMap.Emit.C87_any
#print axioms FixedMap.Emit.C87_units
#print axioms FixedMap.Emit.C87_payload_path
#print axioms FixedMap.Emit.C87_payload_generic

#print axioms FixedMap.C88_map
#print axioms FixedMap.C88_set
#print axioms FixedMap.C88_map_memory
#print axioms FixedMap.C88_set_memory
#print axioms FixedMap.C88_finite
#print axioms FixedMap.C88_intersection
#print axioms FixedMap.C88_overflow

#print axioms FixedMap.Emit.Macro.C89_macro
#print axioms FixedMap.Emit.Macro.C89_total
#print axioms FixedMap.Emit.Macro.C89_unsupported
#print axioms FixedMap.Emit.Macro.C89_output
#print axioms FixedMap.Emit.Macro.C89_history

#print axioms FixedMap.C90_map
#print axioms FixedMap.C90_set
#print axioms FixedMap.C90_map_queries
#print axioms FixedMap.C90_set_queries

#print axioms FixedMap.Paths.C91_macro
#print axioms FixedMap.Paths.C91_any
#print axioms FixedMap.Paths.C91_units
#print axioms FixedMap.Paths.C91_crates
#print axioms FixedMap.Paths.C91_only

#print axioms FixedMap.Impls.C92_any
#print axioms FixedMap.Impls.C92_units
#print axioms FixedMap.Impls.C92_macro
#print axioms FixedMap.Impls.C92_errors
#print axioms FixedMap.Impls.C92_same
#print axioms FixedMap.Impls.C92_complete

#print axioms FixedMap.Rust.C93_option_bucket
#print axioms FixedMap.Rust.C93_map_boolean
#print axioms FixedMap.Rust.C93_map_singleton
#print axioms FixedMap.Rust.C93_map_option
#print axioms FixedMap.Rust.C93_map_hashbrown
#print axioms FixedMap.Rust.C93_set_boolean
#print axioms FixedMap.Rust.C93_set_singleton
#print axioms FixedMap.Rust.C93_set_option
#print axioms FixedMap.Rust.C93_set_hashbrown

#print axioms FixedMap.Rust.C94_map
#print axioms FixedMap.Rust.C94_entry
#print axioms FixedMap.Rust.C94_map_serde
#print axioms FixedMap.Rust.C94_set
#print axioms FixedMap.Rust.C94_set_serde
#print axioms FixedMap.Rust.C94_intersection
#print axioms FixedMap.Rust.C94_operators
#print axioms FixedMap.Rust.C94_deserialize
#print axioms FixedMap.Rust.C94_deserialized

#print axioms FixedMap.Rust.C95_slots
#print axioms FixedMap.Rust.C95_bools
#print axioms FixedMap.Rust.C95_maps

#print axioms FixedMap.Rust.C96_storages
#print axioms FixedMap.Rust.C96_only
#print axioms FixedMap.Rust.C96_unique
#print axioms FixedMap.Rust.C96_exact
#print axioms FixedMap.Rust.C96_integers

#print axioms FixedMap.DeriveText.C97_any
#print axioms FixedMap.DeriveText.C97_units
#print axioms FixedMap.DeriveText.C97_refused
#print axioms FixedMap.DeriveText.C97_complex
#print axioms FixedMap.DeriveText.C97_bits
#print axioms FixedMap.DeriveText.C97_printed
#print axioms FixedMap.DeriveText.C97_accepted

#print axioms FixedMap.DeriveText.C98_any
#print axioms FixedMap.DeriveText.C98_macro
#print axioms FixedMap.DeriveText.C98_derive
#print axioms FixedMap.DeriveText.C98_panics
#print axioms FixedMap.DeriveText.C98_refused
#print axioms FixedMap.DeriveText.C98_runs
#print axioms FixedMap.DeriveText.C98_accepted

#print axioms FixedMap.DeriveText.C99_attrs
#print axioms FixedMap.DeriveText.C99_macro
#print axioms FixedMap.DeriveText.C99_derive
#print axioms FixedMap.DeriveText.C99_bitset
#print axioms FixedMap.DeriveText.C99_suffixed
#print axioms FixedMap.DeriveText.C99_paths
#print axioms FixedMap.DeriveText.C99_table

#print axioms FixedMap.DeriveText.C100_derive
#print axioms FixedMap.DeriveText.C100_syntax
#print axioms FixedMap.DeriveText.C100_total
#print axioms FixedMap.DeriveText.C100_accepted
#print axioms FixedMap.DeriveText.C100_impls
#print axioms FixedMap.DeriveText.C100_refused
#print axioms FixedMap.DeriveText.C100_errors
#print axioms FixedMap.DeriveText.C100_fallible

#print axioms FixedMap.DeriveText.C101_map
#print axioms FixedMap.DeriveText.C101_set
#print axioms FixedMap.DeriveText.C101_iter
#print axioms FixedMap.DeriveText.C101_units_iter

#print axioms FixedMap.Rust.C102_iterators
#print axioms FixedMap.Rust.C102_storages
#print axioms FixedMap.Rust.C102_map
#print axioms FixedMap.Rust.C102_set
