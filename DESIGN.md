# Design: a Lean 4 model of fixed-map

Subject: `udoprog/fixed-map` 0.9.5 as found in `/repo` (read as text, never built or run).

## Shape of the model

* **Traits are dictionaries.** `MapStorage<K, V>` / `SetStorage<T>` (src/map/storage.rs,
  src/set/storage.rs) become Lean structures holding a state type and one function per trait
  method. Every `impl` in the repository becomes one value of that structure: boolean, singleton,
  option, hashbrown, derive on unit-only enums (array and bitset), derive on mixed enums.
* **Key types are codes.** `KeyTy` is an inductive type of key-type codes
  (`bool`, `unit`, `opt κ`, `prim p`, `units n`, `bitset n w h`, `enum fields`), `κ.Key` the Lean type of
  keys. In `bitset n w h` the proof `h` says that `w` is the width `determineBits n` chose. The keys of an enum with payloads
  are nested sums, one summand per variant in declaration order. `mapStorage H κ V` and `setStorage H κ` pick the storage exactly as src/key.rs and the
  derive do. A theorem `∀ κ : KeyTy` is therefore about every key type, nested to any depth, and is
  proved by induction over the code.
* **`&mut self`** becomes returning the new state. **`&mut V`** becomes an *address* (path to a
  slot in the storage) with `read` and `write`; so holding many references at the same time and
  writing through them in any order is expressible.
* **Closures** (`FnMut`) are state-passing functions that also may panic:
  `σ → K → V → σ × V × Option Bool` (`none` = panic). A closure state of type "list of calls" records
  order and number of calls.
* **Iterators** are explicit state machines with `next`, `nextBack?` (absent where the Rust type is
  not `DoubleEndedIterator`) and `sizeHint`. The std adaptors used (`option::IntoIter`, `Map`,
  `Chain`, `Flatten`/`FlatMap` over arrays, `Copied`) are modelled as state machines as well.
  The derive's `start`/`end` loops are modelled literally.
* **Fuel.** Draining an iterator may take unboundedly many steps, so it takes a fuel argument. Theorems say
  `∃ N, ∀ fuel ≥ N, … = some …`: the loop ends and the result does not depend on the fuel.
* **Reachable sets.** `from_raw` can make bitsets with undeclared bits, on which some claims are false. Theorems that need
  it assume `Reachable` (made by new/default, insert, remove, retain, clear, clone); C45 treats all other raw values.
* **Unsafe code**: `SomeBucket`/`NoneBucket` operate on a slot `Option V` and return a `Res` with an explicit `ub` and
  `panic` outcome.
* **Drops**: `retain` and `clear` also return the list of values they drop, so that conservation of
  values can be stated.
* **hashbrown** is a parameter: `Hashbrown` is a structure of operations and assumed laws;
  theorems hold for every such structure. An association-list instance proves the laws are
  satisfiable, and C79 proves them for a table with open addressing, tombstones and any hash function (`Model/ProbeTable`).

## Trusted base

* Lean 4.33.0 kernel; axioms: at most `propext`, `Classical.choice`, `Quot.sound`
  (`#print axioms` for each property theorem in `Verif/Axioms.lean`).
* The hand translation Rust → Lean (each definition cites file and lines).
* The contract of `hashbrown::HashMap` (fields of `Hashbrown`), `HashSet<T>` being `HashMap<T, ()>`.
* The std adaptors and `Option`/`mem`/array primitives, as written in `Verif/Model/Std.lean`. In particular: the
  public iterators are the adaptors themselves (`map.rs` 15-31, `set.rs` 16-20, type aliases), so callers also get the methods that core
  specialises for them. `fold` and `rfold` are covered by C84; `nth`, `count`, `last`, `find`, `advance_by`, `try_fold` and their back versions by C90
  (as written in `Verif/Model/IterMethods.lean`); `Flatten` over `Option` items may in newer Rust versions give a
  different (still valid) `size_hint` than the one modelled; `Ord::max/min/clamp` are core's provided methods; the `Debug`
  builders `debug_map`/`debug_set` are modelled as text in the non-pretty format, and otherwise as an arbitrary formatter.
* For C67 the rules of Rust and hashbrown 0.13 for panicking destructors, as written in `Verif/Model/DropPanic.lean`: an assignment
  drops the old value and then writes the new one even if the drop unwinds; the fields of a struct and the elements
  of an array are dropped in order, also while unwinding; a second panic while unwinding aborts; `HashMap::clear`
  empties the table even if a destructor panics, and `clear` and `drop` of a table stop at the first panic (leaking the rest);
  `HashMap::retain` erases the entry before dropping it. For C69 also the field order of `Chain`, `FlatMap` and `array::IntoIter` of core,
  and that `hash_map::IntoIter` holds the values it has not handed out (`HeldLaw`, a hypothesis) and drops them like a table.
  For C70 also that the evaluated operands of a struct literal are dropped in reverse order and the elements cloned by `<[T; N]>::clone` in order
  when a later one panics, and that `HashMap::clone` clones in `iter()` order (`TableCloneLaw`, a hypothesis) and drops its clones likewise.
  For C75 also that the derived `Clone` of `Chain`, `FlatMap` and `option::IntoIter` clones the fields in order, and that `array::IntoIter::clone`
  clones the remaining elements in order and drops those made, in order, if one panics.
  For C71 also that `Option`, arrays and tuples compare their parts in order up to the first difference, and that `HashMap::eq` compares
  the lengths and then looks up the entries of `self.iter()` in `other` up to the first difference.
  For C72 also that a `for` loop drops its iterator when it is left, before the variables declared outside.
  For C74 also the bodies of `ne`, `lt`, `le`, `gt`, `ge`, `max`, `min`, `clamp` in core, and that arguments are dropped last to first.
  For C78 also the checks of rustc on headers as written in `Verif/Spec/GenHeader.lean`, in particular that a `where` clause that is false and
  mentions no parameter is an error unless it has a `for<..>` binder.
  For C80 also the rules of name resolution as written in `Verif/Spec/Names.lean`, the scopes in `Verif/Model/GenNames.lean` and its list of declared
  items; that it has all the names is C87, for which the rule that tells names from fields, methods and the like (`looked` in `Verif/Spec/TokenNames.lean`) is trusted.
  For C82 also that a storage written in safe Rust satisfies `SafeStorage` (`Verif/Spec/Sound.lean`).
  C83 counts a call on an iterator of hashbrown as one.
  For C84 also the bodies of `fold` and `rfold` in core (`Verif/Model/Fold.lean`), for C90 those of the other methods (`Verif/Model/IterMethods.lean`).
  For C85 rustc's rules for auto traits and what hashbrown implements of `Send` and `Sync` (`RTy.auto`, `HashTy.auto` in `Verif/Model/Auto.lean`).
  For C86 the meaning of `quote!` (`Verif/Model/Quote.lean`), the copies of the templates (that they are those of the text is C97), that each payload type is spelled in one way, and that
  parsing a `where` clause with `syn::parse2` and printing it again gives the same tokens.
  For C89 how syn reads the arguments of an attribute and writes errors (`Verif/Model/Macro.lean`).
  For C91 the table of core (`core` in `Verif/Model/Paths.lean`), and that rustc resolves paths as `resolve` there; that a user who renames the dependency cannot use the derive is
  visible there too, as the name `fixed_map` is fixed.
  For C92 the items of the traits of core (`Verif/Model/TraitItems.lean`), the items of core's adapters (`coreItem`), and that rustc compares impls with traits as `Accepted` in
  `Verif/Spec/Impls.lean`.
  For C93 the interpreter of `Verif/Model/RustSem.lean` is our reading of Rust (its header lists the simplifications: `Nat` for `usize`, drops by assignment, as results of
  statements and of parameters that have not been moved, but not of local variables), the parser of `Verif/Model/RustSyntax.lean` drops types, generics and visibilities, and `Verif/Model/RustText.lean` is a copy of the files without comments.
  With C93 the storages and buckets of the model need not be compared with the source by eye: trusting the interpreter is enough.
  C94 does the same for `Map`, `Entry`, `Set` and `Intersection`; what the files take from outside is in `Verif/Model/RustApi.lean`, and for `deserialize` in `Verif/Model/RustSerde.lean`. C95 does it for macro_support.rs (`Verif/Model/RustCmp.lean`),
  C96 for key.rs (`Verif/Model/RustKey.lean`). C102 reads the `derive`s and the headers of `impl`s of the standard traits (`Verif/Model/RustTraits.lean`) and the types of
  the iterators (`Verif/Model/RustIterTraits.lean`); how rustc selects an `impl`, and which adapters of core and iterators of hashbrown are `Clone` or double-ended, is as these files say.
  For C97 the parser and the interpreter (`Verif/Model/DeriveSyntax.lean`, `Verif/Model/DeriveSem.lean`, whose header lists what is assumed of syn, quote and `cx.fallible`) are our
  reading of the Rust of the derive, for C98 as well. C99 runs `attrs.rs`, `symbol.rs` 8-33 and `context.rs` 91-115 with a second interpreter (`Verif/Model/DeriveAttrs.lean`, with its
  own list of assumptions). C100 runs `storage_derive` of `lib.rs` and the methods of `Ctxt` with a third (`Verif/Model/DeriveMain.lean`). `Toks::new` is not run.
  For C81 also when a hash table changes the memory it owns (`MemoryLaws` in `Verif/Spec/Memory.lean`).
* `properties.jsonl` and the specs in `Verif/Spec` say what we meant to say.
* `usize` arithmetic is modelled in `Nat`. For `len` this is justified by C88, which repeats the sums on machine words. The derive's loops with `wrapping_add/wrapping_sub` are modelled on words as well, and C58
  proves that this makes no difference.

Not modelled: lifetimes/borrow checking (Rust guarantees them), memory layout (except the memory of hash tables and the size of bitsets, C81),
the parsing of items by syn (attributes: see C89), spans (names: see C80; the accept/reject decision, the chosen storage, and the emitted
items as syntax trees, see C61 to C63; the emitted tokens, see C86), feature flags other than "hashbrown on" (without it only the key types without hashed parts exist, and C73 says that these do not depend on hashbrown), serde's concrete formats.

Consequences of these choices that a reader should know:

* Independence of clones (part of C28) is immediate in a model of values; Rust's ownership is what guarantees it.
* Address-based `&mut V` means that aliasing rules are not checked by the model; C10 proves that the addresses handed out are
  pairwise different, C20 that the unchecked bucket operations are only used on slots of the right kind, C82 both for storages of the
  user that obey no laws.
* The derive ignores generics of the enum and payload types without inhabitants get a storage as any other. The former is a
  rustc error after expansion, the latter is harmless; neither is a diagnostic of the derive.
* "Rejected by the derive" in C49 means a diagnostic or panic of the macro; errors of rustc on the generated code
  (e.g. E0004 for variants with named or several fields) are listed separately.

## Modules

* `Verif/Model`: the program. `Std` (core), `Bucket`, `MapTrait`, `MapBool`, `MapOpt`, `MapUnits`, `MapEnum`, `SetStorage`,
  `Key` (choice of storage), `LenWord` (`len` on words), `LoopWord` (generated loops on
  machine words), `Traits` (which standard traits are implemented), `MapApi`, `SetApi`, `OrdHash`, `Text` (serde, Debug), `Derive`,
  `Gen`, `GenIter`, `GenEntry` (the code generator of `any_variants.rs` as a function from variants to syntax, and an
  interpreter for that syntax), `GenUnits` (the same for `unit_variants.rs`), `Expand` (the whole derive, from the item to the
  emitted code), `IterClone` (`Clone` of the iterators), `DropPanic` (`clear`, `retain`, `from_iter` and the drop glue with destructors that
  may panic), `IterDrop` (dropping an owning iterator), `ClonePanic`
  (`clone` and `clone_from` with a `V::clone` that has effects or panics), `Compare` (`==` and `cmp` with a `V::eq` or `V::cmp` that has
  effects or panics), `Collect` (`from_iter` and deserializing from a source that fails or panics),
  `Operators` (`ne`, `<`, `max`, `clamp`, `hash` with effects or panics), `IterClonePanic` (`clone` of an owning iterator with
  effects or panics), `GenEffects` (the emitted code run with destructors, `clone` and `==` that have effects or panic),
  `GenHeader` (parameters, field types and `where` clauses of the emitted structs and impls), `Quote`, `Emit`, `EmitUnits` (the templates
  with which the derive writes tokens), `Macro` (the derive from tokens to tokens), `ProbeTable` (a hash table with open addressing).
* `Verif/Spec`: what is claimed, without reference to model internals: finite maps, deques, declaration order
  (`Order`), reference semantics of `retain`, histories, lexicographic orders, programs over several maps and iterators with a trace (`Program`), the hashbrown contract (`Hashbrown`) with an
  instance (`HashbrownRef`), and the concrete maps and sets used in the examples (`Example`).
* `Verif/Proofs`: helper lemmas. `CoreLaws` and `SetLaws` hold the laws proved for each storage by induction on the key code.
* `Verif/Properties`: the property theorems `Cnn_…`, each followed by a concrete case that meets its hypotheses.
* `Verif/Validation/DocTests`: assertions of the repository's documentation examples and tests, evaluated on the model.
  The Rust code was not run; this compares the model with the text of those assertions. Not part of any proof.
* `Verif/Axioms`: `#print axioms` of every property theorem.

## Testing the theorems

In a copy outside `/verif`, one model definition at a time is changed to a wrong program and everything is rebuilt.
A property theorem *fails* if its own proof or any lemma it uses no longer checks. Since a proof may break although the
statement is still true, each change comes with a Lean snippet that derives `False` from the mutated model and the *statement*
of the theorem; if there is no such refutation the theorem is tightened. The outcome is recorded in `seeded/LOG.jsonl`.

Lines with `auto` ids come from a program that makes random small edits (swapped arguments, changed literals, dropped or
exchanged match arms) to the model files and rebuilds. For these only the first declaration that failed is known, and they are not
refuted by hand. Each edit after which everything still built was looked at: either the edit does not change the meaning, or a
theorem was tightened; the line says which.

Lines with `text`, `derive`, `macro`, `attrs`, `main`, `bits`, `serde` and `key` ids change the text of the source (as parsed: `RustProgs`, `DeriveProgs`, `DeriveAttrsProgs`, `DeriveMainProgs`; key.rs itself for `key`) and run the proofs
of C93 to C100 on it, with the parsed text in place of the theorem that says that it is what was parsed; so it is the meaning of the changed text that fails, and not the comparison of texts.

## Properties

See `properties.jsonl`; the status of each is in `MANIFEST.json`. Plan per property:

| id | model | proof |
|----|-------|-------|
| C01 | op language, implementation `run` vs. association-list reference `run` | refinement, induction on the history; per-storage laws by induction on `κ` |
| C02-C07 | storage dictionaries | laws of each storage, induction on `κ` |
| C08, C09 | iterators as state machines, `universe κ` as spec | simulation with a list deque, induction on `κ`; C09 is false for `()` keys, the exact list is proved for every key type |
| C10 | addresses | each address denotes one key; induction on the list of writes |
| C11, C12 | `next`/`nextBack`/`sizeHint` | bisimulation with a deque; loop invariant for the derive's `start/end` |
| C13, C14 | state-passing closure with panic | refinement to a sequential reference over the entry list |
| C15 | clear with drop list | induction on `κ` |
| C16-C19 | entry dictionaries over addresses | laws by induction on `κ` |
| C20 | `Res.ub` | corollary of entry laws: the result is never `ub` |
| C21 | drop lists | permutation accounting per operation, induction on the history |
| C22 | fold of insert | induction on the list |
| C23 | `eq` with arbitrary value equality | induction on `κ` |
| C24-C27 | comparison and hash functions of unit enums | lexicographic order laws |
| C28 | `clone` | induction on `κ` |
| C29, C30 | serializer as event list / Debug as text | from iterator theorem |
| C31-C39 | set dictionaries | induction on `κ`; C32, C33, C34, C37 are false for some keys: witness + partial theorem |
| C40, C41 | Intersection state machine | simulation with filtered list |
| C42, C43 | set eq/ord | C43 false for bitset: witness + what holds |
| C44-C46 | bit vectors of the chosen width | bitwise reasoning; C45 false for undeclared bits |
| C47 | fold of insert | induction |
| C48 | `determineBits` | arithmetic |
| C49 | decision function of the derive | case analysis; false for attributes; exact outcomes proved |
| C50 | `units 0` | instance of the general theorems |
| C51, C52 | map/set states | `Proofs/Canon`: contents determine the state, induction on `κ`; answers via the reference run |
| C53 | `len` | counting the list of all keys |
| C54 | set history against map history | simulation; false for `()` and after panics: witnesses + what holds; `C54_retain_exact`: what a panicking `retain` leaves in either |
| C55-C57 | two or three operations in a row | laws of `get`/`contains` and C51/C52 |
| C58 | loops on `BitVec w` (`Model/LoopWord`) | simulation with the loops on `Nat` |
| C59 | trait selection as Boolean functions on `κ` (`Model/Traits`) | induction on `κ` |
| C60 | presence of `nextBack?` | induction on `κ` |
| C61 | emitted syntax with named fields, patterns and arms (`Model/Gen*`), interpreter | simulation with the storage of the key type, induction on the list of variants; refinement of histories |
| C62 | emitted syntax for arrays and bit masks (`Model/GenUnits`), interpreter | simulation with `unitsMap`, `unitsSet`, `bitsetSet`; refinement of histories |
| C63 | item with names, field shapes and types to emitted syntax (`Model/Expand`) | the loop agrees with C49's, then C61/C62; sets by simulation with the storage |
| C64 | `clone` of the owning iterators and the emitted `Clone` impls (`Model/IterClone`) | each step commutes with the clone; the emitted impls by an invariant of the iterator struct |
| C65 | all set calls against a reference that states the deviations (`Spec/SetExact`) | induction on the calls; the exact law of `retain` under panics by induction on the key type |
| C66 | payloads with storages of the user; the contract is preserved by the derive and by `Option` (maps), not by `Option` (sets) | the laws of the constructions `fieldsSimple`, `fieldsComplex`, `enumMap`, `optMap` and their set versions are proved for arbitrary component storages |
| C67 | destructors that panic: where the values go in `clear`, `retain`, `from_iter` and drop | `Accounted`: the values handed to each step are dropped, leaked or lost, composed field by field; `retainRefD`; exactly by `BatchLaw`: each storage drops its batches in order |
| C68 | what `size_hint` says, exactly | `Counts`: a count of remaining items kept by each adaptor; `flat_run` for the arrays |
| C69 | an owning iterator drops exactly what it has not handed out | `DropsAs`: the simulation relation of each adaptor extended by what dropping the state drops; `DropsBy`: in which batches |
| C70 | `clone` with a stateful, panicking `V::clone` (`Model/ClonePanic`) | `CloneLaw` against cloning the list of entries, composed field by field with the accounting of C67 |
| C71 | which calls of `V::eq`, `V::partial_cmp`, `V::cmp` a comparison makes (`Model/Compare`) | `EqLaw` against `compareKeys` over a list of keys, the lists of the fields joined one after the other (`Beside.course`) |
| C72 | collecting from a source that fails or panics (`Model/Collect`) | the loop invariant `BuiltFrom` against `takeItems`, then the batches of C67 |
| C73 | key types without hashed parts do not depend on hashbrown, all others do (`Spec/Uses`) | equality of the storages by induction on the key type; tables that lie about `len` |
| C74 | operators, `max`, `min`, `clamp`, `ne`, `hash` with effects and panics (`Model/Operators`) | the calls of C71 (`Compared`) and case analysis; `hashKeys` over the variants |
| C75 | cloning an owning iterator with a panicking `V::clone` (`Model/IterClonePanic`) | `ClonesAs`: simulation by lists, preserved by cloning; drop order `KeyTy.unwindKeys` (`Spec/Unwind`), also for C70 |
| C76 | whole programs over several maps and owning iterators (`Spec/Program`, on top of the models of C48, C67, C69, C70, C72, C75) | invariant: the `Ledger` of the trace ends in what the variables hold; one lemma per statement, induction on the program |
| C77 | the emitted syntax of C61, C62, C64 run with effects (`Model/GenEffects`) | equality with the storage models of C67, C69, C70, C71, C75, induction on the list of variants |
| C78 | headers of the emitted items (`Model/GenHeader`) against the checks of rustc (`Spec/GenHeader`) | case analysis on the item, C59 and C60 for the payloads |
| C79 | a table with open addressing (`Model/ProbeTable`) against the contract `HashMapLaws`; histories with two tables | invariant: keys distinct, and no empty slot before the slot of a key in its probe order; C01 and C65 with both tables, induction |
| C80 | the names and scopes of the emitted code (`Model/GenNames`), name resolution (`Spec/Names`) | both directions: simplification of the code to conditions on names; converse by looking at one use of each name |
| C81 | memory laws of hash tables (`Spec/Memory`), the tables inside a map or set (`mapMem`, `setMem`) | a record of memory laws per storage, composed along the key type; histories; reuse by an invariant relating the cleared map to the original; the laws proved for open addressing (`Spec/MemoryProbe`) |
| C82 | `Safe` storages and an arbitrary client (`Spec/Sound`); the same storages as everywhere | a record of validity predicates per storage, preserved by `Option` and the derive; iterators of references by an invariant on what was handed out, for arbitrary inner iterators and any order of `next` and `next_back`; clients by induction on their lines |
| C83 | the number of calls and rounds beside each iterator of the model (`Model/Cost`) | potentials: two per remaining item of an array, `c + 1` per remaining variant of a generated loop, sums for chains and fields; induction on the key type |
| C84 | `fold` and `rfold` of core's adapters and of the crate's iterators (`Model/Fold`) against the loops over `next` and `next_back` | the items of a chain split into those of its parts (induction on the rounds of the loop); `foldlM` over appended lists; induction on the key type |
| C85 | `Send` and `Sync` of storages, iterators and entries, from the types of their fields (`Model/Auto`) | a second account by accesses to values (`Spec/Auto`); induction on types and key types; the emitted structs have the types used |
| C86 | `quote!` and the templates of both generators (`Model/Quote`, `Model/Emit`, `Model/EmitUnits`), printed syntax trees (`Spec/Emit`, `Spec/EmitUnits`) | both sides reduced to the same token lists field by field; induction only through `map`, `flatten` and `zipWith` over the fields |
| C87 | the names in a token list (`Spec/TokenNames`), the same templates | a simproc reads names off literal tokens; repetitions by induction over the variants, with the set of tokens that can come before as invariant |
| C88 | `len` of all storages on words of `w` bits, with and without overflow checks (`Model/LenWord`) | the sums count modulo `2^w` (induction on the key type); lower bounds for the memory (`Spec/LenWord`); an enum of 512 bitsets for 16 bits |
| C89 | `storage_derive`, `impl_storage`, `attrs::parse` and the loop over the variants from tokens to tokens (`Model/Macro`) | grammar of the attributes as an inductive relation (`Spec/Macro`), shown total and functional; the loop simulates `Expand`'s, then C86 and C63 |
| C90 | `try_fold`, `advance_by`, `nth`, `find`, their back versions, `count` and `last` of core's adapters and of all iterators (`Model/IterMethods`) | one relation between states and lists for each adapter, kept by every method; the back versions are the same methods on the reversed relation; a Hoare-style rule for `iter_try_fold`; induction on the key type and on the list of calls (`Spec/IterMethods`) |
| C91 | the module tree of src/ with `pub`, re-exports and features (`Model/Paths`); the tokens of `Model/Emit`, `Model/EmitUnits` and `Model/Macro` | absolute paths read off the tokens by a small machine with a stack of brackets (`Spec/Paths`); its state is followed through every template, repetitions by induction, payload types as blocks that leave the machine where it was |
| C92 | the traits of src/ with the text of their items (`Model/TraitItems`); the tokens of `Model/Emit`, `Model/EmitUnits` and `Model/Macro` | impls read off the tokens by a small machine (`Spec/Impls`), followed through every template; what is read is the same for all variants, and is then compared with the traits by evaluation, with the name of the enum, the number of variants and the integer type left open |
| C93 | the text of option_bucket.rs and of the eight storage files (`Model/RustText`), a lexer and parser (`Model/RustSyntax`), an interpreter for cells, places, references, closures and foreign calls (`Model/RustSem`), foreign worlds (`Model/RustMap`), iterators as values (`Model/RustIter`) | `MapText`/`SetText`/`BucketText` (`Spec/RustSource`) compare the run of every function with the model's; the kernel evaluates the run with the arguments left open, after splitting on the options and bits that are looked at; results of foreign calls are replaced by variables (`kgen`); iterators by bisimulation |
| C94 | the text of map.rs, map/entry.rs, set.rs and set/intersection.rs (`Model/RustText`), worlds for closures, operators, `Debug`, serde and raw values (`Model/RustApi`) | `MapApiText`, `EntryText`, `SetApiText`, `IntersectionText`, … (`Spec/RustApi`) compare every function with the model's, as for C93; loops by induction over the items (`from_iter`, `visit_map`, `fold`) or the model's fuel (`serialize`, `next`) |
| C95 | the text of macro_support.rs; iterators over slices and their methods (`Model/RustCmp`) | `CmpText`, `CmpBoolText` (`Spec/RustCmp`) compare with `storageIteratorCmpD` and `storageIteratorCmpBool`; induction over the slices |
| C96 | the text of key.rs, `macro_rules!` and the reading of `impl Key for …` (`Model/RustKey`) | `MapSource`, `SetSource` (`Spec/RustKey`) say that a program is the model's storage for a key type; the table of impls is computed from the text; by cases on the key type, with the theorems of C93 |
| C97 | the text of any_variants.rs, unit_variants.rs and the paths of context.rs (`Model/DeriveSource`), its parser (`Model/DeriveSyntax`, `Model/DeriveProgs`) and an interpreter in continuation passing style (`Model/DeriveSem`) | `outcome` (`Spec/DeriveText`) reads and runs the text; the loops over the fields are replaced by what they push (`loop_rule`), after which the kernel computes the run for an unknown list of fields and compares it with the templates of the model |
| C98 | the text of lib.rs 50-73 (`Model/DeriveSource`), run with the same interpreter: `continue` and `return` are ends of a run that the loop or call around them catches, messages go to the heap, calls of other files are parameters | `macroOutcome` (`Spec/DeriveText`) against `Emit.Macro.implStorage`; `implement_rule` and `all_rule` for the loops over arbitrary variants, `units_rule` and `any_rule` for the calls |
| C99 | the text of attrs.rs, symbol.rs and the path functions (`Model/DeriveAttrsSource`, `Model/DeriveAttrsProgs`), an interpreter with variables that change and closures that syn calls (`Model/DeriveAttrs`) | `attrsOutcome`, `derived`, `suffixedPath` (`Spec/DeriveAttrs`); `nestedWith_eq`: if a closure does to the variables what the model does, then so does syn's parser around it; induction over tokens, attributes and parts |
| C100 | the text of `storage_derive` and of the `impl` of `Ctxt` (`Model/DeriveMainSource`, `Model/DeriveMainProgs`), a small interpreter (`Model/DeriveMain`) that calls `leading_path` and `impl_storage` as C99 runs them | `expansion`, `ctxtCall` (`Spec/DeriveMain`) against `Emit.Macro.storageDerive`; the run is computed up to `impl_storage` for an unknown result (`main_begin`), then for each kind of result |
| C101 | what C100 and C63 have | the conclusion of `C100_derive`, `C89_macro`, the histories of C63 and the iterators of C61 and C62 |
| C102 | the `derive`s and `impl` headers in the texts of the storages, map.rs and set.rs (`Model/RustTraits`), and the iterator types (`Model/RustIterTraits`) | `KeyTy.mapImpl`, `KeyTy.setImpl` and the iterators of C59, `hashFree` of C60, with the storages that C96 names |

## Disagreements between documentation/expectation and code found while reading

1. `Map<(), V>::keys()` yields the key even when the map is empty (singleton.rs 122-124).
2. `Set<()>::retain` calls the closure for an absent element and can insert it (set singleton.rs 50-55).
3. `Set<Option<_>>::is_empty` is `some.is_empty() && none` (set option.rs 120-122).
4. `Set<Option<_>>::insert(None)` returns the inverse (set option.rs 128).
5. `Set<bool>::insert` returns the inverse (set boolean.rs 139-142).
6. `Set<bool>::remove` returns whether *any* element was present (set boolean.rs 150-154).
7. `#[key(bitset)]` sets order by raw integer, not in declaration order (unit_variants.rs 428-441).
8. `Set::from_raw` accepts undeclared bits; `len`, `is_empty`, `==` then disagree with the elements.
9. The derive drops collected errors when code generation succeeds, so unsupported attributes are silently
   ignored; `A()` panics in the macro. So two of its four messages, those about variants, can never be seen; and on a tuple struct, a unit struct or a
   union the message is "named fields are not supported" (C89).
10. After a panic in the closure of `retain`, an array-backed set has already lost the elements rejected so far, a bitset
    is unchanged (C46_false_after_panic).
11. Where `usize` has 16 bits, a set of bitset enums can hold more elements than `usize` can count, in 8 KB: `len` and
    `intersection` panic in debug builds, and `len` wraps around in release builds (C88_overflow). Maps cannot (C88_map_memory).
12. README.md and lib.rs list a feature `entry` which Cargo.toml does not have; the entry API is always there. No path in the emitted code depends on a
    feature (C91).

All of these are read off the source text and proved about the model. None was reproduced by running the crate.

## Names that the derive cannot cope with

Proved in C80 (`Properties/Names.lean`), for the model of name resolution in `Spec/Names.lean`: the emitted code means what it is meant to mean exactly if the user's
names avoid `V`, `F`, the names of the emitted items (`OccupiedEntry`, `__MapStorage`, ...), `usize`, `bool`, `FnMut`, `Option`, `Clone`, `None`, `Some` (as far as the emitted
code uses them) and, for constants and constructors, the names of its variables. So an enum called `F`, a payload type `V`, or a module with its own `Option` cannot use the derive.

`u16` and `i16` are the only integer types without a `Key` impl (`C96_integers`).

Not modelled, read off the source:

* `#element` is a whole `syn::Field`, so an attribute on a payload field would be emitted inside `<… as Key>`.
