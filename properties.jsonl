{"id": "C01", "title": "Map behaves as a finite map over any history", "statement": "Starting from Map::new(), after any sequence of insert, remove, clear, retain, get_mut-and-assign and entry operations, every value returned by insert, remove, get, contains_key, len and is_empty is the value that an ordinary finite map (association of distinct keys to values) would return at the same point of the same sequence.", "quantifier": "For every key type that implements Key (bool, (), Option<K>, the hashbrown-backed primitives, every derived enum, arbitrarily nested), every value type and every finite sequence of operations with arbitrary arguments.", "why_tests_cant": "The key types form an infinite family of nested shapes and the histories are unbounded; tests sample a few fixed shapes and short scripts.", "anchors": ["src/map.rs: Map::{new,insert,remove,clear,retain,get,get_mut,contains_key,len,is_empty,entry}", "src/map/storage/boolean.rs", "src/map/storage/option.rs", "src/map/storage/singleton.rs", "src/map/storage/hashbrown.rs", "fixed-map-derive/src/unit_variants.rs", "fixed-map-derive/src/any_variants.rs"]}
{"id": "C02", "title": "Map::insert returns the previous value and touches only its key", "statement": "insert(k, v) returns exactly what get(k) returned just before; afterwards get(k) is Some(v) and get(k') is unchanged for every k' different from k.", "quantifier": "For every key type that implements Key (bool, (), Option<K>, the hashbrown-backed primitives, every derived enum, arbitrarily nested), every map content, every k, k', v.", "why_tests_cant": "The frame condition ranges over all other keys, of which hash-backed keys have unboundedly many.", "anchors": ["src/map.rs: Map::insert, Map::get", "src/map/storage/boolean.rs", "src/map/storage/option.rs", "src/map/storage/singleton.rs", "src/map/storage/hashbrown.rs", "fixed-map-derive/src/unit_variants.rs", "fixed-map-derive/src/any_variants.rs"]}
{"id": "C03", "title": "Map::remove returns and removes exactly one key", "statement": "remove(k) returns what get(k) returned just before; afterwards get(k) is None and get(k') is unchanged for every other k'. Removing again returns None.", "quantifier": "For every key type that implements Key (bool, (), Option<K>, the hashbrown-backed primitives, every derived enum, arbitrarily nested), every map content and all keys.", "why_tests_cant": "Frame condition over all other keys and all nested storages.", "anchors": ["src/map.rs: Map::remove", "src/map/storage/boolean.rs", "src/map/storage/option.rs", "src/map/storage/singleton.rs", "src/map/storage/hashbrown.rs", "fixed-map-derive/src/unit_variants.rs", "fixed-map-derive/src/any_variants.rs"]}
{"id": "C04", "title": "Map::get_mut aliases exactly the addressed entry", "statement": "get_mut(k) returns Some exactly when get(k) does; the reference reads the current value; assigning v through it makes get(k) = Some(v) and leaves every other key unchanged.", "quantifier": "For every key type that implements Key (bool, (), Option<K>, the hashbrown-backed primitives, every derived enum, arbitrarily nested), every map content, all keys and assigned values.", "why_tests_cant": "Needs every storage to hand out the reference of the right slot for every key; tests try single keys.", "anchors": ["src/map.rs: Map::get_mut", "src/map/storage/boolean.rs", "src/map/storage/option.rs", "src/map/storage/singleton.rs", "src/map/storage/hashbrown.rs", "fixed-map-derive/src/unit_variants.rs", "fixed-map-derive/src/any_variants.rs"]}
{"id": "C05", "title": "contains_key, get and get_mut agree", "statement": "contains_key(k) is true exactly when get(k) is Some, exactly when get_mut(k) is Some, exactly when entry(k) is Occupied.", "quantifier": "For every key type that implements Key (bool, (), Option<K>, the hashbrown-backed primitives, every derived enum, arbitrarily nested), every map content and key.", "why_tests_cant": "Four independent code paths per storage must agree on every state.", "anchors": ["src/map.rs: Map::{contains_key,get,get_mut,entry}", "src/map/storage/boolean.rs", "src/map/storage/option.rs", "src/map/storage/singleton.rs", "src/map/storage/hashbrown.rs", "fixed-map-derive/src/unit_variants.rs", "fixed-map-derive/src/any_variants.rs"]}
{"id": "C06", "title": "Map::len counts the present keys", "statement": "len() equals the number of entries yielded by iter(), which is the number of distinct keys k with get(k) = Some(_); insert of an absent key increases it by one, insert of a present key leaves it, remove of a present key decreases it by one.", "quantifier": "For every key type that implements Key (bool, (), Option<K>, the hashbrown-backed primitives, every derived enum, arbitrarily nested) and every map content.", "why_tests_cant": "len is summed over nested storages independently of iteration; equality is over all states.", "anchors": ["src/map.rs: Map::len", "src/map/storage/boolean.rs", "src/map/storage/option.rs", "src/map/storage/singleton.rs", "src/map/storage/hashbrown.rs", "fixed-map-derive/src/unit_variants.rs", "fixed-map-derive/src/any_variants.rs"]}
{"id": "C07", "title": "Map::is_empty is true exactly for maps without entries", "statement": "is_empty() holds exactly when len() = 0, exactly when get(k) is None for every k.", "quantifier": "For every key type that implements Key (bool, (), Option<K>, the hashbrown-backed primitives, every derived enum, arbitrarily nested) and every map content.", "why_tests_cant": "The right-hand side quantifies over all keys.", "anchors": ["src/map.rs: Map::is_empty", "src/map/storage/boolean.rs", "src/map/storage/option.rs", "src/map/storage/singleton.rs", "src/map/storage/hashbrown.rs", "fixed-map-derive/src/unit_variants.rs", "fixed-map-derive/src/any_variants.rs"]}
{"id": "C08", "title": "Map::iter yields each entry once, in declaration order", "statement": "iter() yields (k, v) exactly when get(k) = Some(v), no key twice. Entries of an enum key come in the declaration order of the variants (nested keys in their own order: true before false, Some(_) before None); when no hash-backed key is involved the whole sequence is the declaration-order enumeration of all keys filtered to the present ones. into_iter() yields the same sequence.", "quantifier": "For every key type that implements Key (bool, (), Option<K>, the hashbrown-backed primitives, every derived enum, arbitrarily nested) and every map content.", "why_tests_cant": "Order and completeness must hold for every subset of present keys (exponentially many) and every nesting.", "anchors": ["src/map.rs: Map::iter, IntoIterator for Map and &Map", "src/key.rs: Key", "src/map/storage/boolean.rs", "src/map/storage/option.rs", "src/map/storage/singleton.rs", "src/map/storage/hashbrown.rs", "fixed-map-derive/src/unit_variants.rs", "fixed-map-derive/src/any_variants.rs"]}
{"id": "C09", "title": "keys() and values() are the projections of iter()", "statement": "keys() yields the keys and values() the values of iter(), position by position.", "quantifier": "For every key type that implements Key (bool, (), Option<K>, the hashbrown-backed primitives, every derived enum, arbitrarily nested) and every map content.", "why_tests_cant": "Three independently written iterators per storage have to agree on every state.", "anchors": ["src/map.rs: Map::keys, Map::values", "src/map/storage/singleton.rs: keys", "src/map/storage/boolean.rs", "src/map/storage/option.rs", "src/map/storage/singleton.rs", "src/map/storage/hashbrown.rs", "fixed-map-derive/src/unit_variants.rs", "fixed-map-derive/src/any_variants.rs"]}
{"id": "C10", "title": "iter_mut() and values_mut() hand out distinct, correctly addressed references", "statement": "iter_mut() yields for every present key exactly one reference, in the order of iter(), values_mut() the same references; after collecting them and assigning through any of them in any order any number of times, get(k) is the last value assigned through k's reference and entries that were not assigned keep their value.", "quantifier": "For every key type that implements Key (bool, (), Option<K>, the hashbrown-backed primitives, every derived enum, arbitrarily nested), every map content and every finite sequence of assignments through the collected references.", "why_tests_cant": "All interleavings of writes through simultaneously live references.", "anchors": ["src/map.rs: Map::iter_mut, Map::values_mut, IntoIterator for &mut Map", "src/map/storage/boolean.rs", "src/map/storage/option.rs", "src/map/storage/singleton.rs", "src/map/storage/hashbrown.rs", "fixed-map-derive/src/unit_variants.rs", "fixed-map-derive/src/any_variants.rs"]}
{"id": "C11", "title": "Every map iterator is a correct double-ended iterator under any schedule", "statement": "For iter, keys, values, iter_mut, values_mut and into_iter: any interleaving of next() and next_back() returns the same items as popping the front and the back of the sequence the iterator stands for; nothing is skipped, repeated or reordered where the ends meet, and after exhaustion both calls return None forever.", "quantifier": "For every key type and map content and every finite schedule of next/next_back calls (next only, where a hash-backed key makes the iterator single ended).", "why_tests_cant": "The number of schedules is exponential; boundary behaviour when both ends are in the same nested storage is rarely tested.", "anchors": ["fixed-map-derive/src/any_variants.rs: IteratorNext, IteratorNextBack", "src/map/storage/boolean.rs: Keys", "src/map/storage/boolean.rs", "src/map/storage/option.rs", "src/map/storage/singleton.rs", "src/map/storage/hashbrown.rs", "fixed-map-derive/src/unit_variants.rs", "fixed-map-derive/src/any_variants.rs"]}
{"id": "C12", "title": "size_hint bounds the remaining items", "statement": "At every point of every schedule, size_hint() returns (lo, hi) with lo <= remaining items and remaining <= hi when hi is given; the key iterator of Map<bool, V> and the iterators of Set<bool> are exact.", "quantifier": "For every key type, content and schedule.", "why_tests_cant": "Consumers such as Vec::extend rely on it at every intermediate state.", "anchors": ["src/map/storage/boolean.rs: Keys::size_hint, Keys::len", "src/set/storage/boolean.rs: Iter::size_hint, Iter::len", "src/set/intersection.rs: size_hint"]}
{"id": "C13", "title": "Map::retain visits each entry once, in order, and keeps exactly the accepted ones", "statement": "retain(f) calls f(k, &mut v) exactly once for every present entry in iter() order and for nothing else (also for stateful closures); afterwards the map holds exactly the entries for which f returned true, with the values f left in them.", "quantifier": "For every key type that implements Key (bool, (), Option<K>, the hashbrown-backed primitives, every derived enum, arbitrarily nested), every map content, every stateful closure.", "why_tests_cant": "Closures are arbitrary functions with internal state.", "anchors": ["src/map.rs: Map::retain", "src/map/storage/boolean.rs", "src/map/storage/option.rs", "src/map/storage/singleton.rs", "src/map/storage/hashbrown.rs", "fixed-map-derive/src/unit_variants.rs", "fixed-map-derive/src/any_variants.rs"]}
{"id": "C14", "title": "Map::retain is consistent when the closure panics", "statement": "If f panics at its n-th call, entries visited before are processed as in C13, the entry being visited is still present with whatever value f left in it, and all later entries are untouched.", "quantifier": "For every key type that implements Key (bool, (), Option<K>, the hashbrown-backed primitives, every derived enum, arbitrarily nested), every map content, every closure and every panic point.", "why_tests_cant": "Every crash point of every closure on every state.", "anchors": ["src/map.rs: Map::retain", "src/map/storage/boolean.rs", "src/map/storage/option.rs", "src/map/storage/singleton.rs", "src/map/storage/hashbrown.rs", "fixed-map-derive/src/unit_variants.rs", "fixed-map-derive/src/any_variants.rs"]}
{"id": "C15", "title": "Map::clear empties the map and drops each value once", "statement": "After clear() every get is None, len() is 0, and the values dropped are exactly the values that were present.", "quantifier": "For every key type that implements Key (bool, (), Option<K>, the hashbrown-backed primitives, every derived enum, arbitrarily nested) and every map content.", "why_tests_cant": "All contents, nested storages.", "anchors": ["src/map.rs: Map::clear", "src/map/storage/boolean.rs", "src/map/storage/option.rs", "src/map/storage/singleton.rs", "src/map/storage/hashbrown.rs", "fixed-map-derive/src/unit_variants.rs", "fixed-map-derive/src/any_variants.rs"]}
{"id": "C16", "title": "entry() classifies the key and does not change the map", "statement": "entry(k) is Occupied exactly when get(k) is Some; its key() is k in both cases; creating the entry and dropping it leaves every get unchanged.", "quantifier": "For every key type that implements Key (bool, (), Option<K>, the hashbrown-backed primitives, every derived enum, arbitrarily nested), every content and key.", "why_tests_cant": "Entry carries the key back through several nested enums; must be right for all of them.", "anchors": ["src/map.rs: Map::entry", "src/map/entry.rs: Entry::key", "src/map/storage/boolean.rs", "src/map/storage/option.rs", "src/map/storage/singleton.rs", "src/map/storage/hashbrown.rs", "fixed-map-derive/src/unit_variants.rs", "fixed-map-derive/src/any_variants.rs"]}
{"id": "C17", "title": "or_insert family inserts lazily and only when vacant", "statement": "or_insert(v), or_insert_with(f), or_insert_with_key(f) and or_default() return a reference to the value of k: the old one if k was present (then f is not called and the map is unchanged), otherwise the newly inserted default (f is called exactly once, with k for or_insert_with_key). Assigning through the returned reference changes exactly k. If f panics the map is unchanged.", "quantifier": "For every key type that implements Key (bool, (), Option<K>, the hashbrown-backed primitives, every derived enum, arbitrarily nested), every content, key and stateful (possibly panicking) default function.", "why_tests_cant": "Laziness and panic behaviour are over arbitrary closures.", "anchors": ["src/map/entry.rs: Entry::{or_insert,or_insert_with,or_insert_with_key,or_default}"]}
{"id": "C18", "title": "and_modify applies the function only to present entries", "statement": "entry(k).and_modify(f) calls f exactly once on the current value when k is present and leaves the map unchanged otherwise; entry(k).and_modify(f).or_insert(v) leaves get(k) = Some(f(old)) or Some(v); other keys are untouched.", "quantifier": "For every key type that implements Key (bool, (), Option<K>, the hashbrown-backed primitives, every derived enum, arbitrarily nested), every content, key and function.", "why_tests_cant": "Arbitrary functions and contents.", "anchors": ["src/map/entry.rs: Entry::and_modify"]}
{"id": "C19", "title": "OccupiedEntry and VacantEntry operations act on their key", "statement": "For an occupied entry: key, get, get_mut, into_mut, insert (returns the old value) and remove (returns the value and removes it); for a vacant entry: key and insert; all act on exactly the requested key, in any sequence allowed by their receivers.", "quantifier": "For every key type that implements Key (bool, (), Option<K>, the hashbrown-backed primitives, every derived enum, arbitrarily nested), every content and every sequence of &mut self calls on the entry followed by an optional consuming call.", "why_tests_cant": "Unbounded sequences of entry calls.", "anchors": ["src/map/storage.rs: OccupiedEntry, VacantEntry", "src/option_bucket.rs", "src/map/storage/boolean.rs", "src/map/storage/option.rs", "src/map/storage/singleton.rs", "src/map/storage/hashbrown.rs", "fixed-map-derive/src/unit_variants.rs", "fixed-map-derive/src/any_variants.rs"]}
{"id": "C20", "title": "No undefined behaviour in the option buckets", "statement": "No sequence of safe API calls on maps and entries (and on OptionBucket/SomeBucket/NoneBucket through their safe constructors) reaches unwrap_unchecked on None, constructs a SomeBucket over None or a NoneBucket over Some, or overwrites a live value without dropping it.", "quantifier": "For every key type that implements Key (bool, (), Option<K>, the hashbrown-backed primitives, every derived enum, arbitrarily nested) and every sequence of entry operations.", "why_tests_cant": "Absence of UB is a statement about all executions; tests cannot observe UB reliably.", "anchors": ["src/option_bucket.rs: SomeBucket, NoneBucket, OptionBucket"]}
{"id": "C21", "title": "Values are conserved", "statement": "Over any history, the multiset of values put into the map equals the values still in it plus the values returned to the caller plus the values dropped by the map (by overwriting assignment, retain or clear): nothing is duplicated, lost or dropped twice.", "quantifier": "For every key type that implements Key (bool, (), Option<K>, the hashbrown-backed primitives, every derived enum, arbitrarily nested) and every history of operations.", "why_tests_cant": "Global accounting over unbounded histories.", "anchors": ["src/map.rs: Map", "src/map/storage/boolean.rs", "src/map/storage/option.rs", "src/map/storage/singleton.rs", "src/map/storage/hashbrown.rs", "fixed-map-derive/src/unit_variants.rs", "fixed-map-derive/src/any_variants.rs"]}
{"id": "C22", "title": "Collecting pairs: last value per key wins", "statement": "pairs.into_iter().collect::<Map<_,_>>() has get(k) equal to the value of the last pair with key k, and None when there is none.", "quantifier": "For every key type and every finite sequence of pairs.", "why_tests_cant": "Arbitrary sequences with repeated keys.", "anchors": ["src/map.rs: FromIterator for Map"]}
{"id": "C23", "title": "Map equality is equality of contents", "statement": "a == b exactly when every key is in both or neither and the values are == under V's PartialEq; the result does not depend on how a and b were built; it is reflexive/symmetric/transitive whenever V's equality is.", "quantifier": "For every key type, every V with an arbitrary PartialEq, all pairs of maps.", "why_tests_cant": "Pairs of arbitrary maps with arbitrary histories.", "anchors": ["src/map.rs: PartialEq for Map", "src/map/storage/boolean.rs", "src/map/storage/option.rs", "src/map/storage/singleton.rs", "src/map/storage/hashbrown.rs", "fixed-map-derive/src/unit_variants.rs", "fixed-map-derive/src/any_variants.rs"]}
{"id": "C24", "title": "Hash agrees with Eq", "statement": "For the keys whose containers implement Hash (unit-only derived enums, bitset enums, Set<()>): equal containers feed the same data to any Hasher (given that V does); different contents feed different data when V's hashing is prefix-free and injective.", "quantifier": "For every enum size and every pair of containers.", "why_tests_cant": "All pairs of values.", "anchors": ["src/map.rs: Hash for Map", "src/set.rs: Hash for Set", "fixed-map-derive/src/unit_variants.rs"]}
{"id": "C25", "title": "Ord on maps is a total order consistent with ==", "statement": "For unit-only enum keys and V with a lawful Ord, cmp on maps is reflexive, antisymmetric, transitive and total, and cmp = Equal exactly when ==.", "quantifier": "For every enum size and all triples of maps.", "why_tests_cant": "Transitivity quantifies over all triples.", "anchors": ["src/map.rs: Ord for Map", "src/macro_support.rs: __storage_iterator_cmp"]}
{"id": "C26", "title": "Map ordering is the BTreeMap ordering of the declaration-ordered entries", "statement": "cmp(a, b) is the lexicographic comparison of the two entry sequences, comparing variant position first and value second, a proper prefix being Less.", "quantifier": "For every enum size and every pair of maps.", "why_tests_cant": "All pairs of maps.", "anchors": ["src/key.rs: Key docs", "src/macro_support.rs"]}
{"id": "C27", "title": "partial_cmp, comparison operators, max, min and clamp follow cmp", "statement": "If V's partial_cmp agrees with its cmp then partial_cmp(a,b) = Some(cmp(a,b)); lt/le/gt/ge, max, min and clamp are determined by it; clamp panics exactly when min > max and otherwise returns a value within [min,max].", "quantifier": "For every enum size and all maps/sets.", "why_tests_cant": "All pairs/triples.", "anchors": ["src/map.rs: PartialOrd, Ord for Map", "src/set.rs: PartialOrd, Ord for Set"]}
{"id": "C28", "title": "clone is an equal and independent copy", "statement": "get on a clone returns the clone of the value of the original for every key; cloning is equal to the original when V's clone is; mutating one never changes the other.", "quantifier": "For every key type and content and any later history on either copy.", "why_tests_cant": "Independence over all later histories.", "anchors": ["src/map.rs: Clone for Map", "src/set.rs: Clone for Set"]}
{"id": "C29", "title": "Serde round trip", "statement": "Serializing a map announces exactly as many entries as it emits and emits them in iter() order; deserializing the emitted entries gives a map equal to the original. Deserialization keeps the last of duplicate keys and stops at the first error. Likewise for sets.", "quantifier": "For every key type, content and any format whose key/value codecs round-trip.", "why_tests_cant": "All contents and formats.", "anchors": ["src/map.rs: Serialize, Deserialize for Map", "src/set.rs: Serialize, Deserialize for Set"]}
{"id": "C30", "title": "Debug output lists exactly the entries, in order", "statement": "{:?} of a map is { k: v, ... } over iter(), of a set { k, ... } over iter().", "quantifier": "For every key type and content.", "why_tests_cant": "All contents.", "anchors": ["src/map.rs: Debug for Map", "src/set.rs: Debug for Set"]}
{"id": "C31", "title": "Set membership follows any history", "statement": "After any sequence of insert, remove, clear and retain starting from Set::new(), contains(x) is exactly what an ordinary set would answer.", "quantifier": "For every key type and every finite sequence of operations.", "why_tests_cant": "Unbounded histories and key shapes.", "anchors": ["src/set.rs: Set::{new,insert,remove,clear,retain,contains}", "src/set/storage/boolean.rs", "src/set/storage/option.rs", "src/set/storage/singleton.rs", "src/set/storage/hashbrown.rs", "fixed-map-derive/src/unit_variants.rs", "fixed-map-derive/src/any_variants.rs"]}
{"id": "C32", "title": "Set::insert reports whether the element is new", "statement": "insert(x) returns true exactly when x was not in the set before.", "quantifier": "For every key type, reachable set and element.", "why_tests_cant": "Every state of every nested storage; most tests ignore the result.", "anchors": ["src/set.rs: Set::insert", "src/set/storage/boolean.rs: insert", "src/set/storage/option.rs: insert"]}
{"id": "C33", "title": "Set::remove reports whether the element was present", "statement": "remove(x) returns true exactly when x was in the set before.", "quantifier": "For every key type, reachable set and element.", "why_tests_cant": "Depends on the other elements in the set (bool), which tests with singletons miss.", "anchors": ["src/set.rs: Set::remove", "src/set/storage/boolean.rs: remove"]}
{"id": "C34", "title": "Set::is_empty is true exactly for sets without elements", "statement": "is_empty() holds exactly when contains(x) is false for every x, exactly when len() = 0.", "quantifier": "For every key type and reachable set.", "why_tests_cant": "Quantifies over all elements and all nested storages.", "anchors": ["src/set.rs: Set::is_empty", "src/set/storage/option.rs: is_empty"]}
{"id": "C35", "title": "Set::len counts the elements", "statement": "len() is the number of elements iter() yields, i.e. the number of x with contains(x).", "quantifier": "For every key type and reachable set.", "why_tests_cant": "All states.", "anchors": ["src/set.rs: Set::len", "src/set/storage/boolean.rs", "src/set/storage/option.rs", "src/set/storage/singleton.rs", "src/set/storage/hashbrown.rs", "fixed-map-derive/src/unit_variants.rs", "fixed-map-derive/src/any_variants.rs"]}
{"id": "C36", "title": "Set iteration yields each element once, in declaration order, from both ends", "statement": "iter() and into_iter() yield x exactly when contains(x), never twice, in declaration order, and any interleaving of next/next_back behaves like a deque over that sequence.", "quantifier": "For every key type, reachable set and schedule.", "why_tests_cant": "Exponentially many sets and schedules.", "anchors": ["src/set.rs: Set::iter, IntoIterator for Set", "src/set/storage/boolean.rs", "src/set/storage/option.rs", "src/set/storage/singleton.rs", "src/set/storage/hashbrown.rs", "fixed-map-derive/src/unit_variants.rs", "fixed-map-derive/src/any_variants.rs"]}
{"id": "C37", "title": "Set::retain visits each element once and keeps exactly the accepted ones", "statement": "retain(f) calls f exactly once per element present, in iter() order, never for an absent element; afterwards contains(x) holds exactly when x was present and f accepted it. It never adds elements.", "quantifier": "For every key type, reachable set and stateful closure.", "why_tests_cant": "Arbitrary closures and states.", "anchors": ["src/set.rs: Set::retain", "src/set/storage/singleton.rs: retain", "src/set/storage/boolean.rs", "src/set/storage/option.rs", "src/set/storage/singleton.rs", "src/set/storage/hashbrown.rs", "fixed-map-derive/src/unit_variants.rs", "fixed-map-derive/src/any_variants.rs"]}
{"id": "C38", "title": "Set::retain is consistent when the closure panics", "statement": "If f panics, no element has been added and no element is missing other than elements for which f had returned false.", "quantifier": "For every key type, reachable set, closure and panic point.", "why_tests_cant": "All crash points.", "anchors": ["src/set.rs: Set::retain", "src/set/storage/boolean.rs", "src/set/storage/option.rs", "src/set/storage/singleton.rs", "src/set/storage/hashbrown.rs", "fixed-map-derive/src/unit_variants.rs", "fixed-map-derive/src/any_variants.rs"]}
{"id": "C39", "title": "Set::clear empties the set and Set::new is empty", "statement": "After clear() (and for new()/default()) contains(x) is false for every x and len() is 0.", "quantifier": "For every key type and reachable set.", "why_tests_cant": "All elements.", "anchors": ["src/set.rs: Set::clear, Set::new", "src/set/storage/boolean.rs", "src/set/storage/option.rs", "src/set/storage/singleton.rs", "src/set/storage/hashbrown.rs", "fixed-map-derive/src/unit_variants.rs", "fixed-map-derive/src/any_variants.rs"]}
{"id": "C40", "title": "intersection yields exactly the common elements", "statement": "a.intersection(b) yields x exactly when both contain x, each once, in declaration order; it is symmetric as a set in a and b.", "quantifier": "For every key type and pair of sets.", "why_tests_cant": "All pairs; which operand is iterated depends on their sizes.", "anchors": ["src/set.rs: Set::intersection", "src/set/intersection.rs: Intersection"]}
{"id": "C41", "title": "Intersection::fold and size_hint agree with next", "statement": "fold visits exactly the items repeated next() would yield, in the same order, from any intermediate state; size_hint bounds the number of remaining items.", "quantifier": "For every key type, pair of sets, intermediate state and fold function.", "why_tests_cant": "Every intermediate state.", "anchors": ["src/set/intersection.rs: next, fold, size_hint"]}
{"id": "C42", "title": "Set equality is equality of elements", "statement": "a == b exactly when they contain the same elements.", "quantifier": "For every key type and pair of sets reachable without from_raw on undeclared bits.", "why_tests_cant": "All pairs and histories.", "anchors": ["src/set.rs: PartialEq for Set", "src/set/storage/boolean.rs", "src/set/storage/option.rs", "src/set/storage/singleton.rs", "src/set/storage/hashbrown.rs", "fixed-map-derive/src/unit_variants.rs", "fixed-map-derive/src/any_variants.rs"]}
{"id": "C43", "title": "Set ordering is the BTreeSet ordering in declaration order", "statement": "For every key whose set implements Ord, cmp(a,b) is the lexicographic comparison of the element sequences by declaration position (as documented on Key), a total order consistent with ==.", "quantifier": "For every enum size (with or without #[key(bitset)]) and all pairs of sets.", "why_tests_cant": "All pairs/triples.", "anchors": ["src/key.rs: Key docs", "src/macro_support.rs: __storage_iterator_cmp_bool", "fixed-map-derive/src/unit_variants.rs: impl_bitset, impl_set"]}
{"id": "C44", "title": "as_raw/from_raw round trip", "statement": "Set::from_raw(s.as_raw()) equals s, from_raw(r).as_raw() = r, bit n of the raw value is set exactly when the n-th declared variant is contained, and as_raw uses only declared bits for sets built by ordinary operations.", "quantifier": "For every enum of up to 128 variants and every raw value / history.", "why_tests_cant": "2^128 raw values.", "anchors": ["src/set.rs: Set::as_raw, Set::from_raw", "src/raw.rs", "fixed-map-derive/src/unit_variants.rs: impl_bitset"]}
{"id": "C45", "title": "Sets made by from_raw are coherent sets", "statement": "For every raw value r, Set::from_raw(r) has len() equal to the number of elements it contains, is_empty() exactly when it contains nothing, and == / cmp / Hash determined by its elements.", "quantifier": "For every enum of up to 128 variants and every raw value.", "why_tests_cant": "Raw values with undeclared bits are not in the test corpus.", "anchors": ["fixed-map-derive/src/unit_variants.rs: impl_bitset from_raw/len/is_empty"]}
{"id": "C46", "title": "bitset and array sets are interchangeable", "statement": "For the same unit enum with and without #[key(bitset)], every history of insert, remove, clear, retain, contains, len, is_empty, iter gives the same observable results.", "quantifier": "For every enum of up to 128 variants and every history.", "why_tests_cant": "Unbounded histories, two implementations.", "anchors": ["fixed-map-derive/src/unit_variants.rs: impl_bitset, impl_set"]}
{"id": "C47", "title": "Collecting into a set", "statement": "FromIterator, From<[T; N]> and deserialization give exactly the set of the listed elements.", "quantifier": "For every key type and every finite sequence of elements.", "why_tests_cant": "Arbitrary sequences.", "anchors": ["src/set.rs: FromIterator, From<[T; N]>, Deserialize for Set"]}
{"id": "C48", "title": "Bitset width and masks", "statement": "#[key(bitset)] on an enum with n variants selects the smallest of u8/u16/u32/u64/u128 with at least n bits, gives every variant a distinct single-bit mask that fits that type, and is rejected with a compile error for n > 128.", "quantifier": "For every number of variants.", "why_tests_cant": "All n.", "anchors": ["fixed-map-derive/src/unit_variants.rs: determine_bits, impl_bitset numbers"]}
{"id": "C49", "title": "The derive rejects unsupported input with a diagnostic", "statement": "derive(Key) reports a compile error for non-enums, variants with named fields or not exactly one unnamed field, and unsupported #[key(..)] attributes; it accepts all other enums.", "quantifier": "For every derive input.", "why_tests_cant": "All shapes of input.", "anchors": ["fixed-map-derive/src/lib.rs: storage_derive, impl_storage", "fixed-map-derive/src/attrs.rs: parse", "fixed-map-derive/src/any_variants.rs: implement"]}
{"id": "C50", "title": "Empty enums work", "statement": "A Map or Set keyed by an enum without variants is constructible, is always empty, yields nothing, and equals itself.", "quantifier": "For every history.", "why_tests_cant": "Every operation history.", "anchors": ["tests/empty.rs", "fixed-map-derive/src/unit_variants.rs"]}
{"id": "C51", "title": "Contents determine a map", "statement": "Without hash-backed keys, two maps with the same entries are the same value, whatever operations led to them, so == is identity (when values are compared by identity). For every key type, two maps with the same entries give the same answers to every sequence of calls that do not expose the iteration order (all but retain, iter and iter_mut loops).", "quantifier": "For every key type, any two maps with the same contents, every sequence of calls.", "why_tests_cant": "Hidden state shows only on particular histories.", "anchors": ["src/map.rs: Map", "src/map/storage/{boolean,option,singleton}.rs", "fixed-map-derive/src/{unit_variants,any_variants}.rs: struct Storage", "src/map/storage/hashbrown.rs"]}
{"id": "C52", "title": "Contents determine a set", "statement": "Without hash-backed keys, two sets (not built from raw bits) with the same elements are the same value and == is identity. For every key type, two sets with the same elements answer every sequence of insert, remove and clear in the same way, and agree on len and is_empty afterwards.", "quantifier": "For every key type, any two reachable sets with the same elements, every sequence of calls.", "why_tests_cant": "Hidden state shows only on particular histories.", "anchors": ["src/set.rs: Set", "src/set/storage/{boolean,option,singleton}.rs", "fixed-map-derive/src/{unit_variants,any_variants}.rs", "src/raw.rs"]}
{"id": "C53", "title": "Capacity", "statement": "Without hash-backed keys, the number of entries of a map or set never exceeds the number of keys of the type (bool: 2, (): 1, Option<K>: 1 more than K, an enum: the sum over its variants), and equals it exactly when every key is present; inserting every key once reaches it.", "quantifier": "For every composed key type, every map and every reachable set.", "why_tests_cant": "All compositions and all states.", "anchors": ["src/map.rs: len", "src/set.rs: len", "fixed-map-derive/src/any_variants.rs: len", "fixed-map-derive/src/unit_variants.rs: len"]}
{"id": "C54", "title": "Set<K> behaves as Map<K, ()>", "statement": "After the same sequence of insert, remove, clear and retain, Set<K> contains the same keys as Map<K, ()>, has the same length, and (where the order is not hashbrown's) iterates over the same keys in the same order.", "quantifier": "For every key type and every sequence of operations.", "why_tests_cant": "All histories of two independent implementations.", "anchors": ["src/set.rs", "src/map.rs", "src/set/storage/*.rs", "src/map/storage/*.rs"]}
{"id": "C55", "title": "Laws between map operations", "statement": "Operations at different keys commute; at the same key the last one wins; removing a new key or putting back a removed or replaced value restores the map; two passes of retain with stateless closures are one; retain accepting everything does nothing and rejecting everything is clear. Restored means the same contents, and the same value where hashbrown is not involved.", "quantifier": "For every key type, every map, all keys and values.", "why_tests_cant": "All states and keys.", "anchors": ["src/map.rs: insert, remove, retain, clear", "src/map/storage/*.rs"]}
{"id": "C56", "title": "Collecting an iterator restores the collection", "statement": "Collecting what iter() or into_iter() of a map yields, in any order, gives a map with the same contents and overwrites nothing; collecting pairs with different keys gives the same map in any order; the same for sets, also with repetitions.", "quantifier": "For every key type, every map and reachable set, every permutation.", "why_tests_cant": "All permutations of all contents.", "anchors": ["src/map.rs: FromIterator, IntoIterator", "src/set.rs: FromIterator, IntoIterator"]}
{"id": "C57", "title": "Laws between set operations", "statement": "Insertions commute and are idempotent, and so are removals; operations on different elements commute; on the same element the last one wins; undoing restores the set; two passes of retain are one; retain accepting everything does nothing and rejecting everything is clear.", "quantifier": "For every key type, every reachable set, all elements.", "why_tests_cant": "All states and elements.", "anchors": ["src/set.rs: insert, remove, retain, clear", "src/set/storage/*.rs"]}
{"id": "C58", "title": "The generated iterators do not overflow", "statement": "The index loops of the iterators generated for enums with payloads, run on machine words with wrapping arithmetic as written, end on every call and return what the same loops return on unbounded numbers, for every mix of next and next_back.", "quantifier": "For every enum with fewer than 2^w variants, every word width w, every map and reachable set, every schedule of calls.", "why_tests_cant": "Enums and schedules are unbounded; wraparound only shows at the limits.", "anchors": ["fixed-map-derive/src/any_variants.rs:1795-1850 (IteratorNext, IteratorNextBack)", "fixed-map-derive/src/any_variants.rs:842,992,1138,1237,1369,1479,1624,1781 (start/end)"]}
{"id": "C59", "title": "Which standard traits maps, sets and iterators implement", "statement": "Map<K, V> is Clone, PartialEq, Eq exactly if V is, Copy exactly if V is and no hash-backed key is involved, and Hash, PartialOrd, Ord exactly if V is and K is a unit-only derived enum; sets likewise; borrowing iterators are always Clone. Every impl comes with those of its supertraits, and the bodies of generated impls find the impls they call.", "quantifier": "For every key type (nested to any depth) and every set of traits of V.", "why_tests_cant": "A test checks single instantiations; where clauses of generated impls range over all nestings.", "anchors": ["src/map/storage/*.rs, src/set/storage/*.rs: derives and impls", "fixed-map-derive/src/unit_variants.rs:174-224, 421-442, 588-609", "fixed-map-derive/src/any_variants.rs:166-205, 449-488, 810, 960, 1106, 1447, 1592, 1742"]}
{"id": "C60", "title": "Which iterators are double-ended", "statement": "The six iterators of a map and the two of a set support next_back exactly if no hash-backed key is involved.", "quantifier": "For every key type, if hashbrown's iterators are not double-ended.", "why_tests_cant": "All nestings of key types.", "anchors": ["src/map/storage/*.rs: associated iterator types", "fixed-map-derive/src/any_variants.rs: build_iter_next where clauses"]}
{"id": "C61", "title": "The code emitted by the derive for enums with payloads is the storage it is meant to be", "statement": "The structs, match arms, method bodies, iterators and entry enums that any_variants.rs emits for a list of variants never refer to an unbound name or a missing arm, and each emitted method does on the emitted struct what the variant-by-variant storage does. From the emitted empty on, any sequence of calls on the emitted code returns what the same calls on an association list return.", "quantifier": "For every list of variants with distinct names (any number, any payload key types), every state, key, value, closure, and every finite sequence of calls.", "why_tests_cant": "The repository's tests expand the derive on a handful of enums; a wrong index or pattern for some position or combination of variants would go unseen.", "anchors": ["fixed-map-derive/src/any_variants.rs:12-2160"]}
{"id": "C62", "title": "The code emitted by the derive for unit enums is the storage it is meant to be", "statement": "The array destructuring, match arms, unrolled statements, iterators and bit masks that unit_variants.rs emits never refer to an unbound name, a missing arm or a literal that does not fit, and each emitted method does what the storage of that many variants does: array-backed map, array-backed set and bitset. Bitset code is emitted exactly for at most 128 variants. From the emitted empty on, any sequence of calls on the emitted map code returns what the same calls on an association list return.", "quantifier": "For every list of distinct variant names, every state, key, value, closure and every finite sequence of calls.", "why_tests_cant": "Tests expand the derive on a few enums; an index or mask wrong for some variant count would go unseen.", "anchors": ["fixed-map-derive/src/unit_variants.rs:9-691"]}
{"id": "C63", "title": "The derive as a whole: from the enum to the behaviour of its maps and sets", "statement": "Expanding the derive on an item gives code, diagnostics or a panic exactly as the decision rules of C49 say, with one field per covered variant. Code is emitted whose every match covers every variant exactly if all variants are unit or single-field tuple variants and a bitset enum has at most 128 variants. For those enums any sequence of calls on a new map that uses the emitted code returns what the same calls on an association list return, and any sequence of calls on a new set returns the same contains and len as an ordinary set; if no payload type contains bool or Option all returned values are those of an ordinary set. For all payload types every returned value is the one determined by the elements present and the documented deviations of the payload's set (insert inverted for bool and None, remove answering for both bools, is_empty inside Option).", "quantifier": "For every item: attributes, variants with distinct names, payload types, and every finite sequence of calls with values of the enum.", "why_tests_cant": "Tests expand the derive on a few enums and call a few methods; the space of enums and histories is infinite.", "anchors": ["fixed-map-derive/src/lib.rs:31-73", "fixed-map-derive/src/attrs.rs:5-29", "fixed-map-derive/src/any_variants.rs:9-90", "fixed-map-derive/src/unit_variants.rs:9-44"]}
{"id": "C64", "title": "A clone of an iterator yields exactly what the original has yet to yield", "statement": "Cloning an iterator at any time, after any calls at either end, gives an iterator that answers every further sequence of calls as the original would: the shared map iterators (iter, keys, values) and the set iterators give the very same items, the owning iterator of a map gives the same keys with clones of the values, with the same size hint. The owning iterators are Clone exactly if no hash table occurs in the key type.", "quantifier": "For every key type (nested derives included), every derived enum, every storage content, every schedule of next and next_back before and after the clone, and every clone function of the value type.", "why_tests_cant": "Clone of iterators is barely tested; a generated Clone that copies a wrong bound or field would only show up for particular enums after particular partial iterations from both ends.", "anchors": ["fixed-map-derive/src/any_variants.rs:810-819", "fixed-map-derive/src/any_variants.rs:960-969", "fixed-map-derive/src/any_variants.rs:1106-1115", "fixed-map-derive/src/any_variants.rs:1435-1456", "fixed-map-derive/src/any_variants.rs:1592-1601", "fixed-map-derive/src/any_variants.rs:1735-1751", "fixed-map-derive/src/unit_variants.rs:241-245", "src/map/storage/boolean.rs:24-27", "src/map/storage/option.rs:32-38", "src/map/storage/singleton.rs:47"]}
{"id": "C65", "title": "The complete behaviour of a set, deviations included", "statement": "For every key type, every reachable Set and every sequence of calls of insert, remove, contains, len, is_empty, clear, retain (with stateful closures that may panic), iter and clone, every answer and the contents after every call are those of a reference that knows only which elements are contained. The reference spells out where the code departs from an ordinary set: insert answers the other way round for bool values and None; remove answers whether any bool sibling is present; is_empty requires None inside every Option; retain also calls the closure on absent () payloads and adds them when accepted, and when the closure panics in the middle of a #[key(bitset)] enum the rejected elements of that enum stay. Every sequence of calls can be carried out. Two sets with equal contents, however they were built, get the same answers from the same calls if no part of the key is hash-backed.", "quantifier": "all key types, all reachable sets, all finite sequences of calls, all closures and closure states", "why_tests_cant": "The set of call sequences, key types and closures is infinite; tests would have to find the interaction of a panic with the place of the element in the key type, and cannot show that no further deviations exist.", "anchors": ["src/set.rs", "src/set/storage/boolean.rs", "src/set/storage/option.rs", "src/set/storage/singleton.rs", "src/set/storage/hashbrown.rs", "fixed-map-derive/src/any_variants.rs", "fixed-map-derive/src/unit_variants.rs"]}
{"id": "C66", "title": "User-defined key storages: the derive and Option preserve the storage contract", "statement": "Key, MapStorage and SetStorage are public traits. State a contract for a map storage (lookups, updates, entries, retain, handles, addresses and iterators agree with one list of entries) and for a set storage (additionally the answers of insert, remove and is_empty). For an enum with any number of unit variants and tuple variants, whatever storages the payloads have: if each payload's map storage satisfies the contract, the derived map storage does, with the variants in declaration order; likewise for sets. Option preserves the contract of maps, and violates that of sets for every payload storage. The crate's own storages satisfy the contract (maps: key types without (); sets: without bool, Option and ()). Under the contract every history of map calls behaves like a reference map (never panicking), and every sequence of set calls like an ordinary set.", "quantifier": "all payload storages satisfying the contract, all enums, all histories", "why_tests_cant": "Tests can only use particular storages; the claim is about every implementation of the public traits, including ones not yet written.", "anchors": ["src/key.rs", "src/map/storage.rs", "src/set/storage.rs", "fixed-map-derive/src/any_variants.rs", "src/map/storage/option.rs", "src/set/storage/option.rs"]}
{"id": "C67", "title": "Destructors of values that panic", "statement": "Values may have destructors with side effects that panic. clear works through the entries in iter() order: the values it got to are dropped once (after a panic a hash table leaks its remaining values), the entries it did not get to are still in the map, which can be cleared again. Dropping a map drops every value once even if one destructor panics (hash tables may leak; a second panic aborts). If the destructor of a value rejected by retain panics, its entry is already gone, the entries before are processed and the later entries unchanged; a panic of the closure keeps the entry. If the destructor of a value replaced during from_iter panics, the unfinished map is dropped and no value taken is dropped twice. No value is ever dropped twice or used after being dropped; without a hash table nothing is leaked; without panics nothing is left. Exactly: the entries form batches, one per assignment or field clear() runs (a hash table is one batch). All values of a batch are dropped even after a panic, except that a hash table leaks those after the first panic. clear() stops after the batch in which a destructor panicked and leaves the later batches; dropping the map goes through all batches; from_iter stops at the insert whose returned value panicked and drops the map built so far.", "quantifier": "all key types, map contents, destructors (stateful, panicking at will), closures", "why_tests_cant": "The place of the panic, the key type and the contents vary without bound; double drops and leaks show up only under particular combinations and are not observable by ordinary assertions.", "anchors": ["src/map.rs:666-695", "src/map.rs:1372-1381", "src/map/storage/boolean.rs:289-315", "src/map/storage/option.rs:313-330", "src/map/storage/singleton.rs:100-115", "src/map/storage/hashbrown.rs:209-220", "fixed-map-derive/src/any_variants.rs:358-395", "fixed-map-derive/src/unit_variants.rs:314-335"]}
{"id": "C68", "title": "What size_hint says, exactly", "statement": "For bool, (), primitive keys and Options of these, every iterator of a map (iter, keys, values, iter_mut, values_mut, into_iter) and of a set reports exactly the number of remaining items as both bounds, after any mixture of next and next_back calls. For an enum of unit variants (bitset or not) the hint is (0, None), or (0, Some(0)), and it is the latter at the latest once the iterator has answered None. For an enum with payloads it is always (0, None).", "quantifier": "all key types, contents and schedules", "why_tests_cant": "Tests look at a few states; an off-by-one in one arm of a chained iterator only shows in particular intermediate states.", "anchors": ["src/map/storage/boolean.rs:80-138", "src/map/storage/option.rs:332-375", "src/map/storage/singleton.rs", "src/map/storage/hashbrown.rs:222-251", "src/set/storage/boolean.rs:58-116", "src/set/storage/option.rs:167-182", "fixed-map-derive/src/unit_variants.rs", "fixed-map-derive/src/any_variants.rs"]}
{"id": "C69", "title": "An owning iterator drops exactly what it has not handed out", "statement": "map.into_iter() moves the values into the iterator. After any mixture of next and next_back calls, dropping the iterator drops every value that was not handed out, and no other: every value of the map is handed out or dropped exactly once. This includes the values held inside chained and flattened parts, in fields the generated iterator has already gone past, or behind the back end. If a destructor panics, the remaining values are still dropped (only a hash table may leak its own), a second panic aborts; without hash tables the drop order is the iteration order. Once the iterator has answered None it holds nothing. Exactly: what was not handed out is dropped in the batches of C67.", "quantifier": "all key types, map contents, schedules of next and next_back, destructors", "why_tests_cant": "A value lost or dropped twice depends on where in which adaptor the iteration stopped; the combinations are unbounded, and a leak is not visible to assertions.", "anchors": ["src/map.rs:1332-1343", "src/map/storage/boolean.rs:24-27", "src/map/storage/option.rs:32-38", "src/map/storage/singleton.rs:47", "src/map/storage/hashbrown.rs:154", "fixed-map-derive/src/unit_variants.rs:241-245", "fixed-map-derive/src/any_variants.rs:1388-1491"]}
{"id": "C70", "title": "Cloning a map when V::clone has effects or panics", "statement": "Map::clone calls V::clone exactly once for every value, in iter() order, and nothing else; the clone has the same keys, each with the clone of its own value, and the order of the entries is the same (up to the order of hash tables). If a call panics, the values after it are not cloned, the original is untouched, and exactly the clones already made are dropped, each once; if one of their destructors panics as well, the process aborts. clone_from leaves its target unchanged if a clone panics, and otherwise drops the target's old values. For key types without hashed parts the drops happen part by part, the last part first and each part in iteration order.", "quantifier": "all key types, map contents, clone functions with state and panics, destructors", "why_tests_cant": "Whether a half-built storage leaks or drops a clone twice depends on where in which nested part the panic happens; such a fault is invisible without counting destructor calls at every position.", "anchors": ["src/map.rs:863-874", "src/map/storage/boolean.rs:73-77", "src/map/storage/singleton.rs:6-9", "src/map/storage/option.rs:80-93", "src/map/storage/hashbrown.rs:38-49", "fixed-map-derive/src/unit_variants.rs:174-182", "fixed-map-derive/src/any_variants.rs:193-203"]}
{"id": "C71", "title": "Which calls of V::eq, V::partial_cmp and V::cmp comparing two maps makes", "statement": "a == b calls V::eq only on the two values of a key present in both maps, at most once per key and with the value of a on the left. Keys outside hash tables are looked at in a fixed order: declaration order, except that None comes before Some(_). A hash table is compared by length first; tables of different lengths are not looked into, otherwise the keys of the left table are looked up one by one. The first key present in one map only, the first false answer, or the first panic of V::eq ends the comparison; neither map is changed. partial_cmp and cmp call the comparison of V on the values of common keys in declaration order until the first answer that is not Equal.", "quantifier": "all key types, pairs of map contents, comparison functions with state and panics", "why_tests_cant": "A comparison that calls V::eq twice, or on values of different keys, or goes on after a difference gives the same answers for every pure V::eq.", "anchors": ["src/map.rs:1013-1021", "src/map.rs:1137-1246", "src/map/storage/boolean.rs:73-77", "src/map/storage/singleton.rs:6-9", "src/map/storage/option.rs:103-113", "src/map/storage/hashbrown.rs:51-60", "fixed-map-derive/src/unit_variants.rs:188-224", "fixed-map-derive/src/any_variants.rs:166-182", "src/macro_support.rs:12-43"]}
{"id": "C72", "title": "Collecting from an iterator or deserializer that fails or panics", "statement": "Map::from_iter and deserializing take items from their source one by one, and none after the source ended, failed or panicked or after a destructor panicked. Every value taken is in the map built so far or was replaced by a later item with the same key and dropped right then, exactly once. from_iter then drops the iterator, and returns the map unless there was a panic, in which case the map is dropped while unwinding (a second panic aborts). An error of the deserializer is returned after dropping the map. Collecting a vector, every value of it ends in the map, or is dropped, or leaked by a hash table whose destructor panicked, or lost in an abort, and none twice. Sets: the set returned has exactly the elements taken, and errors and panics are passed on.", "quantifier": "all key types, sources with state that end, fail, panic or never end, destructors with state and panics", "why_tests_cant": "The place where a source fails relative to duplicates and panicking destructors multiplies with the storage kinds; a double drop or leak on such a path is invisible in ordinary tests.", "anchors": ["src/map.rs:1367-1382", "src/map.rs:1432-1443", "src/set.rs:985-1002", "src/set.rs:1049-1060"]}
{"id": "C73", "title": "Hash tables are used by exactly the key types with a hashed part", "statement": "For key types built from bool, (), unit enums, Option and derived enums of these, a map or set is the same program whatever hashbrown does (all operations, entries and iterators), so every history of calls is answered as by a finite map (set) even if the hash tables obey no law at all. For every other key type the answers depend on the tables: len of a new map or set asks every table exactly once.", "quantifier": "all key types, all implementations of the hash table interface (lawful or not), all histories", "why_tests_cant": "A test runs with one hashbrown; that no operation of any composition touches a table, for any behaviour of the table, is not observable in a finite run.", "anchors": ["src/key.rs:137-179", "src/map/storage/boolean.rs", "src/map/storage/singleton.rs", "src/map/storage/option.rs", "src/map/storage/hashbrown.rs", "src/set/storage", "fixed-map-derive/src/any_variants.rs", "fixed-map-derive/src/unit_variants.rs"]}
{"id": "C74", "title": "Operators on maps with partial_cmp, cmp, eq and hash that have effects or panic", "statement": "a != b makes exactly the calls of a == b and negates the answer. Each of <, <=, >, >= on maps over unit enums makes exactly the calls of one partial_cmp, and incomparable maps are in none of the four relations. max and min compare once (b with a), return the map core prescribes and drop exactly the values of the other map, or of both if the comparison panics. clamp compares lo with hi, then self with lo, then self with hi, stopping as soon as the result is known, panics if not lo <= hi, and drops exactly the maps it does not return. hash writes the number of variants and then, in declaration order, for every variant whether it is present and its value; the first panic ends it.", "quantifier": "all numbers of variants, all maps, all V::partial_cmp, V::hash and hashers with state and panics", "why_tests_cant": "Tests use well-behaved comparison functions; the number and order of calls, and what is dropped when one panics in the middle of a clamp, is not covered by them.", "anchors": ["src/map.rs:1074-1086", "src/map.rs:1137-1166", "src/map.rs:1216-1246", "fixed-map-derive/src/unit_variants.rs:200-224", "fixed-map-derive/src/unit_variants.rs:587"]}
{"id": "C75", "title": "Cloning an owning iterator with a V::clone that has effects or panics", "statement": "map.into_iter() can be cloned exactly for key types without hashed parts. After any use from both ends, clone() calls V::clone once for each value not yet handed out, in iteration order, and stops at the first panic. If there is none, the clone acts as a double-ended queue of exactly the clones made. If there is one, exactly the clones made are dropped, once each, part by part with the last part first; a second panic aborts. With a V::clone without effects the clone is the one of C64.", "quantifier": "all key types, all maps, all schedules of next and next_back before and after, all V::clone and destructors with state and panics", "why_tests_cant": "The states of the nested Chain, FlatMap and generated iterators in which a clone can panic are unboundedly many, and a leak or double drop there is invisible in ordinary tests.", "anchors": ["fixed-map-derive/src/any_variants.rs:1435-1456", "fixed-map-derive/src/unit_variants.rs:241-245", "src/map/storage/boolean.rs:24-27", "src/map/storage/option.rs:32-38", "src/map/storage/singleton.rs:47"]}
{"id": "C76", "title": "Whole programs hand out and drop only values they own", "statement": "Take any program that creates maps, calls their methods, clones them, collects vectors into them, turns them into owning iterators, uses and clones those, and drops all of these in any order, where closures, V::clone and destructors may have effects and panic and the program continues after a panic. Record every value that moves into or out of the crate and every start of a destructor. Then at every moment of the recording a value that is handed out or dropped is one the crate owns at that moment (given to it and neither handed out nor dropped since). At the end the values owned are exactly those in the maps, in the remaining iterators, leaked by hashbrown, or left behind by an abort; nothing is leaked without hash tables, and nothing is leaked or aborted if no destructor panics. Once all maps and iterators are gone every value was handed out or dropped as often as it was given. No call has undefined behaviour.", "quantifier": "all key types, all finite programs over any number of maps and owning iterators, all closures, V::clone, V::default and destructors with state and panics", "why_tests_cant": "The interleavings of several maps and iterators with panics at any point are unboundedly many; a double drop or a leak shows only in some of them and is invisible without instrumented values.", "anchors": ["src/map.rs", "src/map/entry.rs", "src/map/storage/boolean.rs", "src/map/storage/option.rs", "src/map/storage/singleton.rs", "src/map/storage/hashbrown.rs", "fixed-map-derive/src/any_variants.rs", "fixed-map-derive/src/unit_variants.rs"]}
{"id": "C77", "title": "The generated code drops, clones and compares as the storage model says, also when calls panic", "statement": "For every list of variants, the code the derive emits for maps runs statement by statement exactly as the storage model with effects says: the drop glue, clear, retain, clone and eq of the map storage, and the owning iterator after any calls when it is dropped or cloned. With destructors, closures, V::clone and V::eq that act on an outside world and may panic, it makes the same calls in the same order, drops and leaks the same values, panics in the same cases, and leaves the same storage behind. The Clone impl of the owning iterator is usable exactly if the model has one. The same for drop, clear and retain of maps over enums with unit variants only.", "quantifier": "all lists of variants and payload types, all storage states, all schedules of calls of the iterator, all destructors, closures, V::clone and V::eq with state and panics", "why_tests_cant": "The derive emits different code for each enum; tests look at a few enums, and hardly ever at destructors, clones or comparisons that panic.", "anchors": ["fixed-map-derive/src/any_variants.rs", "fixed-map-derive/src/unit_variants.rs"]}
{"id": "C78", "title": "The headers of the generated structs and impls are accepted, and select the right impls", "statement": "For every list of variants with at least one payload, the structs emitted by any_variants.rs use all their parameters, name only parameters in scope, and bound V by the lifetime where a borrowing iterator needs it; without payloads they would not. Every emitted impl names parameters in scope, fits its struct, has no where clause that rustc rejects as always false, comes with the impls of its supertraits, and its where clauses imply what its body calls on the fields. No trait is implemented twice for a struct. Each impl applies exactly if the storage model has the operation: Clone, Copy, PartialEq and Eq as C59 says, DoubleEndedIterator exactly if the iterator is double-ended. The binder for<'trivial_bounds> is needed exactly if some payload involves a hash table.", "quantifier": "all lists of variants and payload types (nested to any depth), all sets of traits of V, all hash tables that iterate one way", "why_tests_cant": "The derive emits different headers for each enum; each test compiles one enum, and rejected code does not compile into a test at all.", "anchors": ["fixed-map-derive/src/any_variants.rs"]}
{"id": "C79", "title": "The contract assumed of hashbrown holds for hash tables with open addressing, and no answer depends on the table", "statement": "A hash table with open addressing (slots that are empty, deleted or full; lookups that stop at an empty slot; tombstones; rebuilding when full) satisfies every law that the theorems assume of hashbrown, for every hash function, order of probing and policy for growing and tombstones; also the laws assumed for dropping its owning iterator and for cloning. Whichever table with these laws is used, a history of calls on a map or set of any key type gets the same answers (lists up to their order), drops the same values and ends with the same contents, as long as closures passed to retain and loops over iter_mut decide by the entry alone.", "quantifier": "all key types, value types, hash functions, probing and growing policies, tables with the laws, histories of any length", "why_tests_cant": "Tests run with one hash function and one version of hashbrown, and reach few of the layouts that collisions, tombstones and growth produce.", "anchors": ["src/map/storage/hashbrown.rs", "src/set/storage/hashbrown.rs"]}
{"id": "C80", "title": "Exactly which names of the user get in the way of the emitted code", "statement": "The derive emits names without a path (primitive types, prelude items, its own items, type parameters, variables) that are resolved where the enum is declared. Every name in the emitted code has the meaning intended, and every name the user wrote keeps its meaning in the emitted places, if and only if: neither the enum nor a path in a payload type starts with V, F or the name of an emitted item; no type called usize, bool, FnMut, Option (and Clone, or the integer type of the bitset) of the user is in scope, nor a value called None (and Some) where the emitted code uses it; and no constant, static or constructor in scope is named like a variable of the emitted code (key, value, other, func, ...; val, k, v, _0.. only if there are variants of the kind that needs them).", "quantifier": "all enums (any number of variants, any payload types), with and without bitset, and all sets of names in scope", "why_tests_cant": "Tests derive in a handful of modules with few names in scope; a capture shows only with the one unlucky name.", "anchors": ["fixed-map-derive/src/any_variants.rs", "fixed-map-derive/src/unit_variants.rs", "fixed-map-derive/src/context.rs"]}
{"id": "C81", "title": "Memory: no allocation without hash table keys, and clear keeps the memory for reuse", "statement": "A map or set whose key type contains no hash table key never calls the hash table. Otherwise: a new map owns no memory; a call changes the memory of the map only if it stores a value for an absent key that belongs to a hash table, and then only this table may change and only grow; remove, retain, clear, the entry methods on occupied entries and writing through references keep all memory; after clear, keys that were in the map can be inserted again in any order and number without allocating. The same for sets. The set of a bitset enum takes the smallest power of two of bytes with a bit per variant, and is smaller than the array of booleans from two variants on.", "quantifier": "all key types, value types, maps, sets and calls, for every hash table that satisfies the documented laws about its memory", "why_tests_cant": "Tests look at answers; a clear that replaces an inner storage by a new one, or an operation that rebuilds a table, gives the same answers.", "anchors": ["src/map.rs", "src/lib.rs", "src/map/storage/option.rs", "src/map/storage/hashbrown.rs", "src/set/storage/option.rs", "src/set/storage/hashbrown.rs", "fixed-map-derive/src/any_variants.rs", "fixed-map-derive/src/unit_variants.rs"]}
{"id": "C82", "title": "Soundness does not depend on how the storages of the user behave", "statement": "Take any storages that are written in safe Rust, however wrong their answers (wrong lengths, forgotten values, occupied entries for absent keys). Then a map whose key is an Option of such a key, or a derived enum with payloads of such keys, nested in any way, has no undefined behaviour for any client that calls the methods of maps and entries in any order, iterates from both ends and reads and assigns through the references: the unchecked bucket operations are only used on slots of the right kind, every reference is to a live value, and references that exist together do not overlap. The storages of the crate themselves are sound in this sense.", "quantifier": "all safe storages (lawful or not) of payloads, all enums and nestings of Option, all states, all sequences of calls", "why_tests_cant": "Tests use well-behaved storages. A lying storage has to be invented to see whether an unsafe block relies on its answers.", "anchors": ["src/option_bucket.rs", "src/map/storage/option.rs", "src/map/storage.rs", "src/map/entry.rs", "fixed-map-derive/src/any_variants.rs"]}
{"id": "C83", "title": "Iterating takes linear time", "statement": "Every schedule of next and next_back calls, on each of the six iterators of a map and on both iterators of a set, costs at most a constant for each call and a constant once. Both constants depend on the key type only, not on what the map holds: a single call may pass over all empty variants, but no variant is passed over twice. So a for loop over a map takes time linear in the number of its entries plus the number of variants.", "quantifier": "all key types, all value types, all states, all schedules of calls from both ends", "why_tests_cant": "Tests do not measure the number of steps, and a quadratic iterator returns the same items.", "anchors": ["fixed-map-derive/src/any_variants.rs", "fixed-map-derive/src/unit_variants.rs", "src/map/storage/option.rs", "src/map/storage/boolean.rs", "src/map/storage/hashbrown.rs", "src/set/storage/option.rs"]}
{"id": "C84", "title": "Internal iteration agrees with external iteration", "statement": "For every iterator of a map or set, in every state in which a loop over next ends (for example after any calls from both ends), fold calls its closure on exactly the remaining items in the same order as the loop, and stops at the first panic of the closure; rfold does the same for next_back, in reverse order. So for_each, count, sum and collect agree with a for loop although the adapters of core implement fold without next. The fold of an intersection, which is implemented by the crate through the fold of the inner iterator, agrees with the loop over its next.", "quantifier": "all key types, all states, all schedules of calls before the fold, all closures including panicking ones", "why_tests_cant": "Tests compare a few complete traversals; a fold that starts from the wrong end of a chain or forgets a partly consumed part only shows after calls from both ends.", "anchors": ["src/set/intersection.rs", "src/map/storage/option.rs", "src/map/storage/boolean.rs", "src/set/storage/option.rs", "fixed-map-derive/src/any_variants.rs", "fixed-map-derive/src/unit_variants.rs"]}
{"id": "C85", "title": "Maps can be sent and shared between threads exactly as far as their values allow", "statement": "For every key type: the map is Send exactly if V is and Sync exactly if V is; the same holds for iter_mut, values_mut, into_iter and for entries; iter and values are Send and Sync exactly if V is Sync; keys is always both if the key involves no hash table, and otherwise exactly if V is Sync; sets, their iterators and intersections are always both. These answers of rustc, which it infers from the private fields, are the ones that the accesses to values justify: owned and mutably borrowed values need Send, shared ones Sync.", "quantifier": "all key types, all combinations of Send and Sync of V, all storages, iterators and entries", "why_tests_cant": "Auto traits follow from private fields, so a change of a field silently changes the public interface; a test instantiates a few concrete types.", "anchors": ["src/map/storage/boolean.rs", "src/map/storage/option.rs", "src/map/storage/singleton.rs", "src/map/storage/hashbrown.rs", "src/option_bucket.rs", "src/set/intersection.rs", "fixed-map-derive/src/any_variants.rs", "fixed-map-derive/src/unit_variants.rs"]}
{"id": "C86", "title": "The emitted code that the other properties are about is the code that the derive writes", "statement": "For every enum, whatever its name, visibility, variants and payload types: the tokens produced by the templates of any_variants.rs, with the loops, temporaries and helper functions that fill them, are the printed form of the syntax trees whose meaning is used in the other properties, item by item and token by token; for enums without payloads the same holds of unit_variants.rs, with and without bitset, and no tokens are produced if there are more than 128 variants and bitset is asked for.", "quantifier": "all names, visibilities, lists of variants and payload types, all spellings of the payload types, both modes of unit enums", "why_tests_cant": "The tokens are assembled from templates with repetitions over parallel vectors; a test sees the result for the few enums it contains, and only through what the compiled code does.", "anchors": ["fixed-map-derive/src/any_variants.rs", "fixed-map-derive/src/unit_variants.rs", "fixed-map-derive/src/context.rs", "fixed-map-derive/src/symbol.rs"]}
{"id": "C87", "title": "The names of which it is proved what they mean are the names in the emitted tokens", "statement": "For every enum with a plain name and a visibility that names nothing: the identifiers in the emitted tokens that are looked up in a scope or that bind something (those that are not keywords, rests of paths, fields, methods, declared items or words of attributes), read off in order, are the names in the list that the property about name resolution (C80) is about; for enums with payloads and unit enums, with and without bitset.", "quantifier": "all enum names, visibilities, lists of variants and payload types (among them all paths, and generic types with one argument)", "why_tests_cant": "A forgotten name shows only in a crate that happens to have something else of that name in scope; the list that C80 is about had been made by hand.", "anchors": ["fixed-map-derive/src/any_variants.rs", "fixed-map-derive/src/unit_variants.rs"]}
{"id": "C88", "title": "len on machine words is right as long as the number of entries fits, which a 16-bit usize does not ensure", "statement": "len() computed with the additions of the source on usize values of w bits is the number of entries visited by a for loop whenever that number is below 2^w, with and without overflow checks; otherwise it panics with overflow checks and is the remainder modulo 2^w without. A map in fewer than 2^w bytes of memory always fits, a set whenever eight times its memory does, and a key type with fewer than 2^w keys and no hash tables always. intersection(), which compares lengths, is not affected where they fit. With a 16-bit usize there is a set of 8192 bytes whose len() panics, or is 0 though it is not empty.", "quantifier": "all key types, word widths of at least 8 bits, maps, reachable sets, with and without overflow checks", "why_tests_cant": "A test would need a target with a 16-bit usize, or more elements than fit in memory; that no map can overflow is a statement about all maps.", "anchors": ["src/map/storage/option.rs", "src/map/storage/boolean.rs", "src/set/storage/option.rs", "src/set/storage/boolean.rs", "src/set.rs", "fixed-map-derive/src/any_variants.rs", "fixed-map-derive/src/unit_variants.rs"]}
{"id": "C89", "title": "The macro as a whole writes the code of an accepted item and nothing else, and one compile_error for each diagnostic of a rejected one", "statement": "For every item, with arbitrary tokens in its attributes, the output of #[derive(Key)] is: the printed form of the code that the derive decides on (the code for which every history of calls on a map gives what an association list gives), if it decides on code; one ::core::compile_error!{..} for each diagnostic, in order, if it does not, where the last one says that there are too many variants, and how many, for an enum, and \"named fields are not supported\" for anything else; a panic if an enum with payloads has a variant A(). #[key(..)] asks for a bitset exactly if one of its items before the first that is not understood is bitset; items are separated by commas, and one may follow the last; attributes that are not called key are not read. No output is empty.", "quantifier": "all items, attribute tokens, names, visibilities and spellings of the payload types", "why_tests_cant": "Tests of a macro compile particular items; what it writes for all enums, and what it says for all the wrong ones, is a statement about all token lists.", "anchors": ["fixed-map-derive/src/lib.rs", "fixed-map-derive/src/attrs.rs", "fixed-map-derive/src/symbol.rs", "fixed-map-derive/src/any_variants.rs", "fixed-map-derive/src/unit_variants.rs"]}
{"id": "C90", "title": "All iterator methods agree with next, and leave the right items behind", "statement": "For every iterator of maps and sets over every key type, any sequence of calls of next, next_back, advance_by, advance_back_by, nth, nth_back, try_fold, try_rfold, find and rfind, in any order and from both ends, returns what the same calls return on the list of items that a for loop goes through; at any point size_hint is right for the items that are left, count and last are those of these items, and fold and rfold go through exactly them. Hence any, all and position answer as on the list. In particular no call skips, repeats or invents an item, although the adapters of core that the storages are built from define most of these methods without calling next.", "quantifier": "all key types, states of the map or set, lists of calls, closures and their states, and hash tables that keep their contract", "why_tests_cant": "The combinations of adapters (one for each key type), entry points, call sequences and closures are unbounded; tests call next in a loop.", "anchors": ["src/map/storage/boolean.rs:312-354", "src/map/storage/option.rs:332-375", "src/map/storage/hashbrown.rs:222-251", "src/set/storage/option.rs:167-182", "src/set/storage/hashbrown.rs:113-120", "fixed-map-derive/src/unit_variants.rs:333-364", "fixed-map-derive/src/any_variants.rs"]}
{"id": "C91", "title": "Every absolute path in the emitted code names a public item", "statement": "For every item the derive is given (enums with and without payloads, with or without #[key(bitset)], with variants the derive passes over, and items that are refused), each absolute path in the emitted tokens resolves, from the crate of the user and with any set of features of fixed-map, to a public item through public modules and re-exports, and to the right sort where it stands: a trait after impl and after as, a derive macro in a derive attribute, something that can be called before a parenthesis; and the name after <T as path>:: is an item of that trait. Only core and fixed-map are named, so neither std nor alloc has to be there. Absolute paths other than these are written by the user.", "quantifier": "all items, payload types, visibilities and feature sets", "why_tests_cant": "The templates are selected by the variants of the enum and the derive is tested inside the workspace of the crate, where private modules and features are not exercised from outside; a path that does not exist shows only in the enums that select it.", "anchors": ["fixed-map-derive/src/context.rs:51-87", "fixed-map-derive/src/any_variants.rs", "fixed-map-derive/src/unit_variants.rs", "src/lib.rs:290-308", "src/lib.rs:461", "src/map.rs", "src/map/storage.rs", "src/set.rs", "src/set/storage.rs", "src/option_bucket.rs", "src/raw.rs", "src/macro_support.rs"]}
{"id": "C92", "title": "Every emitted impl has exactly the items of its trait, with their signatures", "statement": "For every enum that the derive accepts, each impl in the emitted tokens is one of a known trait and has every item of that trait once and no other item; each function has the signature that the trait says, up to the names of parameters; each associated type has the number of parameters that the trait says, no conditions that the trait does not have, and the impls that the trait asks for, with the right associated types (Key::MapStorage implements MapStorage of the enum, Iter implements Iterator with the right Item, and so on); no trait is implemented twice for one type; Key is implemented for the enum; and nothing is left open. For items that are refused there are no impls at all. For enums with payloads the impls do not depend on the variants.", "quantifier": "all enums, payload types, visibilities and numbers of variants, with and without #[key(bitset)]", "why_tests_cant": "Whether an item is missing or has another type shows only when an enum is compiled that selects the template; tests compile a few enums.", "anchors": ["fixed-map-derive/src/any_variants.rs", "fixed-map-derive/src/unit_variants.rs", "src/key.rs:127-135", "src/map/storage.rs:25-518", "src/set/storage.rs:22-62", "src/raw.rs:13-22"]}
{"id": "C93", "title": "The text of the storages and buckets does what the storages of the model do", "statement": "The files src/option_bucket.rs, src/map/storage/{boolean,singleton,option,hashbrown}.rs and src/set/storage/{boolean,singleton,option,hashbrown}.rs, taken as text, parse, and their functions, run by a definitional interpreter of the Rust they are written in, give on every state of the storage, for all keys, values and closures, what the functions of the model give: the same results, storage afterwards, dropped values and state of the caller's closure, also when the closure panics, and undefined behaviour in the same cases; references that are returned point to the same values; the iterators that are returned can be told apart neither from the front nor from the back nor by size_hint.", "quantifier": "all storages, keys, values, caller closures (also panicking), inner storages (option) and hash maps (hashbrown)", "why_tests_cant": "A test runs the code on some storages. Here the functions that all other theorems are about are shown to be those of the text, so no slip in writing the model can hide a bug in these files.", "anchors": ["src/option_bucket.rs", "src/map/storage/boolean.rs", "src/map/storage/singleton.rs", "src/map/storage/option.rs", "src/map/storage/hashbrown.rs", "src/set/storage/boolean.rs", "src/set/storage/singleton.rs", "src/set/storage/option.rs", "src/set/storage/hashbrown.rs"]}
{"id": "C94", "title": "The text of Map, Entry, Set and Intersection does what the model says", "statement": "The files src/map.rs, src/map/entry.rs, src/set.rs and src/set/intersection.rs, taken as text, parse, and their functions, run by the interpreter of C93 over any storage, give what the functions of the model give: results, the map or set afterwards, dropped values, and the state of the caller's functions, also when these panic. This includes the loops of from_iter, From<[T; N]>, serialize, visit_map, visit_seq and Intersection::next and fold. deserialize asks for a map or a sequence, hands over its visitor and returns the answer, so with a format that calls the visitor it gives what the model's visitMap and visitSeq give. The operators, Hash, Debug, as_raw and from_raw are those of the storage, and intersection iterates over the smaller set.", "quantifier": "all storages, maps, sets, entries, keys, values, caller functions (also panicking), iterators, serializers and sequences of deserialized pairs", "why_tests_cant": "A test runs the wrappers over the storages of some keys. Here the model's maps, sets and entries, which the other theorems are about, are shown to be those of the text, over any storage.", "anchors": ["src/map.rs", "src/map/entry.rs", "src/set.rs", "src/set/intersection.rs"]}
{"id": "C95", "title": "The text of macro_support.rs compares as the model says", "statement": "The file src/macro_support.rs, taken as text, parses, and its functions, run by the interpreter of C93 on slices of any lengths, compare as the functions of the model: the same pairs of values are compared in the same order, with the same result, also when comparing values has effects or panics. With it the comparison of two maps over a unit enum is a run of this text on their slots.", "quantifier": "all slices of options and of bools, all comparisons of values (with effects, panicking, or inconsistent)", "why_tests_cant": "A test compares some slices. Here the functions that the theorems on orders are about are shown to be those of the text, for all slices and comparisons.", "anchors": ["src/macro_support.rs"]}
{"id": "C96", "title": "The text of key.rs gives every key type the storage that the model gives it", "statement": "The file src/key.rs, taken as text, has after expansion of its macros exactly one impl of Key for each of bool, (), Option<K>, and the hash table keys, and no others; only those of the hash table keys need the feature hashbrown. The files that define the map and set storages named in these impls, run by the interpreter of C93, do what the storages do that the model assigns to the key type, also for nested options and options of enums. A type has an impl exactly if it is one of these; of the integer types u16 and i16 are the only ones without.", "quantifier": "all key types of the library, to any depth of nesting, over any payload of Option, any hashbrown and any value type", "why_tests_cant": "A test uses some key types. Here the assignment of storages to key types that all theorems about maps and sets rest on is shown to be that of the text.", "anchors": ["src/key.rs", "src/map/storage/boolean.rs", "src/map/storage/singleton.rs", "src/map/storage/option.rs", "src/map/storage/hashbrown.rs"]}
{"id": "C97", "title": "The text of the derive writes the tokens of the model", "statement": "The files any_variants.rs and unit_variants.rs of the derive, taken as text, are read by a parser and run by an interpreter on an enum. The run of implement ends with exactly the tokens that the model of the derive writes (those of C86, C87, C91, C92): for any_variants.rs always, for unit_variants.rs unless #[key(bitset)] is given and there are more than 128 variants, in which case it returns Err. No run gets stuck or panics. determine_bits gives the smallest of the words of 8 to 128 bits that has a bit for each variant, as a type and as a number. So what the text writes is the code of which C61 and C62 say what it does, and its impls have the items and signatures of the traits.", "quantifier": "all enums: all lists of variants without payload or with one field, all names, visibilities and types, with and without #[key(bitset)]", "why_tests_cant": "A test runs the derive on some enums. Here the loops over the variants, the choice of a template for each and all templates are executed for an arbitrary list of variants, so the model of the generated code no longer rests on templates that were copied by hand.", "anchors": ["fixed-map-derive/src/any_variants.rs", "fixed-map-derive/src/unit_variants.rs", "fixed-map-derive/src/context.rs:51-87"]}
{"id": "C98", "title": "The text of the derive on any item does what the model of the macro does", "statement": "The text of impl_storage and is_all_unit_variants in lib.rs, and of the two functions implement that it calls, is read and run on any item. It ends as the model of the macro (C89) does: with the same tokens, with Err and the same error messages in the same order, or with a panic. It panics exactly if the item is an enum with a variant V(). It returns Err exactly if the item is no enum, or if it is an enum without payloads, with more than 128 variants and the attribute bitset. All other items get tokens, also enums with variants that are not supported: the errors that are reported for them are dropped. No run gets stuck. So the paths in the output are good (C91) and the impls complete (C92) for what the text writes.", "quantifier": "all items: structs, unions and enums with any variants (no fields, any number of unnamed or named fields), all attributes, names, visibilities and types", "why_tests_cant": "A test runs the derive on some items that are accepted, and trybuild tests compare the output for a few that are not. Here the skipping of variants, the order of the errors and the choice between the two files are executed for an arbitrary list of variants.", "anchors": ["fixed-map-derive/src/lib.rs:50-73", "fixed-map-derive/src/any_variants.rs:12-90", "fixed-map-derive/src/unit_variants.rs:9-45"]}
{"id": "C99", "title": "The text of attrs.rs, symbol.rs and the path functions does what the model does, and with it the whole derive", "statement": "The text of attrs::parse is read and run on any attributes, with the comparisons of symbol.rs from their text and with syn as a parser that calls the closure of the text. It sets the option and adds the errors that the model (C89) does. It sets opts.bitset exactly if some attribute with the path key has bitset as its first item; items after it may be wrong, but wrong items before it prevent it. impl_storage with this attrs::parse and the two implement functions from their text ends on every item as the model of the macro does. suffixed(&leading_path(first), rest) is the path of all parts with a leading ::, so the paths in cx.toks print as ::core::.. and ::fixed_map::.., and the table of context.rs has only these two kinds.", "quantifier": "all lists of attributes with any paths and tokens, all errors before, all items, all lists of path segments", "why_tests_cant": "A test uses the attributes key(bitset) and perhaps one wrong one. Here attributes are arbitrary lists of arbitrary tokens, and the mutable option that the closure captures is followed through every call that syn makes.", "anchors": ["fixed-map-derive/src/attrs.rs:5-29", "fixed-map-derive/src/symbol.rs:8-33", "fixed-map-derive/src/context.rs:40-48", "fixed-map-derive/src/context.rs:90-116"]}
{"id": "C100", "title": "The text of the derive from the item to the output", "statement": "The text of storage_derive is read and run, with leading_path, impl_storage and all that this calls from their texts (C99), and with the methods of Ctxt from theirs. On any item that syn has read it writes what the model of the macro (C89) writes: the code, or one compile_error! per error in order. It panics exactly for enums with a variant V(), and no run gets stuck. Input that is no item gives one compile_error! with the message of syn. Ctxt::new has no errors, error and span_error add one at the end, into_errors gives all. fallible passes on the result of any closure, and adds its error after those that the closure has added. Code is written exactly for enums, except for those without payloads, with more than 128 variants and an attribute #[key(..)] whose first item is bitset; all other items get the errors of their attributes followed by one that says why they are refused. So the paths in the output of the text are good (C91), and if the item is accepted then the impls are complete (C92).", "quantifier": "all items, all results of syn, all closures given to fallible, all errors before", "why_tests_cant": "A test of a proc macro sees the expansion of the items that it contains. Here the outermost function is executed on an arbitrary item, and the glue around impl_storage (which errors are printed, in which order, and when they are dropped) is part of what is proved.", "anchors": ["fixed-map-derive/src/lib.rs:30-48", "fixed-map-derive/src/context.rs:133-173"]}
{"id": "C101", "title": "From the text of the derive to the maps and sets of the user", "statement": "For every enum with distinct supported variants that is not too large for a bitset, with any attributes that say so, the text of the derive (C100) writes tokens that are some code, printed. This code, used as a map, answers every history of calls on the values of the enum like an association list. Used as a set, its elements are always those of an ordinary set and each call answers as C63 says for its payload type. On every state of the storages, all its iterators give what those of the model give (C08 to C11, C36), from both ends where they have two; without payloads, the set is a word exactly if #[key(bitset)] is asked for.", "quantifier": "all supported enums with all names, payload types, visibilities and attributes; all histories; all schedules of calls on iterators; any hashbrown and any value type", "why_tests_cant": "A test compiles some enums and makes some calls. This joins what the text of the macro writes for an arbitrary enum with what the written code does in an arbitrary history.", "anchors": ["fixed-map-derive/src/lib.rs:30-73", "fixed-map-derive/src/any_variants.rs", "fixed-map-derive/src/unit_variants.rs"]}
{"id": "C102", "title": "The traits of the storages are those that the text of their files implements", "statement": "Which of Clone, Copy, PartialEq, Eq, Hash, PartialOrd and Ord a storage of the library implements is read from the text of its file: from #[derive(..)] and from the headers of the impls with their where clauses. For every key type of the library (the one whose storage the text of key.rs names) and every value type this gives exactly the traits of the model of trait selection, of which C59 says what they amount to. By the text of map.rs and set.rs, Map<K, V> and Set<T> implement each of the seven exactly if their storage does, whatever K, T and V implement. The iterator types of these storages, followed through the types of the file to those of core and hashbrown, are Clone exactly as C59 has it and double-ended exactly without hash tables, as in C60.", "quantifier": "all key types of the library (with any key type inside Option), all value types (any subset of the traits), all seven traits", "why_tests_cant": "A test that compiles shows that an impl exists for some type; that there is none for others, and that no bound is too narrow, would need a compilation for each type. The set of value types is not finite.", "anchors": ["src/map/storage/boolean.rs:73-78", "src/map/storage/singleton.rs:6-21", "src/map/storage/option.rs:80-121", "src/map/storage/hashbrown.rs:38-67", "src/set/storage/boolean.rs:52", "src/set/storage/singleton.rs:7", "src/set/storage/option.rs:57-94", "src/set/storage/hashbrown.rs:33-55", "src/map.rs:863-1222", "src/set.rs:535-891", "src/map/storage/boolean.rs:14-27", "src/map/storage/option.rs:8-38", "src/set/storage/option.rs:8-15"]}
