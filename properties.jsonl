{"id": "C01", "title": "Tagged pointer round trip", "statement": "For every reserved-width setting, TaggedPointer::new(ptr, d) with ptr <= MAX_POINTER_VALUE and d <= MAX_DISCRIMINANT succeeds in debug and release builds and yields a pointer whose discriminant() is d, whose as_u64() is ptr and whose raw word is ptr + d * 2^POINTER_WIDTH.", "quantifier": "all 16 width settings, both build modes, all 64-bit addresses and discriminants in range", "why_tests_cant": "the domain is 2^64 words per setting and the crate is compiled for one setting at a time", "anchors": ["src/tagged_pointer.rs:TaggedPointer::new", "src/tagged_pointer.rs:store_discriminant", "src/tagged_pointer.rs:fetch_discriminant", "src/tagged_pointer.rs:strip_discriminant", "src/discriminant.rs:generate_discriminants"]}
{"id": "C02", "title": "Out-of-range arguments to TaggedPointer::new panic", "statement": "As its documentation says, TaggedPointer::new panics if the discriminant exceeds MAX_DISCRIMINANT or the pointer exceeds MAX_POINTER_VALUE (and only then).", "quantifier": "all settings, both build modes, all 64-bit words and all discriminant values", "why_tests_cant": "needs both build modes and every word; a test runs one mode, and only samples out-of-range arguments", "anchors": ["src/tagged_pointer.rs:TaggedPointer::new"]}
{"id": "C03", "title": "What an out-of-range construction returns", "statement": "In a build where the range checks are compiled out, TaggedPointer::new(ptr, d) returns the pointer whose address is ptr mod 2^POINTER_WIDTH and whose discriminant is the bitwise or of (d mod 2^DISCRIMINANT_BITS) and the high bits of ptr; so both arguments are recovered exactly when both fit.", "quantifier": "all settings, all words, all discriminants", "why_tests_cant": "a claim about every out-of-range pair, in release mode only", "anchors": ["src/tagged_pointer.rs:TaggedPointer::new", "src/tagged_pointer.rs:store_discriminant"]}
{"id": "C04", "title": "Every word decomposes losslessly", "statement": "Every 64-bit word is recovered exactly from its stripped pointer and its fetched discriminant; the fetched discriminant always fits in DISCRIMINANT_BITS and the narrowing cast in fetch_discriminant never loses a bit; the stripped pointer never exceeds MAX_POINTER_VALUE.", "quantifier": "all settings, all 2^64 words", "why_tests_cant": "2^64 words per setting", "anchors": ["src/tagged_pointer.rs:fetch_discriminant", "src/tagged_pointer.rs:strip_discriminant", "src/tagged_pointer.rs:store_discriminant"]}
{"id": "C05", "title": "Tagged pointers are equal exactly when address and discriminant are", "statement": "Two TaggedPointers compare equal iff as_u64() and discriminant() agree; equal ones hash equally under every hasher, and unequal ones feed it different data.", "quantifier": "all settings, all pairs of words", "why_tests_cant": "quadratic in 2^64", "anchors": ["src/tagged_pointer.rs:TaggedPointer (derive PartialEq, Eq, Hash)"]}
{"id": "C06", "title": "Tagged pointers order by discriminant, then by address", "statement": "The derived Ord on TaggedPointer is the lexicographic order on (discriminant(), as_u64()).", "quantifier": "all settings, all pairs of words", "why_tests_cant": "quadratic in 2^64", "anchors": ["src/tagged_pointer.rs:TaggedPointer (derive PartialOrd, Ord)"]}
{"id": "C07", "title": "Width constants are mutually consistent", "statement": "For every width setting POINTER_WIDTH + DISCRIMINANT_BITS = 64, DISCRIMINANT_MASK = MAX_POINTER_VALUE = 2^POINTER_WIDTH - 1, the Discriminant type is wide enough, and MAX_DISCRIMINANT = 2^DISCRIMINANT_BITS - 1 (all advertised data bits are usable).", "quantifier": "all 16 rows of the settings table", "why_tests_cant": "each build sees one row; the crate's own test matrix covers only some of them", "anchors": ["src/discriminant.rs:generate_discriminants"]}
{"id": "C08", "title": "The build script always selects exactly one width", "statement": "Whatever TAGGED_BOX_RESERVED_WIDTH holds (absent, not unicode, any string), the build script enables exactly one width: the requested one if it is one of the 16 documented names, otherwise 60bits; it warns exactly when the variable is a string that is not a documented name; and exactly one settings row becomes active.", "quantifier": "all environment values (all strings)", "why_tests_cant": "unbounded set of strings", "anchors": ["build.rs:main", "src/discriminant.rs:generate_discriminants"]}
{"id": "C09", "title": "Storing a discriminant does not replace an existing one", "statement": "store_discriminant on a word that already carries discriminant d1 yields the discriminant (d1 OR d2) with the same address; replacing a discriminant requires stripping first, and then yields exactly d2.", "quantifier": "all settings, all words, all discriminants", "why_tests_cant": "2^64 words times all discriminants", "anchors": ["src/tagged_pointer.rs:store_discriminant", "src/tagged_pointer.rs:strip_discriminant"]}
{"id": "C10", "title": "Pointer casts are faithful on 32-bit and 64-bit targets", "statement": "as_ptr / as_mut_ptr return the very address given to new, on 64-bit targets for every address in range and on 32-bit targets for every 32-bit address.", "quantifier": "both target widths, all settings, all addresses of the target", "why_tests_cant": "needs two targets and all addresses", "anchors": ["src/tagged_pointer.rs:as_ptr", "src/tagged_pointer.rs:as_mut_ptr", "src/tagged_pointer.rs:as_ref"]}
{"id": "C100", "title": "The benchmarks only allocate", "statement": "`benches/tagged_box.rs`, read from its text, is the invocation of `tagged_box!` of the tests and six benchmarks; the first four call `into_tagged_box` on one value of each variant. On a target with 64-bit pointers, running such a benchmark for any number of iterations never frees memory: each iteration for `SingleTuple`, `ManyTuple` and `Orphan` leaves one more block allocated, of 8, 32 and 8 bytes, every block allocated before stays allocated, and iterations for `Unit` allocate nothing. A run ends early only if the allocator fails, with the panic for a null pointer.", "quantifier": "all numbers of iterations, all states of the heap, all accepted settings of the discriminant with room for four variants, all compilers and representations of literals that meet the stated assumptions", "why_tests_cant": "A benchmark measures time and looks at no memory; that the memory in use grows by exactly one block per iteration, for every number of iterations and every heap, is a statement about unboundedly long runs.", "anchors": ["benches/tagged_box.rs:4-43", "src/tagged_box_macro/mod.rs:784", "src/tagged_box.rs:82"]}
{"id": "C11", "title": "Dangling pointers are aligned, non-null and carry the discriminant", "statement": "dangling::<T>(d) with d <= MAX_DISCRIMINANT has discriminant d and address align_of::<T>(), which is non-null and aligned for T.", "quantifier": "all settings, all alignments, all discriminants in range", "why_tests_cant": "ranges over all types T", "anchors": ["src/tagged_pointer.rs:dangling", "src/tagged_box.rs:TaggedBox::dangling"]}
{"id": "C12", "title": "Dangling construction validates its discriminant", "statement": "dangling (and TaggedBox::new of a zero-sized value, which uses it) rejects a discriminant above MAX_DISCRIMINANT, at least in debug builds, as TaggedPointer::new does.", "quantifier": "all settings, both modes, all discriminants", "why_tests_cant": "ranges over all types and discriminants and both build modes", "anchors": ["src/tagged_pointer.rs:dangling", "src/tagged_box.rs:TaggedBox::new"]}
{"id": "C13", "title": "Formatting shows the address and never the discriminant", "statement": "LowerHex, UpperHex, Octal and Binary formatting of a TaggedPointer/TaggedBox denote exactly as_u64() under all format parameters, and Pointer formatting denotes as_u64() as a native pointer: the digits read back as the address, only sign, prefix and fill surround them, and changing the discriminant never changes the text.", "quantifier": "all settings, all words, all four radices, all format parameters", "why_tests_cant": "2^64 words", "anchors": ["src/lib.rs:impl_fmt", "src/tagged_pointer.rs:fmt::Pointer", "src/tagged_box.rs:impl_fmt"]}
{"id": "C14", "title": "Debug output of a tagged pointer identifies it", "statement": "The Debug text of a TaggedPointer contains raw word, address and discriminant, and two different pointers never print the same text (on every target and under all format parameters).", "quantifier": "all settings, all pairs of words, all format parameters, 32- and 64-bit targets", "why_tests_cant": "2^64 words squared", "anchors": ["src/tagged_pointer.rs:fmt::Debug"]}
{"id": "C15", "title": "Boxing a value and taking it back is lossless", "statement": "For every type U and value v, after TaggedBox::new(v, d) succeeds with an allowed d (<= MAX_DISCRIMINANT), and either debug assertions are on or the allocator's addresses fit the reserved pointer width, discriminant() is d, and as_ref::<U>, *as_ptr::<U>, into_inner::<U> and *into_box::<U> all yield exactly v, without undefined behaviour; new itself never has undefined behaviour. (In release builds with addresses outside the reserved width the round trip fails.)", "quantifier": "all types (any size, alignment, padding, validity), all values, all settings, all allocators that keep their contract, all prior heap states", "why_tests_cant": "ranges over all types, values and allocator behaviours", "anchors": ["src/tagged_box.rs:TaggedBox::new", "src/tagged_box.rs:as_ref", "src/tagged_box.rs:into_inner", "src/tagged_box.rs:into_box"]}
{"id": "C16", "title": "Mutation through the box is seen and preserves the tag", "statement": "Writing v' through as_mut_ref::<U>/as_mut_ptr::<U> makes every later read return v' and changes neither the discriminant nor the address.", "quantifier": "all types, values, heap states and allocator behaviours", "why_tests_cant": "ranges over all heaps", "anchors": ["src/tagged_box.rs:as_mut_ref", "src/tagged_box.rs:as_mut_ptr"]}
{"id": "C17", "title": "Boxes never disturb each other", "statement": "Creating, writing, cloning, consuming or freeing one box leaves the contents of every other live box with a different allocation, byte for byte, unchanged.", "quantifier": "all histories of box operations, all allocator behaviours", "why_tests_cant": "interference shows only under particular allocation patterns", "anchors": ["src/tagged_box.rs:TaggedBox::new", "src/tagged_box.rs:as_mut_ref", "src/tagged_box.rs:into_box"]}
{"id": "C18", "title": "into_raw and from_raw are inverse", "statement": "from_raw(into_raw(b), b.discriminant()) is bit-identical to b, and into_raw(from_raw(p, d)) is p, with no access to the heap.", "quantifier": "all boxes, all in-range pointers and discriminants", "why_tests_cant": "2^64 words", "anchors": ["src/tagged_box.rs:into_raw", "src/tagged_box.rs:from_raw"]}
{"id": "C19", "title": "into_box frees exactly the box's own allocation", "statement": "Dropping the Box obtained from into_box::<U> deallocates precisely the block new allocated, with the layout it was allocated with, runs the value's destructor once, and touches no other block; for zero-sized U it frees nothing.", "quantifier": "all types, values, heaps", "why_tests_cant": "layout mismatch is undefined behaviour that tests do not observe", "anchors": ["src/tagged_box.rs:into_box", "src/tagged_box.rs:TaggedBox::new"]}
{"id": "C20", "title": "Dropping or consuming a box releases its memory", "statement": "The crate promises Box-like semantics: once a TaggedBox is dropped, or its value has been moved out with into_inner, its heap allocation is released (and on drop the value's destructor has run).", "quantifier": "all types, values and histories", "why_tests_cant": "leaks are invisible to functional tests", "anchors": ["src/tagged_box.rs:TaggedBox (no Drop impl)", "src/tagged_box.rs:into_inner"]}
{"id": "C21", "title": "The heap footprint is exactly the number of boxes ever made", "statement": "Over any history, the crate itself never deallocates: the live allocations it made are exactly one per successful or range-check-failed new of a non-zero-sized value, minus those handed to Box through into_box and dropped there.", "quantifier": "all operation histories", "why_tests_cant": "needs all histories", "anchors": ["src/tagged_box.rs:TaggedBox::new", "src/tagged_box.rs:into_inner", "src/tagged_box.rs:into_box"]}
{"id": "C22", "title": "Zero-sized values are never allocated", "statement": "TaggedBox::new of a zero-sized value makes no allocator call, cannot panic, and yields an aligned non-null address.", "quantifier": "all zero-sized types, all discriminants", "why_tests_cant": "all types", "anchors": ["src/tagged_box.rs:TaggedBox::new", "src/tagged_box.rs:dangling"]}
{"id": "C23", "title": "A boxed value is destroyed exactly once", "statement": "A value moved into a box has its destructor run at most once in total: TaggedBox::new takes ownership without running the destructor, and moving the value out returns the same, still-live value.", "quantifier": "all types including zero-sized ones, all values", "why_tests_cant": "double drops need a destructor with side effects at each specific type", "anchors": ["src/tagged_box.rs:TaggedBox::new", "src/tagged_box.rs:into_inner"]}
{"id": "C24", "title": "Allocation failure is a clean panic", "statement": "If the allocator returns null, new panics in every build mode, returns no box, leaves all existing blocks untouched and destroys the argument exactly once.", "quantifier": "all types, values, heaps, modes", "why_tests_cant": "needs fault injection at every allocation", "anchors": ["src/tagged_box.rs:TaggedBox::new"]}
{"id": "C25", "title": "new_unchecked is new", "statement": "new_unchecked behaves exactly like new on every input, in every mode, including its panics.", "quantifier": "all inputs and states", "why_tests_cant": "all inputs", "anchors": ["src/tagged_box.rs:new_unchecked"]}
{"id": "C26", "title": "Copies of a box alias one allocation", "statement": "Copying a TaggedBox is a bitwise copy: both copies always have the same discriminant and address, and a write through one is visible through the other.", "quantifier": "all values and histories", "why_tests_cant": "all histories", "anchors": ["src/tagged_box.rs:Copy for TaggedBox"]}
{"id": "C27", "title": "No undefined behaviour under the documented contract", "statement": "Any finite history of TaggedBox operations in which the client asks for the type it stored and does not use a box after freeing its Box never reaches undefined behaviour, and every observation equals that of an abstract store mapping each box to (type, value, discriminant).", "quantifier": "all histories of any length, all types, values, allocators, modes and settings", "why_tests_cant": "unbounded histories; UB is not observable by assertions", "anchors": ["src/tagged_box.rs:TaggedBox"]}
{"id": "C28", "title": "Variants are numbered in declaration order", "statement": "For every tagged_box! declaration, the i-th declared variant is stored with discriminant i by every generated function.", "quantifier": "all declarations (any number of variants and shapes)", "why_tests_cant": "unbounded set of declarations", "anchors": ["src/tagged_box_macro/mod.rs:__counter_enum", "src/tagged_box_macro/mod.rs:__taggable_into_box", "src/tagged_box_macro/mod.rs:__from_tagged_box", "src/tagged_box_macro/mod.rs:__boxed_into_inner", "src/tagged_box_macro/mod.rs:__ref_from_tagged"]}
{"id": "C29", "title": "Container round trip", "statement": "Container::from(e).into_inner() returns e for every value e of every declared enum whose variants fit the discriminant.", "quantifier": "all declarations, variants and field values, settings on which the macro compiles, modes, heaps, allocators", "why_tests_cant": "unbounded declarations and values", "anchors": ["src/tagged_box_macro/mod.rs:tagged_box", "src/tagged_box_macro/mod.rs:__boxed_into_inner", "src/tagged_box_macro/mod.rs:__taggable_into_box"]}
{"id": "C30", "title": "from_tagged_box inverts into_tagged_box", "statement": "Item::from_tagged_box(e.into_tagged_box()) returns e for every value e.", "quantifier": "all declarations, values, and all field layouts the compiler may choose for tuples", "why_tests_cant": "depends on the compiler's freedom to lay out tuples; a test sees one layout of one tuple type", "anchors": ["src/tagged_box_macro/mod.rs:__from_tagged_box", "src/tagged_box_macro/meta_macros.rs:__expand_tuple_arm"]}
{"id": "C31", "title": "ref_from_tagged_box presents the stored value exactly once", "statement": "ref_from_tagged_box(e.into_tagged_box(), f) calls f exactly once with a reference to e and leaves the heap and the box unchanged apart from f's own effects.", "quantifier": "all declarations, values, callbacks (including panicking ones)", "why_tests_cant": "ranges over all callbacks", "anchors": ["src/tagged_box_macro/mod.rs:__ref_from_tagged"]}
{"id": "C32", "title": "Observing a box never runs a destructor", "statement": "ref_from_tagged_box runs no destructor of the enum or of its fields, whatever the callback does (also if it panics).", "quantifier": "all declarations, values, callbacks", "why_tests_cant": "destructor side effects are per type", "anchors": ["src/tagged_box_macro/mod.rs:__ref_from_tagged"]}
{"id": "C33", "title": "Capacity: how many variants an enum may have", "statement": "An enum round-trips all its values iff it has at most 2^DISCRIMINANT_BITS variants.", "quantifier": "all settings, all numbers of variants", "why_tests_cant": "needs enums of every size under every setting", "anchors": ["src/tagged_box_macro/mod.rs:tagged_box", "src/tagged_pointer.rs:dangling"]}
{"id": "C34", "title": "Too many variants is detected, not misread", "statement": "If a variant's number does not fit the discriminant, converting a value of it panics (or does not compile); it is never silently read back as another variant.", "quantifier": "all declarations", "why_tests_cant": "needs large enums under each setting", "anchors": ["src/tagged_box_macro/mod.rs:__taggable_into_box", "src/tagged_box.rs:dangling"]}
{"id": "C35", "title": "Unknown discriminants panic", "statement": "from_tagged_box, into_inner and ref_from_tagged_box on a box whose discriminant is not one of the declared variants panic, without touching memory and without calling the callback.", "quantifier": "all declarations, boxes, heaps", "why_tests_cant": "all boxes", "anchors": ["src/tagged_box_macro/mod.rs:__from_tagged_box", "src/tagged_box_macro/mod.rs:__boxed_into_inner", "src/tagged_box_macro/mod.rs:__ref_from_tagged"]}
{"id": "C36", "title": "Safe construction plus safe conversion is sound", "statement": "No combination of safe functions of the crate (TaggedBox::new, dangling, from_tagged_box, ...) has undefined behaviour.", "quantifier": "all safe programs", "why_tests_cant": "all programs", "anchors": ["src/tagged_box.rs:TaggedBox::new", "src/taggable.rs:from_tagged_box"]}
{"id": "C37", "title": "Clone gives an equal, independent box", "statement": "Cloning a box yields a box with the same discriminant whose value is the clone of the value, stored in a separate allocation: later writes through either never affect the other; the original is unchanged.", "quantifier": "all declarations, values, clone functions, heaps", "why_tests_cant": "aliasing depends on allocation pattern", "anchors": ["src/tagged_box.rs:Clone for TaggedBox"]}
{"id": "C38", "title": "Comparison of boxes is comparison of values", "statement": "eq, partial_cmp and cmp on boxes return exactly what the enum's own implementations return on the stored values - whatever those do, including panicking - independently of addresses.", "quantifier": "all declarations, pairs of values, comparison functions, heaps", "why_tests_cant": "all pairs", "anchors": ["src/tagged_box.rs:PartialEq", "src/tagged_box.rs:PartialOrd", "src/tagged_box.rs:Ord"]}
{"id": "C39", "title": "Equality and order laws lift", "statement": "If the enum's eq is an equivalence / its cmp a total order, so is the box's.", "quantifier": "all values", "why_tests_cant": "universally quantified laws", "anchors": ["src/tagged_box.rs:Eq", "src/tagged_box.rs:Ord"]}
{"id": "C40", "title": "Debug and Display print the value", "statement": "Debug/Display of a box prints exactly what the value prints with the same format parameters.", "quantifier": "all values and format parameters", "why_tests_cant": "all formatter flags", "anchors": ["src/tagged_box.rs:fmt::Debug", "src/tagged_box.rs:fmt::Display"]}
{"id": "C41", "title": "From<payload> builds the right variant", "statement": "Container::from(payload) equals Container::from(Enum::Variant(payload)) for the unique variant with that payload type, fields in order.", "quantifier": "all declarations and payloads", "why_tests_cant": "all declarations, arities 0..32", "anchors": ["src/tagged_box_macro/mod.rs:__derive_from", "src/tagged_box_macro/meta_macros.rs:__expand_tuple"]}
{"id": "C42", "title": "All generated functions agree on the declaration", "statement": "For every token sequence: if it is not a sequence of variants each followed by a comma, all eight component macros reject it; otherwise, unless a tuple variant has more than 32 fields (then all five macros that need the fields reject it), all eight accept it and generate code for the same variants, in the same order, under the same counter names, with the same payload members. In particular a missing comma after the last variant is rejected.", "quantifier": "all token sequences", "why_tests_cant": "unbounded token sequences", "anchors": ["src/tagged_box_macro/mod.rs:__make_enum", "src/tagged_box_macro/mod.rs:__counter_enum", "src/tagged_box_macro/mod.rs:__count_variants", "src/tagged_box_macro/mod.rs:__derive_from"]}
{"id": "C43", "title": "Tuple variants of every supported arity keep their field order", "statement": "For every arity 0..32 the tuple expansion macros bind, pack and unpack all fields, each exactly once, in order; arities above 32 are rejected.", "quantifier": "all arities, all field values", "why_tests_cant": "33 hand-expanded arms, twice", "anchors": ["src/tagged_box_macro/meta_macros.rs:__expand_tuple", "src/tagged_box_macro/meta_macros.rs:__expand_tuple_arm"]}
{"id": "C44", "title": "tagged_box! is usable at every documented width", "statement": "A well-formed tagged_box! declaration compiles under each of the 16 reserved-width settings.", "quantifier": "all settings, all well-formed declarations", "why_tests_cant": "each build sees one setting", "anchors": ["src/tagged_box_macro/mod.rs:tagged_box", "src/discriminant.rs:generate_discriminants"]}
{"id": "C45", "title": "repr(C) payload layout is sound", "statement": "The payload structures generated for multi-field variants place every field aligned, in bounds and without overlap, and the structure declared by the writer and the ones redeclared by the readers have identical layout.", "quantifier": "all lists of field types", "why_tests_cant": "all types", "anchors": ["src/tagged_box_macro/mod.rs:__taggable_into_box", "src/tagged_box_macro/mod.rs:__boxed_into_inner", "src/tagged_box_macro/mod.rs:__ref_from_tagged"]}
{"id": "C46", "title": "A container behaves like the enum value it holds", "statement": "Any history of safe container operations (from, clone, copy, compare, observe, into_inner, drop) is observationally equal to the same history on plain enum values.", "quantifier": "all histories of any length", "why_tests_cant": "unbounded histories", "anchors": ["src/tagged_box_macro/mod.rs:tagged_box", "src/tagged_box.rs:TaggedBox"]}
{"id": "C47", "title": "Threads do not interfere", "statement": "Under every interleaving of any number of threads, each working with its own containers (of its own types, with its own safe user code) and sharing only the allocator: no thread runs into undefined behaviour, there are no data races, every thread can be run to its end, and a thread that has ended has observed exactly what it observes running alone with some allocator that keeps the GlobalAlloc contract; if the allocator did not fail it, that is what it observes working with plain values (destructor runs as described in C46).", "quantifier": "all schedules, all thread programs, all allocators", "why_tests_cant": "Schedules are not under the control of a test, and an allocator may place blocks anywhere.", "anchors": ["src/tagged_box.rs:TaggedBox::new", "src/tagged_box_macro/mod.rs:tagged_box"]}
{"id": "C48", "title": "A panicking observer leaves the box intact", "statement": "If the callback given to ref_from_tagged_box panics, the box still holds its value, nothing was freed or dropped, and a later observation returns the value.", "quantifier": "all callbacks, values, declarations", "why_tests_cant": "all panic points", "anchors": ["src/tagged_box_macro/mod.rs:__ref_from_tagged"]}
{"id": "C49", "title": "Hand-written implementations that skip the callback degrade safely", "statement": "With a TaggableInner implementation that never calls the callback, clone panics, eq is false, partial_cmp is None, cmp is Equal, and printing succeeds with no output.", "quantifier": "all such implementations", "why_tests_cant": "all implementations of the trait", "anchors": ["src/tagged_box.rs:Clone", "src/tagged_box.rs:PartialEq", "src/tagged_box.rs:Ord", "src/tagged_box.rs:fmt::Debug"]}
{"id": "C50", "title": "The documented expansion is what the macro generates", "statement": "The hand-expanded implementation in the manual guide behaves, on every input and heap, exactly like what tagged_box! generates for the same declaration.", "quantifier": "all values, boxes, callbacks and heaps", "why_tests_cant": "all inputs", "anchors": ["src/manually_impl_enum.rs", "src/tagged_box_macro/mod.rs:tagged_box"]}
{"id": "C51", "title": "Exactly the well-formed declarations are accepted", "statement": "A declaration is rejected at compile time exactly when its tokens do not parse, there is no variant, a variant or member name is repeated or a name is a keyword, two From implementations collide (two equal payload types, or one equal to the container or the enum), an arity exceeds 32, a multi-field variant has the name of the enum, of something else its generated arms use (`core`, `u8`, the variables of the arms, the generated counter enum) or of a type in its fields, a payload type mentions `Self`, `F` or the counter enum, the enum is called `F`, like the counter enum or (with a From implementation) `TaggableInner`, one of `u8`, `usize`, `From`, `FnOnce` (and `core`, if a variant has fields) does not have its usual meaning, the Discriminant type is not u8, or the enum implements Drop and has a non-Copy field; every other declaration compiles.", "quantifier": "all declarations", "why_tests_cant": "all declarations", "anchors": ["src/tagged_box_macro/mod.rs:tagged_box"]}
{"id": "C52", "title": "The checked-in tuple expansions are what their generators produce", "statement": "The hand-checked-in arms of __expand_tuple and __expand_tuple_arm are exactly the arms their (unused) generator macros produce for the documented inputs.", "quantifier": "all 33 arms of both macros", "why_tests_cant": "comparison of two generated artefacts", "anchors": ["src/tagged_box_macro/meta_macros.rs:generate_tuple_expansion", "src/tagged_box_macro/meta_macros.rs:generate_tuple_arm_expansion"]}
{"id": "C53", "title": "A failed range check inside new strands the allocation", "statement": "When the debug range check of TaggedBox::new fails (discriminant or address out of range), the panic leaves exactly one new block alive, still holding the value, whose destructor never runs; nothing else on the heap changes.", "quantifier": "all types, values, discriminants, heaps, debug builds", "why_tests_cant": "needs the heap state at the moment of the panic for all inputs", "anchors": ["src/tagged_box.rs:TaggedBox::new", "src/tagged_pointer.rs:new"]}
{"id": "C54", "title": "Every enum that fits its discriminant can be declared", "statement": "A well-formed declaration with no more variants than there are discriminants of the configured width is accepted by tagged_box! in a crate with the default recursion_limit of 128; in general the macros need nesting depth: number of variants + 3 + the largest of 1, the number of tuple variants with other than one field, and the depth of panic! and of the attributes.", "quantifier": "all declarations, all widths, all recursion limits", "why_tests_cant": "expansion depth is a property of the token-muncher recursion over all declarations; tests declare a handful of variants", "anchors": ["src/tagged_box_macro/mod.rs:__make_enum", "src/tagged_box_macro/mod.rs:__taggable_into_box", "src/tagged_box_macro/mod.rs:__derive_from", "src/tagged_box_macro/mod.rs:__counter_enum", "src/tagged_box_macro/mod.rs:__ref_from_tagged"]}
{"id": "C55", "title": "Converting an enum value into a container runs no destructor", "statement": "A successful Container::from(value) moves the value: neither the destructors of its fields nor a Drop implementation of the enum run.", "quantifier": "all declarations, values, heaps, allocators", "why_tests_cant": "which destructors run during a conversion depends on the declaration (Drop impl, zero-sized payloads); no finite set of enums covers it", "anchors": ["src/tagged_box_macro/mod.rs:__taggable_into_box", "src/tagged_box_macro/mod.rs:tagged_box", "src/tagged_box.rs:TaggedBox::new"]}
{"id": "C56", "title": "Changes made through a shared reference persist", "statement": "If the closure given to ref_from_tagged_box changes the value through its &Self (fields with interior mutability), then the container holds the changed value afterwards.", "quantifier": "all declarations, stored values, closures", "why_tests_cant": "quantifies over arbitrary user closures and all values of all enums", "anchors": ["src/taggable.rs:ref_from_tagged_box", "src/tagged_box_macro/mod.rs:__ref_from_tagged"]}
{"id": "C57", "title": "Derives accepted on the enum are accepted by tagged_box!", "statement": "Every set of derives that compiles on a plain enum with the same variants compiles when given to tagged_box!, which applies it to both the enum and the container.", "quantifier": "all sets of derives, hand-written implementations and payload types", "why_tests_cant": "compilation outcomes over all combinations of derives and payload traits; tests only contain combinations that compile", "anchors": ["src/tagged_box.rs:impl Debug for TaggedBox", "src/tagged_box.rs:impl Clone for TaggedBox", "src/tagged_box_macro/mod.rs:tagged_box"]}
{"id": "C58", "title": "Containers can be shared between threads", "statement": "A client makes containers and starts any number of threads, all of which get all its containers (by shared reference or by Copy) and also make their own. If the user code they run (clone, comparisons, formatting, closures) does not modify what it looks at, then under every interleaving no thread runs into undefined behaviour, there are no data races, every thread that has ended has observed what it would have observed on plain values, and after the threads are joined all containers, shared and given back, still hold their values.", "quantifier": "all schedules, all thread programs, all numbers of threads, all allocators", "why_tests_cant": "Schedules are not under the control of a test; absence of data races is a statement about all of them.", "anchors": ["src/tagged_box.rs:TaggedBox::new", "src/tagged_box.rs:TaggedBox (PhantomData<T>)", "src/tagged_box_macro/mod.rs:__ref_from_tagged", "src/tagged_box_macro/mod.rs:tagged_box"]}
{"id": "C59", "title": "The advice in the address-check message works", "statement": "When TaggedPointer::new rejects an address, the panic message advises building with a wider setting (\"{N+1}bits or above\"). The setting named exists, and building with it or a wider one gets the address accepted.", "quantifier": "Every setting, every rejected address and every environment value of the build script.", "why_tests_cant": "The failing addresses only occur on particular hardware; tests run on machines where no address is rejected, and never rebuild the crate with the advised setting.", "anchors": ["src/tagged_pointer.rs:36-43", "build.rs:1-28", "src/discriminant.rs:71-88"]}
{"id": "C60", "title": "Containers work for payloads that own memory", "statement": "Variants may hold Strings, Vecs, Boxes. A client that makes such values, moves them into containers and out again, clones (deeply), compares, looks at, changes (through shared references: what the payload owns, see C77) and consumes them, observes exactly what it would observe if containers were not there: what a payload points to stays alive and unchanged, clones are independent, nothing is freed twice or shared by accident. Only lack of memory may interfere, by a panic of the crate or an abort in user code.", "quantifier": "All declarations that fit the discriminant bits, all notions of ownership (which blocks a value owns and what it stands for), all user code respecting ownership, all destructor bodies that free what a value owns, all adaptive clients of any length, all allocators, all initial heaps, debug and release builds.", "why_tests_cant": "The payload is copied bitwise out of the enum, the enum is dropped or forgotten, and looked at through bitwise copies; a double free or a dangling pointer appears only for particular sequences of operations and allocator reuse patterns.", "anchors": ["src/tagged_box_macro/mod.rs:tagged_box", "src/tagged_box_macro/mod.rs:__taggable_into_box", "src/tagged_box_macro/mod.rs:__ref_from_tagged", "src/tagged_box_macro/mod.rs:__boxed_into_inner", "src/tagged_box.rs:TaggedBox::new", "src/tagged_box.rs:519-530", "README.md"]}
{"id": "C61", "title": "Owning clients only touch their own memory", "statement": "Whatever a client does with containers (with payloads that own memory), all memory that was alive before it started is alive afterwards, with the same contents.", "quantifier": "As C60.", "why_tests_cant": "Corruption of foreign memory depends on the allocator and is visible only if the victim is looked at.", "anchors": ["src/tagged_box_macro/mod.rs:tagged_box", "src/tagged_box_macro/mod.rs:__taggable_into_box", "src/tagged_box_macro/mod.rs:__ref_from_tagged", "src/tagged_box_macro/mod.rs:__boxed_into_inner", "src/tagged_box.rs:TaggedBox::new", "src/tagged_box.rs:519-530", "README.md"]}
{"id": "C62", "title": "A detour through a container costs no memory", "statement": "If making a value and disposing of it gives all memory back, then so does putting it into a container and taking it out before disposing of it, and so does dropping the container.", "quantifier": "All values, all user code, all heaps; refuted by a Box<u8> payload. Beside it: for all clients, the memory of a container is never freed.", "why_tests_cant": "Leaks do not change results; a test would have to instrument the allocator.", "anchors": ["src/tagged_box_macro/mod.rs:tagged_box", "src/tagged_box_macro/mod.rs:__taggable_into_box", "src/tagged_box_macro/mod.rs:__ref_from_tagged", "src/tagged_box_macro/mod.rs:__boxed_into_inner", "src/tagged_box.rs:TaggedBox::new", "src/tagged_box.rs:519-530", "README.md", "src/tagged_box.rs:TaggedBox (no Drop)"]}
{"id": "C63", "title": "Recursive and mutually recursive enums behave like inductive data", "statement": "An enum may have fields of its own container type (lists), and several enums may have fields of one another's container types (trees and forests). Building such structures container by container, taking them apart with into_inner, walking through them by nested ref_from_tagged_box, and the derived (recursive) Clone, PartialEq, PartialOrd and Ord behave exactly as on plain inductive data: a clone shares nothing with the original, containers are equal iff the trees are, and they are ordered as the trees are; if the data in the fields is compared lawfully then so are the containers. Exceptions: panic for lack of memory, and stack overflow, the latter only if the tree is deeper than the stack.", "quantifier": "All families of declarations, with any number of fields of the containers of the family, that fit the discriminant bits, all clients of any length, all tree sizes, stack depths, comparisons of data, lawful allocators, debug and release builds.", "why_tests_cant": "Structures of every size and shape and every interleaving of building, cloning and taking apart; aliasing between a clone and the original shows only in memory.", "anchors": ["src/tagged_box_macro/mod.rs:tagged_box", "src/tagged_box_macro/mod.rs:__taggable_into_box", "src/tagged_box_macro/mod.rs:__ref_from_tagged", "src/tagged_box_macro/mod.rs:__boxed_into_inner", "src/tagged_box.rs:519-530", "src/tagged_box.rs:539-550", "src/tagged_pointer.rs:11-15"]}
{"id": "C64", "title": "Accesses respect pointer provenance", "statement": "The crate keeps pointers in a u64. Under Rust's rules for integer casts (ptr as u64 exposes the allocation; a pointer made from an integer may access exposed allocations only; identities of allocations are never reused), a client that keeps the documented contract never accesses or frees memory it may not: no undefined behaviour for lack of provenance, and the same observations as on a machine that knows addresses only. Allocations the program had before, and did not expose, stay unexposed. A pointer of any origin, e.g. from Box::into_raw, can be handed to from_raw and be read, written and freed through the box afterwards.", "quantifier": "All adaptive clients of the TaggedBox API that keep the contract, any number of steps, all initial heaps with any exposed and unexposed allocations, all configurations, lawful allocators (which may reuse addresses), debug and release builds.", "why_tests_cant": "Provenance does not exist at run time; a test (even under an interpreter) sees single executions, and only a proof covers all interleavings of allocation, freeing and address reuse.", "anchors": ["src/tagged_box.rs:82-104", "src/tagged_box.rs:175-197", "src/tagged_box.rs:297-300", "src/tagged_box.rs:354-359", "src/tagged_box.rs:398-403", "src/tagged_pointer.rs:74-76", "src/tagged_pointer.rs:86-88", "src/tagged_pointer.rs:107-117"]}
{"id": "C65", "title": "Containers have the auto traits of their payloads", "statement": "A container generated by tagged_box! is Send (Sync, Unpin, UnwindSafe, RefUnwindSafe) if and only if every payload type of the declaration is; TaggedBox<T> is if and only if T is. Fields of the container's own type (recursive enums) do no harm.", "quantifier": "All declarations, including recursive ones; all payload types with any implementations (conditional, negative, mentioning the container); every auto trait.", "why_tests_cant": "A test can only state that particular types are Send; that no declaration makes a container Send whose payload is not is a statement about all types, and negative trait facts cannot be tested in Rust at all.", "anchors": ["src/tagged_box.rs:15-19", "src/tagged_pointer.rs:10-15", "src/tagged_box_macro/mod.rs:tagged_box", "src/tagged_box_macro/mod.rs:__make_enum"]}
{"id": "C66", "title": "A container takes the space of a usize", "statement": "The container stores any enum \"on the stack with only usize bytes of memory\", whatever the payload types and the number of variants.", "quantifier": "All declarations, all targets (32 and 64 bit; u64 aligned to 4 or 8).", "why_tests_cant": "size_of is fixed per target and type; tests run on one target, with the declared types only.", "anchors": ["src/tagged_box_macro/mod.rs:702-703", "src/tagged_box_macro/mod.rs:tagged_box", "src/tagged_box.rs:15-19", "src/tagged_pointer.rs:10-15"]}
{"id": "C67", "title": "Number of data bits", "statement": "Depending on the setting, 7 to 16 bits of arbitrary data can be stored beside the address, i.e. every number of that many bits is accepted and read back unchanged.", "quantifier": "All settings, debug and release builds, all data values, all addresses that fit.", "why_tests_cant": "Each setting is a different build of the crate, and a build has up to 2^64 combinations of address and data.", "anchors": ["README.md", "src/lib.rs", "src/discriminant.rs:generate_discriminants", "src/tagged_pointer.rs:29-48"]}
{"id": "C68", "title": "Derived Debug of a container", "statement": "With #[derive(Debug)], a container prints as a structure whose field `value` is the enum value itself would: with {:?} as `Container { value: <enum> }`, with {:#?} pretty-printed, and other parameters reach the enum. The enum's fmt is called exactly once; its errors and panics are passed on.", "quantifier": "All declarations, stored values, heaps, format parameters, and Debug implementations of the enum (which may fail or panic).", "why_tests_cant": "Implementations of Debug and combinations of format parameters are unbounded.", "anchors": ["src/tagged_box_macro/mod.rs:tagged_box", "src/tagged_box.rs:483-497"]}
{"id": "C69", "title": "Changing the setting", "statement": "\"The number of free and reserved bits can be changed by setting TAGGED_BOX_RESERVED_WIDTH\": a build uses the width named by the variable at the time of the build (60 if unset or invalid), whatever was built before.", "quantifier": "All values of the variable and all histories of setting it, changing the package's files, cleaning and building.", "why_tests_cant": "Tests run inside one build; the claim is about sequences of builds.", "anchors": ["build.rs", "README.md", "src/lib.rs"]}
{"id": "C70", "title": "Boxes of a declared enum used through the raw functions", "statement": "A TaggedBox<Item> made by Item::into_tagged_box can be used with the functions of TaggedBox at the payload type of its variant (and one made by TaggedBox::new at that type and number with the generated functions): as_ref and into_inner give the payload, changes through as_mut_ref and as_mut_ptr are seen by the generated functions, and into_box gives the memory back, running the payload's destructors once; other containers are not affected.", "quantifier": "All compiled declarations, values, heaps, allocators, later heap states; payloads with memory for the part about into_box; U is the field type, or a repr(C) structure with the same fields.", "why_tests_cant": "Needs agreement of two independent descriptions of the layout for every declaration; tests sample declarations.", "anchors": ["src/tagged_box.rs:82-104", "src/tagged_box.rs:235-269", "src/tagged_box.rs:297-359", "src/tagged_box_macro/mod.rs:__taggable_into_box", "src/tagged_box_macro/mod.rs:__boxed_into_inner"]}
{"id": "C71", "title": "Containers respect pointer provenance", "statement": "Under the same rules as in C64 the functions generated by tagged_box! stay within bounds too: a client of containers (made, cloned, copied, compared, observed, formatted, unwrapped, dropped, with user code that may allocate, expose and panic) never accesses memory through a pointer without provenance for it, observes what the same client observes on plain enum values (as in C46), and leaves everything that was allocated before allocated and unchanged. The generated code exposes only allocations it made itself. A box made by into_tagged_box can be turned back by from_tagged_box in any later state (tuple layout permitting, as in C30).", "quantifier": "All compiled declarations whose variants fit the discriminant bits, all adaptive clients of any length with arbitrary safe user code, all initial heaps with any exposed and unexposed allocations, all configurations the macro supports, lawful allocators, debug and release builds.", "why_tests_cant": "Provenance does not exist at run time; interpreters that track it see single executions of single enums.", "anchors": ["src/tagged_box_macro/mod.rs:__taggable_into_box", "src/tagged_box_macro/mod.rs:__from_tagged_box", "src/tagged_box_macro/mod.rs:__ref_from_tagged", "src/tagged_box_macro/mod.rs:__boxed_into_inner", "src/tagged_box.rs:82-104", "src/tagged_pointer.rs:74-76"]}
{"id": "C72", "title": "References handed out by boxes respect the aliasing rules", "statement": "A client that keeps the documented contract and passes the borrow checker never violates Rust's aliasing rules (Stacked Borrows) through references obtained from as_ref and as_mut_ref, however they are interleaved with reads, writes, pointer conversions and freeing through Box, and it sees exactly the values a plain store would show.", "quantifier": "All adaptive clients of any length over any number of boxes and references, all payload types and values, all initial heaps and borrow states, all configurations, lawful allocators, debug and release builds.", "why_tests_cant": "Aliasing violations leave no trace at run time until the optimiser uses them; interpreters that track borrows see single executions.", "anchors": ["src/tagged_box.rs:82-104", "src/tagged_box.rs:235-237", "src/tagged_box.rs:267-269", "src/tagged_box.rs:297-300", "src/tagged_box.rs:354-359", "src/tagged_box.rs:533", "src/tagged_pointer.rs:74-88"]}
{"id": "C73", "title": "User code called by a container may itself use containers", "statement": "Closures given to ref_from_tagged_box and the enum's clone, eq, partial_cmp, cmp and fmt may use containers of any tagged_box! enum, including the one being looked at (look at it, compare it with itself or others, clone it, consume others, panic, catch panics), nested to any depth. The program causes no undefined behaviour, and its outcome and the destructors it runs are those of the same program on plain enum values (destructors as in C46), except that making a container may panic when there is no memory.", "quantifier": "all families of enums that compile and fit; all well-typed terminating programs of any nesting; all heaps and lawful allocators", "why_tests_cant": "arbitrary nesting of user code inside the crate's functions, with allocation failures at every point", "anchors": ["src/tagged_box_macro/mod.rs:__ref_from_tagged", "src/tagged_box.rs:TaggedBox::clone", "src/tagged_box.rs:TaggedBox::eq", "src/taggable.rs:TaggableInner"]}
{"id": "C74", "title": "Looking at a boxed payload respects the aliasing rules", "statement": "For an enum whose variants hold a Box, safe use of its container never violates Rust's aliasing rules (Stacked Borrows) on the memory the Box points to: whatever the client does with containers and values it has moved out of them (make, look at with ref_from_tagged_box in nested closures as ==, cmp and fmt do, unwrap, write through the unwrapped Box, put back, drop), provided it passes the borrow checker, there is no undefined behaviour and it sees the values it stored.", "quantifier": "All enums with variants V(Box<U>) that fit the discriminant bits, all adaptive clients of any length with any nesting of closures, all initial heaps and borrow states, all configurations, lawful allocators, debug and release builds.", "why_tests_cant": "Aliasing violations leave no trace at run time until the optimiser uses them; a == a gives the right answer in every test.", "anchors": ["src/tagged_box_macro/mod.rs:386-402", "src/tagged_box_macro/mod.rs:812-829", "src/tagged_box.rs:534-589", "src/tagged_box.rs:297-300", "src/tagged_box.rs:82-104"]}
{"id": "C75", "title": "Names of variants are up to the user", "statement": "If a declaration compiles, it also compiles after renaming its variants to any other distinct names that are not keywords. Exactly: unless a tuple variant with two or more fields is called like the enum, `core`, `u8`, `tagged`, `callback`, `tuple`, `variant`, the counter enum or one of the first letters of the alphabet (as many as it has fields), an empty tuple variant like the enum, `core`, `callback`, `tuple` or `variant`, a record variant like the enum, `core`, `u8` or the counter enum, or one of these like a type in its fields. No payload type may be written `F`, and the declarations around the invocation must leave `u8`, `usize`, `From`, `FnOnce` and (if a variant has fields) `core` alone.", "quantifier": "all declarations, renamings and surrounding scopes", "why_tests_cant": "a test uses particular names; which other names collide depends on every identifier in the generated code", "anchors": ["src/tagged_box_macro/mod.rs:__ref_from_tagged", "src/tagged_box_macro/mod.rs:__taggable_into_box", "src/tagged_box_macro/mod.rs:__boxed_into_inner", "src/tagged_box_macro/meta_macros.rs:__expand_tuple"]}
{"id": "C76", "title": "Documented examples work in every setting", "statement": "In every documented setting of the reserved width, the examples of the documentation work: for any payload, the code blocks of `TaggedBox` (`new`, `into_inner`, `as_ref`, `as_mut_ref`, `into_raw`, `into_box`, `from_raw`, `discriminant`, `as_ptr`, `as_mut_ptr`), the quickstart and the example of `tagged_box!` compile and run without a failed assertion, a panic (unless the allocator fails) or undefined behaviour.", "quantifier": "all settings, payload values and types, heaps, allocators, build profiles", "why_tests_cant": "documentation tests run in one setting (the default) with one payload and one allocator", "anchors": ["src/tagged_box.rs:313-320", "src/tagged_box.rs:382-394", "src/tagged_box.rs:413-415", "src/lib.rs:31-64", "src/tagged_box_macro/mod.rs:707-724"]}
{"id": "C77", "title": "Payloads with interior mutability that own memory", "statement": "A payload that owns memory and can be changed through a shared reference (`Cell<Box<u8>>`, `RefCell<Vec<u8>>`) can be changed by the closure given to `ref_from_tagged_box`: the client observes what it would observe with a plain value, and safe code cannot cause undefined behaviour such as a use after free or a double free.", "quantifier": "all declarations that fit the discriminant bits, notions of ownership, safe user code, adaptive clients of any length, allocators, initial heaps, debug and release builds", "why_tests_cant": "a lost change is visible in a test only if it looks at the changed part; a dangling payload shows up only after the freed memory has been reused", "anchors": ["src/tagged_box_macro/mod.rs:397", "src/tagged_box_macro/mod.rs:424", "src/tagged_box_macro/mod.rs:449", "src/tagged_box_macro/mod.rs:__ref_from_tagged", "src/taggable.rs:ref_from_tagged_box"]}
{"id": "C78", "title": "What the macro expands to, token for token", "statement": "Whatever attributes, visibilities, names and variants the user writes: an invocation of `tagged_box!` expands if and only if it declares at least one variant and no variant has more than 32 unnamed fields. The expansion is the struct, the enum with exactly the declared variants, a `From` implementation for every tuple variant, and the two trait implementations whose four matches have exactly one arm per variant, in the order of the declaration, all numbered by the same private enum. No variant is dropped, duplicated, renumbered or given another variant's payload type.", "quantifier": "all attributes, visibilities, names, token lists in braces, type parsers", "why_tests_cant": "the macros recurse over the declaration with accumulators; tests expand a handful of declarations and look at results, not at the code", "anchors": ["src/tagged_box_macro/mod.rs:tagged_box", "src/tagged_box_macro/mod.rs:__make_enum", "src/tagged_box_macro/mod.rs:__taggable_into_box", "src/tagged_box_macro/mod.rs:__derive_from", "src/tagged_box_macro/mod.rs:__boxed_into_inner", "src/tagged_box_macro/mod.rs:__from_tagged_box", "src/tagged_box_macro/mod.rs:__ref_from_tagged", "src/tagged_box_macro/mod.rs:__counter_enum", "src/tagged_box_macro/mod.rs:__count_variants", "src/tagged_box_macro/meta_macros.rs:__expand_tuple", "src/tagged_box_macro/meta_macros.rs:__expand_tuple_arm"]}
{"id": "C79", "title": "The code of TaggedPointer does what it should, run from its text", "statement": "Take the text of `src/discriminant.rs` and `src/tagged_pointer.rs`, parse it and run it: in every setting, build mode, target and memory state, `TaggedPointer::new` on an address within the reserved width and an allowed discriminant returns a pointer from which `discriminant`, `as_u64`, `as_raw_u64`, `as_ptr` and `as_mut_ptr` give back the discriminant, the address and the combined word; on any other input it panics in debug builds with the message in the text (the discriminant is checked first) and in release builds returns the bitwise combination. No function of the type does anything the model does not do.", "quantifier": "all settings, build modes, targets, states, all addresses and discriminants", "why_tests_cant": "tests fix a setting, a build mode and a few words; the properties proved about a model say nothing about the code if the model is misread from it, and no test compares the two", "anchors": ["src/tagged_pointer.rs:1-200", "src/discriminant.rs"]}
{"id": "C80", "title": "The code of TaggedBox does what it should, run from its text", "statement": "Take the text of `src/tagged_box.rs`, parse it and run it: for every type, value, discriminant, allocator and state, `TaggedBox::new` has no undefined behaviour and panics only if the allocator fails or, in debug builds, the discriminant or the address does not fit, each with its own message; if it returns, all eight accessors give back the discriminant, one address, and the value, and so they do after `into_raw` and `from_raw`. No inherent function of the type does anything the model does not do.", "quantifier": "all settings, build modes, targets, lawful allocators, states, types, values and discriminants", "why_tests_cant": "generic unsafe code over every payload type, allocator answer and state; a test fixes all of them, and cannot tell whether a model says what the text says", "anchors": ["src/tagged_box.rs:21-481"]}
{"id": "C81", "title": "The trait implementations do what they should, run from their text", "statement": "Take the text of the `impl` blocks of `TaggedBox` and `TaggedPointer` and run it, with arbitrary user code for the enum: comparing boxes gives what comparing the stored values gives, cloning boxes the clone of the stored value, `Debug` and `Display` print what the enum's functions print with default parameters; if an implementation of `TaggableInner` never calls the closure, `clone` panics with the message in the text, `eq` is false, `partial_cmp` is `None`, `cmp` is `Equal` and nothing is printed; the numeric and pointer formatting traits print the stripped address (`Debug` of a pointer: its parts), for all format parameters.", "quantifier": "all settings, targets, states, boxes, user functions (which may panic and change the state), implementations of `TaggableInner`, format parameters", "why_tests_cant": "the implementations are closures that write captured variables inside user-supplied functions; tests use one enum and well-behaved functions", "anchors": ["src/tagged_box.rs:483-590", "src/tagged_pointer.rs:151-200", "src/lib.rs:180-215"]}
{"id": "C82", "title": "The generated functions do what they should, run from the macro text", "statement": "Take an invocation of `tagged_box!` the compiler accepts, expand it with the macro rules in the text of `src/tagged_box_macro`, parse the tokens that come out, and run that code together with the code of the crate: for every declaration, setting, target, allocator, state and value, `Container::from(value)` either returns a container from which `into_inner` gets exactly that value back, then and in every later state in which what was on the heap is unchanged, or panics because there is no memory or (debug builds) because the address does not fit, each with its own message. `Container::from(payload)` does exactly what `Container::from` does on the variant with that payload. `ref_from_tagged_box` calls the closure exactly once, with that value, and ends as the closure does, plus at most the enum's own destructor. `from_tagged_box` returns the value if the compiler lays out tuples of the variant's fields as C does. A discriminant no variant has makes all three readers panic with the message in the text, with the state unchanged and without a call of the closure. No generated function does anything the model does not do.", "quantifier": "all declarations the compiler accepts, attributes, visibilities, settings, build modes, targets, lawful allocators, states, values, closures", "why_tests_cant": "the code does not exist until a user declares an enum; a test can only run the code of the enums it declares, and cannot tell whether a model of the generated code says what the macro text says", "anchors": ["src/tagged_box_macro/mod.rs:tagged_box", "src/tagged_box_macro/mod.rs:__taggable_into_box", "src/tagged_box_macro/mod.rs:__derive_from", "src/tagged_box_macro/mod.rs:__boxed_into_inner", "src/tagged_box_macro/mod.rs:__from_tagged_box", "src/tagged_box_macro/mod.rs:__ref_from_tagged", "src/tagged_box_macro/meta_macros.rs:__expand_tuple", "src/tagged_box_macro/meta_macros.rs:__expand_tuple_arm"]}
{"id": "C83", "title": "The build, run from the texts, gives the documented width", "statement": "Run `build.rs` from its text with any environment variables, let cargo read what it prints, and compile the crate from the texts of its sources with the settings cargo was told. If the value of `TAGGED_BOX_RESERVED_WIDTH` has no line feed, this succeeds, and the crate has the documented width `w`: `TaggedPointer::new` so compiled stores any address below `2^w` and any allowed discriminant in one word, the discriminant from bit `w` on, and the accessors give both back. For any value at all: if the crate compiles, it has that width. No other environment variable matters.", "quantifier": "all environments (functions from names to values), build modes, targets, addresses, discriminants, states", "why_tests_cant": "unbounded set of environments; a test binary is compiled for one setting", "anchors": ["build.rs:main", "src/discriminant.rs:generate_discriminants", "src/tagged_pointer.rs:TaggedPointer::new"]}
{"id": "C84", "title": "Histories of box operations, run from the text", "statement": "A client performs any number of operations on boxes, each depending on everything it has seen so far; every operation calls the functions of `TaggedBox` as they stand in the text of `src/tagged_box.rs` (and these those of `src/tagged_pointer.rs`). If the client keeps the documented contract, there is never undefined behaviour, it observes exactly the values, discriminants, pointer equalities, panics and destructor runs of an abstract store of typed values, and the live allocations are exactly one per live location.", "quantifier": "all adaptive clients, numbers of steps, types, values, settings, build modes, targets, allocators, initial heaps", "why_tests_cant": "unboundedly many interleaved operations on aliasing boxes, with the allocator as adversary", "anchors": ["src/tagged_box.rs:TaggedBox::new", "src/tagged_box.rs:TaggedBox::from_raw", "src/tagged_box.rs:TaggedBox::into_box", "src/tagged_box.rs:TaggedBox::as_mut_ref"]}
{"id": "C85", "title": "Container clients, run from the text", "statement": "A client performs any number of operations on containers made by `tagged_box!` (convert, clone, copy, compare, print, observe through a closure, take apart, drop), each depending on everything it has seen so far. All operations run code from the text: what the macro expands to, and the trait implementations of `TaggedBox`, whose calls into the generated code run what the macro expands to. If the enum has no more variants than the discriminant can count, the client gets the results and panics it would get from plain values of the enum, except that making a container may panic for lack of memory (or, in a debug build, because of an address outside of the reserved width). It never reaches undefined behaviour. Destructors run as C46 says.", "quantifier": "all accepted declarations, attributes, visibilities, adaptive clients, numbers of steps, user code (which may panic), settings, build modes, targets, allocators, initial heaps", "why_tests_cant": "unboundedly many operations, user code and the allocator as adversaries, arbitrary enums", "anchors": ["src/tagged_box_macro/mod.rs:tagged_box", "src/tagged_box.rs:Clone for TaggedBox", "src/tagged_box.rs:PartialEq for TaggedBox", "src/tagged_box.rs:PartialOrd for TaggedBox", "src/tagged_box.rs:Ord for TaggedBox", "src/tagged_box.rs:Debug for TaggedBox"]}
{"id": "C86", "title": "Which inputs `tagged_box!` accepts", "statement": "Whatever text is written between the delimiters of `tagged_box! { .. }`: if it expands, then it consists of attributes, an optional visibility, the word `struct`, a name, a comma, an optional visibility, the word `enum`, a name, and a group in braces that is a non-empty list of variants, each followed by a comma and with at most 32 unnamed fields; nothing else is accepted, nothing may follow. Every such text expands, to the code written out in C78. In particular no text reaches the internal arms of the macros (`@inner`).", "quantifier": "all texts (characters), types of the fields, results of expansion", "why_tests_cant": "infinitely many token lists; a test tries one accepted or rejected input at a time", "anchors": ["src/tagged_box_macro/mod.rs:tagged_box", "src/tagged_box_macro/meta_macros.rs:__make_enum"]}
{"id": "C87", "title": "The code in the guide does what the guide says, in every setting", "statement": "`src/manually_impl_enum.rs` tells users how to write by hand what `tagged_box!` generates. The code it shows, taken out of the documentation comment as text, parsed and run together with the text of the crate: in each of the sixteen reserved-bit settings (also those with `u16` discriminants, for which `tagged_box!` does not compile), any value of `Item` that `into_tagged_box` puts into a box is given back by `from_tagged_box` and by `into_inner` of a container around it, and is shown to the callback of `ref_from_tagged_box` without anything being destroyed; a box with another discriminant makes all three panic without calling the callback. Where the invocation shown in the guide compiles, the functions do the same as those generated from it, except for the messages of panics.", "quantifier": "all settings, compilers (layouts of i32 and bool), values, boxes, states of the heap, allocators, callbacks", "why_tests_cant": "the doc test only compiles the block; nothing in it is ever called, in any setting", "anchors": ["src/manually_impl_enum.rs:1-137", "src/tagged_box.rs:40-470", "src/tagged_box_macro/mod.rs:1-160"]}
{"id": "C88", "title": "From the environment variable and the characters of the invocation to plain values", "statement": "Whatever the environment variable TAGGED_BOX_RESERVED_WIDTH holds and whatever characters a user puts inside `tagged_box!`: if it builds, then the characters are a declaration of variants in one of the documented forms, the crate linked is the one of the documented width, and every program that uses the declared container, run from what was built (build script, cargo, macro expansion and crate all from their text), gets the results and panics it would get from plain enum values, except that making a container may panic for lack of memory. Every one-line value of the variable together with a declaration the compiler accepts builds, and to one program only.", "quantifier": "all values of the environment variable, all texts, all compilers of the modelled kind, all client programs with safe user code that may panic, all heap states and allocators", "why_tests_cant": "a test fixes one environment, one invocation and one client", "anchors": ["build.rs:1-28", "src/tagged_box_macro/mod.rs:1-852", "src/tagged_box_macro/meta_macros.rs:1-915", "src/tagged_box.rs:40-470", "src/tagged_pointer.rs:1-287", "src/discriminant.rs:1-88"]}
{"id": "C89", "title": "In which settings the documentation examples and the pointer tests pass", "statement": "The examples in the documentation comments of `src/tagged_box.rs` and the tests in `src/tagged_pointer.rs`, taken out of the source as text and run together with the text of the crate. All thirteen examples finish, with every assertion true, exactly in the settings that reserve at most 60 bits for the pointer; there they do so for every allocator (unless it fails), state of memory, layout of the types used, and build profile. With 61 or more bits the example of `discriminant` panics whenever there is memory for its box. Of the tests, `utility_functions`, `max_pointer`, `min_pointer`, `max_discriminant` and `min_discriminant` pass in every setting and profile; `tagged_pointer` passes exactly with at most 60 bits; `oversized_discriminant` (`should_panic`) passes exactly in debug builds, or with 48 or 56 bits.", "quantifier": "all sixteen settings, build profiles, allocators, heap states, layouts of std types, addresses of local variables", "why_tests_cant": "a run of the tests is for one setting, profile, allocator and set of addresses", "anchors": ["src/tagged_box.rs:53-470", "src/tagged_pointer.rs:170-286"]}
{"id": "C90", "title": "Code that uses boxed enums does what it would do with plain values; the integration tests", "statement": "Take any code built from the functions `tagged_box!` generates (`Container::from`, `Container { value: .. }`, `into_inner`, `into_tagged_box`, `from_tagged_box`, `ref_from_tagged_box` with closures that use further boxes), constructors of the enum, variables, comparisons and assertions. Run with the code of the crate and of the macros, it finishes or fails an assertion exactly as it would with the enum values in place of the boxes, unless the allocator fails; only values whose number fits the discriminant are to be stored, and `from_tagged_box` is to be used only for variants whose tuple of fields is laid out as in C. Hence the five tests of `tests/tagged_box_macro.rs` and the examples in `src/lib.rs` and of `tagged_box!`, taken from their text, pass in every setting with room for four variants where the invocation compiles, for every allocator, state of the heap and build profile, except that `inner_from_tagged_box` is undefined behaviour with the layout rustc gives `(usize, usize, f32, usize)`; and the test `storage` of `src/tagged_box.rs` passes in every setting with room for eight variants. With 63 bits, where four variants do not fit, the tests compile and `inner_into_tagged_box` is undefined behaviour.", "quantifier": "all code in the fragment, all declarations the compiler accepts, settings, allocators, heap states, layouts, build profiles", "why_tests_cant": "the tests are a handful of programs, run with one allocator and one compiler; undefined behaviour in a test goes unnoticed unless it changes the outcome", "anchors": ["tests/tagged_box_macro.rs:1-175", "src/taggable.rs:53-232", "README.md:28-57", "src/lib.rs:34-75", "src/tagged_box_macro/mod.rs:600-730", "src/tagged_box.rs:776-826"]}
{"id": "C91", "title": "The tests of TaggedBox that use boxes directly, from their text", "statement": "The test `new` of `src/tagged_box.rs`, taken from its text and run with the text of the crate on a target with 64 bits: it makes four boxes (an integer, a structure, a `String`, a `Vec`) and takes the values out again. It passes in release builds in all sixteen settings (a discriminant that is too large is cut, the values are not touched), and in debug builds in exactly the settings with at least four reserved bits; otherwise it always panics, because of the discriminant 10. The test `new_zst` passes on every target, in every setting and build, whatever the allocator does, and allocates nothing. All of this for every allocator, state of the heap and layout of the types.", "quantifier": "all settings, build profiles, allocators, heap states, layouts and representations of the types in the tests", "why_tests_cant": "a test runs with one allocator, one layout and the setting of one build", "anchors": ["src/tagged_box.rs:600-657"]}
{"id": "C92", "title": "An implementation of the traits written by hand, from its text", "statement": "A container and an enum whose `TaggableContainer` and `TaggableInner` are implemented by hand, without the macro (the test `tagged_box` of `src/tagged_box.rs`), taken from the text and run with the text of the crate, keep the contract that the generated code keeps: in each of the sixteen settings, a value put into a box by `into_tagged_box` is the value that `from_tagged_box` and `into_inner` of a container give back and that `ref_from_tagged_box` shows to its callback, in every later state in which the heap is unchanged, unless allocation fails or (debug) the address does not fit; a box with another discriminant makes all three panic with the message of `unreachable!` without calling the callback. The statements of the test itself, with clones that run the `Clone` of `TaggedBox` from its text, pass in every setting unless an allocation fails.", "quantifier": "all settings, build profiles, allocators, heap states, compilers, values of the enum, callbacks", "why_tests_cant": "the test runs two values with one allocator in the setting of one build; it does not use ref_from_tagged_box except through clone, nor an unknown discriminant", "anchors": ["src/tagged_box.rs:698-774"]}
{"id": "C93", "title": "Clones are values of their own, in user code and in the test of clone, from its text", "statement": "User code that clones containers, changes boxes in place through `as_mut_ref`, moves boxes and containers from variable to variable, reads them back and compares them does what the same code does with plain values in place of the boxes, where a change of one variable changes no other: a change of a clone is never seen in the original, nor the other way round, and every box keeps its variant. The code is any sequence of such statements; `clone`, `as_mut_ref` and the generated functions run from the text of the crate and of the macros on a heap. The test `clone` of `src/tagged_box.rs`, taken from the text, passes in every state of the heap unless an allocation fails; with other numbers, its assertions pass exactly if they are true.", "quantifier": "all code of the fragment, settings for which the macro works, build profiles, allocators whose addresses fit, heap states, compilers, payload types with any clone and update functions", "why_tests_cant": "the test makes two clones, once, in one state of one allocator; it does not show that clones and originals are apart for every sequence of moves, clones and changes", "anchors": ["src/tagged_box.rs:659-695", "src/tagged_box.rs:515-532", "src/tagged_box.rs:266-269", "src/tagged_box_macro/mod.rs:1-683"]}
{"id": "C94", "title": "The test of a tagged string pointer, from its text, passes exactly if the buffer is in range", "statement": "The test `string_pointer` of `src/tagged_pointer.rs`, taken from the text, tags the pointer to the contents of a `String`, which the standard library allocated, and reads the contents through it. With any text in the string, in every setting, build profile and heap, it passes, and leaves the heap as it was, exactly if the allocator has memory and put the buffer below 2^POINTER_WIDTH; otherwise it panics and never reads outside of the buffer. What it reads is exactly the text: compared with another literal, the assertion fails exactly if the texts differ.", "quantifier": "all texts, settings, build profiles, targets, lawful allocators, heap states", "why_tests_cant": "the test has one text in one state of one allocator in one setting; the addresses the allocator could return are not tried", "anchors": ["src/tagged_pointer.rs:257-272", "src/tagged_pointer.rs:29-48", "src/tagged_pointer.rs:61-63", "src/tagged_pointer.rs:92-113"]}
{"id": "C95", "title": "Which traits boxes, pointers and containers have, from the text", "statement": "The trait implementations that the text of the crate contains, with their bounds: `TaggedPointer` has exactly the traits documented; `TaggedBox<T>` has no trait unless `T: TaggableInner`, and then exactly the number formats, those of Clone, Copy, PartialEq, Eq, PartialOrd and Ord that `T` has, and Debug and Display if `T` has them and Clone; so a declaration may derive everything a plain enum may, apart from Hash, and from Debug without Clone. Supertraits of implemented traits are implemented. The derived comparison and hash of pointers, with the fields in the text, are those of the pair of discriminant and address: keys of hash and tree maps are pairs. Boxes have the auto traits (Send, Sync, ..) of `T`, no destructor, and the size of a u64.", "quantifier": "all sets of traits the parameter and the payloads may have, all pairs of pointers, settings, targets, states", "why_tests_cant": "the compiler reports only what a test happens to need: that an implementation with weaker or stronger bounds, or one more, would be noticed, and for all parameters, is not settled by tests", "anchors": ["src/tagged_pointer.rs:10-15", "src/tagged_pointer.rs:151-167", "src/tagged_box.rs:15-19", "src/tagged_box.rs:483-591", "src/lib.rs:180-200"]}
{"id": "C96", "title": "What Container::from accepts, and the example that must not compile", "statement": "Take any invocation of `tagged_box!` the compiler accepts, expanded from the text of the macros. `Container::from(x)` compiles, for `x` of a known type, exactly if that type is the container, the enum, or what one of the tuple variants holds (then exactly one implementation applies, that of this variant, and it stores this variant); if the type of the argument is not fully known, as for `Vec::new()`, exactly if one and only one of the types it can have is among these. The example of the documentation that is marked `compile_fail`, taken from its text: its first two statements compile, the third does not. Contrary to the documentation, values of variants with named fields cannot be given to `from`.", "quantifier": "all accepted declarations, all attributes and visibilities, all types and all sets of types an argument can have, all compilers as modelled", "why_tests_cant": "a compile_fail test passes whatever the reason is why the code does not compile, also if one of the statements said to work is the reason; and it is about one declaration", "anchors": ["src/tagged_box_macro/mod.rs:105-131", "src/tagged_box_macro/mod.rs:680-700", "src/tagged_box_macro/mod.rs:762-771"]}
{"id": "C97", "title": "The code the documentation of the macro shows as its expansion", "statement": "The code that the documentation of `tagged_box!` shows as \"expanded\", with its hidden implementation of `TaggableInner` by hand, run from the text of the comment and of the crate: in every setting in which its three variants fit the discriminant, it puts a value into a box from which `from_tagged_box` gets exactly this value back and which `ref_from_tagged_box` shows to the callback, or panics because there is no memory or (debug builds) the address does not fit. Boxes with another discriminant make the readers panic. It does exactly what the code does that the macro generates for the same enum, up to the messages of panics. It is not the expansion of the invocation it is said to be the expansion of: the enum is another one, that of a later example.", "quantifier": "all values, all states of the heap, all boxes, all callbacks, all settings, all compilers as modelled, all attributes", "why_tests_cant": "the example is compiled, but no function in it is called by any test, and nothing compares it with what the macro expands to", "anchors": ["src/tagged_box_macro/mod.rs:601-679", "src/tagged_box_macro/mod.rs:711-718"]}
{"id": "C98", "title": "What the tasks that test all settings report", "statement": "The scripts of `cargo make test-all` and `cargo make miri-all`, run from the text of `Makefile.toml`: whatever was done before and whatever the outcomes of the runs of the tests, they run the tests once for each of ten values of the variable, exit with 0 exactly if all runs passed and with 101 otherwise, and print last how many passed and failed and which failed. As a changed variable does not rebuild the crate (C69), with tests whose outcome depends on the setting only, `test-all` reports success for all ten settings or failure for all ten, according to the setting of its first build (or of an earlier build, if there is one), and `miri-all` according to `48bits`. So success does not mean that the tests pass in the settings listed, nor failure that they fail in one of them.", "quantifier": "all histories of the workspace, all outcomes of test runs, all ways a status is printed", "why_tests_cant": "the tasks are the tests; nothing tests them, and that they test one setting ten times looks like success", "anchors": ["Makefile.toml:1-53", "Makefile.toml:55-115", "build.rs:1-28"]}
{"id": "C99", "title": "The exported macros that nothing invokes, and the error report for a bad enumeration", "statement": "By the rules in the text of `src/tagged_box_macro/mod.rs`: `__generate_const_sizes!(T1, .., Tn)` expands for any number of types to an expression worth the sum of their sizes in bits. `__verify_variants!` expands for no input at all, valid or not, as its rules only invoke it again. `__counter_enum!`, where it meets tokens that are no variant (`A = 1`, a name without a comma after it, a sign, a literal, a group), never enters the arm that would report `Invalid enum definition`: it invokes itself without end, until the recursion limit.", "quantifier": "all lists of types, all token lists as input, all depths of nested invocations, any compiler in which no type begins with `@`", "why_tests_cant": "nothing invokes the macros, and an endless expansion cannot be tested except by its first steps", "anchors": ["src/tagged_box_macro/mod.rs:158-179", "src/tagged_box_macro/mod.rs:519-554", "src/tagged_box_macro/mod.rs:583-593"]}
