{
 "claims": [
  {
   "property": "C01",
   "status": "proved",
   "theorems": [
    "TB.Props.C01_roundtrip"
   ],
   "note": "All 16 settings, debug and release."
  },
  {
   "property": "C02",
   "status": "partial",
   "theorems": [
    "TB.Props.C02_new_panics_debug_partial",
    "TB.Props.C02_new_panics_release_refuted"
   ],
   "note": "True in debug builds. False in release builds (the checks are debug_assert!): refuted."
  },
  {
   "property": "C03",
   "status": "proved",
   "theorems": [
    "TB.Props.C03_release_new"
   ],
   "note": "Exact result for arbitrary arguments."
  },
  {
   "property": "C04",
   "status": "proved",
   "theorems": [
    "TB.Props.C04_decompose"
   ],
   "note": ""
  },
  {
   "property": "C05",
   "status": "proved",
   "theorems": [
    "TB.Props.C05_eq_iff"
   ],
   "note": ""
  },
  {
   "property": "C06",
   "status": "proved",
   "theorems": [
    "TB.Props.C06_order"
   ],
   "note": ""
  },
  {
   "property": "C07",
   "status": "partial",
   "theorems": [
    "TB.Props.C07_constants_partial",
    "TB.Props.C07_constants_refuted_52"
   ],
   "note": "Holds for 15 of 16 rows; the 52-bit row has MAX_DISCRIMINANT 4068 instead of 4095."
  },
  {
   "property": "C08",
   "status": "partial",
   "theorems": [
    "TB.Props.C08_partial",
    "TB.Props.C08_documented",
    "TB.Props.C08_any",
    "TB.Props.C08_refuted"
   ],
   "note": "False for values with line feeds: the script prints the value as it is and cargo reads line by line, so that such a value can enable a second setting. C08_partial: all values without line feeds. C08_any: for every value the documented row is active (no wrong width can be compiled) and the warning is exact."
  },
  {
   "property": "C09",
   "status": "proved",
   "theorems": [
    "TB.Props.C09_store_ors"
   ],
   "note": ""
  },
  {
   "property": "C10",
   "status": "proved",
   "theorems": [
    "TB.Props.C10_casts"
   ],
   "note": ""
  },
  {
   "property": "C11",
   "status": "proved",
   "theorems": [
    "TB.Props.C11_dangling"
   ],
   "note": ""
  },
  {
   "property": "C12",
   "status": "partial",
   "theorems": [
    "TB.Props.C12_dangling_in_range_partial",
    "TB.Props.C12_dangling_unchecked_refuted"
   ],
   "note": "dangling validates nothing: refuted; in-range part proved."
  },
  {
   "property": "C15",
   "status": "proved",
   "theorems": [
    "TB.Props.C15_box_roundtrip",
    "TB.Props.C15_new_outcomes",
    "TB.Props.C15_release_out_of_range_refuted"
   ],
   "note": "The last theorem shows that the range hypothesis is needed."
  },
  {
   "property": "C16",
   "status": "proved",
   "theorems": [
    "TB.Props.C16_mutation"
   ],
   "note": ""
  },
  {
   "property": "C17",
   "status": "proved",
   "theorems": [
    "TB.Props.C17_noninterference"
   ],
   "note": "Single operations; for whole histories see C27_no_ub, whose refinement to an abstract store implies it."
  },
  {
   "property": "C18",
   "status": "proved",
   "theorems": [
    "TB.Props.C18_raw_roundtrip"
   ],
   "note": ""
  },
  {
   "property": "C19",
   "status": "proved",
   "theorems": [
    "TB.Props.C19_into_box_frees_own"
   ],
   "note": ""
  },
  {
   "property": "C20",
   "status": "partial",
   "theorems": [
    "TB.Props.C20_release_via_box_partial",
    "TB.Props.C20_release_refuted"
   ],
   "note": "False of the code: there is no Drop impl and into_inner never deallocates (refuted for all types). The route through into_box is proved."
  },
  {
   "property": "C21",
   "status": "proved",
   "theorems": [
    "TB.Props.C21_heap_footprint",
    "TB.Props.C21_never_deallocates"
   ],
   "note": "Over all client histories."
  },
  {
   "property": "C22",
   "status": "proved",
   "theorems": [
    "TB.Props.C22_zst_never_allocates"
   ],
   "note": ""
  },
  {
   "property": "C23",
   "status": "partial",
   "theorems": [
    "TB.Props.C23_history_partial",
    "TB.Props.C23_destroyed_once_partial",
    "TB.Props.C23_zst_double_drop_refuted"
   ],
   "note": "True for non-zero-sized types; refuted for zero-sized types with a destructor (double drop)."
  },
  {
   "property": "C24",
   "status": "proved",
   "theorems": [
    "TB.Props.C24_alloc_failure"
   ],
   "note": ""
  },
  {
   "property": "C25",
   "status": "proved",
   "theorems": [
    "TB.Props.C25_new_unchecked"
   ],
   "note": ""
  },
  {
   "property": "C26",
   "status": "proved",
   "theorems": [
    "TB.Props.C26_copies_alias"
   ],
   "note": ""
  },
  {
   "property": "C27",
   "status": "proved",
   "theorems": [
    "TB.Props.C27_no_ub"
   ],
   "note": "All adaptive clients that respect the documented contracts."
  },
  {
   "property": "C28",
   "status": "proved",
   "theorems": [
    "TB.Props.C28_numbering"
   ],
   "note": ""
  },
  {
   "property": "C29",
   "status": "proved",
   "theorems": [
    "TB.Props.C29_container_roundtrip"
   ],
   "note": "For variants whose number fits (see C33)."
  },
  {
   "property": "C30",
   "status": "partial",
   "theorems": [
    "TB.Props.C30_partial",
    "TB.Props.C30_refuted"
   ],
   "note": "False of the code: multi-field tuple variants are read back at a Rust tuple type although stored as repr(C) struct (mod.rs:300). Proved for all other variants, and for these under the assumption that rustc lays out the tuple like the struct."
  },
  {
   "property": "C31",
   "status": "proved",
   "theorems": [
    "TB.Props.C31_ref_presents"
   ],
   "note": ""
  },
  {
   "property": "C32",
   "status": "partial",
   "theorems": [
    "TB.Props.C32_partial",
    "TB.Props.C32_refuted"
   ],
   "note": "False for unit variants of enums implementing Drop (no ManuallyDrop in that arm); proved otherwise."
  },
  {
   "property": "C33",
   "status": "proved",
   "theorems": [
    "TB.Props.C33_enum",
    "TB.Props.C33_capacity",
    "TB.Props.C33_all_fit"
   ],
   "note": "C33_enum: for the enum as a whole; C33_capacity: for each value."
  },
  {
   "property": "C34",
   "status": "partial",
   "theorems": [
    "TB.Props.C34_partial",
    "TB.Props.C34_wraps",
    "TB.Props.C34_refuted"
   ],
   "note": "False of the code: dangling is unchecked, so unit variants with too large a number are silently taken for others, with undefined behaviour from safe code. Proved: debug builds with non-zero-sized payload; and what exactly happens in the other cases."
  },
  {
   "property": "C35",
   "status": "proved",
   "theorems": [
    "TB.Props.C35_unknown_discriminant"
   ],
   "note": ""
  },
  {
   "property": "C36",
   "status": "partial",
   "theorems": [
    "TB.Props.C36_partial",
    "TB.Props.C36_refuted"
   ],
   "note": "False of the code: TaggedBox::new/dangling and from_tagged_box are safe but together unsound. Proved for boxes made by into_tagged_box."
  },
  {
   "property": "C48",
   "status": "proved",
   "theorems": [
    "TB.Props.C48_panicking_observer"
   ],
   "note": ""
  },
  {
   "property": "C53",
   "status": "proved",
   "theorems": [
    "TB.Props.C53_range_panic_leaks"
   ],
   "note": ""
  },
  {
   "property": "C41",
   "status": "proved",
   "theorems": [
    "TB.Props.C41_from_payload"
   ],
   "note": ""
  },
  {
   "property": "C42",
   "status": "proved",
   "theorems": [
    "TB.Props.C42_agreement",
    "TB.Props.C42_last_comma"
   ],
   "note": ""
  },
  {
   "property": "C43",
   "status": "proved",
   "theorems": [
    "TB.Props.C43_arity_order",
    "TB.Props.C43_too_many"
   ],
   "note": ""
  },
  {
   "property": "C44",
   "status": "partial",
   "theorems": [
    "TB.Props.C44_partial",
    "TB.Props.C44_refuted"
   ],
   "note": "False of the code: the generated code casts to u8, so at the widths 48..55 (Discriminant = u16) nothing compiles. Proved for 56..63."
  },
  {
   "property": "C45",
   "status": "proved",
   "theorems": [
    "TB.Props.C45_layout"
   ],
   "note": ""
  },
  {
   "property": "C50",
   "status": "proved",
   "theorems": [
    "TB.Props.C50_manual"
   ],
   "note": "Messages of panics are not modelled."
  },
  {
   "property": "C51",
   "status": "proved",
   "theorems": [
    "TB.Props.C51_accepts_exactly",
    "TB.Props.C51_self"
   ],
   "note": ""
  },
  {
   "property": "C52",
   "status": "partial",
   "theorems": [
    "TB.Props.C52_partial",
    "TB.Props.C52_refuted",
    "TB.Props.C52_generators"
   ],
   "note": "True of __expand_tuple. The arms of __expand_tuple_arm differ from the generator in the cast (u8, not inferred) and in whether they name the enum; C52_partial says exactly how. C52_generators: what the generators produce for every input."
  },
  {
   "property": "C37",
   "status": "proved",
   "theorems": [
    "TB.Props.C37_clone",
    "TB.Props.C37_clone_panics"
   ],
   "note": "For generated enums; the enum's own clone is arbitrary code."
  },
  {
   "property": "C38",
   "status": "proved",
   "theorems": [
    "TB.Props.C38_any_implementation",
    "TB.Props.C38_comparison",
    "TB.Props.C38_comparison_plain"
   ],
   "note": "Up to the spurious destructor calls of C32 (enum implements Drop and a unit variant is compared)."
  },
  {
   "property": "C39",
   "status": "proved",
   "theorems": [
    "TB.Props.C39_laws"
   ],
   "note": ""
  },
  {
   "property": "C40",
   "status": "partial",
   "theorems": [
    "TB.Props.C40_partial",
    "TB.Props.C40_refuted"
   ],
   "note": "False of the code: write!(f, ..) does not pass on the format parameters. Proved for default parameters."
  },
  {
   "property": "C49",
   "status": "proved",
   "theorems": [
    "TB.Props.C49_skipping"
   ],
   "note": ""
  },
  {
   "property": "C13",
   "status": "proved",
   "theorems": [
    "TB.Props.C13_address_only"
   ],
   "note": "Pointer formatting shows the address cut down to the native pointer width."
  },
  {
   "property": "C14",
   "status": "partial",
   "theorems": [
    "TB.Props.C14_partial",
    "TB.Props.C14_refuted"
   ],
   "note": "False on 32-bit targets (raw word cast to a pointer) and under fill characters. Proved without fill on 64-bit targets, and on 32-bit targets for addresses that fit."
  },
  {
   "property": "C46",
   "status": "partial",
   "theorems": [
    "TB.Props.C46_partial",
    "TB.Props.C46_results_partial",
    "TB.Props.C46_refuted",
    "TB.Props.C46_refuted_drop"
   ],
   "note": "False of the code when destructors are observed: dropping a container leaks, and an enum with Drop is destroyed at conversion. Proved: exact equality of all results and panics for every adaptive client with arbitrary user code, and the exact destructor behaviour."
  },
  {
   "property": "C47",
   "status": "proved",
   "theorems": [
    "TB.Props.C47_isolation",
    "TB.Props.C47_finish",
    "TB.Props.C47_containers"
   ],
   "note": "Atomic actions are allocator calls, typed reads and writes, and destructor runs. C47_isolation and C47_finish hold for arbitrary programs over disjoint parts of the heap, C47_containers for clients of generated containers."
  },
  {
   "property": "C54",
   "status": "partial",
   "theorems": [
    "TB.Props.C54_exact",
    "TB.Props.C54_partial",
    "TB.Props.C54_refuted"
   ],
   "note": "C54_exact is an iff for every recursion limit. With the default limit the claim is false for widths 56..58 and true from 59 on; for 48..55 nothing compiles at all (C44)."
  },
  {
   "property": "C55",
   "status": "partial",
   "theorems": [
    "TB.Props.C55_exact",
    "TB.Props.C55_partial",
    "TB.Props.C55_refuted",
    "TB.Props.C55_refuted_drop"
   ],
   "note": "False of the code: an enum with Drop is destroyed at every conversion, and zero-sized payloads have their destructors run. C55_exact says exactly which destructors run."
  },
  {
   "property": "C56",
   "status": "partial",
   "theorems": [
    "TB.Props.C56_exact",
    "TB.Props.C56_partial",
    "TB.Props.C56_refuted"
   ],
   "note": "False of the code for every enum: the closure gets a bitwise copy, so changes are lost and values taken out of cells are owned twice. C56_partial covers closures that leave the value alone."
  },
  {
   "property": "C57",
   "status": "partial",
   "theorems": [
    "TB.Props.C57_exact",
    "TB.Props.C57_partial",
    "TB.Props.C57_refuted"
   ],
   "note": "False of the code: Hash cannot be derived, and Debug only together with Clone. C57_exact is an iff."
  },
  {
   "property": "C58",
   "status": "proved",
   "theorems": [
    "TB.Props.C58_isolation",
    "TB.Props.C58_finish",
    "TB.Props.C58_containers"
   ],
   "note": "C58_isolation and C58_finish hold for arbitrary programs; C58_containers is fork-join for clients of generated containers. Nothing is ever freed by the crate, so even into_inner and drop of shared (copied) containers are covered."
  },
  {
   "property": "C59",
   "status": "partial",
   "theorems": [
    "TB.Props.C59_partial",
    "TB.Props.C59_refuted"
   ],
   "note": "False at the widest setting (the message names 64bits, which the build script does not know and replaces by 60) and for addresses with the top bit set. Proved otherwise, with the exact set of settings that accept the address."
  },
  {
   "property": "C60",
   "status": "proved",
   "theorems": [
    "TB.Props.C60_owned"
   ],
   "note": "Enums without Drop (an enum with Drop can only have Copy fields, which own nothing); payloads of size zero without destructors (for those see C23, C55). User code is arbitrary subject to ownership; it executes its own destructors. A panicking destructor is an abort."
  },
  {
   "property": "C61",
   "status": "proved",
   "theorems": [
    "TB.Props.C61_isolated"
   ],
   "note": "Until the process aborts for lack of memory in user code."
  },
  {
   "property": "C62",
   "status": "partial",
   "theorems": [
    "TB.Props.C62_partial",
    "TB.Props.C62_refuted",
    "TB.Props.C62_never_freed"
   ],
   "note": "False of the code: into_inner leaves the container's block behind, dropping a container also what the payload owns. C62_partial: no payload bytes. C62_never_freed: for all clients, the memory of a container stays allocated and unchanged for ever."
  },
  {
   "property": "C63",
   "status": "proved",
   "theorems": [
    "TB.Props.C63_recursive",
    "TB.Props.C63_separate",
    "TB.Props.C63_lawful"
   ],
   "note": "Enums without Drop. Fields other than containers are plain data (for fields that own memory see C60). The container is laid out as a u64 (repr(transparent)). Stack depth is counted in nested calls on containers."
  },
  {
   "property": "C64",
   "status": "proved",
   "theorems": [
    "TB.Props.C64_no_ub",
    "TB.Props.C64_foreign_stays_private",
    "TB.Props.C64_from_raw",
    "TB.Props.C64_box_roundtrip",
    "TB.Props.C64_new_unchecked"
   ],
   "note": "Exposed-provenance rules for raw TaggedBox clients. Not modelled: Stacked/Tree Borrows."
  },
  {
   "property": "C65",
   "status": "proved",
   "theorems": [
    "TB.Props.C65_auto",
    "TB.Props.C65_box",
    "TB.Props.C65_recursive"
   ],
   "note": "Trait holding is coinductive, as for rustc. Payload types are opaque: rustc says what they need."
  },
  {
   "property": "C66",
   "status": "partial",
   "theorems": [
    "TB.Props.C66_partial",
    "TB.Props.C66_refuted"
   ],
   "note": "False of the code on 32-bit targets, where the container has 8 bytes and usize 4. C66_partial: always 8 bytes with the alignment of u64; the claim on 64-bit targets."
  },
  {
   "property": "C67",
   "status": "partial",
   "theorems": [
    "TB.Props.C67_partial",
    "TB.Props.C67_refuted"
   ],
   "note": "False of the code: the settings 58bits to 63bits, among them the default, have 1 to 6 data bits. C67_partial: exactly which values and how many bits every setting stores, in debug and release builds."
  },
  {
   "property": "C68",
   "status": "partial",
   "theorems": [
    "TB.Props.C68_partial",
    "TB.Props.C68_refuted"
   ],
   "note": "False of the code: format parameters do not reach the enum, {:#?} prints it in its short form. C68_partial: the exact text for all parameters; the claim for {:?}. The sink is taken not to fail."
  },
  {
   "property": "C69",
   "status": "partial",
   "theorems": [
    "TB.Props.C69_partial",
    "TB.Props.C69_covers",
    "TB.Props.C69_refuted",
    "TB.Props.C69_with_line",
    "TB.Props.C69_make_tasks"
   ],
   "note": "False of the code: build.rs prints no rerun-if-env-changed. C69_partial: exactly which setting is used in every history in which the values have no line feeds (see C08). C69_with_line: with that line it would hold. C69_make_tasks: the Makefile tasks that should test ten settings test one. When cargo runs a build script is taken from its documentation."
  },
  {
   "property": "C70",
   "status": "proved",
   "theorems": [
    "TB.Props.C70_make",
    "TB.Props.C70_make_raw",
    "TB.Props.C70_access",
    "TB.Props.C70_release"
   ],
   "note": "from_tagged_box excepted for tuple variants with several fields (C30)."
  },
  {
   "property": "C71",
   "status": "proved",
   "theorems": [
    "TB.Props.C71_no_ub",
    "TB.Props.C71_foreign_stays_private",
    "TB.Props.C71_from_tagged_box"
   ],
   "note": "Exposed-provenance rules for histories of container operations. Observations are those of C46, so destructors of payloads do not run."
  },
  {
   "property": "C72",
   "status": "partial",
   "theorems": [
    "TB.Props.C72_partial",
    "TB.Props.C72_exclusive",
    "TB.Props.C72_read_only",
    "TB.Props.C72_sharp",
    "TB.Props.C72_freed",
    "TB.Props.C72_refuted"
   ],
   "note": "False of the code: TaggedBox is Copy when its inner type is, and the reference keeps only the copy it came from borrowed, so two copies give two live &mut to one value; the documented contract does not forbid it. C72_partial: true for clients that never copy a box. C72_exclusive: true with copies if the borrow rules are kept per location; C72_read_only: in particular if they only read. C72_sharp: that rule cannot be weakened. Stacked Borrows without protectors and interior mutability."
  },
  {
   "property": "C73",
   "status": "proved",
   "theorems": [
    "TB.Props.C73",
    "TB.Props.C73_memory"
   ],
   "note": "Programs are interaction trees over the generated functions; only terminating ones. What clone, eq, cmp and fmt do to the containers of the client is local to them; a closure that panics loses the containers it made."
  },
  {
   "property": "C74",
   "status": "partial",
   "theorems": [
    "TB.Props.C74_partial",
    "TB.Props.C74_latest",
    "TB.Props.C74_sharp",
    "TB.Props.C74_refuted"
   ],
   "note": "False of the code: ref_from_tagged_box reads a Box out of the container, which makes a unique pointer each time; a == a does it twice on one container and then reads the first. C74_partial: true if no call of ref_from_tagged_box on a container is made inside a closure running on it. C74_latest, C74_sharp: exactly which reads are defined. Variants with one Box field; Stacked Borrows without protectors; a Box is retagged when read from memory."
  },
  {
   "property": "C75",
   "status": "partial",
   "theorems": [
    "TB.Props.C75_partial",
    "TB.Props.C75_exact",
    "TB.Props.C75_refuted",
    "TB.Props.C75_reserved",
    "TB.Props.C75_payload",
    "TB.Props.C75_scope"
   ],
   "note": "False of the code: macro hygiene covers local variables only; structures, type parameters and the counter enum of the generated code capture names of the user. C75_partial: true for names that start with a capital letter and differ from the enum and the types of the same variant; C75_exact: exactly which renamings are possible. C75_reserved, C75_payload, C75_scope: every collision is rejected. Constants, unit and tuple structures of the user called like a generated variable are not modelled."
  },
  {
   "property": "C76",
   "status": "partial",
   "theorems": [
    "TB.Props.C76_partial",
    "TB.Props.C76_refuted",
    "TB.Props.C76_box",
    "TB.Props.C76_quickstart",
    "TB.Props.C76_macro",
    "TB.Props.C76_discriminant",
    "TB.Props.C76_macro_63"
   ],
   "note": "False of the code outside of the widths 56..60: the examples use discriminants up to 11, which do not fit in 3 bits or fewer, and macros do not compile below 56. C76_box, C76_quickstart, C76_macro: exactly where each group works. C76_discriminant, C76_macro_63: how they fail. Examples without effect and those marked should_panic are left out."
  },
  {
   "property": "C77",
   "status": "partial",
   "theorems": [
    "TB.Props.C77_partial",
    "TB.Props.C77_exact",
    "TB.Props.C77_refuted"
   ],
   "note": "False of the code: the closure gets a bitwise copy; what it does to the bytes of the payload is forgotten, but what it frees is freed (C77_exact), so setting a Cell<Box<u8>> leaves a dangling payload behind, and the next look is undefined behaviour (C77_refuted). C77_partial: true if changes through shared references are made only in the memory that the payload owns."
  },
  {
   "property": "C78",
   "status": "proved",
   "theorems": [
    "TB.Props.C78",
    "TB.Props.C78_model",
    "TB.Props.C78_text",
    "TB.Props.C78_unique"
   ],
   "note": "C78: acceptance and the code, token for token, for the literal macro text. C78_model: the function expand used by the other properties stands for exactly this code. C78_text: the rules are computed from the source text by the kernel. Input: tokens of the form #[..]* vis struct S, vis enum E { .. } whose braces hold tokens the user wrote (no fragments interpolated by another macro). The recursion limit is C54."
  },
  {
   "property": "C79",
   "status": "proved",
   "theorems": [
    "TB.Props.C79",
    "TB.Props.C79_new",
    "TB.Props.C79_model"
   ],
   "note": "sourceCrate: the text of the source files, lexed, expanded, parsed, and run by the interpreter in Rust/Eval. C79: round trip; C79_new: every input, with panic messages; C79_model: all 12 functions equal those of the model."
  },
  {
   "property": "C80",
   "status": "proved",
   "theorems": [
    "TB.Props.C80",
    "TB.Props.C80_model"
   ],
   "note": "C80: outcomes of new and all accessors, directly about the text; C80_model: all 13 inherent functions equal those of the model. Sizes of types are below 2^64."
  },
  {
   "property": "C81",
   "status": "proved",
   "theorems": [
    "TB.Props.C81",
    "TB.Props.C81_skipped",
    "TB.Props.C81_generated",
    "TB.Props.C81_fmt",
    "TB.Props.C81_natural"
   ],
   "note": "C81: any implementation of TaggableInner; C81_generated: those made by tagged_box!; C81_skipped: implementations that do not call the closure; C81_fmt: numeric, pointer and debug formatting of both types. Natural: the implementation treats the closure as a black box, which Rust guarantees; C81_natural proves it for generated ones."
  },
  {
   "property": "C82",
   "status": "proved",
   "theorems": [
    "TB.Props.C82",
    "TB.Props.C82_payload",
    "TB.Props.C82_lend",
    "TB.Props.C82_read",
    "TB.Props.C82_unknown",
    "TB.Props.C82_model",
    "TB.Props.C82_program"
   ],
   "note": "IsProgram: the invocation expanded by the rules in the macro text, parsed, and run by the interpreter in Rust/GenEval. C82: round trip through the container; C82_payload: From for payloads; C82_lend, C82_read, C82_unknown: the other readers; C82_model: every generated function equals that of the model; C82_program: every accepted declaration becomes such a program. C82_read has the layout condition of the statement (without it: C30). Variants are smaller than 2^64 bytes."
  },
  {
   "property": "C83",
   "status": "proved",
   "theorems": [
    "TB.Props.C83",
    "TB.Props.C83_any",
    "TB.Props.C83_model"
   ],
   "note": "builtCrate: build.rs run from its text by the interpreter in Rust/Script, its output read as in Cargo, the crate of C79 compiled with these settings. C83_model: the output is that of the model behind C08, C59 and C69. C83_any: values with line feeds (see C08) never give another width."
  },
  {
   "property": "C84",
   "status": "proved",
   "theorems": [
    "TB.Props.C84",
    "TB.Props.C84_model"
   ],
   "note": "runText: the clients of C27, whose operations call the functions of the crate by the interpreter of C79 to C81. C84_model: for every client the run from the text is that of the model, so that the other properties of histories (C17, C21, C23) carry over."
  },
  {
   "property": "C85",
   "status": "proved",
   "theorems": [
    "TB.Props.C85",
    "TB.Props.C85_dtors",
    "TB.Props.C85_model",
    "TB.Props.C85_program"
   ],
   "note": "runGen: the clients of C46, whose operations run the expansion of the macro text and the text of the crate, linked with each other. C85: results and panics as for plain values; C85_dtors: with destructors, as the crate runs them (C46 refutes that they run as for plain values). C85_model: the run from the text is that of the model. C85_program: the programs quantified over exist and are unique."
  },
  {
   "property": "C86",
   "status": "proved",
   "theorems": [
    "TB.Props.C86",
    "TB.Props.C86_exact",
    "TB.Props.C86_text",
    "TB.Props.C86_unique"
   ],
   "note": "C86: the form of an input that the macro text expands, for arbitrary token trees. C86_exact: with C78, exactly which inputs expand, and to what. C86_text: the same for every text, from its characters (lexer included)."
  },
  {
   "property": "C87",
   "status": "proved",
   "theorems": [
    "TB.Props.C87",
    "TB.Props.C87_unknown",
    "TB.Props.C87_generated",
    "TB.Props.C87_program",
    "TB.Props.C87_invocation"
   ],
   "note": "C87: round trip and lending in all sixteen settings. C87_unknown: other discriminants. C87_generated: the functions in the guide and the generated ones, on all inputs. C87_program: the program quantified over exists and is unique. C87_invocation: the invocation in block 0 of the guide is the one C87_generated is about."
  },
  {
   "property": "C88",
   "status": "proved",
   "theorems": [
    "TB.Props.C88",
    "TB.Props.C88_builds"
   ],
   "note": "C88: from the environment and the text of the invocation to the results of clients (results and panics; for destructors see C85_dtors). C88_builds: what builds, and to one program. The settings quantified over are those the build script selects; the declaration must be one the compiler accepts (Declared)."
  },
  {
   "property": "C89",
   "status": "proved",
   "theorems": [
    "TB.Props.C89",
    "TB.Props.C89_discriminant",
    "TB.Props.C89_tests"
   ],
   "note": "C89: the examples, from their text, in exactly which settings. C89_discriminant: the one that fails elsewhere, for every environment with memory. C89_tests: the tests of tagged_pointer.rs apart from string_pointer (C94). C76 is about the same examples transcribed by hand, for arbitrary payloads."
  },
  {
   "property": "C90",
   "status": "proved",
   "theorems": [
    "TB.Props.C90",
    "TB.Props.C90_tests",
    "TB.Props.C90_examples",
    "TB.Props.C90_storage",
    "TB.Props.C90_layout",
    "TB.Props.C90_narrow"
   ],
   "note": "C90: for all user code of the fragment. C90_tests, C90_examples, C90_storage: the code of the repository, from its text. C90_layout: with the layout of rustc, the test inner_from_tagged_box is undefined behaviour. C90_narrow: so is inner_into_tagged_box with 63 bits. The compiler must accept the invocation (Declared), which it does only with at least 56 bits reserved; Makefile.toml runs the tests from 48 bits on."
  },
  {
   "property": "C91",
   "status": "proved",
   "theorems": [
    "TB.Props.C91",
    "TB.Props.C91_narrow",
    "TB.Props.C91_zst"
   ],
   "note": "C91: exactly where the test new works. C91_narrow: what happens elsewhere. C91_zst: the test new_zst, for every allocator and target. The attributes of the tests are not part of the statements."
  },
  {
   "property": "C92",
   "status": "proved",
   "theorems": [
    "TB.Props.C92",
    "TB.Props.C92_program",
    "TB.Props.C92_unknown",
    "TB.Props.C92_test",
    "TB.Props.C92_assert"
   ],
   "note": "C92: the functions written by hand, for all values. C92_program: they parse, in all settings. C92_unknown: other discriminants. C92_test: the statements of the test. C92_assert: assertions with other values fail. The replaced syntax (spell) is listed in DESIGN.md."
  },
  {
   "property": "C93",
   "status": "proved",
   "theorems": [
    "TB.Props.C93",
    "TB.Props.C93_clone",
    "TB.Props.C93_assert",
    "TB.Props.C93_derived"
   ],
   "note": "C93: for all user code of the fragment. C93_derived: clones are made with the clone of the fields. C93_clone: the test clone, from its text. C93_assert: its assertions with other numbers, passing and failing. What the types of fields do (clone, ==, *=, push_str) is a parameter with hypotheses."
  },
  {
   "property": "C94",
   "status": "proved",
   "theorems": [
    "TB.Props.C94",
    "TB.Props.C94_compare"
   ],
   "note": "C94: the tree of the test is that of the text, and its results with any text in the string. C94_compare: the comparison of the contents, passing and failing."
  },
  {
   "property": "C95",
   "status": "proved",
   "theorems": [
    "TB.Props.C95",
    "TB.Props.C95_derive",
    "TB.Props.C95_supers",
    "TB.Props.C95_pointer",
    "TB.Props.C95_auto",
    "TB.Props.C95_layout"
   ],
   "note": "C95: the implementations and their bounds. C95_derive: what may be derived on a declaration (as C57, from the text). C95_supers: supertraits. C95_pointer: derived comparison and hash. C95_auto, C95_layout: auto traits and size, from the fields in the text."
  },
  {
   "property": "C96",
   "status": "proved",
   "theorems": [
    "TB.Props.C96",
    "TB.Props.C96_typed",
    "TB.Props.C96_new",
    "TB.Props.C96_variant",
    "TB.Props.C96_example",
    "TB.Props.C96_named"
   ],
   "note": "C96: when Container::from compiles, for arguments of which a set of types is known. C96_typed: one type. C96_new: T::new(). C96_variant: which function is called and what it does. C96_example: the compile_fail example from its text. C96_named: not for named fields, contrary to the documentation."
  },
  {
   "property": "C97",
   "status": "proved",
   "theorems": [
    "TB.Props.C97",
    "TB.Props.C97_program",
    "TB.Props.C97_unknown",
    "TB.Props.C97_generated",
    "TB.Props.C97_declaration"
   ],
   "note": "C97: values go in and come back. C97_program: the text is one program. C97_unknown: other discriminants. C97_generated: the same as what the macro generates for this enum. C97_declaration: it is not the expansion of the invocation above it in the text, but of that of the last example."
  },
  {
   "property": "C98",
   "status": "proved",
   "theorems": [
    "TB.Props.C98",
    "TB.Props.C98_same",
    "TB.Props.C98_built",
    "TB.Props.C98_misses"
   ],
   "note": "C98: exit code, history and last output of both tasks, for any outcomes. C98_same: all ten or none. C98_built: after a build, its setting is tested. C98_misses: the report is neither sound nor complete for the settings listed."
  },
  {
   "property": "C99",
   "status": "proved",
   "theorems": [
    "TB.Props.C99",
    "TB.Props.C99_only",
    "TB.Props.C99_text",
    "TB.Props.C99_verify",
    "TB.Props.C99_error"
   ],
   "note": "C99, C99_only: the value of the expansion of __generate_const_sizes!. C99_text: the rules are those of the file. C99_verify: no expansion for any input. C99_error: the error arm is never entered, without end."
  },
  {
   "property": "C100",
   "status": "proved",
   "theorems": [
    "TB.Props.C100"
   ],
   "note": "The file from its text; for every number of iterations, what is allocated afterwards. black_box and b.iter are modelled by hand."
  }
 ]
}