# Formal model of playXE/tagged-box in Lean 4

## 1. Layers of the model (all under `lean/Verif/`)

| Module | Models |
|---|---|
| `Config` | `src/discriminant.rs` (settings table), `build.rs` (width selection) |
| `Cargo` | how cargo reads what a build script prints (not code of the repository) |
| `Build` | when cargo runs `build.rs` again (not code of the repository) |
| `TaggedPointer` | `src/tagged_pointer.rs`, on exact 64-bit words (`BitVec 64`), debug and release |
| `Mem` | byte-level memory, live heap blocks, event trace, allocator as a parameter, outcomes `ret / panic / ub` |
| `Layout` | `repr(C)` struct layout (used by the generated payload structs) |
| `TaggedBox` | every inherent function of `src/tagged_box.rs`, plus the parts of `alloc::boxed::Box` that `into_box` relies on |
| `Traits` | `TaggableInner` as a dictionary; `Clone`, `PartialEq`, `PartialOrd`, `Ord`, `Debug`, `Display` for `TaggedBox<T>` |
| `Fmt` | `impl_fmt!`, `fmt::Pointer`, `fmt::Debug` for pointers, and the part of `core::fmt` they reach |
| `Provenance` | the functions of `src/tagged_box.rs` again, on a heap whose allocations have identities and whose pointers have provenance (exposed-provenance rules) |
| `Borrow` | the functions of `src/tagged_box.rs` again, with a stack of borrows per byte (Stacked Borrows), and clients that hold references |
| `BorrowOwned` | the functions `tagged_box!` generates for variants `V(Box<U>)`, with the same rules for the memory the boxes point to |
| `Macro/Syntax`, `Macro/Tables` | tokens, declarations; the literal arms of the tuple macros (`tagged_box_macro/meta_macros.rs`) |
| `Macro/Expand` | `tagged_box!` and its component macros (`tagged_box_macro/mod.rs`): parsing, expansion, compile-time checks |
| `Mbe/*` | the compiler's side of `macro_rules!`: lexer, rules, matching, transcription, expansion of all invocations (not code of the repository) |
| `Source/*` | the literal text of `tagged_box_macro/mod.rs` and `meta_macros.rs`, the rules in it (checked against the text in the kernel), and the tokens of a declaration |
| `Rust/*` | a parser and an interpreter for the part of Rust the crate's own functions are written in (not code of the repository); `Source/Code` is the parsed text of `discriminant.rs`, `tagged_pointer.rs`, `tagged_box.rs` (checked against the text in the kernel) |
| `Rust/GenCode` | the syntax tree of what `tagged_box!` expands to, as a function of the declaration (`tagged_box_macro/mod.rs`, `meta_macros.rs`); proved to be what the parser makes of the expansion |
| `Rust/GenEval` | an interpreter for this code (not code of the repository) |
| `Rust/Client`, `Source/ExampleCode` | the examples in the comments of `src/tagged_box.rs` and the tests of `src/tagged_pointer.rs`, from the text; an interpreter for such code (not code of the repository) |
| `Rust/UserCode`, `Source/TestsText`, `Source/TaggableText`, `Source/ReadmeText`, `Source/UserCode` | `tests/tagged_box_macro.rs`, the tests in `src/taggable.rs`, the examples of `README.md`, of `src/lib.rs` and of the macro, from the text; an interpreter for such code (not code of the repository) |
| `Rust/BoxTests`, `Source/BoxTests` | the tests `new` and `new_zst` of `src/tagged_box.rs`, from the text (run by `Rust/Client`; not code of the library) |
| `Rust/HandWritten`, `Rust/HandCode` | the test `tagged_box` of `src/tagged_box.rs`: the implementation of the traits by hand, and the statements that use it, from the text (not code of the library) |
| `Rust/MoveCode`, `Source/MoveCode` | user code that clones containers and changes boxes, and the test `clone` of `src/tagged_box.rs:659-695` from its text (not code of the library) |
| `Rust/StringTest` | the test `string_pointer` of `src/tagged_pointer.rs:257-272` (not code of the library) |
| `Rust/Headers`, `Source/Headers` | derive attributes, structures and first lines of `impl` blocks, from the text of `src/tagged_pointer.rs` and `src/tagged_box.rs` |
| `Rust/FromCheck`, `Source/FromCheck` | the compiler's choice of an implementation of `From` for `Container::from(e)`; the example marked `compile_fail` (`src/tagged_box_macro/mod.rs:684-700`) |
| `Rust/ShownCode` | the code shown as expanded in the documentation of the macro (`src/tagged_box_macro/mod.rs:627-679`), and its syntax trees |
| `Rust/Tasks`, `Source/Tasks`, `Source/MakeText` | the scripts in `Makefile.toml`: text, syntax trees, an interpreter (variables, vectors of strings, `println!`, `env::set_var`, `Command`) |
| `Source/UnusedRules` | the rules of the exported macros that nothing invokes, checked against the text |
| `Rust/Bench`, `Source/Bench`, `Source/BenchText` | `benches/tagged_box.rs`: the code of one iteration of each benchmark, from the text |
| `Rust/Guide`, `Rust/GuideCode`, `Source/GuideText` | the code blocks in the documentation comment `src/manually_impl_enum.rs`, from its text; type inference for that code (not code of the repository); its syntax tree |
| `Rust/Script`, `Source/Build` | an interpreter for build scripts (not code of the repository); the syntax tree of `build.rs`, checked against its text |
| `Macro/Run` | execution of the generated functions on the heap of `Mem` |
| `Macro/ProvRun` | the generated functions again, on the heap of `Provenance` |
| `Macro/Prog`, `Threads` | the same functions as small-step programs; interleavings |
| `Macro/Generators` | the generator macros for the tuple macros (`meta_macros.rs`) |
| `Macro/Depth` | nesting depth of the expansion against `recursion_limit` |
| `Macro/Derive` | which derives the generated items accept |
| `Macro/Types` | auto traits and layout of `TaggedPointer`, `TaggedBox<T>` and the container |
| `Spec/*` | independent specifications: `Box` (arithmetic), `History`, `Ledger` (abstract stores), `Decl`, `Sig` (declarations and what their functions should be), `Container` (plain enum values), `Reentrant` (programs whose user code uses containers), `Text`, `Threads`, `Sharing`, `Owned` (values that own memory), `Recursive` (families of enums with fields of their container types), `Borrow` (who may use which reference), `SourceRun` (calling a function of the crate's text), `GenRun` (a declaration the compiler accepts, the program it becomes), `Invocation`, `RustCode`, `Generated` (the tokens of an invocation and the Rust code of its expansion), `Whole` (from the characters to the running program), `BuildRun`, `SourceHistory`, `ContainerRun`, `Guide`, `Examples`, `Input`, `UserRun` (what C83 to C90 compare) |
| `Lemmas/*` | proofs that are not property statements |
| `Props/*` | the property theorems (`Cnn_..`) and, beside each, a concrete case meeting its hypotheses |
| `Docs` | the examples in the documentation comments |
| `Replay` | the repository's integration tests executed in the model (examples on literals, a check of the model, not proofs) |
| `Demo`, `DemoMacro`, `DemoOwned` | a concrete environment, concrete declarations and a payload type that owns memory, for those cases and for counterexamples |

## 2. Modelling decisions

* A Rust type is a *leaf*: size, alignment, a validity predicate on (possibly uninitialised) bytes, and
  whether it has a destructor.  A *shape* is a type with fields at offsets (a leaf at offset 0, a `repr(C)` struct
  whose offsets are computed by the C layout algorithm, or a Rust tuple whose offsets are chosen by the compiler).
  A value of a shape is the list of its fields' byte strings.
* The allocator is an arbitrary function of the whole state and the requested layout.  "Lawful" means: null or aligned,
  in the target's address space and disjoint from all live blocks (the `GlobalAlloc` contract).
* rustc's layout of tuples `(A, B, ..)` (`repr(Rust)`) is an arbitrary function subject only to what the Rust reference
  guarantees (fields aligned, disjoint, in bounds).
* A typed read or write through a pointer that is null, misaligned, not inside one live block, or whose bytes are not
  valid for the type is `ub`; freeing with a pointer/layout that does not match a live block is `ub`.
* A panic is an outcome that carries the state at the panic, including destructors run by unwinding.
* `debug_assert!` is governed by a `debug : Bool` of the build, `assert!` is not.
* Destructors are events in the trace.  Destructor bodies are not modelled in `Mem`; in `Spec/Owned` they are executed, from the
  events, when the crate's code has ended (in that code destructor calls come last).
* User code (`clone`, `eq`, `cmp`, `fmt`, closures, hand-written `TaggableInner`) is a parameter: an arbitrary computation on the
  heap that may panic.  Where it must be safe code, the hypothesis says so (`UserFn.OK`: it leaves what is alive alone).
* Macro input is a token list.  A `$ty:ty` fragment is whatever an arbitrary parser (`parseTy`) accepts, so types may be of any
  number of tokens.  Meaning of types (leaf, identity, traits) comes from a parameter `Rustc`.
* Threads interleave at allocator calls, whole typed reads and writes, destructor runs and calls of user primitives.  Data races are
  excluded by the disjointness hypotheses, not detected.

## 3. Per property: what is modelled and how it is proved

C01 C03 C04 C05 C06 C09 C10 C11: word arithmetic on `BitVec 64`, stated on `toNat`; proved for every row of the settings table.

C02 C12: `Except`-valued constructors with a build mode; the documented claim is refuted for release / dangling, the debug half proved (`_partial`).

C07: whole-table proof; the claim fails for the 52-bit row (4068 instead of 4095): refuted, the rest `_partial`.

C08: what the build script prints, as a function on all strings; cargo reads the output line by line. `C08_partial`: values without line feeds. `C08_any`: what holds of all values.

C13 C14: digit printers and a reader; round trip and injectivity.

C15 C16 C18 C19 C22 C24 C25 C26: Hoare-style theorems about the box functions in an arbitrary heap satisfying the heap invariant.

C17 C21 C27: invariants and a refinement to an abstract store, by induction over arbitrary op lists.

C20 C23: refuted by witnesses valid for every type concerned (leak; double drop of zero-sized values); positive halves `_partial`.

C28 C29 C31 C35 C41 C42 C43 C45 C51: the token-level macro model; proofs by induction over the declaration.  `C51_self`: a
payload type cannot mention `Self`.

C75: from `C51`, since everything in the specification of acceptance but two clauses is independent of the variants' names.

C76: the examples are transcribed (`Docs.lean`); the box examples work exactly for widths up to 60, the quickstart exactly from 56 on and the example of
`tagged_box!` exactly for 56..62.

C30: refuted for multi-field tuples under a legal tuple layout; proved for every layout that agrees with `repr(C)` (`_partial`).

C32: field destructors never run (proved); the enum's own destructor runs for unit variants (refuted), hence `_partial`.

C33: exact capacity.  C34: refuted by a unit variant; `_partial` for debug builds and payload variants.

C36: refuted by a safe program; `_partial`: sound on boxes made by the generated `into_tagged_box`.

C37 C38 C39 C40 C48 C49: generic trait code over a lawful dictionary, instantiated with the macro's dictionary.

C40: format parameters are not forwarded (refuted); output equals default-parameter output (`_partial`).

C44: refuted for 48..55 bits (`as u8` against `u16`); proved for 56..63 (`_partial`).

C46 C47: refinement of the container machine to plain enum values, and of interleavings to isolated runs.

C53: outcome of `TaggedBox::new` when the range check panics, in an arbitrary heap; the block stays allocated.

C54: depth of the nested expansions computed from the same arm tables as the expansion itself; exact formula by induction over the
declaration, hence an iff with any `recursion_limit`; refuted with the default limit for 56..58 bits.

C55: exact destructor events of a conversion, from the simulation lemmas; refuted for `Drop` enums and zero-sized payloads with destructors.

C56: a mutating callback returns the final content of its local copy; refuted for every enum, exact behaviour proved.

C57: table of trait bounds of `TaggedBox` against the requirements of derives; iff for all sets of derives.

C58: as C47 with blocks that several threads see and none modifies; the crate's programs modify only what they allocate (structural
induction over programs), user code is assumed not to modify what it looks at.

C59: message text, build script and settings table composed; exact set of settings that accept a rejected address; refuted at 63 bits.

C60 C61 C62: an arbitrary ownership relation (value, blocks it owns, what it stands for), stable as long as the owned blocks are; user code
is constrained by footprints (which live blocks it may change); simulation by abstract values, with an invariant that different values own
different blocks and that nobody owns the blocks of containers.  C62 refuted by a `Box<u8>` payload.

C77: the same machine with an operation that changes a payload through a shared reference. For containers the closure works on the copy made by
`ref_from_tagged_box`, and the copy is forgotten. True if the bytes of the payload stay as they are (`C77_partial`, part of the simulation of C60);
`C77_refuted`: a run with a payload `Cell<Box<u8>>`, evaluated by the kernel.

C63: containers among the fields are eight bytes that hold the word.  `Rep` relates a container and a heap to a finite tree by recursion on
the tree, and lists the blocks of its containers; nothing is ever freed or overwritten, so it is stable.  `C63_separate`: the blocks of
all trees the client holds, counted together, contain no block twice (building and cloning add fresh ones).  Derived `clone`,
the comparisons and the walk recurse with the stack depth as bound.  The enums form a family (mutual recursion), and handles carry the index
of their enum.  `C63_lawful`: what data comparisons satisfy, comparisons of containers satisfy, by induction on typed trees (lexicographic).

C64: `runClientQ` runs in lockstep with `runClient`; invariant (`Ghost`): every live allocation the program did not have at the start is
exposed.  The simulation of C27 says which block a handle's access falls into.

C65: "has the auto trait" is a greatest fixed point over obligations (trait, type); the fields of the crate's types are unfolded, payload types
are a parameter.

C66: `repr(transparent)` as a function on sizes and alignments.  C67: exact set of storable values per setting; whole-table proof.

C68: `derivedDebug` (text of `debug_struct` with one field, through `PadAdapter` for `#`) around C40's `TBox.debugFmt`.

C69: a workspace remembers the output of the last run of `build.rs`; histories of setting the variable, changing files, cleaning, building.
The values have no line feeds.  `C69_with_line`: the same model with the missing line satisfies the claim.  `C69_make_tasks`: the loops of
`Makefile.toml` are such histories.

C70: the generated `into_tagged_box` equals `TBox.new` at the variant's payload shape, then the facts about boxes (C15 to C19) and about stored values
(`Stores`) apply to the same box.

C71: lockstep with the run of C46; invariant: a box's block is exposed.  User code on the provenance machine is lowered to the address machine (a choice
of preimage), so that C46's step lemmas apply.

C72: lockstep with the abstract store of C27, the simulation of C27 extended by an invariant on the borrow stacks: every byte of a live location has an
exposed read-write item, every live `&` its item, a live `&mut` the top item.  For clients without copies the per-handle rule of the compiler
implies the per-location rule, because handles and locations correspond one to one.

`C72_sharp`: with copies, the per-location rule is exactly what separates defined from undefined behaviour.  `C72_freed`: once a box was
freed, every use of a copy is detected.

C74: lockstep with an abstract store of containers, values and running closures; invariant (`WSim`): every container has its own block, with the address of a
box whose block nobody else owns, the tag written beside the address grants writing, and the closure of the latest call on a container has the top item.
`C74_sharp`: for any earlier call the read is undefined, because the later retag removed its item.

C73: programs as trees (user code inside the operations are programs again), run on the heap and on plain values; induction on the program, with
a relation between the two kinds of computation that is closed under sequencing, clean-up and `catch_unwind`.

C78: the source files are embedded as text (`scripts/gen_sources.py`). The kernel computes the rules from the text (`C78_text`). One lemma per rule says what
it makes of a variant (`MbeSteps`), the tuple tables are treated uniformly in the number of fields (`MbeTuple`), induction on the declaration gives the
expansion of each component macro (`MbeChain`), and `MbeTop` puts them together. Rejection is proved for every other token list: either no rule of
`__make_enum` applies or `__expand_tuple_arm` ends in its error arm. `C78_model` links this to the function `expand` that C28 to C57 are about, so for those
the reading of the macro source is no longer trusted, only the engine in `Mbe`.

C79 to C81: the three source files are embedded as text. `sourceCrate` lexes the text, expands the macros used at item level (`impl_fmt!`, and the macro that
writes the settings table), parses the items, and selects what `cfg` selects; the kernel checks that the result is the syntax tree in `Source/Code`
(`source_parts`). The interpreter `ev` in `Rust/Eval` runs function bodies on the memory of `Mem`. For each function one lemma (`RsPtr`, `RsBox`, `RsTraits`,
`RsFmt`) computes what running its body does on arbitrary arguments in an arbitrary state, by rewriting with the interpreter's equations; the settings are
handled by case distinction on the table. `C79_model`, `C80_model`, C81 and `C81_fmt` are these results. `C79`, `C79_new` and `C80` combine them with C01 and C15 into
statements in which no function of the model occurs. The hypothesis `Natural` of C81 (the implementation does not look into the closure) holds in Rust by
parametricity; it is proved for every generated implementation (`C81_natural`).

C82: `IsProgram` starts from the literal invocation: expansion by the rules in the text (C78), the parser of `Rust/Parse`, the interpreter of `Rust/GenEval`, which calls
the functions of the crate's text by the interpreter of C79 to C81. `generated_parse` (`Lemmas/Ps*`) proves, by induction on the declaration, that the parser makes `Gen.items`
of the expansion. For each generated function one lemma (`Lemmas/Gs*`) computes what running its body does on arbitrary arguments in an arbitrary state: the arms of a `match`
before the right one are skipped by induction, the right one is computed by case distinction on the form of the variant. `C82_model` collects these results; `C82`, `C82_payload`,
`C82_lend`, `C82_read` and `C82_unknown` combine them with C29, C31, C30 and C35 into statements in which no function of the model occurs. `C82_program`: every declaration the compiler
accepts becomes a program.

C83: `builtCrate` composes the interpreter of `Rust/Script` on the text of `build.rs`, `Cargo`, and the crate of C79. `build_prints` computes the run for an arbitrary environment (the
arms of the `match` that do not apply are skipped one by one); the rows of `src/discriminant.rs` in the text are those of `table` (`rows_eq`), so C08 says which is compiled in.

C84: the clients of C27 with every operation replaced by calls into the text (`Spec/SourceHistory`). One step equals one step of the model (`textStep_eq`, from the lemmas behind
`C80_model`), hence every run; C27 and C21 then hold of the text. What the client does itself (read through a reference, drop a `Box`) is not code of the repository.

C85: the clients of C46 with every operation run from the text (`Spec/ContainerRun`): conversions by the interpreter of C82, the traits of `TaggedBox` by that of C81, with an
implementation of `TaggableInner` that is itself the interpreter of C82 (`linked`). As long as the containers store values, one step equals one step of the model (`genStep_eq`), hence
every run (`C85_model`); C46 then holds of the text. What `#[derive]` writes for the container is not code of the repository: it calls the implementation of the only field.
Formatting functions of the user append (`AppendsAll`).

C86: `header_inv` inverts the matching of the only rule of `tagged_box!` on arbitrary token trees, fragment by fragment (`MbeHeader`). What follows the header is C78. `MbeLex` proves of
the lexer that the tokens of any text are those C78 speaks about (`C86_text`): the user's punctuation and literals are tokens like those of the rules, so a user's `@`, `=>` or `;`
could match them, and does not.

C87: `IsGuide` starts from the text of `src/manually_impl_enum.rs`: the code block is cut out of the comment (comment markers, fences, hidden lines), lexed, parsed, and run by the
interpreter of C82. What the compiler infers in this code is put in by `Infer` (listed at the top of `Rust/Guide.lean`); it is trusted. `C87_generated` goes through C82 and C50.

C88: `IsBuilt` (`Spec/Whole.lean`) chains the lexer, the macro expander, `build.rs`, cargo and the crate; the theorem is C86_text, C83 and C85 put together, with nothing left to
relate by hand between them. C86_unique: an input is read in one way only.

C89: `docBlocks` and `testFns` cut the code out of the text, the parser of C79 reads it, and `runBody` (`Rust/Client.lean`; simplifications at its top) runs it, calling functions
of the crate through the interpreter of C79 to C81. Values of `usize`, `String`, .. are opaque (`Std`), arbitrary up to `StdOK`. Each example is run symbolically, for all
settings at once. The memory of a local variable whose address is taken is assumed to hold its value (`IsVar`). The test `string_pointer` (slices and UTF-8) is in C94.

C90: `runUser` (`Rust/UserCode.lean`) interprets user code over an interface (`Iface`) to the generated functions. `crateIface` is the code of the macros and of the crate, run from
the text as in C85; `plainIface` uses the enum values themselves. C90 is a simulation between the two for all code in the fragment. The derived `PartialEq` and `PartialOrd` of the
enum are modelled (`eqItem`, `cmpItem`), destructors of values the code drops are not (see C46, C85). Literals are arbitrary up to `LitsOK` and `Usual` (`Spec/UserRun.lean`).
`C90_tests` and `C90_examples` run the text of the tests and examples with plain values and transfer. `C90_layout` is the finding on `inner_from_tagged_box`.
`C90_storage` is the test `storage` of `src/tagged_box.rs`; literals of arrays, vectors and user structures are opaque values like the others (`UsualStorage`).
The tests in `src/taggable.rs` and the example in `README.md` are the same text, which is part of the theorems. `C90_narrow`: with 63 bits the test `inner_into_tagged_box` is
undefined behaviour, as its four variants do not fit (compare C34).

C91: the statements of the tests are taken from the text (`boxTest`) and run by `runBody`, as in C89. The types the tests declare are left out of the code and treated like
`String`: `StdOK` says that they have a layout and that literals are values of it. Members of a structure literal are evaluated (`constFields`). On a target with 32 bits
`usize::max_value() << 32` is refused by the compiler, so `C91` is about 64 bits; `C91_zst` is not.

C92: the items in the test are parsed from the text and made a program like the generated code and the guide (C82, C87), so `C92` has the same shape as `C87`. Before that, syntax
that the interpreter of the generated code does not have is replaced (`spell`): patterns that are literals become guards, `*b.as_ptr::<T>()` of a `Copy` type is
`b.as_ptr::<T>().read()`, `unreachable!()` is `panic!` with its message, literals used as discriminants have the type `Discriminant`. The statements of the test have an interpreter of their
own (`hstmts`), in which field types are opaque bytes, as in C90, and every function of the crate or of the test runs from text (`handOps`): `TaggedBox::new`, `discriminant`,
`as_ref`, `Clone for TaggedBox`, and the hand-written functions that it calls. The derived `Clone` of the container clones its field; that of the enum, whose fields are `Copy`, gives the
same value.

C93: as C90, with ownership. In C90 a box never changes, so every value that was read stays true; here `as_mut_ref` changes bytes, and the simulation (`mstmts_agrees`) carries the
blocks of all boxes that variables own, which are pairwise disjoint: a variable that is used loses its box, a new box has a new block, and a change touches only one block. `a *= b` is
parsed as `mul_assign(a, b)` (`mulTTs`); what `*=` and `push_str` do to the bytes of a field is a parameter (`Ops`), as are `clone` and `==` of the types of fields; `as_mut_ref` itself, and `Clone for
TaggedBox`, are the text of the crate. The derived `Clone` of the container clones its field, that of the enum its fields (`cloneItem`). A `String` is a value of 24 bytes without the
memory it points to, so the hypothesis about strings (`Strings`) is for a set of texts, which has to contain the two of the test. Dropping the variables at the end of the
test is not modelled here (boxes have no destructor, C20). If the enum is `Copy`, so are boxes, and using a variable does not move it: code that relies on this is outside the fragment.

C94: the tree of the test is that of the text (`tests_source`, C89); it is run by an interpreter of its own (`runString`), where a `String` is an address and a length and its contents
are bytes in memory, so that reading them through the tagged pointer is a read of the heap. `new`, `discriminant`, `as_u64` and `as_ptr` run from the text of the crate. UTF-8 is Lean's
`String.toUTF8`. Modelled by hand: `String::from`, `len`, `slice::from_raw_parts`, `str::from_utf8`, and the drop of the string at the end (not during unwinding).

C95: `crateImpls` reads the structures with their attributes and the first lines of all `impl` blocks, with the bounds on `T` wherever they stand, after expansion of `impl_fmt!`, from the
text of the two files (no other file of the crate has an `impl` outside of macros and tests). Arguments of bounds (`PartialEq<T>`) are not read. C95_derive says that the bounds assumed for C57 are those in the text, C95_auto
and C95_layout the same for the structures of C65 and C66. What derive macros generate is by hand (`StructInfo.eq`, `cmp`, `hash`): field by field in the order of declaration.

C96: `fromArgs` are the implementations of `From` for the container in the expansion of the invocation (read from the macro text, as for C82) and the reflexive one of `core`; `OneImpl` is the rule of the
compiler: exactly one of them must be for a type the argument can have. The types of arguments are by hand: literals with suffix, `T::new()` (`newTy`, arbitrary in C96; in C96_example the hypotheses on it are that `String::new()` is
a `String` and that no `Vec` is one of the five other types). Not modelled: implementations of `From` the user adds, literals without suffix (which fall back to `i32`), `From<!>`.

C97: as C92 (the program is `handCrate` of the tokens of the example, `sourceCrate` is the crate), and as C87_generated for the comparison with the macro. Not modelled: the derives of the example (C95 has what they expand to for
generated code), and the unused `ManuallyDrop` import. `String` (discriminant 2) does not fit with 63 reserved bits, so C97 asks that the discriminant of the value fits; what happens otherwise is C34 and C90_narrow, through C97_generated.

C98: the script of a task is taken out of the text of `Makefile.toml` (`taskLines`), parsed with the parser of the crate (the loop is split off first, in `pTask`), and run by `Rust/Tasks.lean`; by hand is what `cargo` with these arguments
does: `test` and `miri test` build (as in C69) and have an outcome, a parameter; `clean`; `miri setup`, which changes nothing. One build cache for both (miri has its own directory, which `clean` removes as well). Commands can always be started
(`unwrap` does not panic). C98_same and C98_built use C69_make_tasks, whose histories are now known to be those of the text.

C99: the macro engine of C78 on the rules of `Source/UnusedRules`. The types are passed as fragments, as in the invocations that are commented out (`mod.rs:189,208`). The value of the expansion is read by `sumValue` in `Spec/Unused.lean`, which
accepts exactly a number plus blocks of the form `{ const N: usize = core::mem::size_of::<T>() * 8; N }`; overflow of `usize` is not modelled. For the error arm, `nested rc n` gives the arguments of the `n`-th invocation that follows.
`$x:ty` asks the compiler whether a type can begin with the first token when a parsed fragment comes later in the input.

C100: `Rust/Bench` finds the closures given to `b.iter` in the text of the file; their code is run by the interpreter of C90 with the generated code. Modelled by hand: `black_box(e)` is `e`; `b.iter` runs the closure some number of times
(`iterations` in `Spec/Bench.lean`) and drops each result, which does nothing as `TaggedBox` has no destructor (C95). The benchmarks `TaggedBox::new` and `Box::new` use `[100usize; 100]`, which is not in the language of the interpreter; the
theorem says only that they are there. The sizes of `usize`, `f32`, `u32` and `bool` are a hypothesis (`Sizes64`).

C50: equality of two interpretations.  C52: equality of literal tables with generator output.

## 4. Trusted base

**Kernel and axioms.** Lean 4.33.0's kernel.  No axioms of our own, no `sorry`/`admit`, no `native_decide`/`bv_decide`.  Theorems named
in `MANIFEST.json` depend on exactly these axioms (`#print axioms`):

* none: `C52_partial`
* `propext`: `C38_any_implementation`, `C78_text`, `C49_skipping`, `C57_exact`, `C57_partial`, `C57_refuted`, `C66_partial`, `C66_refuted`, `C69_covers`
* `propext`, `Quot.sound`: `C86`, `C78_unique`, `C81_natural`, `C02_new_panics_release_refuted`, `C07_constants_refuted_52`,
  `C16_mutation`, `C21_never_deallocates`, `C25_new_unchecked`, `C26_copies_alias`, `C33_all_fit`,
  `C52_generators`, `C52_refuted`, `C64_foreign_stays_private`, `C64_new_unchecked`, `C65_auto`, `C65_box`, `C65_recursive`,
  `C71_foreign_stays_private`, `C72_refuted`, `C74_refuted`
* `propext`, `Classical.choice`, `Quot.sound`: all others.

**Reading of the source.** Each definition cites the lines it models.  That these definitions say what the Rust code says is trusted, as
is the fragment of Rust's semantics in `Mem`, `Layout` and `Fmt` (allocator contract, typed access, `repr(C)`, `core::fmt`).

For the expansion of `tagged_box!` the reading is checked (C78): trusted are the embedded text (a copy of the two files), the macro engine in `Mbe` (its
simplifications are listed at the top of `Lex`, `Rules`, `Match` and `Expand`; nesting depth is the subject of C54 and `Macro/Depth`), and `RustCode`, which
says what Rust code the constructors of `Program` stand for.

For the functions of `TaggedPointer` and `TaggedBox` the reading is checked as well (C79 to C81, C89): trusted are the embedded text, the lexer, parser and interpreter in
`Mbe/Lex` and `Rust` (simplifications listed at the top of `Rust/Parse` and `Rust/Eval`), and what the interpreter says about the functions of the standard library that
are called (`libFn`, `libMethod`: allocation, raw pointers, `mem::forget`, `Box`, `Option`, `fmt`).

For the functions `tagged_box!` generates it is checked too (C82, C87, C88): trusted in addition are the macro expander in `Mbe`, the interpreter in `Rust/GenEval` (simplifications
at its top: hygiene only as far as it matters, layout of local structures by `#[repr(C)]`, types of expressions are not checked), that the words in `Spec.words` cannot be names, and that a
type parsed by the compiler's type parser is the type it is taken for.

For `build.rs` it is checked too (C83): trusted are the embedded text, the interpreter in `Rust/Script` (only what is printed to stdout), and `Cargo` (cargo's documentation and
`BuildOutput::parse`; of the instructions only `rustc-cfg`, `warning` and `rerun-if-env-changed` are interpreted).

**Modelled.** All of `build.rs`; all constants of `src/discriminant.rs`; all functions of `src/tagged_pointer.rs` and
`src/tagged_box.rs`; `src/taggable.rs` (the two traits); `impl_fmt!` of `src/lib.rs` (the arms in use); in
`src/tagged_box_macro/mod.rs` the macros `tagged_box!`, `__make_enum`, `__derive_from`, `__counter_enum`, `__count_variants`,
`__boxed_into_inner`, `__taggable_into_box`, `__from_tagged_box`, `__ref_from_tagged`; the tables of `__expand_tuple` and
`__expand_tuple_arm`; their generator macros; the expansion written out in `src/manually_impl_enum.rs`.

**Not modelled.**

* aliasing rules outside C72 and C74 (and there no protectors, two-phase borrows or interior mutability); pointer provenance outside C64, C71, C72 and C74 (elsewhere
  an address is a number);
* floating point (a `f32` is four bytes; `NaN != NaN` is a property of the user's `eq`, which is arbitrary);
* bodies of destructors, except in C60 to C62 (and there not for zero-sized payloads);
* attributes other than derives, visibility tokens, lints, doc comments, borrow and move checking of the generated code;
* types written with `Self`, `F` or the name of a multi-field variant that nevertheless do not depend on it (an alias that ignores its
  argument): they count as mentioning it; the same for the names reserved by C75;
* constants, statics, unit and tuple structures of the user whose name is that of a variable in the generated code; macros of the user that are called
  like those of `core` (`panic!`);
* `#[derive(Clone, Copy)]` on the container: its `clone` is then a bitwise copy (the model's `.copy`), with `Clone` alone it is
  `TaggedBox::clone` (the model's `.clone`);
* dead code: the third arm of `impl_fmt!` (`src/lib.rs:206-214`; it calls `as_usize`, which does not exist);
* text of panic messages, except where a property is about it; the benchmarks `TaggedBox::new` and `Box::new`.

## 5. What turned out to be false of the code

Each of these is a theorem (`_refuted`), with the part that does hold beside it.

* C02, C34: range checks are `debug_assert!`; release builds build corrupt pointers.  C12: `dangling` checks nothing.
* C07: the 52-bit row has `MAX_DISCRIMINANT` 4068 instead of 4095.
* C08: `build.rs` prints an unknown value as it is in its warning. cargo reads line by line, so a value with line feeds can contain further instructions, for example enable a
  second setting (`C08_refuted`; the crate then does not compile). The documented row is enabled in any case (`C08_any`).
* C14: `Debug` of a pointer is ambiguous on 32-bit targets and with fill characters.
* C20: nothing ever frees a box (`into_inner` and dropping leak).  C53: a failed range check leaks too.
* C23, C55: zero-sized values are dropped by `new` and again by their owner; `Drop` enums are dropped at every conversion.
* C30: `from_tagged_box` reads `repr(C)` payloads at a Rust tuple type.
* C32: looking at a unit variant of a `Drop` enum drops it.
* C36: `TaggedBox::new` + `from_tagged_box` are safe functions that together cause undefined behaviour.
* C40, C68: `{:#?}`, widths etc. are not passed on.
* C44: nothing compiles at 48..55 bits.  C54: at 56..58 bits the largest enums exceed the default recursion limit.
* C46: containers differ from plain values in the destructors that run.
* C51: a recursive enum must name itself; `Self`, valid in a plain enum, is rejected (`C51_self`).
* C77: `ref_from_tagged_box` shows its closure a bitwise copy, so a closure that sets a `Cell<Box<_>>` or grows a `RefCell<Vec<_>>` frees memory that the
  container still points to: use after free and double free from safe code.
* C76: the documentation's examples use discriminants up to 11, so with 61 or more bits the example of `discriminant` panics (debug) or fails its assertion
  (release); the examples of the macro do not compile below 56, and that of `tagged_box!` fails with 63 bits.
* C75: variants with several fields cannot have some names (`core`, `u8`, `tuple`, `a`, ..), no payload type can be called `F`, and a `mod core` or `struct From`
  beside the invocation breaks it.
* C52: checked-in tuple arms differ from their generator.
* C59: the message of the address check names a setting that does not exist (64 bits) when built with 63.
* C62: moving a value through a container leaks the container's block, dropping it also what the payload owns.
* C56: changes through a shared reference are lost.  C57: `Hash` cannot be derived, `Debug` only with `Clone`.
* C72: copies of a box hand out two `&mut` to one value, with the compiler's blessing; using them alternately is undefined behaviour.
* C74: `ref_from_tagged_box` duplicates a `Box` payload; comparing a container with itself duplicates it twice and reads the first duplicate after making the
  second, which is undefined behaviour.
* C69: `build.rs` prints no `rerun-if-env-changed`, so changing the setting of a crate that was built before has no effect; `cargo make test-all`
  tests one setting ten times.
* C96: the documentation says that a container can be made with `From` from any value the enum can hold; it cannot for variants with named fields and unit variants.
* C100: three of the four benchmarks of `into_tagged_box` leak one block per iteration, so what they measure includes an ever growing heap.
* C99: `__verify_variants!` expands for no input; the message `Invalid enum definition` is never shown, the expansion runs into the recursion limit instead.
* C98: `cargo make test-all` reports all ten settings as passed or all ten as failed, according to one of them, and it does not list `58bits` to `63bits`, among them the default.
* C97: the code the documentation shows as the expansion of its first example is not: the variants are `Integer`, `Boolean`, `String`, those of the invocation are `Integer`, `Numbers`, `Unsigned`.
* C66: a container has 8 bytes, also where `usize` has 4.  C67: six settings, the default among them, have fewer than the documented 7 data bits.

The repository's own test `inner_from_tagged_box` (`tests/tagged_box_macro.rs:67-100`) runs into C30: with the layout rustc chooses for
`(usize, usize, f32, usize)` it reads padding (`Replay.from_many_rustc`).
