import Verif.Mbe.Lex

/-!
# The text of `README.md`

The whole file, verbatim, one entry per line (written by `scripts/gen_sources.py` from the file).
-/

set_option autoImplicit false
set_option maxRecDepth 100000

namespace TB.Source

/-- `README.md:1-128` -/
noncomputable def readmeText : List (List Char) := [
  src% "# Tagged-box",
  src% "",
  src% "[![Crates.io](https://img.shields.io/crates/v/tagged-box?style=flat)](https://crates.io/crates/tagged-box)",
  src% "[![Docs.rs](https://docs.rs/tagged-box/badge.svg)](https://docs.rs/tagged-box)",
  src% "[![GitHub](https://img.shields.io/github/languages/top/Kixiron/tagged-box)](https://github.com/Kixiron/tagged-box)",
  src% "[![LOC](https://tokei.rs/b1/github/Kixiron/tagged-box)](https://github.com/Kixiron/tagged-box)",
  src% "",
  src% "A `no_std`, zero-dependency crate for the creation and management of NaN-boxed types with",
  src% "[`Box`]-like semantics and tagged pointers, tagged pointers and a macro interface to safely",
  src% "create NaN-boxed enums.",
  src% "",
  src% "## Quickstart",
  src% "",
  src% "First, add the crate to your `Cargo.lock` (Note: for variable reserved widths, see the [settings] section)",
  src% "",
  src% "```toml",
  src% "tagged_box = \"0.1.1\"",
  src% "```",
  src% "",
  src% "Next, for using the macro, add the following to the top of your file",
  src% "",
  src% "```rust",
  src% "use tagged_box::{tagged_box, TaggableContainer, TaggableInner};",
  src% "```",
  src% "",
  src% "Then you can use the macro as follows",
  src% "",
  src% "```rust",
  src% "tagged_box! {",
  src% "    #[derive(Debug, Clone, PartialEq)]",
  src% "    pub struct Container, pub enum Item {",
  src% "        String(String),",
  src% "        Numbers(i32, f32),",
  src% "        Nothing,",
  src% "        Struct {",
  src% "            float: f32,",
  src% "            boolean: bool,",
  src% "        },",
  src% "    }",
  src% "}",
  src% "",
  src% "let container = Container::from(String::from(\"Hello from tagged-box!\"));",
  src% "",
  src% "assert_eq!(",
  src% "    container.into_inner(),",
  src% "    Item::String(String::from(\"Hello from tagged-box!\")),",
  src% ");",
  src% "",
  src% "// For tuple structs with more than 1 variant, `From<(values)>` is derived",
  src% "let container = Container::from((10i32, 10.0));",
  src% "",
  src% "assert_eq!(",
  src% "    container.into_inner(),",
  src% "    Item::Numbers(10i32, 10.0),",
  src% ");",
  src% "",
  src% "// Note: `From` is not implemented for unit and orphan struct variants",
  src% "```",
  src% "",
  src% "For working with NaN-boxes, simply add",
  src% "",
  src% "```rust",
  src% "use tagged_box::TaggedBox;",
  src% "```",
  src% "",
  src% "And for tagged pointers use",
  src% "",
  src% "```rust",
  src% "use tagged_box::TaggedPointer;",
  src% "```",
  src% "",
  src% "## What this crate does",
  src% "",
  src% "This crate implements [NaN-Boxing] and [Tagged Pointers], which are a way to store extra data in the [unused bits of pointers].",
  src% "While the two differ in implementation, they are semantically the same. In this crate, the `TaggedBox` type allows you to store",
  src% "anywhere from 7 to 16 bits of arbitrary data in your pointer, depending on the [settings] enabled. For explanation's sake,",
  src% "I'll be using the `48bits` feature to explain, as it leads to the cleanest examples.  ",
  src% "The pointers this applies to are 64 bits long, looking something like this",
  src% "",
  src% "```text",
  src% "0000 0000 0000 0000",
  src% "```",
  src% "",
  src% "However, not all of these bits are used for the actual addressing of memory, so most pointers look like this",
  src% "",
  src% "```text",
  src% "0000 FFFF FFFF FFFF",
  src% "^^^^",
  src% "Free Data!",
  src% "```",
  src% "",
  src% "Those first 16 bits are free data, just begging to be used, and that's what `TaggedPointer` does. `TaggedPointer` simply",
  src% "manages the pointer and the data (referred to as a 'discriminant' throughout this crate), making sure you get a pointer when you",
  src% "need it and data when you need it, and not mixing those two up.  ",
  src% "",
  src% "`TaggedBox` goes one layer higher, storing an [enum discriminant] (Indicated by the type parameter) and directly storing the enum variant's inner value to the heap. In short, `TaggedBox` is like a `Box` and an enum rolled into one.  ",
  src% "",
  src% "Ramping the abstraction up one more notch, we have the `tagged_box!` macro, which creates a container-type struct and an associated `TaggedBox`-backed enum that can be seamlessly transferred between.",
  src% "",
  src% "## Cargo Features",
  src% "",
  src% "This crate has a few settings that change the number of free and reserved bits, this can be changed by setting `TAGGED_BOX_RESERVED_WIDTH`:",
  src% "",
  src% "- `48bits`: 48 bits of reserved pointer, 16 bits for data",
  src% "- `49bits`: 49 bits of reserved pointer, 15 bits for data",
  src% "- `50bits`: 50 bits of reserved pointer, 14 bits for data",
  src% "- `51bits`: 51 bits of reserved pointer, 13 bits for data",
  src% "- `52bits`: 52 bits of reserved pointer, 12 bits for data",
  src% "- `53bits`: 53 bits of reserved pointer, 11 bits for data",
  src% "- `54bits`: 54 bits of reserved pointer, 10 bits for data",
  src% "- `55bits`: 55 bits of reserved pointer, 9 bits for data",
  src% "- `56bits`: 56 bits of reserved pointer, 8 bits for data",
  src% "- `57bits`: 57 bits of reserved pointer, 7 bits for data",
  src% "- `58bits`: 58 bits of reserved pointer, 6 bits for data",
  src% "- `59bits`: 59 bits of reserved pointer, 5 bits for data",
  src% "- `60bits` (On by default): 60 bits of reserved pointer, 4 bits for data",
  src% "- `61bits`: 61 bits of reserved pointer, 3 bits for data",
  src% "- `62bits`: 62 bits of reserved pointer, 2 bits for data",
  src% "- `63bits`: 63 bits of reserved pointer, 1 bit for data",
  src% "",
  src% "However, only one of these may be active at a time, otherwise a `compile_error` will be emitted.",
  src% "",
  src% "[`Box`]: (https://doc.rust-lang.org/std/boxed/struct.Box.html)",
  src% "[settings]: #crate-settings",
  src% "[NaN-Boxing]: https://wingolog.org/archives/2011/05/18/value-representation-in-javascript-implementations",
  src% "[Tagged Pointers]: https://en.wikipedia.org/wiki/Tagged_pointer",
  src% "[unused bits of pointers]: https://en.wikipedia.org/wiki/X86-64#Virtual_address_space_details",
  src% "[enum discriminant]: https://doc.rust-lang.org/reference/items/enumerations.html"]

end TB.Source
