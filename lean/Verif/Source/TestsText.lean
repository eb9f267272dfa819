import Verif.Mbe.Lex

/-!
# The text of `tests/tagged_box_macro.rs`

The whole file, verbatim, one entry per line (written by `scripts/gen_sources.py` from the file).
-/

set_option autoImplicit false
set_option maxRecDepth 100000

namespace TB.Source

/-- `tests/tagged_box_macro.rs:1-175` -/
noncomputable def testsText : List (List Char) := [
  src% "use tagged_box::{tagged_box, TaggableContainer, TaggableInner};",
  src% "",
  src% "tagged_box! {",
  src% "    #[derive(Debug, Copy, Clone, PartialEq, PartialOrd)]",
  src% "    struct Container, enum Item {",
  src% "        SingleTuple(usize),",
  src% "        ManyTuple(usize, usize, f32, usize),",
  src% "        Unit,",
  src% "        Orphan {",
  src% "            int: u32,",
  src% "            boolean: bool,",
  src% "        },",
  src% "    }",
  src% "}",
  src% "",
  src% "#[test]",
  src% "fn container_into_inner() {",
  src% "    let int = Container::from(usize::max_value());",
  src% "    assert_eq!(int.into_inner(), Item::SingleTuple(usize::max_value()));",
  src% "",
  src% "    let boolean = Container::from((100usize, 200usize, 50.100005, 300usize));",
  src% "    assert_eq!(",
  src% "        boolean.into_inner(),",
  src% "        Item::ManyTuple(100, 200, 50.100005, 300)",
  src% "    );",
  src% "}",
  src% "",
  src% "#[test]",
  src% "fn inner_into_tagged_box() {",
  src% "    assert_eq!(",
  src% "        Item::SingleTuple(usize::max_value()),",
  src% "        Container {",
  src% "            value: Item::SingleTuple(usize::max_value()).into_tagged_box()",
  src% "        }",
  src% "        .into_inner()",
  src% "    );",
  src% "",
  src% "    assert_eq!(",
  src% "        Item::ManyTuple(100, 200, 50.100005, 300),",
  src% "        Container {",
  src% "            value: Item::ManyTuple(100, 200, 50.100005, 300).into_tagged_box()",
  src% "        }",
  src% "        .into_inner()",
  src% "    );",
  src% "",
  src% "    assert_eq!(",
  src% "        Item::Unit,",
  src% "        Container {",
  src% "            value: Item::Unit.into_tagged_box()",
  src% "        }",
  src% "        .into_inner()",
  src% "    );",
  src% "",
  src% "    assert_eq!(",
  src% "        Item::Orphan {",
  src% "            int: 10,",
  src% "            boolean: false,",
  src% "        },",
  src% "        Container {",
  src% "            value: Item::Orphan {",
  src% "                int: 10,",
  src% "                boolean: false,",
  src% "            }",
  src% "            .into_tagged_box()",
  src% "        }",
  src% "        .into_inner()",
  src% "    );",
  src% "}",
  src% "",
  src% "#[test]",
  src% "fn inner_from_tagged_box() {",
  src% "    assert_eq!(",
  src% "        Item::SingleTuple(usize::max_value()),",
  src% "        Item::from_tagged_box(Item::SingleTuple(usize::max_value()).into_tagged_box())",
  src% "    );",
  src% "",
  src% "    assert_eq!(",
  src% "        Item::ManyTuple(12_200, 23_300, 500.100005, 34_400),",
  src% "        Item::from_tagged_box(",
  src% "            Item::ManyTuple(12_200, 23_300, 500.100005, 34_400).into_tagged_box()",
  src% "        )",
  src% "    );",
  src% "",
  src% "    assert_eq!(",
  src% "        Item::Unit,",
  src% "        Item::from_tagged_box(Item::Unit.into_tagged_box())",
  src% "    );",
  src% "",
  src% "    assert_eq!(",
  src% "        Item::Orphan {",
  src% "            int: 10_000,",
  src% "            boolean: true,",
  src% "        },",
  src% "        Item::from_tagged_box(",
  src% "            Item::Orphan {",
  src% "                int: 10_000,",
  src% "                boolean: true,",
  src% "            }",
  src% "            .into_tagged_box()",
  src% "        )",
  src% "    );",
  src% "}",
  src% "",
  src% "#[test]",
  src% "fn inner_ref_from_tagged_box() {",
  src% "    unsafe {",
  src% "        let one = Item::SingleTuple(usize::max_value());",
  src% "        let many = Item::ManyTuple(1200, 233, 500.100005, 34);",
  src% "        let unit = Item::Unit;",
  src% "        let orphan = Item::Orphan {",
  src% "            int: 0,",
  src% "            boolean: false,",
  src% "        };",
  src% "",
  src% "        Item::ref_from_tagged_box(",
  src% "            &Item::SingleTuple(usize::max_value()).into_tagged_box(),",
  src% "            |item| {",
  src% "                assert_eq!(item, &one);",
  src% "                assert_ne!(item, &many);",
  src% "                assert_ne!(item, &unit);",
  src% "                assert_ne!(item, &orphan);",
  src% "            },",
  src% "        );",
  src% "",
  src% "        Item::ref_from_tagged_box(",
  src% "            &Item::ManyTuple(1200, 233, 500.100005, 34).into_tagged_box(),",
  src% "            |item| {",
  src% "                assert_eq!(item, &many);",
  src% "                assert_ne!(item, &one);",
  src% "                assert_ne!(item, &unit);",
  src% "                assert_ne!(item, &orphan);",
  src% "            },",
  src% "        );",
  src% "",
  src% "        Item::ref_from_tagged_box(&Item::Unit.into_tagged_box(), |item| {",
  src% "            assert_eq!(item, &unit);",
  src% "            assert_ne!(item, &one);",
  src% "            assert_ne!(item, &many);",
  src% "            assert_ne!(item, &orphan);",
  src% "        });",
  src% "",
  src% "        Item::ref_from_tagged_box(",
  src% "            &Item::Orphan {",
  src% "                int: 0,",
  src% "                boolean: false,",
  src% "            }",
  src% "            .into_tagged_box(),",
  src% "            |item| {",
  src% "                assert_eq!(item, &orphan);",
  src% "                assert_ne!(item, &unit);",
  src% "                assert_ne!(item, &one);",
  src% "                assert_ne!(item, &many);",
  src% "            },",
  src% "        );",
  src% "    }",
  src% "}",
  src% "",
  src% "#[test]",
  src% "fn wrapped_refs_from_tagged_box() {",
  src% "    let big = Item::SingleTuple(10_000).into_tagged_box();",
  src% "    let small = Item::SingleTuple(100).into_tagged_box();",
  src% "",
  src% "    unsafe {",
  src% "        Item::ref_from_tagged_box(&big, |big| {",
  src% "            Item::ref_from_tagged_box(&small, |small| {",
  src% "                assert_ne!(big, small);",
  src% "                assert!(big > small);",
  src% "                assert!(small < big);",
  src% "            });",
  src% "        });",
  src% "    }",
  src% "",
  src% "    assert_eq!(Item::from_tagged_box(big), Item::SingleTuple(10_000));",
  src% "    assert_eq!(Item::from_tagged_box(small), Item::SingleTuple(100));",
  src% "}"]

end TB.Source
