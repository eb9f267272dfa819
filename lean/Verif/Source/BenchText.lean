import Verif.Mbe.Lex

/-!
# The text of `benches/tagged_box.rs`

The whole file, verbatim, one entry per line (written by `scripts/gen_sources.py` from the file).
-/

set_option autoImplicit false
set_option maxRecDepth 100000

namespace TB.Source

/-- `benches/tagged_box.rs:1-45` -/
noncomputable def benchText : List (List Char) := [
  src% "use criterion::{black_box, criterion_group, criterion_main, Criterion};",
  src% "use tagged_box::{tagged_box, TaggableContainer, TaggableInner, TaggedBox};",
  src% "",
  src% "tagged_box! {",
  src% "    #[derive(Debug, Copy, Clone, PartialEq, PartialOrd)]",
  src% "    struct Container, enum Item {",
  src% "        SingleTuple(usize),",
  src% "        ManyTuple(usize, usize, f32, usize),",
  src% "        Unit,",
  src% "        Orphan {",
  src% "            int: u32,",
  src% "            boolean: bool,",
  src% "        },",
  src% "    }",
  src% "}",
  src% "",
  src% "fn default_impl(c: &mut Criterion) {",
  src% "    c.bench_function(\"Unit into_tagged_box\", |b| {",
  src% "        b.iter(|| black_box(Item::Unit).into_tagged_box());",
  src% "    })",
  src% "    .bench_function(\"Single element Tuple into_tagged_box\", |b| {",
  src% "        b.iter(|| black_box(Item::SingleTuple(usize::max_value())).into_tagged_box());",
  src% "    })",
  src% "    .bench_function(\"Multiple element Tuple into_tagged_box\", |b| {",
  src% "        b.iter(|| black_box(Item::ManyTuple(100, 200, 50.100005, 300)).into_tagged_box());",
  src% "    })",
  src% "    .bench_function(\"Orphan Struct into_tagged_box\", |b| {",
  src% "        b.iter(|| {",
  src% "            black_box(Item::Orphan {",
  src% "                int: 10,",
  src% "                boolean: false,",
  src% "            })",
  src% "            .into_tagged_box()",
  src% "        });",
  src% "    })",
  src% "    .bench_function(\"TaggedBox::new\", |b| {",
  src% "        b.iter(|| TaggedBox::<[usize; 100]>::new(black_box([100usize; 100]), 0))",
  src% "    })",
  src% "    .bench_function(\"Box::new\", |b| {",
  src% "        b.iter(|| Box::new(black_box([100usize; 100])))",
  src% "    });",
  src% "}",
  src% "",
  src% "criterion_group!(benches, default_impl);",
  src% "criterion_main!(benches);"]

end TB.Source
