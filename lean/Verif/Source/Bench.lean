import Verif.Rust.Bench
import Verif.Source.UserCode
import Verif.Source.BenchText

/-!
# The benchmarks as syntax trees
-/

set_option autoImplicit false

namespace TB.Source

open TB.Mbe TB.Macro TB.Rust TB.Rust.Code

/-- `Item::Unit`. `benches/tagged_box.rs:20` -/
def benchUnit : Expr := .path [("Item", []), ("Unit", [])]
/-- `benches/tagged_box.rs:23` -/
def benchSingle : Expr := .call (.path [("Item", []), ("SingleTuple", [])]) [.call (.path [("usize", []), ("max_value", [])]) []]
/-- `benches/tagged_box.rs:26` -/
def benchMany : Expr := .call (.path [("Item", []), ("ManyTuple", [])]) [.lit "100", .lit "200", .field (.lit "50") "100005", .lit "300"]
/-- `benches/tagged_box.rs:30-33` -/
def benchOrphan : Expr := .struct [("Item", []), ("Orphan", [])] [("int", .lit "10"), ("boolean", .path [("false", [])])]

/-- `e.into_tagged_box()` -/
def boxIt (e : Expr) : List Stmt := [.tail (.method e "into_tagged_box" [] [])]

theorem bench_source : benchFile benchText = some (testsInput,
    [("\"Unit into_tagged_box\"", some (boxIt benchUnit)), ("\"Single element Tuple into_tagged_box\"", some (boxIt benchSingle)),
     ("\"Multiple element Tuple into_tagged_box\"", some (boxIt benchMany)), ("\"Orphan Struct into_tagged_box\"", some (boxIt benchOrphan)),
     ("\"TaggedBox::new\"", none), ("\"Box::new\"", none)]) := by
  kernel_rfl

end TB.Source
