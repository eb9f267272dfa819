import Verif.Rust.BoxTests

/-!
# The tests of `TaggedBox` that use boxes directly, as syntax trees

Written out (by `scripts/gen_box_tests.py`) so that proofs can refer to them; `new_source` and `new_zst_source` check, by computation in the kernel, that they are what the lexer and the parser
make of the text of the file.
-/

set_option autoImplicit false
set_option maxRecDepth 100000

namespace TB.Rust.Code

open TB.Mbe TB.Macro TB.Rust TB.Source

/-- `(usize::max_value() << 32) >> 32` -/
def halfMax : Expr := .bin .shr (.bin .shl (.call (.path [("usize", []), ("max_value", [])]) []) (.lit "32")) (.lit "32")

/-- `Custom { a: 10000, b: false, c: [(usize::max_value() << 32) >> 32; 10] }` -/
def customE : Expr := .struct [("Custom", [])] [("a", (.lit "10000")), ("b", (.path [("false", [])])), ("c", (.array [halfMax, halfMax, halfMax, halfMax, halfMax, halfMax, halfMax, halfMax, halfMax, halfMax]))]

/-- `src/tagged_box.rs:601` -/
def box_test_new : List Stmt := [
  (.letS (.bind "integer") (some (.path [("TaggedBox", [(.path [("Test", [])])])])) (.call (.path [("TaggedBox", []), ("new", [])]) [(.lit "0xF00D_BEEF_usize"), (.bin .div (.path [("crate", []), ("discriminant", []), ("MAX_DISCRIMINANT", [])]) (.lit "2"))])),
  (.letS (.bind "custom") (some (.path [("TaggedBox", [(.path [("Test", [])])])])) (.call (.path [("TaggedBox", []), ("new", [])]) [customE, (.bin .div (.path [("crate", []), ("discriminant", []), ("MAX_DISCRIMINANT", [])]) (.lit "4"))])),
  (.letS (.bind "string") (some (.path [("TaggedBox", [(.path [("Test", [])])])])) (.call (.path [("TaggedBox", []), ("new", [])]) [(.call (.path [("String", []), ("from", [])]) [(.lit "\"Hello world!\"")]), (.lit "0")])),
  (.letS (.bind "vec") (some (.path [("TaggedBox", [(.path [("Test", [])])])])) (.call (.path [("TaggedBox", []), ("new", [])]) [(.mac "vec" [(.lit "1i32"), (.lit "2"), (.lit "3"), (.lit "4"), (.lit "5"), (.lit "6")]), (.lit "10")])),
  (.tail (.block [(.semi (.mac "assert_eq" [(.lit "0xF00D_BEEF_usize"), (.call (.path [("TaggedBox", []), ("into_inner", [])]) [(.path [("integer", [])])])])), (.semi (.mac "assert_eq" [customE, (.call (.path [("TaggedBox", []), ("into_inner", [])]) [(.path [("custom", [])])])])), (.semi (.mac "assert_eq" [(.call (.path [("String", []), ("from", [])]) [(.lit "\"Hello world!\"")]), (.call (.path [("TaggedBox", []), ("into_inner", [(.path [("String", [])])])]) [(.path [("string", [])])])])), (.semi (.mac "assert_eq" [(.mac "vec" [(.lit "1"), (.lit "2"), (.lit "3"), (.lit "4"), (.lit "5"), (.lit "6")]), (.call (.path [("TaggedBox", []), ("into_inner", [(.path [("Vec", [(.path [("i32", [])])])])])]) [(.path [("vec", [])])])]))]))]

/-- `src/tagged_box.rs:645` -/
def box_test_new_zst : List Stmt := [
  (.letS (.bind "unit") (some (.path [("TaggedBox", [(.path [("Test", [])])])])) (.call (.path [("TaggedBox", []), ("new", [])]) [(.tuple []), (.lit "0")])),
  (.letS (.bind "zst") (some (.path [("TaggedBox", [(.path [("Test", [])])])])) (.call (.path [("TaggedBox", []), ("new", [])]) [(.struct [("Zst", [])] []), (.path [("crate", []), ("discriminant", []), ("MAX_DISCRIMINANT", [])])])),
  (.tail (.block [(.semi (.mac "assert_eq" [(.tuple []), (.call (.path [("TaggedBox", []), ("into_inner", [])]) [(.path [("unit", [])])])])), (.semi (.mac "assert_eq" [(.struct [("Zst", [])] []), (.call (.path [("TaggedBox", []), ("into_inner", [])]) [(.path [("zst", [])])])]))]))]

theorem new_source : boxTest "new" boxText = some box_test_new := by
  kernel_rfl

theorem new_zst_source : boxTest "new_zst" boxText = some box_test_new_zst := by
  kernel_rfl

end TB.Rust.Code
