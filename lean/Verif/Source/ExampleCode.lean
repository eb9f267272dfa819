import Verif.Rust.Client

/-!
# The examples in the documentation of `TaggedBox`, and the tests of `TaggedPointer`, as syntax trees

Written out (by `scripts/gen_examples.py`) so that proofs can refer to them; `docs_source` and `tests_source` check, by computation in the kernel, that they are what the lexer
and the parser make of the text of the files.
-/

set_option autoImplicit false
set_option maxRecDepth 100000

namespace TB.Rust.Code

open TB.Mbe TB.Macro TB.Rust TB.Source

/-- `src/tagged_box.rs:26` -/
def doc0 : List Stmt := [
  (.letS (.bind "tagged_message") (some (.path [("TaggedBox", [(.path [("Communication", [])])])])) (.call (.path [("TaggedBox", []), ("new", [])]) [(.call (.path [("String", []), ("from", [])]) [(.lit "\"Foobar is a timeless classic\"")]), (.lit "0")]))]

/-- `src/tagged_box.rs:44` -/
def doc1 : List Stmt := [
  (.letS (.bind "tagged_message") (some (.path [("TaggedBox", [(.path [("Communication", [])])])])) (.call (.path [("TaggedBox", []), ("new", [])]) [(.call (.path [("String", []), ("from", [])]) [(.lit "\"Foobar is a timeless classic\"")]), (.lit "0")])),
  (.tail (.block [(.letS (.bind "message") none (.call (.path [("TaggedBox", []), ("into_inner", [(.path [("String", [])])])]) [(.path [("tagged_message", [])])])), (.semi (.mac "assert_eq" [(.ref false (.path [("message", [])])), (.lit "\"Foobar is a timeless classic\"")]))]))]

/-- `src/tagged_box.rs:116` -/
def doc2 : List Stmt := [
  (.letS (.bind "tagged_message") (some (.path [("TaggedBox", [(.path [("Communication", [])])])])) (.call (.path [("TaggedBox", []), ("new", [])]) [(.call (.path [("String", []), ("from", [])]) [(.lit "\"Foobar is a timeless classic\"")]), (.lit "0")]))]

/-- `src/tagged_box.rs:134` -/
def doc3 : List Stmt := [
  (.letS (.bind "tagged_message") (some (.path [("TaggedBox", [(.path [("Communication", [])])])])) (.call (.path [("TaggedBox", []), ("new", [])]) [(.call (.path [("String", []), ("from", [])]) [(.lit "\"Foobar is a timeless classic\"")]), (.lit "0")])),
  (.tail (.block [(.letS (.bind "message") none (.call (.path [("TaggedBox", []), ("into_inner", [(.path [("String", [])])])]) [(.path [("tagged_message", [])])])), (.semi (.mac "assert_eq" [(.ref false (.path [("message", [])])), (.lit "\"Foobar is a timeless classic\"")]))]))]

/-- `src/tagged_box.rs:219` -/
def doc4 : List Stmt := [
  (.letS (.bind "red_brick") (some (.path [("TaggedBox", [(.path [("Bricks", [])])])])) (.call (.path [("TaggedBox", []), ("new", [])]) [(.lit "100_usize"), (.lit "0")])),
  (.tail (.block [(.semi (.mac "assert_eq" [(.method (.path [("red_brick", [])]) "as_ref" [(.path [("usize", [])])] []), (.ref false (.lit "100"))]))]))]

/-- `src/tagged_box.rs:248` -/
def doc5 : List Stmt := [
  (.letS (.bind "red_brick") (some (.path [("TaggedBox", [(.path [("Bricks", [])])])])) (.call (.path [("TaggedBox", []), ("new", [])]) [(.lit "100_usize"), (.lit "0")])),
  (.tail (.block [(.semi (.mac "assert_eq" [(.method (.path [("red_brick", [])]) "as_ref" [(.path [("usize", [])])] []), (.ref false (.lit "100"))])), (.semi (.bin .assign (.un .deref (.method (.path [("red_brick", [])]) "as_mut_ref" [(.path [("usize", [])])] [])) (.lit "300"))), (.semi (.mac "assert_eq" [(.method (.path [("red_brick", [])]) "as_ref" [(.path [("usize", [])])] []), (.ref false (.lit "300"))]))]))]

/-- `src/tagged_box.rs:279` -/
def doc6 : List Stmt := [
  (.letS (.bind "red_brick") (some (.path [("TaggedBox", [(.path [("Bricks", [])])])])) (.call (.path [("TaggedBox", []), ("new", [])]) [(.lit "100_usize"), (.lit "0")])),
  (.tail (.block [(.letS (.bind "number_bricks") (some (.path [("usize", [])])) (.call (.path [("TaggedBox", []), ("into_inner", [])]) [(.path [("red_brick", [])])])), (.semi (.mac "assert_eq" [(.path [("number_bricks", [])]), (.lit "100")]))]))]

/-- `src/tagged_box.rs:309` -/
def doc7 : List Stmt := [
  (.letS (.bind "tagged_box") (some (.path [("TaggedBox", [(.path [("InnerValue", [])])])])) (.call (.path [("TaggedBox", []), ("new", [])]) [(.array [(.lit "10u8"), (.lit "10u8"), (.lit "10u8"), (.lit "10u8"), (.lit "10u8"), (.lit "10u8"), (.lit "10u8"), (.lit "10u8"), (.lit "10u8"), (.lit "10u8")]), (.lit "8")])),
  (.letS (.bind "raw") (some (.ptr true (.user (.named "[u8; 10]")))) (.call (.path [("TaggedBox", []), ("into_raw", [])]) [(.path [("tagged_box", [])])])),
  (.tail (.block [(.semi (.mac "assert_eq" [(.un .deref (.path [("raw", [])])), (.array [(.lit "10"), (.lit "10"), (.lit "10"), (.lit "10"), (.lit "10"), (.lit "10"), (.lit "10"), (.lit "10"), (.lit "10"), (.lit "10")])]))]))]

/-- `src/tagged_box.rs:338` -/
def doc8 : List Stmt := [
  (.letS (.bind "tagged_box") (some (.path [("TaggedBox", [(.path [("InnerValue", [])])])])) (.call (.path [("TaggedBox", []), ("new", [])]) [(.array [(.lit "10u8"), (.lit "10u8"), (.lit "10u8"), (.lit "10u8"), (.lit "10u8"), (.lit "10u8"), (.lit "10u8"), (.lit "10u8"), (.lit "10u8"), (.lit "10u8")]), (.lit "8")])),
  (.tail (.block [(.letS (.bind "boxed") (some (.path [("Box", [(.user (.named "[u8; 10]"))])])) (.call (.path [("TaggedBox", []), ("into_box", [])]) [(.path [("tagged_box", [])])]))]))]

/-- `src/tagged_box.rs:376` -/
def doc9 : List Stmt := [
  (.letS (.bind "tagged_box") (some (.path [("TaggedBox", [(.path [("InnerValue", [])])])])) (.call (.path [("TaggedBox", []), ("new", [])]) [(.mac "vec" [(.lit "100_usize"), (.lit "200"), (.lit "300")]), (.lit "10")])),
  (.letS (.bind "discriminant") none (.method (.path [("tagged_box", [])]) "discriminant" [] [])),
  (.letS (.bind "raw_box") (some (.ptr true (.path [("Vec", [(.path [("usize", [])])])]))) (.call (.path [("TaggedBox", []), ("into_raw", [])]) [(.path [("tagged_box", [])])])),
  (.tail (.block [(.semi (.mac "assert_eq" [(.un .deref (.path [("raw_box", [])])), (.mac "vec" [(.lit "100"), (.lit "200"), (.lit "300")])])), (.letS (.bind "tagged_box") (some (.path [("TaggedBox", [(.path [("InnerValue", [])])])])) (.call (.path [("TaggedBox", []), ("from_raw", [])]) [(.path [("raw_box", [])]), (.path [("discriminant", [])])])), (.semi (.mac "assert_eq" [(.call (.path [("TaggedBox", []), ("into_inner", [(.path [("Vec", [(.path [("usize", [])])])])])]) [(.path [("tagged_box", [])])]), (.mac "vec" [(.lit "100"), (.lit "200"), (.lit "300")])]))]))]

/-- `src/tagged_box.rs:409` -/
def doc10 : List Stmt := [
  (.letS (.bind "tagged_box") (some (.path [("TaggedBox", [(.path [("InnerValue", [])])])])) (.call (.path [("TaggedBox", []), ("new", [])]) [(.lit "0x00"), (.lit "11")])),
  (.semi (.mac "assert_eq" [(.method (.path [("tagged_box", [])]) "discriminant" [] []), (.lit "11")]))]

/-- `src/tagged_box.rs:427` -/
def doc11 : List Stmt := [
  (.letS (.bind "red_brick") (some (.path [("TaggedBox", [(.path [("Bricks", [])])])])) (.call (.path [("TaggedBox", []), ("new", [])]) [(.lit "100_usize"), (.lit "0")])),
  (.tail (.block [(.semi (.mac "assert_eq" [(.un .deref (.method (.path [("red_brick", [])]) "as_ptr" [(.path [("usize", [])])] [])), (.lit "100")]))]))]

/-- `src/tagged_box.rs:453` -/
def doc12 : List Stmt := [
  (.letS (.bind "red_brick") (some (.path [("TaggedBox", [(.path [("Bricks", [])])])])) (.call (.path [("TaggedBox", []), ("new", [])]) [(.lit "100_usize"), (.lit "0")])),
  (.tail (.block [(.semi (.bin .assign (.un .deref (.method (.path [("red_brick", [])]) "as_mut_ptr" [(.path [("usize", [])])] [])) (.lit "100_000"))), (.semi (.mac "assert_eq" [(.call (.path [("TaggedBox", []), ("into_inner", [(.path [("usize", [])])])]) [(.path [("red_brick", [])])]), (.lit "100_000")]))]))]

/-- `src/tagged_pointer.rs:176` -/
def test_utility_functions : Fn := ⟨[[.atom (.ident "test")]], "utility_functions", [], none, [], none, [
  (.letS (.bind "ptr") none (.lit "0xF00D_BEEF")),
  (.letS (.bind "discrim") none (.bin .div (.path [("discriminant", []), ("MAX_DISCRIMINANT", [])]) (.lit "2"))),
  (.letS (.bind "stored") none (.method (.call (.path [("TaggedPointer", []), ("new", [])]) [(.path [("ptr", [])]), (.path [("discrim", [])])]) "as_raw_u64" [] [])),
  (.semi (.mac "assert_eq" [(.call (.path [("TaggedPointer", []), ("strip_discriminant", [])]) [(.path [("stored", [])])]), (.path [("ptr", [])])])),
  (.semi (.mac "assert_eq" [(.call (.path [("TaggedPointer", []), ("fetch_discriminant", [])]) [(.path [("stored", [])])]), (.path [("discrim", [])])])),
  (.semi (.mac "assert_eq" [(.call (.path [("TaggedPointer", []), ("store_discriminant", [])]) [(.path [("ptr", [])]), (.path [("discrim", [])])]), (.path [("stored", [])])]))]⟩

/-- `src/tagged_pointer.rs:187` -/
def test_tagged_pointer : Fn := ⟨[[.atom (.ident "test")]], "tagged_pointer", [], none, [], none, [
  (.letS (.bind "integer") none (.lit "100i32")),
  (.letS (.bind "int_ptr") none (.cast (.cast (.ref false (.path [("integer", [])])) (.ptr false .infer)) (.path [("u64", [])]))),
  (.letS (.bind "discriminant") none (.lit "10")),
  (.letS (.bind "ptr") none (.call (.path [("TaggedPointer", []), ("new", [])]) [(.path [("int_ptr", [])]), (.path [("discriminant", [])])])),
  (.semi (.mac "assert_eq" [(.method (.path [("ptr", [])]) "discriminant" [] []), (.path [("discriminant", [])])])),
  (.semi (.mac "assert_eq" [(.method (.path [("ptr", [])]) "as_u64" [] []), (.path [("int_ptr", [])])])),
  (.tail (.block [(.semi (.mac "assert_eq" [(.method (.path [("ptr", [])]) "as_ref" [(.path [("i32", [])])] []), (.ref false (.path [("integer", [])]))]))]))]⟩

/-- `src/tagged_pointer.rs:203` -/
def test_max_pointer : Fn := ⟨[[.atom (.ident "test")]], "max_pointer", [], none, [], none, [
  (.letS (.bind "ptr") none (.path [("discriminant", []), ("MAX_POINTER_VALUE", [])])),
  (.letS (.bind "discriminant") none (.path [("discriminant", []), ("MAX_DISCRIMINANT", [])])),
  (.letS (.bind "tagged") none (.call (.path [("TaggedPointer", []), ("new", [])]) [(.path [("ptr", [])]), (.path [("discriminant", [])])])),
  (.semi (.mac "assert_eq" [(.method (.path [("tagged", [])]) "discriminant" [] []), (.path [("discriminant", [])])])),
  (.semi (.mac "assert_eq" [(.method (.path [("tagged", [])]) "as_u64" [] []), (.path [("ptr", [])])]))]⟩

/-- `src/tagged_pointer.rs:214` -/
def test_min_pointer : Fn := ⟨[[.atom (.ident "test")]], "min_pointer", [], none, [], none, [
  (.letS (.bind "ptr") (some (.path [("u64", [])])) (.lit "0")),
  (.letS (.bind "discriminant") none (.path [("discriminant", []), ("MAX_DISCRIMINANT", [])])),
  (.letS (.bind "tagged") none (.call (.path [("TaggedPointer", []), ("new", [])]) [(.path [("ptr", [])]), (.path [("discriminant", [])])])),
  (.semi (.mac "assert_eq" [(.method (.path [("tagged", [])]) "discriminant" [] []), (.path [("discriminant", [])])])),
  (.semi (.mac "assert_eq" [(.method (.path [("tagged", [])]) "as_u64" [] []), (.path [("ptr", [])])]))]⟩

/-- `src/tagged_pointer.rs:225` -/
def test_max_discriminant : Fn := ⟨[[.atom (.ident "test")]], "max_discriminant", [], none, [], none, [
  (.letS (.bind "integer") none (.lit "100usize")),
  (.letS (.bind "int_ptr") none (.cast (.cast (.ref false (.path [("integer", [])])) (.ptr false .infer)) (.path [("u64", [])]))),
  (.letS (.bind "discriminant") none (.path [("discriminant", []), ("MAX_DISCRIMINANT", [])])),
  (.letS (.bind "ptr") none (.call (.path [("TaggedPointer", []), ("new", [])]) [(.path [("int_ptr", [])]), (.path [("discriminant", [])])])),
  (.semi (.mac "assert_eq" [(.method (.path [("ptr", [])]) "discriminant" [] []), (.path [("discriminant", [])])])),
  (.semi (.mac "assert_eq" [(.method (.path [("ptr", [])]) "as_u64" [] []), (.path [("int_ptr", [])])])),
  (.tail (.block [(.semi (.mac "assert_eq" [(.method (.path [("ptr", [])]) "as_ref" [(.path [("usize", [])])] []), (.ref false (.path [("integer", [])]))]))]))]⟩

/-- `src/tagged_pointer.rs:241` -/
def test_min_discriminant : Fn := ⟨[[.atom (.ident "test")]], "min_discriminant", [], none, [], none, [
  (.letS (.bind "integer") none (.lit "100usize")),
  (.letS (.bind "int_ptr") none (.cast (.cast (.ref false (.path [("integer", [])])) (.ptr false .infer)) (.path [("u64", [])]))),
  (.letS (.bind "discriminant") none (.lit "0")),
  (.letS (.bind "ptr") none (.call (.path [("TaggedPointer", []), ("new", [])]) [(.path [("int_ptr", [])]), (.path [("discriminant", [])])])),
  (.semi (.mac "assert_eq" [(.method (.path [("ptr", [])]) "discriminant" [] []), (.path [("discriminant", [])])])),
  (.semi (.mac "assert_eq" [(.method (.path [("ptr", [])]) "as_u64" [] []), (.path [("int_ptr", [])])])),
  (.tail (.block [(.semi (.mac "assert_eq" [(.method (.path [("ptr", [])]) "as_ref" [(.path [("usize", [])])] []), (.ref false (.path [("integer", [])]))]))]))]⟩

/-- `src/tagged_pointer.rs:257` -/
def test_string_pointer : Fn := ⟨[[.atom (.ident "test")]], "string_pointer", [], none, [], none, [
  (.letS (.bind "string") none (.call (.path [("String", []), ("from", [])]) [(.lit "\"Hello world!\"")])),
  (.letS (.bind "str_ptr") none (.cast (.method (.path [("string", [])]) "as_ptr" [] []) (.path [("u64", [])]))),
  (.letS (.bind "discriminant") none (.path [("discriminant", []), ("MAX_DISCRIMINANT", [])])),
  (.letS (.bind "ptr") none (.call (.path [("TaggedPointer", []), ("new", [])]) [(.path [("str_ptr", [])]), (.path [("discriminant", [])])])),
  (.semi (.mac "assert_eq" [(.method (.path [("ptr", [])]) "discriminant" [] []), (.path [("discriminant", [])])])),
  (.semi (.mac "assert_eq" [(.method (.path [("ptr", [])]) "as_u64" [] []), (.path [("str_ptr", [])])])),
  (.tail (.block [(.letS (.bind "temp_str") none (.call (.path [("slice", []), ("from_raw_parts", [])]) [(.method (.path [("ptr", [])]) "as_ptr" [(.path [("u8", [])])] []), (.method (.path [("string", [])]) "len" [] [])])), (.semi (.mac "assert_eq" [(.method (.call (.path [("core", []), ("str", []), ("from_utf8", [])]) [(.path [("temp_str", [])])]) "unwrap" [] []), (.ref false (.path [("string", [])]))]))]))]⟩

/-- `src/tagged_pointer.rs:274` -/
def test_oversized_discriminant : Fn := ⟨[[.atom (.ident "test")], [.atom (.ident "should_panic")], [.atom (.ident "cfg_attr"), .group .paren [.atom (.ident "miri"), .atom (.punct ","), .atom (.ident "ignore")]]], "oversized_discriminant", [], none, [], none, [
  (.letS (.bind "pointer") none (.lit "0xF00D_BEEF")),
  (.letS (.bind "discriminant") none (.iflet (.call [("Some", [])] [(.bind "discrim")]) (.method (.path [("discriminant", []), ("MAX_DISCRIMINANT", [])]) "checked_add" [] [(.lit "1")]) (.block [(.tail (.path [("discrim", [])]))]) (some (.block [(.semi (.mac "panic" [(.lit "\"Adding one to discriminant would overflow type, aborting test\"")]))])))),
  (.semi (.call (.path [("TaggedPointer", []), ("new", [])]) [(.path [("pointer", [])]), (.path [("discriminant", [])])]))]⟩

theorem docs_source : (docBlocks boxText none).map exampleCode = [some doc0, some doc1, some doc2, some doc3, some doc4, some doc5, some doc6, some doc7, some doc8, some doc9, some doc10, some doc11, some doc12] := by
  kernel_rfl

theorem tests_source : testFns pointerText = some [test_utility_functions, test_tagged_pointer, test_max_pointer, test_min_pointer, test_max_discriminant, test_min_discriminant, test_string_pointer, test_oversized_discriminant] := by
  kernel_rfl

end TB.Rust.Code
