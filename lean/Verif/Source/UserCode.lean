import Verif.Rust.UserCode
import Verif.Source.TestsText
import Verif.Source.TaggableText
import Verif.Source.ReadmeText
import Verif.Source.LibText
import Verif.Source.BoxText
import Verif.Source.ModText
import Verif.Spec.Invocation

/-!
# The integration tests, and the examples that use `tagged_box!`, as syntax trees

Written out (by `scripts/gen_user.py`) so that proofs can refer to them; `file_source`, `quickstart_source` and `macro_source` check, by computation in the kernel, that they are
what the lexer and the parser make of the text of the files.
-/

set_option autoImplicit false
set_option maxRecDepth 100000

namespace TB.Rust.Code

open TB.Mbe TB.Macro TB.Rust TB.Source

/-- `tests/tagged_box_macro.rs:3-14`: what is between the braces, and what it declares. -/
def testsToks : List Tok := [.ident "SingleTuple", .group .paren [.ident "usize"], .comma, .ident "ManyTuple", .group .paren [.ident "usize", .comma, .ident "usize", .comma, .ident "f32", .comma, .ident "usize"], .comma, .ident "Unit", .comma, .ident "Orphan", .group .brace [.ident "int", .colon, .ident "u32", .comma, .ident "boolean", .colon, .ident "bool", .comma], .comma]
def testsDecl : List VariantDef := [⟨"SingleTuple", .tuple [.named "usize"]⟩, ⟨"ManyTuple", .tuple [.named "usize", .named "usize", .named "f32", .named "usize"]⟩, ⟨"Unit", .unit⟩, ⟨"Orphan", .record [("int", .named "u32"), ("boolean", .named "bool")]⟩]
/-- The attributes, and the whole input of the macro. -/
def testsMetas : List (List TT) := [rust% "derive(Debug, Copy, Clone, PartialEq, PartialOrd)"]
def testsInput : List TT := invocation testsMetas [] "Container" [] "Item" testsToks

/-- `src/lib.rs:36-47`: what is between the braces, and what it declares. -/
def quickToks : List Tok := [.ident "String", .group .paren [.ident "String"], .comma, .ident "Numbers", .group .paren [.ident "i32", .comma, .ident "f32"], .comma, .ident "Nothing", .comma, .ident "Struct", .group .brace [.ident "float", .colon, .ident "f32", .comma, .ident "boolean", .colon, .ident "bool", .comma], .comma]
def quickDecl : List VariantDef := [⟨"String", .tuple [.named "String"]⟩, ⟨"Numbers", .tuple [.named "i32", .named "f32"]⟩, ⟨"Nothing", .unit⟩, ⟨"Struct", .record [("float", .named "f32"), ("boolean", .named "bool")]⟩]
/-- The attributes, and the whole input of the macro. -/
def quickMetas : List (List TT) := [rust% "derive(Debug, Clone, PartialEq)"]
def quickInput : List TT := invocation quickMetas (rust% "pub") "Container" (rust% "pub") "Item" quickToks

/-- `src/tagged_box_macro/mod.rs:606-619`: what is between the braces, and what it declares. -/
def firstToks : List Tok := [.ident "Integer", .group .paren [.ident "i32"], .comma, .ident "Numbers", .group .paren [.ident "usize", .comma, .ident "f32", .comma, .ident "u8"], .comma, .ident "Unsigned", .group .brace [.ident "big", .colon, .ident "u128", .comma, .ident "large", .colon, .ident "u64", .comma, .ident "medium", .colon, .ident "u32", .comma, .ident "small", .colon, .ident "u16", .comma, .ident "tiny", .colon, .ident "u8", .comma], .comma]
def firstDecl : List VariantDef := [⟨"Integer", .tuple [.named "i32"]⟩, ⟨"Numbers", .tuple [.named "usize", .named "f32", .named "u8"]⟩, ⟨"Unsigned", .record [("big", .named "u128"), ("large", .named "u64"), ("medium", .named "u32"), ("small", .named "u16"), ("tiny", .named "u8")]⟩]
/-- The attributes, and the whole input of the macro. -/
def firstMetas : List (List TT) := [rust% "derive(Debug, Clone, PartialEq)"]
def firstInput : List TT := invocation firstMetas [] "Container" [] "Item" firstToks

/-- `src/tagged_box_macro/mod.rs:711-718`: what is between the braces, and what it declares. -/
def secondToks : List Tok := [.ident "Integer", .group .paren [.ident "i32"], .comma, .ident "Boolean", .group .paren [.ident "bool"], .comma, .ident "String", .group .paren [.ident "String"], .comma]
def secondDecl : List VariantDef := [⟨"Integer", .tuple [.named "i32"]⟩, ⟨"Boolean", .tuple [.named "bool"]⟩, ⟨"String", .tuple [.named "String"]⟩]
/-- The attributes, and the whole input of the macro. -/
def secondMetas : List (List TT) := [rust% "derive(Debug, Clone, PartialEq)"]
def secondInput : List TT := invocation secondMetas [] "Container" [] "Item" secondToks

/-- `src/tagged_box.rs:784-804`: what is between the braces, and what it declares. -/
def storageToks : List Tok := [.ident "Float", .group .paren [.ident "f32"], .comma, .ident "Int", .group .paren [.ident "i32"], .comma, .ident "Byte", .group .paren [.ident "u8"], .comma, .ident "Unit", .comma, .ident "Bool", .group .paren [.ident "bool"], .comma, .ident "Array", .group .paren [.group .bracket [.ident "u8", .other ";", .other "8"]], .comma, .ident "Vector", .group .paren [.ident "Vec", .other "<", .ident "u8", .other ">"], .comma, .ident "CustomStruct", .group .paren [.ident "CustomStruct"], .comma, .ident "OrphanStructTrailingComma", .group .brace [.ident "int", .colon, .ident "i32", .comma, .ident "trailing_comma", .colon, .ident "f32", .comma], .comma, .ident "OrphanStructNoTrailingComma", .group .brace [.ident "int", .colon, .ident "i32", .comma, .ident "no_trailing_comma", .colon, .ident "f32"], .comma]
def storageDecl : List VariantDef := [⟨"Float", .tuple [.named "f32"]⟩, ⟨"Int", .tuple [.named "i32"]⟩, ⟨"Byte", .tuple [.named "u8"]⟩, ⟨"Unit", .unit⟩, ⟨"Bool", .tuple [.named "bool"]⟩, ⟨"Array", .tuple [.named "[u8; 8]"]⟩, ⟨"Vector", .tuple [.app "Vec" [.named "u8"]]⟩, ⟨"CustomStruct", .tuple [.named "CustomStruct"]⟩, ⟨"OrphanStructTrailingComma", .record [("int", .named "i32"), ("trailing_comma", .named "f32")]⟩, ⟨"OrphanStructNoTrailingComma", .record [("int", .named "i32"), ("no_trailing_comma", .named "f32")]⟩]
/-- The attributes, and the whole input of the macro. -/
def storageMetas : List (List TT) := [rust% "derive(Debug, Clone, PartialEq)"]
def storageInput : List TT := invocation storageMetas [] "Outer" [] "Inner" storageToks

/-- `tests/tagged_box_macro.rs:16` -/
def user_container_into_inner : Fn := ⟨[[.atom (.ident "test")]], "container_into_inner", [], none, [], none, [
  (.letS (.bind "int") none (.call (.path [("Container", []), ("from", [])]) [(.call (.path [("usize", []), ("max_value", [])]) [])])),
  (.semi (.mac "assert_eq" [(.method (.path [("int", [])]) "into_inner" [] []), (.call (.path [("Item", []), ("SingleTuple", [])]) [(.call (.path [("usize", []), ("max_value", [])]) [])])])),
  (.letS (.bind "boolean") none (.call (.path [("Container", []), ("from", [])]) [(.tuple [(.lit "100usize"), (.lit "200usize"), (.field (.lit "50") "100005"), (.lit "300usize")])])),
  (.semi (.mac "assert_eq" [(.method (.path [("boolean", [])]) "into_inner" [] []), (.call (.path [("Item", []), ("ManyTuple", [])]) [(.lit "100"), (.lit "200"), (.field (.lit "50") "100005"), (.lit "300")])]))]⟩

/-- `tests/tagged_box_macro.rs:28` -/
def user_inner_into_tagged_box : Fn := ⟨[[.atom (.ident "test")]], "inner_into_tagged_box", [], none, [], none, [
  (.semi (.mac "assert_eq" [(.call (.path [("Item", []), ("SingleTuple", [])]) [(.call (.path [("usize", []), ("max_value", [])]) [])]), (.method (.struct [("Container", [])] [("value", (.method (.call (.path [("Item", []), ("SingleTuple", [])]) [(.call (.path [("usize", []), ("max_value", [])]) [])]) "into_tagged_box" [] []))]) "into_inner" [] [])])),
  (.semi (.mac "assert_eq" [(.call (.path [("Item", []), ("ManyTuple", [])]) [(.lit "100"), (.lit "200"), (.field (.lit "50") "100005"), (.lit "300")]), (.method (.struct [("Container", [])] [("value", (.method (.call (.path [("Item", []), ("ManyTuple", [])]) [(.lit "100"), (.lit "200"), (.field (.lit "50") "100005"), (.lit "300")]) "into_tagged_box" [] []))]) "into_inner" [] [])])),
  (.semi (.mac "assert_eq" [(.path [("Item", []), ("Unit", [])]), (.method (.struct [("Container", [])] [("value", (.method (.path [("Item", []), ("Unit", [])]) "into_tagged_box" [] []))]) "into_inner" [] [])])),
  (.semi (.mac "assert_eq" [(.struct [("Item", []), ("Orphan", [])] [("int", (.lit "10")), ("boolean", (.path [("false", [])]))]), (.method (.struct [("Container", [])] [("value", (.method (.struct [("Item", []), ("Orphan", [])] [("int", (.lit "10")), ("boolean", (.path [("false", [])]))]) "into_tagged_box" [] []))]) "into_inner" [] [])]))]⟩

/-- `tests/tagged_box_macro.rs:70` -/
def user_inner_from_tagged_box : Fn := ⟨[[.atom (.ident "test")]], "inner_from_tagged_box", [], none, [], none, [
  (.semi (.mac "assert_eq" [(.call (.path [("Item", []), ("SingleTuple", [])]) [(.call (.path [("usize", []), ("max_value", [])]) [])]), (.call (.path [("Item", []), ("from_tagged_box", [])]) [(.method (.call (.path [("Item", []), ("SingleTuple", [])]) [(.call (.path [("usize", []), ("max_value", [])]) [])]) "into_tagged_box" [] [])])])),
  (.semi (.mac "assert_eq" [(.call (.path [("Item", []), ("ManyTuple", [])]) [(.lit "12_200"), (.lit "23_300"), (.field (.lit "500") "100005"), (.lit "34_400")]), (.call (.path [("Item", []), ("from_tagged_box", [])]) [(.method (.call (.path [("Item", []), ("ManyTuple", [])]) [(.lit "12_200"), (.lit "23_300"), (.field (.lit "500") "100005"), (.lit "34_400")]) "into_tagged_box" [] [])])])),
  (.semi (.mac "assert_eq" [(.path [("Item", []), ("Unit", [])]), (.call (.path [("Item", []), ("from_tagged_box", [])]) [(.method (.path [("Item", []), ("Unit", [])]) "into_tagged_box" [] [])])])),
  (.semi (.mac "assert_eq" [(.struct [("Item", []), ("Orphan", [])] [("int", (.lit "10_000")), ("boolean", (.path [("true", [])]))]), (.call (.path [("Item", []), ("from_tagged_box", [])]) [(.method (.struct [("Item", []), ("Orphan", [])] [("int", (.lit "10_000")), ("boolean", (.path [("true", [])]))]) "into_tagged_box" [] [])])]))]⟩

/-- `tests/tagged_box_macro.rs:104` -/
def user_inner_ref_from_tagged_box : Fn := ⟨[[.atom (.ident "test")]], "inner_ref_from_tagged_box", [], none, [], none, [
  (.tail (.block [(.letS (.bind "one") none (.call (.path [("Item", []), ("SingleTuple", [])]) [(.call (.path [("usize", []), ("max_value", [])]) [])])), (.letS (.bind "many") none (.call (.path [("Item", []), ("ManyTuple", [])]) [(.lit "1200"), (.lit "233"), (.field (.lit "500") "100005"), (.lit "34")])), (.letS (.bind "unit") none (.path [("Item", []), ("Unit", [])])), (.letS (.bind "orphan") none (.struct [("Item", []), ("Orphan", [])] [("int", (.lit "0")), ("boolean", (.path [("false", [])]))])), (.semi (.call (.path [("Item", []), ("ref_from_tagged_box", [])]) [(.ref false (.method (.call (.path [("Item", []), ("SingleTuple", [])]) [(.call (.path [("usize", []), ("max_value", [])]) [])]) "into_tagged_box" [] [])), (.closure [(.bind "item")] (.block [(.semi (.mac "assert_eq" [(.path [("item", [])]), (.ref false (.path [("one", [])]))])), (.semi (.mac "assert_ne" [(.path [("item", [])]), (.ref false (.path [("many", [])]))])), (.semi (.mac "assert_ne" [(.path [("item", [])]), (.ref false (.path [("unit", [])]))])), (.semi (.mac "assert_ne" [(.path [("item", [])]), (.ref false (.path [("orphan", [])]))]))]))])), (.semi (.call (.path [("Item", []), ("ref_from_tagged_box", [])]) [(.ref false (.method (.call (.path [("Item", []), ("ManyTuple", [])]) [(.lit "1200"), (.lit "233"), (.field (.lit "500") "100005"), (.lit "34")]) "into_tagged_box" [] [])), (.closure [(.bind "item")] (.block [(.semi (.mac "assert_eq" [(.path [("item", [])]), (.ref false (.path [("many", [])]))])), (.semi (.mac "assert_ne" [(.path [("item", [])]), (.ref false (.path [("one", [])]))])), (.semi (.mac "assert_ne" [(.path [("item", [])]), (.ref false (.path [("unit", [])]))])), (.semi (.mac "assert_ne" [(.path [("item", [])]), (.ref false (.path [("orphan", [])]))]))]))])), (.semi (.call (.path [("Item", []), ("ref_from_tagged_box", [])]) [(.ref false (.method (.path [("Item", []), ("Unit", [])]) "into_tagged_box" [] [])), (.closure [(.bind "item")] (.block [(.semi (.mac "assert_eq" [(.path [("item", [])]), (.ref false (.path [("unit", [])]))])), (.semi (.mac "assert_ne" [(.path [("item", [])]), (.ref false (.path [("one", [])]))])), (.semi (.mac "assert_ne" [(.path [("item", [])]), (.ref false (.path [("many", [])]))])), (.semi (.mac "assert_ne" [(.path [("item", [])]), (.ref false (.path [("orphan", [])]))]))]))])), (.semi (.call (.path [("Item", []), ("ref_from_tagged_box", [])]) [(.ref false (.method (.struct [("Item", []), ("Orphan", [])] [("int", (.lit "0")), ("boolean", (.path [("false", [])]))]) "into_tagged_box" [] [])), (.closure [(.bind "item")] (.block [(.semi (.mac "assert_eq" [(.path [("item", [])]), (.ref false (.path [("orphan", [])]))])), (.semi (.mac "assert_ne" [(.path [("item", [])]), (.ref false (.path [("unit", [])]))])), (.semi (.mac "assert_ne" [(.path [("item", [])]), (.ref false (.path [("one", [])]))])), (.semi (.mac "assert_ne" [(.path [("item", [])]), (.ref false (.path [("many", [])]))]))]))]))]))]⟩

/-- `tests/tagged_box_macro.rs:158` -/
def user_wrapped_refs_from_tagged_box : Fn := ⟨[[.atom (.ident "test")]], "wrapped_refs_from_tagged_box", [], none, [], none, [
  (.letS (.bind "big") none (.method (.call (.path [("Item", []), ("SingleTuple", [])]) [(.lit "10_000")]) "into_tagged_box" [] [])),
  (.letS (.bind "small") none (.method (.call (.path [("Item", []), ("SingleTuple", [])]) [(.lit "100")]) "into_tagged_box" [] [])),
  (.tail (.block [(.semi (.call (.path [("Item", []), ("ref_from_tagged_box", [])]) [(.ref false (.path [("big", [])])), (.closure [(.bind "big")] (.block [(.semi (.call (.path [("Item", []), ("ref_from_tagged_box", [])]) [(.ref false (.path [("small", [])])), (.closure [(.bind "small")] (.block [(.semi (.mac "assert_ne" [(.path [("big", [])]), (.path [("small", [])])])), (.semi (.mac "assert" [(.bin .gt (.path [("big", [])]) (.path [("small", [])]))])), (.semi (.mac "assert" [(.bin .lt (.path [("small", [])]) (.path [("big", [])]))]))]))]))]))]))])),
  (.semi (.mac "assert_eq" [(.call (.path [("Item", []), ("from_tagged_box", [])]) [(.path [("big", [])])]), (.call (.path [("Item", []), ("SingleTuple", [])]) [(.lit "10_000")])])),
  (.semi (.mac "assert_eq" [(.call (.path [("Item", []), ("from_tagged_box", [])]) [(.path [("small", [])])]), (.call (.path [("Item", []), ("SingleTuple", [])]) [(.lit "100")])]))]⟩

/-- The test `storage`, `src/tagged_box.rs:806-825` -/
def storageCode : List Stmt := [
  (.semi (.mac "assert_eq" [(.method (.call (.path [("Outer", []), ("from", [])]) [(.field (.lit "10") "0f32")]) "into_inner" [] []), (.call (.path [("Inner", []), ("Float", [])]) [(.field (.lit "10") "0")])])),
  (.semi (.mac "assert_eq" [(.method (.call (.path [("Outer", []), ("from", [])]) [(.lit "100i32")]) "into_inner" [] []), (.call (.path [("Inner", []), ("Int", [])]) [(.lit "100")])])),
  (.semi (.mac "assert_eq" [(.method (.call (.path [("Outer", []), ("from", [])]) [(.lit "10u8")]) "into_inner" [] []), (.call (.path [("Inner", []), ("Byte", [])]) [(.lit "10")])])),
  (.semi (.mac "assert_eq" [(.method (.call (.path [("Outer", []), ("from", [])]) [(.path [("true", [])])]) "into_inner" [] []), (.call (.path [("Inner", []), ("Bool", [])]) [(.path [("true", [])])])])),
  (.semi (.mac "assert_eq" [(.method (.call (.path [("Outer", []), ("from", [])]) [(.array [(.lit "100"), (.lit "100"), (.lit "100"), (.lit "100"), (.lit "100"), (.lit "100"), (.lit "100"), (.lit "100")])]) "into_inner" [] []), (.call (.path [("Inner", []), ("Array", [])]) [(.array [(.lit "100"), (.lit "100"), (.lit "100"), (.lit "100"), (.lit "100"), (.lit "100"), (.lit "100"), (.lit "100")])])])),
  (.semi (.mac "assert_eq" [(.method (.call (.path [("Outer", []), ("from", [])]) [(.mac "vec" [(.lit "100"), (.lit "100"), (.lit "100"), (.lit "100"), (.lit "100"), (.lit "100"), (.lit "100"), (.lit "100"), (.lit "100"), (.lit "100")])]) "into_inner" [] []), (.call (.path [("Inner", []), ("Vector", [])]) [(.mac "vec" [(.lit "100"), (.lit "100"), (.lit "100"), (.lit "100"), (.lit "100"), (.lit "100"), (.lit "100"), (.lit "100"), (.lit "100"), (.lit "100")])])])),
  (.semi (.mac "assert_eq" [(.method (.call (.path [("Outer", []), ("from", [])]) [(.struct [("CustomStruct", [])] [("int", (.lit "100_000")), ("boolean", (.path [("false", [])]))])]) "into_inner" [] []), (.call (.path [("Inner", []), ("CustomStruct", [])]) [(.struct [("CustomStruct", [])] [("int", (.lit "100_000")), ("boolean", (.path [("false", [])]))])])]))]

/-- The quickstart, `src/lib.rs:49-64` -/
def quickCode : List Stmt := [
  (.letS (.bind "container") none (.call (.path [("Container", []), ("from", [])]) [(.call (.path [("String", []), ("from", [])]) [(.lit "\"Hello from tagged-box!\"")])])),
  (.semi (.mac "assert_eq" [(.method (.path [("container", [])]) "into_inner" [] []), (.call (.path [("Item", []), ("String", [])]) [(.call (.path [("String", []), ("from", [])]) [(.lit "\"Hello from tagged-box!\"")])])])),
  (.letS (.bind "container") none (.call (.path [("Container", []), ("from", [])]) [(.tuple [(.lit "10i32"), (.field (.lit "10") "0")])])),
  (.semi (.mac "assert_eq" [(.method (.path [("container", [])]) "into_inner" [] []), (.call (.path [("Item", []), ("Numbers", [])]) [(.lit "10i32"), (.field (.lit "10") "0")])]))]

/-- `src/tagged_box_macro/mod.rs:719-723` -/
def secondCode : List Stmt := [
  (.letS (.bind "container") none (.call (.path [("Container", []), ("from", [])]) [(.call (.path [("String", []), ("from", [])]) [(.lit "\"Hello from tagged-box!\"")])])),
  (.semi (.mac "assert_eq" [(.method (.path [("container", [])]) "into_inner" [] []), (.call (.path [("Item", []), ("String", [])]) [(.call (.path [("String", []), ("from", [])]) [(.lit "\"Hello from tagged-box!\"")])])]))]

/-- The tests. -/
def userTests : List Fn := [user_container_into_inner, user_inner_into_tagged_box, user_inner_from_tagged_box, user_inner_ref_from_tagged_box, user_wrapped_refs_from_tagged_box]

theorem file_source : userFile testsText = some (testsInput, userTests) := by
  kernel_rfl

theorem quickstart_source : (innerBlocks libText none).filterMap userExample = [(quickInput, quickCode)] := by
  kernel_rfl

theorem macro_source : (docBlocks modText none).filterMap userExample = [(firstInput, []), (secondInput, secondCode)] := by
  kernel_rfl

/-- The tests of `src/taggable.rs` are the same. -/
theorem taggable_source : userTestsIn taggableText = some (testsInput, userTests) := by
  kernel_rfl

/-- The example in `README.md` is that of `src/lib.rs`. -/
theorem readme_source : (fencedBlocks readmeText none).filterMap userExample = [(quickInput, quickCode)] := by
  kernel_rfl

theorem storage_source : userTestFn "storage" boxText = some (storageInput, storageCode) := by
  kernel_rfl

end TB.Rust.Code
