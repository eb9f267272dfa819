import Verif.Rust.MoveCode
import Verif.Source.BoxText
import Verif.Spec.Invocation

/-!
# The test `clone` of `src/tagged_box.rs` as a syntax tree

`clone_source` checks, by computation in the kernel, that it is what the lexer and the parser make of the text of the file.
-/

set_option autoImplicit false
set_option maxRecDepth 100000

namespace TB.Rust.Code

open TB.Mbe TB.Macro TB.Rust TB.Source

/-- `src/tagged_box.rs:661-667`: what is between the braces, and what it declares. -/
def cloneToks : List Tok := [.ident "Usize", .group .paren [.ident "usize"], .comma, .ident "Str", .group .paren [.ident "String"], .comma]
def cloneDecl : List VariantDef := [⟨"Usize", .tuple [.named "usize"]⟩, ⟨"Str", .tuple [.named "String"]⟩]
/-- The attributes, and the whole input of the macro. -/
def cloneMetas : List (List TT) := [rust% "derive(Clone, Debug, PartialEq)"]
def cloneInput : List TT := invocation cloneMetas [] "Container" [] "Enum" cloneToks

/-- The test `clone`, `src/tagged_box.rs:669-694` -/
def cloneCode : List Stmt := [
  (.letS (.bind "original_usize") none (.call (.path [("Container", []), ("from", [])]) [(.lit "100usize")])),
  (.letS (.bind "cloned_usize") none (.method (.method (.method (.path [("original_usize", [])]) "clone" [] []) "into_inner" [] []) "into_tagged_box" [] [])),
  (.tail (.block [(.semi (.call (.path [("mul_assign", [])]) [(.un .deref (.method (.path [("cloned_usize", [])]) "as_mut_ref" [(.path [("usize", [])])] [])), (.lit "100")]))])),
  (.letS (.bind "cloned_usize") none (.call (.path [("Enum", []), ("from_tagged_box", [])]) [(.path [("cloned_usize", [])])])),
  (.letS (.bind "original_usize") none (.method (.path [("original_usize", [])]) "into_inner" [] [])),
  (.semi (.mac "assert_ne" [(.ref false (.path [("original_usize", [])])), (.ref false (.path [("cloned_usize", [])]))])),
  (.semi (.mac "assert_eq" [(.ref false (.call (.path [("Enum", []), ("Usize", [])]) [(.bin .mul (.lit "100") (.lit "100"))])), (.ref false (.path [("cloned_usize", [])]))])),
  (.semi (.mac "assert_eq" [(.call (.path [("Enum", []), ("Usize", [])]) [(.lit "100")]), (.path [("original_usize", [])])])),
  (.letS (.bind "original_string") none (.call (.path [("Container", []), ("from", [])]) [(.call (.path [("String", []), ("from", [])]) [(.lit "\"Hello\"")])])),
  (.letS (.bind "cloned_string") none (.method (.method (.method (.path [("original_string", [])]) "clone" [] []) "into_inner" [] []) "into_tagged_box" [] [])),
  (.tail (.block [(.semi (.method (.method (.path [("cloned_string", [])]) "as_mut_ref" [(.path [("String", [])])] []) "push_str" [] [(.lit "\", World!\"")]))])),
  (.letS (.bind "cloned_string") none (.call (.path [("Enum", []), ("from_tagged_box", [])]) [(.path [("cloned_string", [])])])),
  (.letS (.bind "original_string") none (.method (.path [("original_string", [])]) "into_inner" [] [])),
  (.semi (.mac "assert_ne" [(.ref false (.path [("original_string", [])])), (.ref false (.path [("cloned_string", [])]))])),
  (.semi (.mac "assert_eq" [(.ref false (.call (.path [("Enum", []), ("Str", [])]) [(.call (.path [("String", []), ("from", [])]) [(.lit "\"Hello, World!\"")])])), (.ref false (.path [("cloned_string", [])]))])),
  (.semi (.mac "assert_eq" [(.call (.path [("Enum", []), ("Str", [])]) [(.call (.path [("String", []), ("from", [])]) [(.lit "\"Hello\"")])]), (.path [("original_string", [])])])),
  (.semi (.mac "assert_ne" [(.path [("cloned_string", [])]), (.path [("cloned_usize", [])])]))]

theorem clone_source : moveTestFn "clone" boxText = some (cloneInput, cloneCode) := by
  kernel_rfl

end TB.Rust.Code
