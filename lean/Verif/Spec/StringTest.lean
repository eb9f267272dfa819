import Verif.Rust.StringTest

/-!
# The test `string_pointer` with any text
-/

set_option autoImplicit false

namespace TB.Spec

open TB TB.Rust

/-- The statements of the test, with another literal, and comparing with `e` at the end. -/
def stringPointerWith (t : String) (e : Expr) : List Stmt := [
  .letS (.bind "string") none (.call (.path [("String", []), ("from", [])]) [.lit t]),
  .letS (.bind "str_ptr") none (.cast (.method (.path [("string", [])]) "as_ptr" [] []) (.path [("u64", [])])),
  .letS (.bind "discriminant") none (.path [("discriminant", []), ("MAX_DISCRIMINANT", [])]),
  .letS (.bind "ptr") none (.call (.path [("TaggedPointer", []), ("new", [])]) [.path [("str_ptr", [])], .path [("discriminant", [])]]),
  .semi (.mac "assert_eq" [.method (.path [("ptr", [])]) "discriminant" [] [], .path [("discriminant", [])]]),
  .semi (.mac "assert_eq" [.method (.path [("ptr", [])]) "as_u64" [] [], .path [("str_ptr", [])]]),
  .tail (.block [
    .letS (.bind "temp_str") none (.call (.path [("slice", []), ("from_raw_parts", [])]) [.method (.path [("ptr", [])]) "as_ptr" [.path [("u8", [])]] [], .method (.path [("string", [])]) "len" [] []]),
    .semi (.mac "assert_eq" [.method (.call (.path [("core", []), ("str", []), ("from_utf8", [])]) [.path [("temp_str", [])]]) "unwrap" [] [], e])])]

/-- The statements of the test, with another literal. -/
def stringPointer (t : String) : List Stmt := stringPointerWith t (.ref false (.path [("string", [])]))

/-- Where the allocator puts `n` bytes for a string; nothing is allocated for the empty one. -/
def stringAddr (env : Env) (s : State) (n : Nat) : Nat := if n = 0 then 1 else env.alloc s n 1

end TB.Spec
