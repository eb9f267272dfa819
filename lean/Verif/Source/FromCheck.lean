import Verif.Rust.FromCheck
import Verif.Source.UserCode

/-! # The example that must not compile, as a syntax tree -/

set_option autoImplicit false
set_option maxRecDepth 100000

namespace TB.Rust.Code

open TB.Mbe TB.Macro TB.Rust TB.Source

/-- `Container::from(e);` -/
def fromStmt (e : Expr) : Stmt := .semi (.call (.path [("Container", []), ("from", [])]) [e])

/-- `t::new()` -/
def newExpr (t : String) : Expr := .call (.path [(t, []), ("new", [])]) []

/-- `src/tagged_box_macro/mod.rs:684-700`: the declaration is that of the last example. -/
theorem fail_source : (failBlocks modText none).filterMap userExample =
    [(secondInput, [fromStmt (.lit "10i32"), fromStmt (newExpr "String"), fromStmt (newExpr "Vec")])] := by
  kernel_rfl

end TB.Rust.Code
