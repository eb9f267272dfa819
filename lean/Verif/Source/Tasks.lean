import Verif.Rust.Tasks
import Verif.Mbe.Lex

/-!
# The tasks of `Makefile.toml` as syntax trees

Written out so that proofs can refer to them; `test_source` and `miri_source` check, by computation in the kernel, that they are what the lexer and the parser make of the text.
-/

set_option autoImplicit false

namespace TB.Rust.Tasks

open TB.Rust

def v (x : String) : Expr := .path [(x, [])]
def lenE (x : String) : Expr := .method (v x) "len" [] []
def cargoE : Expr := .call (.path [("Command", []), ("new", [])]) [.lit "\"cargo\""]
def pushE (x y : String) : Expr := .block [.semi (.method (v x) "push" [] [v y])]
def withCap : Expr := .call (.path [("Vec", []), ("with_capacity", [])]) [lenE "features"]

/-- The ten features. -/
def featuresE : Expr := .mac "vec" [.lit "\"48bits\"", .lit "\"49bits\"", .lit "\"50bits\"", .lit "\"51bits\"", .lit "\"52bits\"", .lit "\"53bits\"", .lit "\"54bits\"", .lit "\"55bits\"",
  .lit "\"56bits\"", .lit "\"57bits\""]

/-- One round. `run`: the command. -/
def roundOf (run : Expr) (m1 : String) : List Stmt := [
  .semi (.call (.path [("env", []), ("set_var", [])]) [.lit "\"TAGGED_BOX_RESERVED_WIDTH\"", v "feature"]),
  .letS (.bind "output") none (.method (.method run "output" [] []) "unwrap" [] []),
  .semi (.mac "println" [.lit m1, v "feature", .field (v "output") "status"]),
  .tail (.ite (.method (.field (v "output") "status") "success" [] []) (pushE "successes" "feature") (some (pushE "failures" "feature")))]

/-- The report. -/
def reportOf (m2 m3 : String) : List Stmt := [
  .semi (.mac "println" [.lit m2, lenE "successes", lenE "failures"]),
  .tail (.ite (.bin .gt (lenE "failures") (.lit "0")) (.block [
    .semi (.mac "println" [.lit m3, .method (v "failures") "join" [] [.lit "\", \""]]),
    .semi (.call (.path [("std", []), ("process", []), ("exit", [])]) [.lit "101"])]) none)]

def startOf (more : List Stmt) : List Stmt := [
  .letS (.bind "features") none featuresE,
  .letS (.bind "successes") none withCap,
  .letS (.bind "failures") none withCap] ++ more

/-- `Makefile.toml:10-52` -/
def testAll : Task := ⟨startOf [], "feature", "features", roundOf (.method cargoE "arg" [] [.lit "\"test\""]) "\"Finished testing with feature `{}`, status: {}\"",
  reportOf "\"{} features passed all tests, {} failed\"" "\"Testing failed on the following features: {}\""⟩

/-- `Makefile.toml:64-114` -/
def miriAll : Task := ⟨startOf [
    .semi (.method (.method (.method cargoE "arg" [] [.lit "\"clean\""]) "status" [] []) "unwrap" [] []),
    .semi (.method (.method (.method cargoE "args" [] [.ref false (.array [.lit "\"miri\"", .lit "\"setup\""])]) "status" [] []) "unwrap" [] [])],
  "feature", "features", roundOf (.method cargoE "args" [] [.ref false (.array [.lit "\"miri\"", .lit "\"test\""])]) "\"Finished miri with feature `{}`, status: {}\"",
  reportOf "\"{} features passed miri, {} failed\"" "\"Miri failed on the following features: {}\""⟩

set_option maxRecDepth 100000 in
theorem test_source : makeTask "test-all" = some testAll := by
  kernel_rfl

set_option maxRecDepth 100000 in
theorem miri_source : makeTask "miri-all" = some miriAll := by
  kernel_rfl

end TB.Rust.Tasks
