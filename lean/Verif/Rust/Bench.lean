import Verif.Rust.UserCode

/-!
# The benchmarks

The code in `benches/tagged_box.rs`: the closures given to `b.iter(..)` in `c.bench_function("name", |b| { b.iter(|| code); })`, for those that use the
declared enum. `black_box(e)` is `e`.
-/

set_option autoImplicit false

namespace TB.Rust

open TB.Mbe TB.Macro TB.Source

/-- The names of the benchmarks, and the code of one iteration. -/
def iterCode : List TT → List (String × List TT)
  | .atom (.ident f) :: .group .paren (.atom (.lit name) :: .atom (.punct p) :: .atom (.punct _) :: .atom (.ident b) :: .atom (.punct _) ::
      .group .brace (.atom (.ident b') :: .atom (.punct _) :: .atom (.ident it) :: .group .paren (.atom (.punct o) :: us) :: _) :: _) :: r =>
    if f = "bench_function" ∧ p = "," ∧ b' = b ∧ it = "iter" ∧ o = "||" then (name, us) :: iterCode r else iterCode r
  | _ :: r => iterCode r
  | [] => []

/-- `black_box(e).f(..)` is `e.f(..)`. -/
def receiver : Expr → Expr
  | .method (.call (.path [(x, [])]) [e]) f ts as => if x = "black_box" then .method e f ts as else .method (.call (.path [(x, [])]) [e]) f ts as
  | e => e

/-- One iteration: an expression, possibly in a block. -/
def iteration : List Stmt → Option (List Stmt)
  | [.tail (.block [.tail e])] => some [.tail (receiver e)]
  | [.tail e] => some [.tail (receiver e)]
  | _ => none

/-- The invocation in the file, and the benchmarks whose code is in the language of `Rust/UserCode.lean`. -/
def benchFile (ls : List (List Char)) : Option (List TT × List (String × Option (List Stmt))) := match parseText ls with
  | some ts => match splitInvocation ts with
    | some (us, r) => (fnBody "default_impl" r).map fun body => (us, (iterCode body).map fun p => (p.1, (pBlock 100 p.2).bind iteration))
    | none => none
  | none => none

end TB.Rust
