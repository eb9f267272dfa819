import Verif.Mbe.Lex

/-!
# Syntax trees

The part of Rust's syntax that the crate's own code (without its tests) consists of, after the macros have been expanded.
-/

set_option autoImplicit false

namespace TB.Rust

open TB.Mbe TB.Macro

/-- Types. -/
inductive RTy where
  /-- `a::b<..>::c<..>` -/
  | path (segs : List (String × List RTy))
  | ref (m : Bool) (t : RTy)
  | ptr (m : Bool) (t : RTy)
  | tuple (ts : List RTy)
  /-- `_` -/
  | infer
  /-- a type of the user's declaration, already parsed -/
  | user (t : Ty)

/-- `a::b::<..>::c::<..>` -/
abbrev RPath := List (String × List RTy)

inductive UnOp where
  | not | neg | deref
deriving DecidableEq

inductive BinOp where
  | mul | div | rem | add | sub | shl | shr | and | xor | or | eq | ne | lt | gt | le | ge | land | lor | assign | addAssign
deriving DecidableEq

/-- Patterns. -/
inductive Pat where
  | wild
  /-- `x`, `mut x`, `ref x`; a name that may also be a constant or a unit struct -/
  | bind (x : String)
  | lit (s : String)
  | path (p : RPath)
  | tuple (ps : List Pat)
  | call (p : RPath) (ps : List Pat)
  | struct (p : RPath) (fs : List (String × Pat))

mutual
/-- Expressions. -/
inductive Expr where
  /-- number or string literal, as written -/
  | lit (s : String)
  | path (p : RPath)
  | un (op : UnOp) (e : Expr)
  | ref (m : Bool) (e : Expr)
  | bin (op : BinOp) (a b : Expr)
  | cast (e : Expr) (t : RTy)
  | call (f : Expr) (args : List Expr)
  | method (e : Expr) (name : String) (targs : List RTy) (args : List Expr)
  | field (e : Expr) (name : String)
  | struct (p : RPath) (fields : List (String × Expr))
  | tuple (es : List Expr)
  /-- `[a, b]` -/
  | array (es : List Expr)
  /-- `m!(..)` for a macro of the standard library; the arguments are its comma-separated expressions -/
  | mac (m : String) (args : List Expr)
  | block (ss : List Stmt)
  | ite (c : Expr) (t : Expr) (e : Option Expr)
  | iflet (p : Pat) (c : Expr) (t : Expr) (e : Option Expr)
  | mtch (e : Expr) (arms : List (Pat × Option Expr × Expr))
  | closure (params : List Pat) (body : Expr)

/-- Statements. -/
inductive Stmt where
  | letS (p : Pat) (t : Option RTy) (e : Expr)
  /-- `e;` -/
  | semi (e : Expr)
  /-- `e` at the end of a block, or an expression with a block that needs no `;` -/
  | tail (e : Expr)
  /-- `const x: t = e;` -/
  | constS (x : String) (t : RTy) (e : Expr)
  /-- `enum x { .. }` with the names of its variants -/
  | enumS (attrs : List (List TT)) (x : String) (variants : List String)
  /-- `struct x { a: A, .. }` or `struct x(A, ..);`, whose fields are called `0`, `1`, .. -/
  | structS (braces : Bool) (attrs : List (List TT)) (x : String) (fields : List (String × RTy))
  /-- `use ..;` -/
  | useS
end

/-- How a method takes `self`. -/
inductive SelfKind where
  | value | ref | refMut
deriving DecidableEq

/-- A function. -/
structure Fn where
  attrs : List (List TT)
  name : String
  generics : List String
  self : Option SelfKind
  params : List (String × RTy)
  ret : Option RTy
  body : List Stmt

/-- Items. -/
inductive Item where
  | fn (f : Fn)
  | struct (attrs : List (List TT)) (name : String) (generics : List String) (fields : List (String × RTy))
  | enum (attrs : List (List TT)) (name : String) (body : List TT)
  | impl (attrs : List (List TT)) (generics : List String) (trait : Option RTy) (self : RTy) (items : List Item)
  | const (attrs : List (List TT)) (name : String) (t : RTy) (e : Expr)
  | type (attrs : List (List TT)) (name : String) (t : RTy)
  | mod (attrs : List (List TT)) (name : String) (items : List Item)
  | mac (name : String) (args : List TT)
  /-- `use`, `extern crate`, `macro_rules!`, `trait`: nothing the evaluation needs -/
  | other (what : String)

end TB.Rust
