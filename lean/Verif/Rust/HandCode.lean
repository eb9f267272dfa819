import Verif.Rust.HandWritten
import Verif.Rust.GuideCode

/-!
# The syntax trees of the implementation written by hand

What `Rust/HandWritten.lean` makes of the items in the test `tagged_box` of `src/tagged_box.rs`, for each type `Discriminant`. (That it does is proved in `Props/HandWritten.lean`;
nothing is assumed about this file.)
-/

set_option autoImplicit false

namespace TB.Rust.Hand

open TB.Mbe TB.Macro TB.Rust TB.Rust.Gen
open TB.Rust.Guide (boxFn)

variable (D : RTy)

/-- `0`, as a discriminant -/
def discE (k : String) : Expr := .cast (.lit k) D

/-- `0 => e` -/
def guarded (k : String) (e : Expr) : TB.Rust.Pat × Option Expr × Expr := (.bind "<scrutinee>", some (.bin .eq (varE "<scrutinee>") (discE D k)), e)

/-- `_ => unreachable!()` -/
def lastArm : TB.Rust.Pat × Option Expr × Expr := (.wild, none, .mac "panic" [.lit "\"internal error: entered unreachable code\""])

/-- `self.tagged` -/
def selfTagged : Expr := .field (varE "self") "tagged"

def unboxArm (tg : Expr) (k v t : String) : TB.Rust.Pat × Option Expr × Expr := guarded D k (.call (.path (two "Value" v)) [.call (boxFn "into_inner" t) [tg]])

def lendArm (k v t : String) : TB.Rust.Pat × Option Expr × Expr := guarded D k (.call (.path (two "Value" v)) [readE (.user (.named t))])

def boxArm (x k v t : String) : TB.Rust.Pat × Option Expr × Expr := (.call (two "Value" v) [.bind x], none, .call (boxFn "new" t) [varE x, discE D k])

/-- `tagged_box.rs:707-715` -/
def intoInnerFn : Fn := ⟨[], "into_inner", [], some .value, [], some (.path [("Self", []), ("Inner", [])]),
  [.tail (.block [.tail (.mtch (.method selfTagged "discriminant" [] []) [unboxArm D selfTagged "0" "I32" "i32", unboxArm D selfTagged "1" "Bool" "bool", lastArm])])]⟩

/-- `tagged_box.rs:725-730` -/
def intoBoxFn : Fn := ⟨[], "into_tagged_box", [], some .value, [], some (Guide.boxT (varT "Self")),
  [.tail (.mtch (varE "self") [boxArm D "int" "0" "I32" "i32", boxArm D "boolean" "1" "Bool" "bool"])]⟩

/-- `tagged_box.rs:732-740` -/
def fromBoxFn : Fn := ⟨[], "from_tagged_box", [], none, [("tagged", Guide.boxT (varT "Self"))], some (varT "Self"),
  [.tail (.block [.tail (.mtch (.method (varE "tagged") "discriminant" [] [])
    [unboxArm D (varE "tagged") "0" "I32" "i32", unboxArm D (varE "tagged") "1" "Bool" "bool", lastArm])])]⟩

/-- `tagged_box.rs:742-753` -/
def refFn : Fn := ⟨[], "ref_from_tagged_box", ["F"], none, [("tagged", .ref false (Guide.boxT (varT "Self"))), ("callback", varT "F")], none,
  [.letS (.bind "value") none (.call (.path [("core", []), ("mem", []), ("ManuallyDrop", []), ("new", [])]) [
    .mtch (.method (varE "tagged") "discriminant" [] []) [lendArm D "0" "I32" "i32", lendArm D "1" "Bool" "bool", lastArm]]),
   .semi (.call (varE "callback") [.ref false (varE "value")])]⟩

def fns : List GFn := [⟨"TaggableContainer", "Container", none, intoInnerFn D⟩, ⟨"TaggableInner", "Value", none, intoBoxFn D⟩,
  ⟨"TaggableInner", "Value", none, fromBoxFn D⟩, ⟨"TaggableInner", "Value", none, refFn D⟩]

/-- `enum Value { I32(i32), Bool(bool), }`. `tagged_box.rs:719-722` -/
def defs : List VariantDef := [⟨"I32", .tuple [.named "i32"]⟩, ⟨"Bool", .tuple [.named "bool"]⟩]

/-- `Container { tagged: TaggedBox::new::<t>(a, d) }` -/
def newE (t : String) (a : Expr) (d : String) : Expr :=
  .struct (one "Container") [("tagged", .call (.path [("TaggedBox", []), ("new", [varT t])]) [a, .lit d])]

/-- `x.tagged` -/
def taggedE (x : String) : Expr := .field (varE x) "tagged"

def assertE (a b : Expr) : Stmt := .semi (.mac "assert_eq" [a, b])

/-- The statements. `tagged_box.rs:756-774` -/
def stmts : List Stmt := [
  .letS (.bind "int_container") none (newE "i32" (.lit "110") "0"),
  .letS (.bind "bool_container") none (newE "bool" (varE "true") "1"),
  assertE (.method (taggedE "int_container") "discriminant" [] []) (.lit "0"),
  assertE (.method (taggedE "bool_container") "discriminant" [] []) (.lit "1"),
  assertE (.block [.tail (.method (taggedE "int_container") "as_ref" [varT "i32"] [])]) (.ref false (.lit "110i32")),
  assertE (.block [.tail (.method (taggedE "bool_container") "as_ref" [varT "bool"] [])]) (.ref false (varE "true")),
  assertE (.method (.method (varE "int_container") "clone" [] []) "into_inner" [] []) (.call (.path (two "Value" "I32")) [.lit "110"]),
  assertE (.method (.method (varE "bool_container") "clone" [] []) "into_inner" [] []) (.call (.path (two "Value" "Bool")) [varE "true"]),
  assertE (.method (varE "int_container") "into_inner" [] []) (.call (.path (two "Value" "I32")) [.lit "110"]),
  assertE (.method (varE "bool_container") "into_inner" [] []) (.call (.path (two "Value" "Bool")) [varE "true"])]

end TB.Rust.Hand
