import Verif.Rust.Guide
import Verif.Rust.GenCode

/-!
# The syntax trees of the code in the guide

What `Rust/Guide.lean` makes of the second code block of `src/manually_impl_enum.rs`, for each type `Discriminant`. (That it does is proved in `Lemmas/GuideRun.lean`;
nothing is assumed about this file.)
-/

set_option autoImplicit false

namespace TB.Rust.Guide

open TB.Mbe TB.Macro TB.Rust TB.Rust.Gen

variable (D : RTy)

/-- `EnumCounter::V as _` -/
def discE (v : String) : Expr := .cast (.path (two "EnumCounter" v)) D

def guarded (v : String) (e : Expr) : TB.Rust.Pat × Option Expr × Expr := (.bind "discrim", some (.bin .eq (varE "discrim") (discE D v)), e)

/-- `enum EnumCounter { Integer, Boolean }` -/
def counter : Stmt := .enumS [] "EnumCounter" ["Integer", "Boolean"]

/-- `_ => panic!()` -/
def lastArm : TB.Rust.Pat × Option Expr × Expr := (.wild, none, .mac "panic" [.lit "\"explicit panic\""])

def boxFn (f t : String) : Expr := .path [("crate", []), ("TaggedBox", []), (f, [.user (.named t)])]

def unboxArm (tg : Expr) (v t : String) : TB.Rust.Pat × Option Expr × Expr := guarded D v (.call (.path (two "Item" v)) [.call (boxFn "into_inner" t) [tg]])

def lendArm (v t : String) : TB.Rust.Pat × Option Expr × Expr := guarded D v (.block [
  .letS (.bind "variant") none (.call (.path [("core", []), ("mem", []), ("ManuallyDrop", []), ("new", [])]) [.call (.path (two "Item" v)) [readE (.user (.named t))]]),
  .tail (.call (varE "callback") [.ref false (varE "variant")])])

def boxArm (v t : String) : TB.Rust.Pat × Option Expr × Expr := (.call (two "Item" v) [.bind "value"], none, .call (boxFn "new" t) [varE "value", discE D v])

def boxT (t : RTy) : RTy := .path [("TaggedBox", [t])]

/-- `manually_impl_enum.rs:30-45` -/
def intoInnerFn : Fn := ⟨[], "into_inner", [], some .value, [], some (.path [("Self", []), ("Inner", [])]),
  [counter, .tail (.block [.tail (.mtch (.method selfValue "discriminant" [] [])
    [unboxArm D selfValue "Integer" "i32", unboxArm D selfValue "Boolean" "bool", lastArm])])]⟩

/-- `manually_impl_enum.rs:54-64` -/
def intoBoxFn : Fn := ⟨[], "into_tagged_box", [], some .value, [], some (boxT (varT "Self")),
  [counter, .tail (.mtch (varE "self") [boxArm D "Integer" "i32", boxArm D "Boolean" "bool"])]⟩

/-- `manually_impl_enum.rs:66-81` -/
def fromBoxFn : Fn := ⟨[], "from_tagged_box", [], none, [("tagged", boxT (varT "Self"))], some (varT "Self"),
  [counter, .tail (.block [.tail (.mtch (.method (varE "tagged") "discriminant" [] [])
    [unboxArm D (varE "tagged") "Integer" "i32", unboxArm D (varE "tagged") "Boolean" "bool", lastArm])])]⟩

/-- `manually_impl_enum.rs:83-105` -/
def refFn : Fn := ⟨[], "ref_from_tagged_box", ["F"], none, [("tagged", .ref false (boxT (varT "Self"))), ("callback", varT "F")], none,
  [counter, .tail (.block [.tail (.mtch (.method (varE "tagged") "discriminant" [] []) [lendArm D "Integer" "i32", lendArm D "Boolean" "bool", lastArm])])]⟩

def fns : List GFn := [⟨"TaggableContainer", "Container", none, intoInnerFn D⟩, ⟨"TaggableInner", "Item", none, intoBoxFn D⟩,
  ⟨"TaggableInner", "Item", none, fromBoxFn D⟩, ⟨"TaggableInner", "Item", none, refFn D⟩]

/-- `enum Item { Integer(i32), Boolean(bool), }`. `manually_impl_enum.rs:48-51` -/
def defs : List VariantDef := [⟨"Integer", .tuple [.named "i32"]⟩, ⟨"Boolean", .tuple [.named "bool"]⟩]

end TB.Rust.Guide
