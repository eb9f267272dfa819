import Verif.Rust.HandCode
import Verif.Rust.Client
import Verif.Source.ModText

/-!
# The code shown in the documentation of the macro

The documentation of `tagged_box!` shows "expanded" code (`src/tagged_box_macro/mod.rs:627-679`): a container, an enum, and (hidden, so that it compiles) an implementation of `TaggableInner` by hand. Here
it is taken out of the comment and made a program, as in `Rust/HandWritten.lean`; and its syntax trees are written out. (That they are what the text says is proved in
`Props/Shown.lean`; nothing is assumed about this file.)
-/

set_option autoImplicit false

namespace TB.Rust

open TB.Mbe TB.Macro TB.Source

/-- The tokens of an example in the documentation of the macro. -/
noncomputable def macroExample (i : Nat) : Option (List TT) := match (docBlocks modText none)[i]? with
  | some ls => parseText ls
  | none => none

end TB.Rust

namespace TB.Rust.Shown

open TB.Mbe TB.Macro TB.Rust TB.Rust.Gen
open TB.Rust.Guide (boxFn)
open TB.Rust.Hand (discE guarded lastArm)

variable (D : RTy)

def unboxArm (tg : Expr) (k v t : String) : TB.Rust.Pat × Option Expr × Expr := guarded D k (.call (.path (two "Item" v)) [.call (boxFn "into_inner" t) [tg]])

def lendArm (k v t : String) : TB.Rust.Pat × Option Expr × Expr := guarded D k (.call (.path (two "Item" v)) [readE (.user (.named t))])

def boxArm (x k v t : String) : TB.Rust.Pat × Option Expr × Expr := (.call (two "Item" v) [.bind x], none, .call (boxFn "new" t) [varE x, discE D k])

/-- `mod.rs:649-655` -/
def intoBoxFn : Fn := ⟨[], "into_tagged_box", [], some .value, [], some (Guide.boxT (varT "Self")),
  [.tail (.mtch (varE "self") [boxArm D "int" "0" "Integer" "i32", boxArm D "boolean" "1" "Boolean" "bool", boxArm D "string" "2" "String" "String"])]⟩

/-- `mod.rs:656-665` -/
def fromBoxFn : Fn := ⟨[], "from_tagged_box", [], none, [("tagged", Guide.boxT (varT "Self"))], some (varT "Self"),
  [.tail (.block [.tail (.mtch (.method (varE "tagged") "discriminant" [] [])
    [unboxArm D (varE "tagged") "0" "Integer" "i32", unboxArm D (varE "tagged") "1" "Boolean" "bool", unboxArm D (varE "tagged") "2" "String" "String", lastArm])])]⟩

/-- `mod.rs:666-678` -/
def refFn : Fn := ⟨[], "ref_from_tagged_box", ["F"], none, [("tagged", .ref false (Guide.boxT (varT "Self"))), ("callback", varT "F")], none,
  [.letS (.bind "value") none (.call (.path [("core", []), ("mem", []), ("ManuallyDrop", []), ("new", [])]) [
    .mtch (.method (varE "tagged") "discriminant" [] []) [lendArm D "0" "Integer" "i32", lendArm D "1" "Boolean" "bool", lendArm D "2" "String" "String", lastArm]]),
   .semi (.call (varE "callback") [.ref false (varE "value")])]⟩

def fns : List GFn := [⟨"TaggableInner", "Item", none, intoBoxFn D⟩, ⟨"TaggableInner", "Item", none, fromBoxFn D⟩, ⟨"TaggableInner", "Item", none, refFn D⟩]

/-- `enum Item { Integer(i32), Boolean(bool), String(String), }`. `mod.rs:639-643` -/
def defs : List VariantDef := [⟨"Integer", .tuple [.named "i32"]⟩, ⟨"Boolean", .tuple [.named "bool"]⟩, ⟨"String", .tuple [.named "String"]⟩]

end TB.Rust.Shown
