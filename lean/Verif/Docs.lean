import Verif.Macro.Run

/-!
# The examples of the documentation

The code blocks in the documentation comments of `src/tagged_box.rs`, `src/lib.rs` and `src/tagged_box_macro/mod.rs` that are run as documentation
tests and do something. The payloads (`100_usize`, `[10u8; 10]`, ..) are parameters; discriminants are as written.
Left out: examples without an assertion or other effect (`tagged_box.rs:26-38`, `:117-128`), those that are expected to fail
(`:61-79`, `:151-169`, `mod.rs:683-700`), and those of `manually_impl_enum.rs` (see `Props/Decl.lean`, C50).
-/

set_option autoImplicit false

namespace TB

/-- `assert!` in a test; a failure is a panic of user code. -/
def assertM (c : Bool) : M Unit := if c then pure () else M.panic (.user 0)

namespace Docs

section Box

variable (env : Env) (sh : Shape) (v v' : Val)

/-- `TaggedBox::new`, also `new_unchecked` (whose examples call `new`) and `into_inner`. `src/tagged_box.rs:53-59`, `:143-149`, `:285-292` -/
def intoInner : M Unit := do
  let b ← TBox.new env sh v (BitVec.ofNat _ 0)
  let x ← b.intoInner env sh
  assertM (x == v)
  dropVal sh x

/-- `as_ref`. `src/tagged_box.rs:225-230` -/
def asRef : M Unit := do
  let b ← TBox.new env sh v (BitVec.ofNat _ 0)
  let x ← b.asRef env sh
  assertM (x == v)

/-- `as_mut_ref`. `src/tagged_box.rs:254-263` -/
def asMutRef : M Unit := do
  let b ← TBox.new env sh v (BitVec.ofNat _ 0)
  let x ← b.asRef env sh
  assertM (x == v)
  let b ← b.asMutRefAssign env sh v'
  let x ← b.asRef env sh
  assertM (x == v')

/-- `into_raw`. `src/tagged_box.rs:313-320` -/
def intoRaw : M Unit := do
  let b ← TBox.new env sh v (BitVec.ofNat _ 8)
  let x ← ptrRead sh (b.intoRaw env)
  assertM (x == v)

/-- `into_box`. The box is dropped at the end. `src/tagged_box.rs:344-349` -/
def intoBox : M Unit := do
  let b ← TBox.new env sh v (BitVec.ofNat _ 8)
  (b.intoBox env).drop sh

/-- `from_raw`. `src/tagged_box.rs:382-394` -/
def fromRaw : M Unit := do
  let b ← TBox.new env sh v (BitVec.ofNat _ 10)
  let x ← ptrRead sh (b.intoRaw env)
  assertM (x == v)
  let b' ← TBox.fromRaw env (b.intoRaw env) (b.discriminant env)
  let x ← b'.intoInner env sh
  assertM (x == v)
  dropVal sh x

/-- `discriminant`. `src/tagged_box.rs:413-415` -/
def discriminant : M Unit := do
  let b ← TBox.new env sh v (BitVec.ofNat _ 11)
  assertM (b.discriminant env == BitVec.ofNat _ 11)

/-- `as_ptr`. `src/tagged_box.rs:433-437` -/
def asPtr : M Unit := do
  let b ← TBox.new env sh v (BitVec.ofNat _ 0)
  let x ← ptrRead sh (b.asPtr env)
  assertM (x == v)

/-- `as_mut_ptr`; the payload is a `usize`, whose assignment does not drop anything. `src/tagged_box.rs:459-465` -/
def asMutPtr : M Unit := do
  let b ← TBox.new env sh v (BitVec.ofNat _ 0)
  let b ← b.asMutPtrWrite env sh v'
  let x ← b.intoInner env sh
  assertM (x == v')

/-- All of them. -/
def box : List (M Unit) :=
  [intoInner env sh v, asRef env sh v, asMutRef env sh v v', intoRaw env sh v, intoBox env sh v, fromRaw env sh v, discriminant env sh v,
   asPtr env sh v, asMutPtr env sh v v']

end Box

section Container

open Macro

variable (env : Env) (rc : Rustc) (P : Program)

/-- `Container::from(x)` for an `x` of type `ty`. (Without an implementation for the type it does not compile.) -/
def containerFromTy (ty : Ty) (vs : List Bytes) : M TBox :=
  match P.froms.find? (fun f => rc.typeId f.srcTy == rc.typeId ty) with
  | some f => containerFromPayload env rc P f vs
  | none => M.panic (.user 1)

/-- `assert_eq!(Container::from(x).into_inner(), e)` -/
def roundTrip (ty : Ty) (vs : List Bytes) (e : EVal) : M Unit := do
  let b ← containerFromTy env rc P ty vs
  let x ← containerIntoInner env rc P b
  assertM (x == e)

/-- The enum of the quickstart. `src/lib.rs:36-47` -/
def quickstartDecl : List VariantDef :=
  [⟨"String", .tuple [.named "String"]⟩, ⟨"Numbers", .tuple [.named "i32", .named "f32"]⟩, ⟨"Nothing", .unit⟩,
   ⟨"Struct", .record [("float", .named "f32"), ("boolean", .named "bool")]⟩]

/-- `src/lib.rs:49-62` -/
def quickstart (str int flt : Bytes) : M Unit := do
  roundTrip env rc P (.named "String") [str] ⟨"String", .tuple [str]⟩
  roundTrip env rc P (.tuple [.named "i32", .named "f32"]) [int, flt] ⟨"Numbers", .tuple [int, flt]⟩

/-- The enum in the documentation of `tagged_box!`. `src/tagged_box_macro/mod.rs:711-718` -/
def macroDecl : List VariantDef :=
  [⟨"Integer", .tuple [.named "i32"]⟩, ⟨"Boolean", .tuple [.named "bool"]⟩, ⟨"String", .tuple [.named "String"]⟩]

/-- `src/tagged_box_macro/mod.rs:722-723` -/
def macroExample (str : Bytes) : M Unit := roundTrip env rc P (.named "String") [str] ⟨"String", .tuple [str]⟩

end Container

end Docs
end TB
