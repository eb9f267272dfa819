import Verif.Rust.HandWritten
import Verif.Spec.UserRun

/-!
# An implementation written by hand

The test `tagged_box` of `src/tagged_box.rs` implements the two traits by hand, for `struct Container { tagged: TaggedBox<Value> }` and `enum Value { I32(i32), Bool(bool) }`, and then
makes two containers and looks into them. `IsHand .. g`: `g` is the program that its items are.
-/

set_option autoImplicit false

namespace TB.Spec

open TB TB.Macro TB.Mbe TB.Rust TB.Source

/-- `g` is the code in the items of the test, parsed from the text, compiled with the crate, which is parsed from its own text. `user` and `cb` as in `IsProgram`. -/
def IsHand {β : Type} (env : Env) (rc : Rustc) (user : User (Host β)) (cb : EVal → M β) (g : GCrate β) : Prop :=
  ∃ ts ss cr, handTest "tagged_box" boxText = some (ts, ss) ∧ sourceCrate env user = some cr ∧ ∃ depth, ∀ n ≥ depth, handCrate n cr rc cb ts = some g

/-- `enum Value { I32(i32), Bool(bool), }` -/
def valueDecl : List VariantDef := [⟨"I32", .tuple [.named "i32"]⟩, ⟨"Bool", .tuple [.named "bool"]⟩]

/-- `Container { tagged: b }` -/
def holderOf {β : Type} (b : GV β) : GV β := .struct containerName [("tagged", b)]

/-- The message of `unreachable!()`. -/
def unreachablePanic {β : Type} : Msg (Host β) := .text "\"internal error: entered unreachable code\"" []

/-- Values of the interpreter, as values. -/
def toNumber {E : Type} : V E → Option Nat
  | .int _ v => some v.toNat
  | _ => none
def toAddress {E : Type} : V E → Option Nat
  | .ref _ a => some a
  | _ => none

noncomputable section

/-- The functions, run from the text of the test and of the crate. `Clone` is derived for the container, whose only field is a box, and for the enum, whose fields are
`Copy`. -/
def handOps (env : Env) (rc : Rustc) (user : User EVal) (G : Programs) : HandOps where
  new t x d := inCrate env user toBox fun cr =>
    cr.call "TaggedBox" "new" [.opaque (rc.leaf t).shape] none [.obj (rc.leaf t).shape [x], dV (BitVec.ofNat env.cfg.discrBits d)] .unknown
  discr b := inCrate env user toNumber fun cr => cr.call "TaggedBox" "discriminant" [] (some (boxV b)) [] .unknown
  look t b := do
    let a ← inCrate env user toAddress fun cr => cr.call "TaggedBox" "as_ref" [.opaque (rc.leaf t).shape] (some (boxV b)) [] .unknown
    let v ← ptrRead (rc.leaf t).shape a
    pure (v[0]?.getD [])
  clone b := inCrate env { user with taggable := linked G "Value", clone := fun e => pure e } toBox fun cr =>
    cr.callTrait "Clone" "TaggedBox" "clone" (some (boxV b)) [] .unknown
  inner b := fun s => outcome toEnum ((someProgram G).call "TaggableContainer" "Container" none "into_inner" (some (holderOf (boxV b))) [] s)

/-- The statements of the test, run in the state `s`. -/
def runHandTest (env : Env) (rc : Rustc) (user : User EVal) (G : Programs) (L : Lits) (s : State) : Out Unit := match handTest "tagged_box" boxText with
  | some (_, ss) => hstmts L valueDecl (handOps env rc user G) "Container" "tagged" "Value" [] ss s
  | none => .ub .badValue

/-- The statements `let c = Container { tagged: TaggedBox::new::<i32>(a, 0) }; assert_eq!(x, y);`, where `x` and `y` may use `c`. -/
def runCheck (env : Env) (rc : Rustc) (user : User EVal) (G : Programs) (L : Lits) (a : String) (x y : Expr) : M Unit :=
  hstmts L valueDecl (handOps env rc user G) "Container" "tagged" "Value" [] [
    .letS (.bind "c") none (.struct [("Container", [])] [("tagged", .call (.path [("TaggedBox", []), ("new", [.path [("i32", [])]])]) [.lit a, .lit "0"])]),
    .semi (.mac "assert_eq" [x, y])]

end

/-- The run passes, or fails the assertion, as `q` says, unless an allocation fails. -/
def PassesIff (o : Out Unit) (s : State) (q : Prop) : Prop :=
  (q ∧ ∃ s', o = .ret () s') ∨ (¬ q ∧ ∃ s', o = .panic (.user 0) s') ∨ ∃ k s', o = .panic k s' ∧ NullBetween s s'

/-- `c` -/
def cE : Expr := .path [("c", [])]

end TB.Spec
