import Verif.Rust.Guide
import Verif.Spec.GenRun

/-!
# The guide

`src/manually_impl_enum.rs` shows a use of `tagged_box!` (code block 0) and the code it is said to stand for (code block 1). `IsGuide .. g`: `g` is the program in block 1.
-/

set_option autoImplicit false

namespace TB.Spec

open TB TB.Macro TB.Mbe TB.Rust TB.Source

/-- `g` is the code in block 1 of the guide, parsed from the text, compiled with the crate, which is parsed from its own text. `user` and `cb` as in `IsProgram`. -/
def IsGuide {β : Type} (env : Env) (rc : Rustc) (user : User (Host β)) (cb : EVal → M β) (g : GCrate β) : Prop :=
  ∃ ts cr, example? 1 = some ts ∧ sourceCrate env user = some cr ∧ ∃ depth, ∀ n ≥ depth, plainCrate n cr rc false cb ts = some g

/-- `enum Item { Integer(i32), Boolean(bool), }` -/
def itemDecl : List VariantDef := [⟨"Integer", .tuple [.named "i32"]⟩, ⟨"Boolean", .tuple [.named "bool"]⟩]

/-- The tokens between the braces. -/
def itemToks : List Tok := [.ident "Integer", .group .paren [.ident "i32"], .comma, .ident "Boolean", .group .paren [.ident "bool"], .comma]

/-- `Container { value: b }` -/
def containerOf {β : Type} (b : GV β) : GV β := .struct containerName [("value", b)]

/-- The message of `panic!()`. -/
def explicitPanic {β : Type} : Msg (Host β) := .text "\"explicit panic\"" []

/-- The same outcome, except for the message of a panic. -/
def SameButMessage {E α : Type} : XOut E α → XOut E α → Prop
  | .ret a l s, .ret a' l' s' => a = a' ∧ l = l' ∧ s = s'
  | .panic _ l s, .panic _ l' s' => l = l' ∧ s = s'
  | .ub k, .ub k' => k = k'
  | _, _ => False

end TB.Spec
