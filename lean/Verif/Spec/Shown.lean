import Verif.Rust.ShownCode
import Verif.Spec.UserRun

/-!
# The code shown in the documentation of the macro

`IsShown .. g`: `g` is the program in the second example of the documentation of `tagged_box!` (`src/tagged_box_macro/mod.rs:627-679`), what the macro is said to expand to.
-/

set_option autoImplicit false

namespace TB.Spec

open TB TB.Macro TB.Mbe TB.Rust TB.Source

/-- `g` is the code in the example, parsed from the text, compiled with the crate, which is parsed from its own text. `user` and `cb` as in `IsProgram`. -/
def IsShown {β : Type} (env : Env) (rc : Rustc) (user : User (Host β)) (cb : EVal → M β) (g : GCrate β) : Prop :=
  ∃ ts cr, macroExample 1 = some ts ∧ sourceCrate env user = some cr ∧ ∃ depth, ∀ n ≥ depth, handCrate n cr rc cb ts = some g

/-- `enum Item { Integer(i32), Boolean(bool), String(String), }` -/
def shownDecl : List VariantDef := [⟨"Integer", .tuple [.named "i32"]⟩, ⟨"Boolean", .tuple [.named "bool"]⟩, ⟨"String", .tuple [.named "String"]⟩]

end TB.Spec
