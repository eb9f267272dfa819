import Verif.Spec.BuildRun
import Verif.Spec.ContainerRun

/-!
# From the environment variable and the characters of the invocation to the running program
-/

set_option autoImplicit false

namespace TB.Spec

open TB TB.Macro TB.Mbe TB.Rust TB.Source

/-- `g` is the program one gets from
```
tagged_box! {
  text
}
```
by running `build.rs` from its text with the environment variables `vars`, letting cargo read what it prints, compiling the crate from its text with the settings cargo was
told, cutting `text` (a list of lines) into tokens, expanding them with the macro rules in the text of the crate, and compiling the result together with the crate. -/
def IsBuilt {β : Type} (vars : List Char → EnvVar) (text : List (List Char)) (env : Env) (rc : Rustc) (user : User (Host β)) (hd : Bool) (cb : EVal → M β)
    (g : GCrate β) : Prop :=
  user.drop = hostDrop rc hd g.defs ∧
  ∃ input out cr, parseText text = some input ∧ ExpandsTo rc input out ∧ builtCrate vars env user = some cr ∧
    ∃ depth, ∀ n ≥ depth, genCrate n cr rc hd cb out = some g

/-- `G` is this program, for every closure. -/
def AreBuilt (vars : List Char → EnvVar) (text : List (List Char)) (env : Env) (rc : Rustc) (users : ∀ β : Type, User (Host β)) (hd : Bool) (G : Programs) : Prop :=
  ∀ (β : Type) (cb : EVal → M β), IsBuilt vars text env rc (users β) hd cb (G β cb)

end TB.Spec
