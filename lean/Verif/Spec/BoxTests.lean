import Verif.Rust.BoxTests
import Verif.Spec.Examples

/-!
# The tests of `TaggedBox` that use boxes directly
-/

set_option autoImplicit false

namespace TB.Spec

open TB TB.Macro TB.Rust TB.Source

/-- The test of this name in `src/tagged_box.rs` works in a setting, in a debug build or a release build, on targets with 64 bits. -/
def BoxTestWorks (name : String) (cfg : Config) (debug : Bool) : Prop :=
  ∀ (E : Type) (env : Env) (user : User E) (cr : Crate E) (std : Std) (addr : String → Nat) (s : State),
    env.cfg = cfg → env.debug = debug → env.ptrBits = 64 → env.OK → env.InRange → HeapInv env s → StdOK std → sourceCrate env user = some cr →
    ∃ code, boxTest name boxText = some code ∧ Finishes (runBody cr std addr code s) s

end TB.Spec
