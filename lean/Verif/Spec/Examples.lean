import Verif.Rust.Client
import Verif.Spec.SourceRun
import Verif.Spec.Container

/-!
# The examples in the documentation and the tests of the crate

Both are taken from the text of the crate (`docBlocks`, `testFns`) and run by `runBody` (`Rust/Client.lean`), which runs the functions of the crate from their text as well.
-/

set_option autoImplicit false

namespace TB.Spec

open TB TB.Macro TB.Rust TB.Source

/-- What is assumed of the types of other libraries: their layouts are layouts, and literals are values of them. -/
structure StdOK (std : Std) : Prop where
  wf : ∀ x, (std.shape x).WF
  size : ∀ x, (std.shape x).size < 2 ^ 64
  lit : ∀ x l, (std.shape x).Has (std.enc (std.shape x) l)

/-- It finishes, with all its variables dropped, or the allocator failed. In particular, no assertion fails. -/
def Finishes {E : Type} (o : XOut E (V E)) (s : State) : Prop :=
  (∃ s', o = .ret .unit [] s') ∨ ∃ m s', o = .panic m [] s' ∧ NullBetween s s'

/-- The examples of `src/tagged_box.rs` work in a setting. -/
def DocsWork (cfg : Config) : Prop :=
  ∀ (E : Type) (env : Env) (user : User E) (cr : Crate E) (std : Std) (addr : String → Nat) (s : State),
    env.cfg = cfg → env.OK → env.InRange → HeapInv env s → StdOK std → sourceCrate env user = some cr →
    ∀ block ∈ docBlocks boxText none, ∃ code, exampleCode block = some code ∧ Finishes (runBody cr std addr code s) s

/-- The test of this name in `src/tagged_pointer.rs`. -/
noncomputable def testNamed (n : String) : Option Fn := (testFns pointerText).bind fun fs => fs.find? (·.name == n)

/-- How `cargo test` judges the outcome of a test. -/
def Passes {E : Type} (f : Fn) (o : XOut E (V E)) : Prop :=
  f.hasAttr "test" = true ∧ if f.hasAttr "should_panic" then ∃ m l s', o = .panic m l s' else ∃ v l s', o = .ret v l s'

/-- `a` is the address of a local variable: it fits into the bits a pointer has and is not reserved, and the memory there holds `v`. -/
structure IsVar (env : Env) (sh : Shape) (v : Val) (a : Nat) (s : State) : Prop where
  bits : a < 2 ^ env.ptrBits
  width : a < 2 ^ env.cfg.POINTER_WIDTH
  read : ptrRead sh a s = .ret v s

/-- The variable `integer` of the tests. -/
def IntegerVar (env : Env) (std : Std) (addr : String → Nat) (ty : String) (s : State) : Prop :=
  IsVar env (std.shape ty) (std.enc (std.shape ty) (.num 100)) (addr "integer") s

end TB.Spec
