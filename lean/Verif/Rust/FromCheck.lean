import Verif.Rust.UserCode
import Verif.Rust.GenEval

/-!
# Which arguments `Container::from` accepts

The compiler's choice of an implementation of `From` for `Container::from(e)`, and the example of `src/tagged_box_macro/mod.rs` marked `compile_fail`.

Simplified: the types of arguments are known for literals with a suffix and for `T::new()`; others are not judged. Implementations the user adds, and conversions of the argument
(none apply to owned values), are not modelled.
-/

set_option autoImplicit false

namespace TB.Rust

open TB.Mbe TB.Macro TB.Source

/-- The examples in the `///` comments that must not compile. -/
def failBlocks : List (List Char) → Option (List (List Char)) → List (List (List Char))
  | [], _ => []
  | l :: ls, none => if outerDoc l = src% "```compile_fail" then failBlocks ls (some []) else failBlocks ls none
  | l :: ls, some cur => if outerDoc l = src% "```" then cur.reverse :: failBlocks ls none else failBlocks ls (some (hiddenLine (outerDoc l) :: cur))

/-- The types `X` of the implementations of `From<X>` for the container: `impl<T> From<T> for T` of `core`, and those among the generated items
(`src/tagged_box_macro/mod.rs:762`, `:108`, `:124`). -/
def fromArgs {β : Type} (g : GCrate β) : List (Option Nat) :=
  some (g.rc.typeId (.named g.sn)) :: (g.fns.filter fun f => f.trait = "From" ∧ f.self = g.sn ∧ f.fn.name = "from").map fun f => f.arg.map g.rc.typeId

/-- The types an argument can have. `newTy T` are the types of `T::new()`: one for `String`, all `Vec<..>` for `Vec`. -/
def argTypes (rc : Rustc) (newTy : String → Nat → Prop) : Expr → Option (Nat → Prop)
  | .lit s => match numLit s with
    | some (_, some suffix) => some fun k => k = rc.typeId (.named suffix)
    | _ => none
  | .call (.path [(t, []), (f, [])]) [] => if f = "new" then some (newTy t) else none
  | _ => none

/-- One implementation, and no other, is for one of these types. With none, the compiler reports that the trait is not implemented; with more than one, that the type must be given. -/
def OneImpl {β : Type} (g : GCrate β) (p : Nat → Prop) : Prop :=
  ∃ (i k : Nat), (fromArgs g)[i]? = some (some k) ∧ p k ∧ ∀ (j k' : Nat), (fromArgs g)[j]? = some (some k') → p k' → j = i

/-- The statement `Container::from(e);` compiles. -/
def FromCompiles {β : Type} (g : GCrate β) (newTy : String → Nat → Prop) : Stmt → Prop
  | .semi (.call (.path [(c, []), (f, [])]) [e]) => c = g.sn ∧ f = "from" ∧ match argTypes g.rc newTy e with
    | some p => OneImpl g p
    | none => False
  | _ => False

end TB.Rust
