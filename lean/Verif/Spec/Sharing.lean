import Verif.Spec.Threads
import Verif.Spec.Container

/-!
# Specification: user code that does not modify what it looks at
-/

set_option autoImplicit false

namespace TB

/-- The program does not modify or free anything that was alive when it started (it may do so in between or at the end with what it
allocates itself): code without interior mutability that works through shared references. -/
def LeavesAlone (env : Env) (inRange : Bool) {α : Type} (p : Prog α) : Prop :=
  ∀ s, HeapInv env s → Spares env inRange s.blocks p s

namespace Macro

/-- The user code of an operation does not. -/
def COp.LeavesAlone {β : Type} (env : Env) (inRange : Bool) : COp Prog β → Prop
  | .clone _ f => ∀ x, TB.LeavesAlone env inRange (f.run x)
  | .eq _ _ f => ∀ x, TB.LeavesAlone env inRange (f.run x)
  | .partialCmp _ _ f => ∀ x, TB.LeavesAlone env inRange (f.run x)
  | .cmp _ _ f => ∀ x, TB.LeavesAlone env inRange (f.run x)
  | .observe _ f => ∀ x, TB.LeavesAlone env inRange (f.run x)
  | .debug _ f _ => ∀ x, TB.LeavesAlone env inRange (f.run x)
  | .display _ f _ => ∀ x, TB.LeavesAlone env inRange (f.run x)
  | _ => True

/-- The user code of a client does not. -/
def CClient.LeavesAlone {β : Type} (env : Env) (inRange : Bool) (p : CClient Prog β) : Prop :=
  ∀ os op, p os = some op → op.LeavesAlone env inRange

end Macro
end TB
