import Verif.Spec.GenRun

/-! # What `Container::from` should accept -/

set_option autoImplicit false

namespace TB.Spec

open TB.Macro

/-- The types from which a container can be made: itself, the enum, and what a tuple variant holds. -/
def Convertible (rc : Rustc) (sn en : String) (decl : List VariantDef) (k : Nat) : Prop :=
  k = rc.typeId (.named sn) ∨ k = rc.typeId (.named en) ∨ ∃ d ∈ decl, ∃ t, d.fields.fromTy = some t ∧ k = rc.typeId t

/-- Exactly one number has the property. -/
def OnlyOne (p : Nat → Prop) : Prop := ∃ k, p k ∧ ∀ k', p k' → k' = k

end TB.Spec
