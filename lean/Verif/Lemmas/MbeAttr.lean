import Lean.Meta.Tactic.Simp.RegisterCommand

/-! # Sets of simplification rules for running macros (no property theorems here) -/

/-- Lemmas that run a macro on known tokens. -/
register_simp_attr mbe

/-- Lemmas that expand the invocations in known tokens. -/
register_simp_attr mbx
