import Lean.Meta.Tactic.Simp.RegisterCommand

/-! # A set of simplification rules for running code (no property theorems here) -/

/-- Lemmas that run the interpreter on known code. -/
register_simp_attr rs
