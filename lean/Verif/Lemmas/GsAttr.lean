import Lean.Meta.Tactic.Simp.RegisterCommand

/-! # A set of simplification rules for running generated code (no property theorems here) -/

/-- Lemmas that run the interpreter of `Rust/GenEval.lean` on known code. -/
register_simp_attr gs
