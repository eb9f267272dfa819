import Lean.Meta.Tactic.Simp.RegisterCommand

/-- Simp lemmas for running the parser. -/
register_simp_attr ps
