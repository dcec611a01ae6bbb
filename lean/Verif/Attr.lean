import Lean.Meta.Tactic.Simp.RegisterCommand

/-- Simplification rules that evaluate model code. -/
register_simp_attr csem
