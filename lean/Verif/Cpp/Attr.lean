import Lean.Meta.Tactic.Simp.RegisterCommand

/-- Rules that execute syntax trees. -/
register_simp_attr cpp
