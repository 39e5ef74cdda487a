import Lean.Meta.Tactic.Simp.RegisterCommand
/-- Lemmas with which `simp` executes Go code. -/
register_simp_attr go_exec
