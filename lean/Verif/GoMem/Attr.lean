import Lean.Meta.Tactic.Simp.RegisterCommand
/-- Lemmas with which `simp` executes Go code with a memory. -/
register_simp_attr mem_exec
