import Lean.Meta.Tactic.Simp.RegisterCommand

/-! The simplification rules that run a C program on a memory that is only partly known. -/

register_simp_attr csem
