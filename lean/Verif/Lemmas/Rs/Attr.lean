import Lean.Meta.Tactic.Simp.RegisterCommand

/-- Which function a name stands for. -/
register_simp_attr rsfn
/-- Symbolic execution. -/
register_simp_attr rseq
