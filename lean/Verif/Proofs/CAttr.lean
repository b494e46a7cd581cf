import Lean.Meta.Tactic.Simp.RegisterCommand

/-- Equations used to run programs of `CLang` symbolically. -/
register_simp_attr crun
