import Lean.Meta.Tactic.Simp.RegisterCommand

/-- Simp set that rewrites the generic scalar / Eigen operations at `ℝ` to Mathlib operations. -/
register_simp_attr flt
