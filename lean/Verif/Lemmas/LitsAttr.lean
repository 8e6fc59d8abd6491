import Lean.Meta.Tactic.Simp.RegisterCommand

/-! The simp set `model_real`: reading the model at `ℝ` in ordinary notation. -/

/-- Rewrites the operations and decimal literals of the model at `ℝ` into ordinary notation. -/
register_simp_attr model_real

/-- Rewrites the nondimensional per-link methods of the records of `Verif/Spec/Api.lean` to free functions. -/
register_simp_attr api_core
