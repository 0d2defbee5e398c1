/- The simp set `greal`: evaluation of the model over ℝ. -/
import Lean.Meta.Tactic.Simp.RegisterCommand

/-- unfolding and evaluation lemmas for the model over ℝ -/
register_simp_attr greal
