import Mathlib.Data.Real.Basic

/-! Specification vocabulary for loading histories. -/

namespace Polymers.Spec

/-- The largest of `1` and the first `k + 1` stretches of a history. -/
noncomputable def runningMax (h : List ℝ) (k : ℕ) : ℝ := (h.take (k + 1)).foldl max 1

end Polymers.Spec
