import Mathlib.Analysis.SpecialFunctions.Integrals.Basic
import Mathlib.Analysis.SpecialFunctions.Gaussian.GaussianIntegral

/-! The error function, defined by its integral. -/

namespace Polymers.Spec

open Real

/-- `erf x = 2 / √π * ∫₀ˣ exp (-t²) dt`. -/
noncomputable def errorFunction (x : ℝ) : ℝ := 2 / √π * ∫ t in (0 : ℝ)..x, exp (-t ^ 2)

end Polymers.Spec
