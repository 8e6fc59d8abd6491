import Mathlib.Analysis.SpecialFunctions.Exp
import Mathlib.Analysis.SpecialFunctions.Trigonometric.DerivHyp
import Mathlib.Algebra.BigOperators.Group.Finset.Basic

/-! Specification: the single-link partition function of a freely jointed chain of extensible links, and its midpoint
discretisation. -/

namespace Polymers.Spec

/-- The midpoint sum with `n` equal cells over `[a, b]`. -/
noncomputable def midpointSum (f : ℝ → ℝ) (a b : ℝ) (n : ℕ) : ℝ :=
  (b - a) / n * ∑ i ∈ Finset.range n, f (a + (i + 1 / 2) * ((b - a) / n))

/-- Boltzmann weight of the link length `x` under a force `η`, averaged over orientations: `x² · sinh (ηx)/(ηx) · e^{-U}`,
up to the factor two. -/
noncomputable def linkWeight (U : ℝ → ℝ) (η x : ℝ) : ℝ := 2 * (x * Real.sinh (η * x) / η) * Real.exp (-U x)

/-- The weight of the extension `γ` of a chain in a potential: the exact radial distribution of the extension `γ`, weighted
by the Boltzmann factor of a harmonic potential of stiffness `c` averaged over the orientations of the extension,
`e^{-c(d² + γ²)/2} sinh (cdγ)/(cdγ)`. -/
noncomputable def potentialWeight (radial : ℝ → ℝ) (c d γ : ℝ) : ℝ :=
  radial γ * (Real.exp (-(c * (d ^ 2 + γ ^ 2) / 2)) * (Real.sinh (c * d * γ) / (c * d * γ)))

end Polymers.Spec
