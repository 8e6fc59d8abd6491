import Verif.Spec.Partition
import Mathlib.MeasureTheory.Integral.IntervalIntegral.Basic
import Mathlib.Analysis.SpecialFunctions.Trigonometric.DerivHyp

/-! Specification: the ensemble of a chain under a force, built from the exact distribution of its extension.

A chain of `N` links under the nondimensional force `η` has the extension `γ`, as a fraction of the contour length, with a
weight proportional to the distribution without force times `e^{Nηγ cos θ}`, where `θ` is the angle between the extension and
the force. The average over the directions of the extension replaces the exponential by `sinh (Nηγ)/(Nηγ)`. -/

namespace Polymers.Spec

/-- The weight of the extension `γ` under the force `η`, averaged over its directions. -/
noncomputable def forceWeight (radial : ℝ → ℝ) (N : ℕ) (η γ : ℝ) : ℝ :=
  radial γ * (Real.sinh (N * η * γ) / (N * η * γ))

/-- The partition function of the chain under the force `η`. -/
noncomputable def forcePartition (radial : ℝ → ℝ) (N : ℕ) (η : ℝ) : ℝ :=
  ∫ γ in (0 : ℝ)..1, forceWeight radial N η γ

/-- The average over the directions of the component `γ cos θ` of the extension along the force: `γ (coth a - 1/a)` with
`a = Nηγ`. -/
noncomputable def alongForce (N : ℕ) (η γ : ℝ) : ℝ :=
  γ * (Real.cosh (N * η * γ) / Real.sinh (N * η * γ) - 1 / (N * η * γ))

/-- The mean of a function of the extension under the force `η`. -/
noncomputable def forceMean (radial : ℝ → ℝ) (N : ℕ) (η : ℝ) (A : ℝ → ℝ) : ℝ :=
  (∫ γ in (0 : ℝ)..1, A γ * forceWeight radial N η γ) / forcePartition radial N η

/-- The partition function of a chain in a harmonic potential of stiffness `c` at distance `d`. -/
noncomputable def potentialPartition (radial : ℝ → ℝ) (c d : ℝ) : ℝ :=
  ∫ γ in (0 : ℝ)..1, potentialWeight radial c d γ

end Polymers.Spec
