import Verif.Spec.Ensembles
import Verif.Spec.Partition
import Mathlib.Analysis.SpecialFunctions.Exp

/-!
Specification of the relations between an end-to-end distribution, the Helmholtz free energy of the same chain, and the
quadrature grid used when the chain is constructed.
-/

namespace Polymers.Spec

/-- The distribution is the Boltzmann factor of the free energy: multiplying the density at an end-to-end length by
`e^{A/kT}` gives the same constant at every length in `D`, at every temperature, in both sets of units. -/
structure DistributionMethods.IsBoltzmann (d : DistributionMethods) (e : EnergyMethods) (N : ℕ) (ℓ : ℝ) (D : ℝ → Prop) :
    Prop where
  density : ∀ r₁ r₂ T, 0 < T → D (r₁ / (N * ℓ)) → D (r₂ / (N * ℓ)) →
    d.density r₁ * Real.exp (e.energy r₁ T / kT T) = d.density r₂ * Real.exp (e.energy r₂ T / kT T)
  nd_density : ∀ γ₁ γ₂ T, 0 < T → D γ₁ → D γ₂ →
    d.nd_density γ₁ * Real.exp (e.nd_energy γ₁ T) = d.nd_density γ₂ * Real.exp (e.nd_energy γ₂ T)

/-- The radial distribution sums to one over `n` cells covering `(a, b)` in units of the contour length, in both sets of
units. -/
structure DistributionMethods.SumsToOne (d : DistributionMethods) (N : ℕ) (ℓ a b : ℝ) (n : ℕ) : Prop where
  nd_radial : midpointSum d.nd_radial a b n = 1
  radial : midpointSum d.radial (a * (N * ℓ)) (b * (N * ℓ)) n = 1

/-- The densities are positive at every nonnegative length below the contour length times `b`, and the radial densities at every positive one. -/
structure DistributionMethods.Positive (d : DistributionMethods) (N : ℕ) (ℓ b : ℝ) : Prop where
  density : ∀ r, 0 ≤ r → r < b * (N * ℓ) → 0 < d.density r
  nd_density : ∀ γ, 0 ≤ γ → γ < b → 0 < d.nd_density γ
  radial : ∀ r, 0 < r → r < b * (N * ℓ) → 0 < d.radial r
  nd_radial : ∀ γ, 0 < γ → γ < b → 0 < d.nd_radial γ

/-- The densities are positive at every positive length below the contour length times `b`. -/
structure DistributionMethods.PositiveInside (d : DistributionMethods) (N : ℕ) (ℓ b : ℝ) : Prop where
  density : ∀ r, 0 < r → r < b * (N * ℓ) → 0 < d.density r
  nd_density : ∀ γ, 0 < γ → γ < b → 0 < d.nd_density γ
  radial : ∀ r, 0 < r → r < b * (N * ℓ) → 0 < d.radial r
  nd_radial : ∀ γ, 0 < γ → γ < b → 0 < d.nd_radial γ

end Polymers.Spec
