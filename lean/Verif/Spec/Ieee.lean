import Verif.Model.Ieee

/-! Specification of accuracy in floating point. -/

namespace Polymers.Spec

open Polymers.Ieee

/-- The floating-point number is finite and differs from the real number by at most `e`. -/
def Within {P : Platform} (x : F64 P) (r e : ℝ) : Prop := ∃ v : ℝ, x = .fin v ∧ |v - r| ≤ e

/-- The floating-point number is finite and its relative error is at most `k` times that of a library function. -/
def Accurate {P : Platform} (k : ℝ) (x : F64 P) (r : ℝ) : Prop := Within x r (k * P.ε * |r|)

/-- A number which is neither very large nor very small: its size is between `2 ^ (-100)` (about `1e-30`) and `2 ^ 100` (about `1e30`). -/
def Moderate (v : ℝ) : Prop := 2 ^ (-100 : ℤ) ≤ |v| ∧ |v| ≤ 2 ^ (100 : ℤ)

/-- The floating-point number is not finite: an infinity, NaN or the result of a panic. -/
def NeverFinite {P : Platform} (x : F64 P) : Prop := ∀ v : ℝ, x ≠ .fin v

/-- The sum of Treloar for `N` links at the fraction `γ` of the contour length, of powers with the exponent `p`, with all terms taken positive and
the bases increased by `1e-6`. -/
noncomputable def treloarSize (N p : ℕ) (γ : ℝ) : ℝ :=
  ∑ j ∈ Finset.range (N + 1), (N.choose j : ℝ) * (max 0 ((1 - γ) / 2 + 1e-6 - j / N)) ^ p

/-- The sum of Treloar for `N` links at the fraction `γ` of the contour length, of powers with the exponent `p`. -/
noncomputable def treloarSum (N p : ℕ) (γ : ℝ) : ℝ :=
  ∑ j ∈ Finset.range ⌈N * ((1 - γ) / 2)⌉₊, (-1) ^ j * (N.choose j : ℝ) * ((1 - γ) / 2 - j / N) ^ p

/-- The density of the freely jointed chain at the fraction `γ` of the contour length, with all terms of its sum taken positive. -/
noncomputable def fjcDensitySize (N : ℕ) (γ : ℝ) : ℝ := N ^ N / (8 * Real.pi * γ * (N - 2).factorial) * treloarSize N (N - 3) γ

/-- The density of the freely jointed chain at the fraction `γ` of the contour length, after Treloar. -/
noncomputable def fjcDensity (N : ℕ) (γ : ℝ) : ℝ := N ^ N / (8 * Real.pi * γ * (N - 2).factorial) * treloarSum N (N - 2) γ

/-- The size of the terms of the force of the freely jointed chain and of the changes of the force when its sums change. -/
noncomputable def fjcForceSize (N : ℕ) (γ : ℝ) : ℝ :=
  (1 / γ + (N / 2 - 1) * (treloarSize N (N - 4) γ / treloarSum N (N - 2) γ +
    |treloarSum N (N - 3) γ| * treloarSize N (N - 3) γ / treloarSum N (N - 2) γ ^ 2)) / N

/-- The size of the rounding error of the relative energy of the freely jointed chain. -/
noncomputable def fjcEnergySize (N : ℕ) (γ : ℝ) : ℝ :=
  40 * N * (fjcDensitySize N 1e-6 / fjcDensity N 1e-6 + fjcDensitySize N γ / fjcDensity N γ) + |Real.log (fjcDensity N 1e-6 / fjcDensity N γ)|

/-- The logarithm of the partition function of a free hinge, with the mass `m` of the hinge and the length `ℓ` of the link. -/
noncomputable def hingeLog (ℓ m T : ℝ) : ℝ :=
  Real.log (8 * Real.pi ^ 2 * m * ℓ ^ 2 * Polymers.BOLTZMANN_CONSTANT * T / Polymers.PLANCK_CONSTANT ^ 2)

/-- The size of the rounding error of the Helmholtz energy of the freely jointed chain: of the logarithm of its density, and of the energy of its
free hinges. -/
noncomputable def fjcHelmholtzSize (N : ℕ) (ℓ m T γ : ℝ) : ℝ :=
  43 * N * (fjcDensitySize N γ / fjcDensity N γ) + |Real.log (fjcDensity N γ / (N * ℓ) ^ 3)| + (N - 1) * (|hingeLog ℓ m T| + 24)

/-- The size of the rounding error of the Gibbs energy of the freely jointed chain at fixed length: of the work of the force, and of the Helmholtz
energy. -/
noncomputable def fjcGibbsSize (N : ℕ) (ℓ m T γ : ℝ) : ℝ := 40 * N * (N * γ * fjcForceSize N γ) + fjcHelmholtzSize N ℓ m T γ

/-- The size of the rounding error of the relative Gibbs energy of the freely jointed chain at fixed length, which the code finds as a difference of
two energies of a chain with unit links and hinges at 300 K. -/
noncomputable def fjcRelativeGibbsSize (N : ℕ) (γ : ℝ) : ℝ := fjcGibbsSize N 1 1 300 γ + fjcGibbsSize N 1 1 300 1e-6

end Polymers.Spec
