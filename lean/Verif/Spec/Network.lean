import Mathlib.Analysis.SpecialFunctions.Artanh
import Mathlib.MeasureTheory.Integral.Bochner.Basic
import Mathlib.MeasureTheory.Measure.Lebesgue.Basic

/-! Specification vocabulary for networks of chains in uniaxial tension.

A chain is given by its extension along the axis, `z`, and across it, `r`, per link and in units of the link length. -/

namespace Polymers.Spec

open Real

/-- A rectangle rule for the integral of `f` over the positive numbers: 256 equally spaced values of `tanh x`. -/
noncomputable def tanhRule (f : ℝ → ℝ) : ℝ :=
  ∑ i ∈ Finset.range 256, f (artanh ((i + 1) / 257)) * (1 / 257 / (1 - ((i + 1) / 257) ^ 2))

/-- The rectangle rule for the integral of `f` from `0` to `c`: 256 equally spaced values, the last of them `c`. -/
noncomputable def endRule (c : ℝ) (f : ℝ → ℝ) : ℝ := ∑ i ∈ Finset.range 256, f (c * (i + 1) / 256) * (c / 256)

/-- The density of chains of extension `γ` when it is proportional to `exp (-A γ)` and the rule finds one chain in all. -/
noncomputable def density (rule : (ℝ → ℝ) → ℝ) (A : ℝ → ℝ) (γ : ℝ) : ℝ :=
  exp (-A γ) / (4 * π * rule fun x => x ^ 2 * exp (-A x))

/-- The extension, before a stretch `s` along the axis at constant volume, of a chain which is now at `(z, r)`. -/
noncomputable def restLength (s z r : ℝ) : ℝ := √((z / s) ^ 2 + s * r ^ 2)

/-- The axial minus the lateral stress of a network with `n z r` chains at `(z, r)`, of `N` links each, pulling with the
force `η γ` at extension `γ`: the mean of `N η z² / γ` minus that of `N η x² / γ`, where `x² = r² / 2` on average over the
directions across the axis, and where a shell of radius `r`, at both `z` and `-z`, has the volume `4 π r dz dr`. -/
noncomputable def networkStress (rule : (ℝ → ℝ) → ℝ) (N : ℝ) (η : ℝ → ℝ) (n : ℝ → ℝ → ℝ) : ℝ :=
  rule fun z => rule fun r => 4 * π * r * n z r * (N * η √(z ^ 2 + r ^ 2) / √(z ^ 2 + r ^ 2) * (z ^ 2 - r ^ 2 / 2))

/-- The number of chains of a network with `n z r` chains at `(z, r)`. -/
noncomputable def networkFraction (rule : (ℝ → ℝ) → ℝ) (n : ℝ → ℝ → ℝ) : ℝ :=
  rule fun z => rule fun r => 4 * π * r * n z r

/-- Whether a chain, now at `(z, r)` and at stretch `s`, was not longer than the critical extension `c` at the largest
stretch `m` so far, at which it was at `(z m / s, r √(s / m))`. -/
noncomputable def intact (c s m z r : ℝ) : ℝ :=
  open Classical in if restLength (s / m) z r ≤ c then 1 else 0

/-- The chains of a network swollen `J` times, at stretch `s` after a largest stretch `m`: each intact chain has moved with
the material from where the normalised distribution puts it, and was scaled by `a` in all directions before. -/
noncomputable def network (A : ℝ → ℝ) (c J a s m z r : ℝ) : ℝ :=
  density (endRule c) A (restLength s z r / a) / J * intact c s m z r

/-- The mean square length of a link with the harmonic potential of stiffness `κ` (asymptotically, that is with all
lengths allowed), weighted with the area of its sphere. -/
noncomputable def meanSquareLink (κ : ℝ) : ℝ :=
  (∫ s : ℝ, s ^ 4 * exp (-(κ / 2 * (s - 1) ^ 2))) / ∫ s : ℝ, s ^ 2 * exp (-(κ / 2 * (s - 1) ^ 2))

/-- The exponent of the Gaussian distribution of chains of `N` links with mean square length `v` of a link. -/
noncomputable def gaussianExponent (N v γ : ℝ) : ℝ := 3 * N / (2 * v) * γ ^ 2

end Polymers.Spec
