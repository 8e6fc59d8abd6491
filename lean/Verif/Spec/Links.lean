import Mathlib.Analysis.SpecialFunctions.Log.Basic
import Mathlib.Analysis.SpecialFunctions.Sqrt

/-! Specification: the nondimensional link potentials of the uFJC models as functions of the link stretch `x` (the link
length over its rest length), in units of `kT`.  Each has its minimum at `x = 1` with second derivative `κ` there. -/

namespace Polymers.Spec

/-- Harmonic: `κ/2 (x - 1)²`. -/
noncomputable def harmonicEnergy (κ x : ℝ) : ℝ := κ / 2 * (x - 1) ^ 2

/-- Morse: `ε (1 - exp (-a (x - 1)))²` with `a = √(κ/2ε)`. -/
noncomputable def morseEnergy (κ ε x : ℝ) : ℝ := ε * (1 - Real.exp (-√(κ / (2 * ε)) * (x - 1))) ^ 2

/-- Log-squared: `κ/2 (ln x)²`. -/
noncomputable def logSquaredEnergy (κ x : ℝ) : ℝ := κ / 2 * Real.log x ^ 2

/-- Lennard-Jones: `κ/72 (x⁻¹² - 2 x⁻⁶)`. -/
noncomputable def lennardJonesEnergy (κ x : ℝ) : ℝ := κ / 72 * (1 / x ^ 12 - 2 / x ^ 6)

end Polymers.Spec
