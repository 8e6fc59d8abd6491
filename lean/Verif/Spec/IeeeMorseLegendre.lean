import Verif.Spec.IeeeMorse
import Verif.Spec.IeeeEfjc

/-! Specification: the size of the terms of the Helmholtz energy at fixed force of the freely jointed chain with Morse links, in the reduced asymptotic
approach. -/

namespace Polymers.Spec

/-- The size of the terms of the nondimensional Helmholtz energy per link: the entropy of the orientation of the link and the work of the force on the straight
link, the energy of the stretched link, which is found with an error that grows as the force comes close to the largest force, the energy of the thermal stretch and
the energy of a free hinge; with a fixed part for the rounding of the logarithms. -/
noncomputable def morseHelmholtzSize (ℓ m κ u T η : ℝ) : ℝ :=
  2 * η + 2 * u / √(1 - η / morseForceMax κ u) + |Real.log (2 * Real.pi * ℓ ^ 2 / κ)| / 2 + |hingeLog ℓ m T| + 40

end Polymers.Spec
