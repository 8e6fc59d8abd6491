import Verif.Spec.IeeeMorse
import Verif.Spec.IeeeEfjc

/-! Specification: the size of the terms of the Gibbs energy of the freely jointed chain with Morse links, in the reduced asymptotic approach. -/

namespace Polymers.Spec

/-- The size of the terms of the nondimensional Gibbs energy per link: the work of the force on the straight link, the energy of the stretched link and the work
of the force on its extension, both of which grow as the force comes close to the largest force, the energy of the thermal stretch and the energy of a free
hinge; with a fixed part for the rounding of the logarithms. -/
noncomputable def morseGibbsSize (ℓ m κ u T η : ℝ) : ℝ :=
  η + (2 * u + η * √(2 * u / κ)) / √(1 - η / morseForceMax κ u) + |Real.log (2 * Real.pi * ℓ ^ 2 / κ)| / 2 + |hingeLog ℓ m T| + 40

end Polymers.Spec
