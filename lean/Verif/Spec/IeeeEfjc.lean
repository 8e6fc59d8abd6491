import Verif.Spec.Ieee

/-! Specification: the size of the terms of the energies of the extensible freely jointed chain. -/

namespace Polymers.Spec

/-- The size of the terms of the nondimensional Gibbs energy per link of the extensible chain: the work of the force on the straight link, the energy of
the stretched link, the energy of the thermal stretch and the energy of a free hinge; with a fixed part for the rounding of the logarithms. -/
noncomputable def efjcGibbsSize (ℓ m κ T η : ℝ) : ℝ :=
  η + η ^ 2 / (2 * κ) + |Real.log (2 * Real.pi * ℓ ^ 2 / κ)| / 2 + |hingeLog ℓ m T| + 40

/-- The size of the terms of the nondimensional Helmholtz energy per link: those of the Gibbs energy and the work of the force. -/
noncomputable def efjcHelmholtzSize (ℓ m κ T η : ℝ) : ℝ := efjcGibbsSize ℓ m κ T η + η

end Polymers.Spec
