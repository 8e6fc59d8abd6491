import Verif.Spec.IeeeEfjc

/-! Specification: the size of the terms of the lengths and the energies of the extensible freely jointed chain at fixed force, in the asymptotic approach. -/

namespace Polymers.Spec

/-- The size of the terms of the nondimensional length per link: those of the Langevin function, which enters twice, and the extension of the link. -/
noncomputable def efjcAsymptoticLengthSize (κ η : ℝ) : ℝ := 3 + 3 / η + η / κ

/-- The size of the terms of the nondimensional Gibbs energy per link: those of the reduced approach, and the coupling of the orientation of the link and its
extension; with a fixed part for the rounding of its logarithm. -/
noncomputable def efjcAsymptoticGibbsSize (ℓ m κ T η : ℝ) : ℝ := efjcGibbsSize ℓ m κ T η + Real.log (1 + η / Real.tanh η / κ) + 31

/-- The size of the terms of the nondimensional Helmholtz energy per link: those of the Gibbs energy, and the work of the force. -/
noncomputable def efjcAsymptoticHelmholtzSize (ℓ m κ T η : ℝ) : ℝ :=
  efjcAsymptoticGibbsSize ℓ m κ T η + (2 + η) + (2 + 2 * η + η ^ 2 / κ)

end Polymers.Spec
