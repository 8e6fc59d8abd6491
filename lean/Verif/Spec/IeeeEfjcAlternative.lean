import Verif.Spec.IeeeEfjc

/-! Specification: the size of the terms of the energies and lengths of the extensible freely jointed chain in the alternative asymptotic approach. -/

namespace Polymers.Spec

/-- The size of the terms of the nondimensional length per link: those of the Langevin function, and those of the extension of the link, divided by the
stiffness. -/
noncomputable def efjcAlternativeLengthSize (κ η : ℝ) : ℝ := 1 + 1 / η + (2 + η + 2 / η) / κ

/-- The size of the terms of the nondimensional Gibbs energy per link: those of the reduced approach, and the coupling of the orientation of the link and its
extension. -/
noncomputable def efjcAlternativeGibbsSize (ℓ m κ T η : ℝ) : ℝ := efjcGibbsSize ℓ m κ T η + (1 + η) / κ

/-- The size of the terms of the nondimensional Helmholtz energy per link: those of the Gibbs energy, and the work of the force. -/
noncomputable def efjcAlternativeHelmholtzSize (ℓ m κ T η : ℝ) : ℝ :=
  efjcAlternativeGibbsSize ℓ m κ T η + (2 + η) + (2 + 2 * η + η ^ 2) / κ

end Polymers.Spec
