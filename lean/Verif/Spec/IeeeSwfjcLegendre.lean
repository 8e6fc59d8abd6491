import Verif.Spec.IeeeSwfjc

/-! Specification: the size of the terms of the Legendre transform of the Gibbs energy of the square-well chain. -/

namespace Polymers.Spec

/-- The size of the terms of the nondimensional Helmholtz energy per link of the square-well chain, the Gibbs energy plus the force times the length. -/
noncomputable def wellHelmholtzSize (ℓ m T c η : ℝ) : ℝ := η * wellLengthSize c η + wellGibbsSize ℓ m T c η

end Polymers.Spec
