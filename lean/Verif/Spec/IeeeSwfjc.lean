import Verif.Spec.Ieee

/-! Specification: the partition function of a link of the square-well chain under a force, and the size of the terms its value is computed from. -/

namespace Polymers.Spec

/-- The partition function of a link that is confined between its length and `c` times its length under the nondimensional force `η`, without the factor
`4 π / η³`. -/
noncomputable def wellSum (c η : ℝ) : ℝ :=
  (c * η * Real.cosh (c * η) - Real.sinh (c * η)) - (η * Real.cosh η - Real.sinh η)

/-- The size of its terms, with the factor by which the rounding error of an argument is enlarged by the hyperbolic functions. -/
noncomputable def wellSumSize (c η : ℝ) : ℝ :=
  (1 + c * η) * (c * η * Real.cosh (c * η) + Real.sinh (c * η) + η * Real.cosh η + Real.sinh η)

/-- The derivative of the partition function in the force. -/
noncomputable def wellSlope (c η : ℝ) : ℝ := c ^ 2 * η * Real.sinh (c * η) - η * Real.sinh η

/-- The size of the terms of the derivative. -/
noncomputable def wellSlopeSize (c η : ℝ) : ℝ := (1 + c * η) * (c ^ 2 * η * Real.sinh (c * η) + η * Real.sinh η)

/-- The size of the terms of the nondimensional length per link of the square-well chain: the error of the quotient of the derivative and the partition
function, and the term `3 / η` that is subtracted. -/
noncomputable def wellLengthSize (c η : ℝ) : ℝ :=
  wellSlopeSize c η / wellSum c η + wellSlope c η * wellSumSize c η / wellSum c η ^ 2 + 3 / η

/-- The size of the terms of the nondimensional Gibbs energy per link of the square-well chain. -/
noncomputable def wellGibbsSize (ℓ m T c η : ℝ) : ℝ :=
  3 * |Real.log η| + |Real.log (wellSum c η)| + wellSumSize c η / wellSum c η + |hingeLog ℓ m T| + 4

end Polymers.Spec
