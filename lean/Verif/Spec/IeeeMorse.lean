import Mathlib.Analysis.SpecialFunctions.Pow.Real

/-! Specification: the size of the terms of the lengths of the freely jointed chain with Morse links, in the reduced asymptotic approach. -/

namespace Polymers.Spec

/-- The largest nondimensional force that a link with the nondimensional stiffness `κ` and the nondimensional energy `u` bears. -/
noncomputable def morseForceMax (κ u : ℝ) : ℝ := √(u * κ / 8)

/-- The size of the terms of the nondimensional length per link: those of the Langevin function, and the extension of the link, which grows as the force comes
close to the largest force. -/
noncomputable def morseLengthSize (κ u η : ℝ) : ℝ := 1 + 1 / η + √(2 * u / κ) / √(1 - η / morseForceMax κ u)

end Polymers.Spec
