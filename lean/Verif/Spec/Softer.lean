import Verif.Spec.Ensembles

/-!
Specification: one chain is longer than another under the same force.
-/

namespace Polymers.Spec

/-- Under every force whose nondimensional value is in `D` the first chain is shorter than the second, for each of the four
methods which return an extension. -/
structure LengthMethods.ShorterThan (l l' : LengthMethods) (ℓ : ℝ) (D : ℝ → ℝ → Prop) : Prop where
  length : ∀ f T, 0 < T → D (ndForce ℓ f T) T → l.length f T < l'.length f T
  length_per_link : ∀ f T, 0 < T → D (ndForce ℓ f T) T → l.length_per_link f T < l'.length_per_link f T
  nd_length : ∀ η T, 0 < T → D η T → l.nd_length η T < l'.nd_length η T
  nd_length_per_link : ∀ η T, 0 < T → D η T → l.nd_length_per_link η T < l'.nd_length_per_link η T

end Polymers.Spec
