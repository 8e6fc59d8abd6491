import Verif.Spec.Ensembles

/-!
Specification: pulling harder makes the chain longer.
-/

namespace Polymers.Spec

/-- Of two forces whose nondimensional values are in `D`, the larger one gives the larger extension, for each of the four
methods which return an extension. -/
structure LengthMethods.Increases (l : LengthMethods) (ℓ : ℝ) (D : ℝ → ℝ → Prop) : Prop where
  length : ∀ f f' T, 0 < T → D (ndForce ℓ f T) T → D (ndForce ℓ f' T) T → f < f' → l.length f T < l.length f' T
  length_per_link : ∀ f f' T, 0 < T → D (ndForce ℓ f T) T → D (ndForce ℓ f' T) T → f < f' →
    l.length_per_link f T < l.length_per_link f' T
  nd_length : ∀ η η' T, 0 < T → D η T → D η' T → η < η' → l.nd_length η T < l.nd_length η' T
  nd_length_per_link : ∀ η η' T, 0 < T → D η T → D η' T → η < η' → l.nd_length_per_link η T < l.nd_length_per_link η' T

end Polymers.Spec
