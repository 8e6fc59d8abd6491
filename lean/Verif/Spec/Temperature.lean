import Verif.Spec.Ensembles

/-!
Specification: what heating does to a chain whose elasticity is entropic.
-/

namespace Polymers.Spec

/-- At a fixed end-to-end length the force is proportional to the temperature. -/
def ForceMethods.Entropic (p : ForceMethods) : Prop :=
  ∀ ξ T T', 0 < T → 0 < T' → p.force ξ T' = T' / T * p.force ξ T

/-- At a fixed end-to-end length the free energy of stretching, of the chain and per link, is proportional to the
temperature: no part of it is internal energy. -/
structure EnergyMethods.Entropic (e : EnergyMethods) : Prop where
  relative : ∀ ξ T T', 0 < T → 0 < T' → e.relative ξ T' = T' / T * e.relative ξ T
  relative_per_link : ∀ ξ T T', 0 < T → 0 < T' → e.relative_per_link ξ T' = T' / T * e.relative_per_link ξ T

/-- At a fixed force only the ratio of force and temperature matters for the extension: heating is the same as pulling less. -/
structure LengthMethods.Entropic (l : LengthMethods) : Prop where
  length : ∀ f T T', 0 < T → 0 < T' → l.length f T' = l.length (T / T' * f) T
  length_per_link : ∀ f T T', 0 < T → 0 < T' → l.length_per_link f T' = l.length_per_link (T / T' * f) T

/-- At a fixed force heating makes the chain shorter, as long as the nondimensional force is in `D` before and after. -/
structure LengthMethods.Contracts (l : LengthMethods) (ℓ : ℝ) (D : ℝ → ℝ → Prop) : Prop where
  length : ∀ f T T', 0 < T → T < T' → D (ndForce ℓ f T) T → D (ndForce ℓ f T') T' → l.length f T' < l.length f T
  length_per_link : ∀ f T T', 0 < T → T < T' → D (ndForce ℓ f T) T → D (ndForce ℓ f T') T' →
    l.length_per_link f T' < l.length_per_link f T

end Polymers.Spec
