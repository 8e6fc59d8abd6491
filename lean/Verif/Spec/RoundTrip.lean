import Verif.Spec.Ensembles

/-!
Specification of the round trip between an isometric and an isotensional description of the same chain: the force
returned for an end-to-end length, applied to the chain, gives the end-to-end length back.
-/

namespace Polymers.Spec

/-- Applying the force returned for an extension gives the extension back up to the relative error `tol`, for all
nondimensional extensions and temperatures in `D`, in both sets of units. -/
structure ForceMethods.RoundTrip (f : ForceMethods) (l : LengthMethods) (N : ℕ) (ℓ tol : ℝ) (D : ℝ → ℝ → Prop) : Prop where
  nd : ∀ γ T, 0 < T → D γ T → |l.nd_length_per_link (f.nd_force γ T) T - γ| ≤ tol * |γ|
  dim : ∀ ξ T, 0 < T → D (ξ / (N * ℓ)) T → |l.length (f.force ξ T) T - ξ| ≤ tol * |ξ|

/-- The relative Helmholtz energy per link at an extension `γ` is, over all positive forces, the largest value of the
relative Gibbs energy per link plus force times extension, up to `tol * γ` times the distance of the force from the returned
one; and the returned force attains it. -/
structure EnergyMethods.IsLargestLegendre (h g : EnergyMethods) (f : ForceMethods) (tol : ℝ) (D : ℝ → ℝ → Prop) : Prop where
  attained : ∀ γ T, 0 < T → D γ T →
    h.nd_relative_per_link γ T = g.nd_relative_per_link (f.nd_force γ T) T + f.nd_force γ T * γ
  largest : ∀ γ T, 0 < T → D γ T → ∀ η, 0 < η →
    g.nd_relative_per_link η T + η * γ ≤ h.nd_relative_per_link γ T + tol * γ * |η - f.nd_force γ T|

/-- Among all positive forces, the one returned at an extension `γ` makes the Gibbs energy per link plus force times
extension largest, up to `tol * γ` times the distance of the other force from it. -/
def ForceMethods.Maximises (f : ForceMethods) (g : EnergyMethods) (tol : ℝ) (D : ℝ → ℝ → Prop) : Prop :=
  ∀ γ T, 0 < T → D γ T → ∀ η, 0 < η → g.nd_energy_per_link η T + η * γ ≤
    g.nd_energy_per_link (f.nd_force γ T) T + f.nd_force γ T * γ + tol * γ * |η - f.nd_force γ T|

/-- The same for links which break at the force `M T`: among all positive forces below it. -/
def ForceMethods.MaximisesBelow (f : ForceMethods) (g : EnergyMethods) (M : ℝ → ℝ) (tol : ℝ) (D : ℝ → ℝ → Prop) : Prop :=
  ∀ γ T, 0 < T → D γ T → 0 < f.nd_force γ T ∧ f.nd_force γ T < M T ∧ ∀ η, 0 < η → η < M T → g.nd_energy_per_link η T + η * γ ≤
    g.nd_energy_per_link (f.nd_force γ T) T + f.nd_force γ T * γ + tol * γ * |η - f.nd_force γ T|

end Polymers.Spec
