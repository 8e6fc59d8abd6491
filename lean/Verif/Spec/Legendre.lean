import Verif.Spec.Ensembles

/-! Specification of the isometric Legendre approximations. -/

namespace Polymers.Spec

/-- Up to a constant independent of the extension, the Helmholtz free energy `h` at the extension `γ` is the Gibbs free
energy `g` at the force that `p` gives for `γ`, plus that force times `γ`. -/
def EnergyMethods.IsLegendreAtForce (h g : EnergyMethods) (p : ForceMethods) : Prop :=
  ∀ γ₁ γ₂ T, 0 < T → h.nd_energy_per_link γ₁ T - h.nd_energy_per_link γ₂ T =
    (g.nd_energy_per_link (p.nd_force γ₁ T) T + p.nd_force γ₁ T * γ₁) -
      (g.nd_energy_per_link (p.nd_force γ₂ T) T + p.nd_force γ₂ T * γ₂)

/-- The same for the dimensional energies of a chain: forces times end-to-end lengths. -/
def EnergyMethods.IsLegendreAtForceDim (h g : EnergyMethods) (p : ForceMethods) : Prop :=
  ∀ ξ₁ ξ₂ T, 0 < T → h.energy ξ₁ T - h.energy ξ₂ T =
    (g.energy (p.force ξ₁ T) T + p.force ξ₁ T * ξ₁) - (g.energy (p.force ξ₂ T) T + p.force ξ₂ T * ξ₂)

end Polymers.Spec
