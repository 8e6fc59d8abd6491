import Verif.Spec.Ensembles

/-! Reference-state relations that hold on a domain of arguments only. -/

namespace Polymers.Spec

/-- Relative energies are the energies minus their value at the state whose nondimensional argument is `ref`, for every
nondimensional argument in `D`. -/
structure EnergyMethods.RelativeToOn (e : EnergyMethods) (nd : ℝ → ℝ → ℝ) (ref : ℝ) (D : ℝ → ℝ → Prop) : Prop where
  relative : ∀ x x₀ T, 0 < T → D (nd x T) T → nd x₀ T = ref → e.relative x T = e.energy x T - e.energy x₀ T
  relative_per_link : ∀ x x₀ T, 0 < T → D (nd x T) T → nd x₀ T = ref →
    e.relative_per_link x T = e.energy_per_link x T - e.energy_per_link x₀ T
  nd_relative : ∀ y T, 0 < T → D y T → e.nd_relative y T = e.nd_energy y T - e.nd_energy ref T
  nd_relative_per_link : ∀ y T, 0 < T → D y T →
    e.nd_relative_per_link y T = e.nd_energy_per_link y T - e.nd_energy_per_link ref T

/-- The scaling relations `EnergyMethods.Scales` for every nondimensional argument in `D`. -/
structure EnergyMethods.ScalesOn (e : EnergyMethods) (N : ℕ) (nd : ℝ → ℝ → ℝ) (D : ℝ → ℝ → Prop) : Prop where
  energy : ∀ x T, 0 < T → D (nd x T) T → e.energy x T = kT T * e.nd_energy (nd x T) T
  energy_per_link : ∀ x T, 0 < T → D (nd x T) T → e.energy_per_link x T = kT T * e.nd_energy_per_link (nd x T) T
  relative : ∀ x T, 0 < T → D (nd x T) T → e.relative x T = kT T * e.nd_relative (nd x T) T
  relative_per_link : ∀ x T, 0 < T → D (nd x T) T →
    e.relative_per_link x T = kT T * e.nd_relative_per_link (nd x T) T
  total : ∀ x T, 0 < T → D (nd x T) T → e.energy x T = N * e.energy_per_link x T
  relative_total : ∀ x T, 0 < T → D (nd x T) T → e.relative x T = N * e.relative_per_link x T
  nd_total : ∀ y T, 0 < T → D y T → e.nd_energy y T = N * e.nd_energy_per_link y T
  nd_relative_total : ∀ y T, 0 < T → D y T → e.nd_relative y T = N * e.nd_relative_per_link y T

end Polymers.Spec
