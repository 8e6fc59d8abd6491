import Mathlib.Analysis.Calculus.Deriv.Basic

/-! Specification of what the families of methods of a single-chain model have to do with each other.

The records below just collect, for one public struct, the methods of one family (`Verif/Spec/Api.lean` fills them in).
A dimensional method takes the argument (`x`: a force or an end-to-end length) and the temperature.  A
nondimensional method takes the nondimensional argument and the temperature; where the Rust method has no temperature
parameter the record ignores it. -/

namespace Polymers.Spec

/-- Boltzmann's constant in J/(mol K) times the temperature. -/
noncomputable def kT (T : ℝ) : ℝ := 8.314462618 * T

/-- The nondimensional force `η = f ℓ / kT`. -/
noncomputable def ndForce (ℓ f T : ℝ) : ℝ := f * ℓ / kT T

/-- The nondimensional link stiffness `κ = k ℓ² / kT`. -/
noncomputable def ndStiffness (k ℓ T : ℝ) : ℝ := k * ℓ ^ 2 / kT T

/-- The nondimensional link energy `ε / kT`. -/
noncomputable def ndEnergy (ε T : ℝ) : ℝ := ε / kT T

/-- The nondimensional end-to-end length per link `γ = ξ / (N ℓ)` (it does not depend on the temperature). -/
noncomputable def ndLength (N : ℕ) (ℓ ξ : ℝ) (_T : ℝ) : ℝ := ξ / (N * ℓ)

/-- The eight methods of one free energy. -/
structure EnergyMethods where
  /-- `..._free_energy` -/
  energy : ℝ → ℝ → ℝ
  /-- `..._free_energy_per_link` -/
  energy_per_link : ℝ → ℝ → ℝ
  /-- `relative_..._free_energy` -/
  relative : ℝ → ℝ → ℝ
  /-- `relative_..._free_energy_per_link` -/
  relative_per_link : ℝ → ℝ → ℝ
  /-- `nondimensional_..._free_energy` -/
  nd_energy : ℝ → ℝ → ℝ
  /-- `nondimensional_..._free_energy_per_link` -/
  nd_energy_per_link : ℝ → ℝ → ℝ
  /-- `nondimensional_relative_..._free_energy` -/
  nd_relative : ℝ → ℝ → ℝ
  /-- `nondimensional_relative_..._free_energy_per_link` -/
  nd_relative_per_link : ℝ → ℝ → ℝ

/-- The four methods of the expected end-to-end length under an applied force. -/
structure LengthMethods where
  /-- `end_to_end_length` -/
  length : ℝ → ℝ → ℝ
  /-- `end_to_end_length_per_link` -/
  length_per_link : ℝ → ℝ → ℝ
  /-- `nondimensional_end_to_end_length` -/
  nd_length : ℝ → ℝ → ℝ
  /-- `nondimensional_end_to_end_length_per_link` -/
  nd_length_per_link : ℝ → ℝ → ℝ

/-- The two methods of the expected force under an applied end-to-end length. -/
structure ForceMethods where
  /-- `force` -/
  force : ℝ → ℝ → ℝ
  /-- `nondimensional_force` -/
  nd_force : ℝ → ℝ → ℝ

/-- The four methods of the equilibrium distribution of the end-to-end length. -/
structure DistributionMethods where
  /-- `equilibrium_distribution` -/
  density : ℝ → ℝ
  /-- `nondimensional_equilibrium_distribution` -/
  nd_density : ℝ → ℝ
  /-- `equilibrium_radial_distribution` -/
  radial : ℝ → ℝ
  /-- `nondimensional_equilibrium_radial_distribution` -/
  nd_radial : ℝ → ℝ

/-- Dimensional energies are `kT` times nondimensional ones at the corresponding nondimensional argument `nd x T`, and
totals are `N` times the per-link values. -/
structure EnergyMethods.Scales (e : EnergyMethods) (N : ℕ) (nd : ℝ → ℝ → ℝ) : Prop where
  energy : ∀ x T, 0 < T → e.energy x T = kT T * e.nd_energy (nd x T) T
  energy_per_link : ∀ x T, 0 < T → e.energy_per_link x T = kT T * e.nd_energy_per_link (nd x T) T
  relative : ∀ x T, 0 < T → e.relative x T = kT T * e.nd_relative (nd x T) T
  relative_per_link : ∀ x T, 0 < T → e.relative_per_link x T = kT T * e.nd_relative_per_link (nd x T) T
  total : ∀ x T, 0 < T → e.energy x T = N * e.energy_per_link x T
  relative_total : ∀ x T, 0 < T → e.relative x T = N * e.relative_per_link x T
  nd_total : ∀ y T, 0 < T → e.nd_energy y T = N * e.nd_energy_per_link y T
  nd_relative_total : ∀ y T, 0 < T → e.nd_relative y T = N * e.nd_relative_per_link y T

/-- Relative energies are the energies minus their value at the state whose nondimensional argument is `ref`. -/
structure EnergyMethods.RelativeTo (e : EnergyMethods) (nd : ℝ → ℝ → ℝ) (ref : ℝ) : Prop where
  relative : ∀ x x₀ T, 0 < T → nd x₀ T = ref → e.relative x T = e.energy x T - e.energy x₀ T
  relative_per_link : ∀ x x₀ T, 0 < T → nd x₀ T = ref →
    e.relative_per_link x T = e.energy_per_link x T - e.energy_per_link x₀ T
  nd_relative : ∀ y T, 0 < T → e.nd_relative y T = e.nd_energy y T - e.nd_energy ref T
  nd_relative_per_link : ∀ y T, 0 < T → e.nd_relative_per_link y T = e.nd_energy_per_link y T - e.nd_energy_per_link ref T

/-- Relative energies are the energies minus their limit where the nondimensional argument tends to the reference
state along `F`.  (The dimensional ones differ by `kT` times a constant, `N kT` times for the totals.) -/
def EnergyMethods.RelativeToLimit (e : EnergyMethods) (N : ℕ) (F : Filter ℝ) : Prop :=
  ∀ T, 0 < T → ∃ c, Filter.Tendsto (fun y => e.nd_energy_per_link y T) F (nhds c) ∧
    (∀ y, e.nd_relative_per_link y T = e.nd_energy_per_link y T - c) ∧
    (∀ y, e.nd_relative y T = e.nd_energy y T - N * c) ∧
    (∀ x, e.relative_per_link x T = e.energy_per_link x T - kT T * c) ∧
    ∀ x, e.relative x T = e.energy x T - N * kT T * c

/-- Two structs (the same model with another hinge mass) have the same relative energies. -/
def EnergyMethods.SameRelative (e e' : EnergyMethods) : Prop :=
  e.relative = e'.relative ∧ e.relative_per_link = e'.relative_per_link ∧ e.nd_relative = e'.nd_relative ∧
    e.nd_relative_per_link = e'.nd_relative_per_link

/-- Lengths are `ℓ` times nondimensional lengths, and totals are `N` times the per-link values. -/
structure LengthMethods.Scales (l : LengthMethods) (N : ℕ) (ℓ : ℝ) (nd : ℝ → ℝ → ℝ) : Prop where
  length : ∀ x T, 0 < T → l.length x T = ℓ * l.nd_length (nd x T) T
  length_per_link : ∀ x T, 0 < T → l.length_per_link x T = ℓ * l.nd_length_per_link (nd x T) T
  total : ∀ x T, 0 < T → l.length x T = N * l.length_per_link x T
  nd_total : ∀ y T, 0 < T → l.nd_length y T = N * l.nd_length_per_link y T

/-- Forces are `kT/ℓ` times nondimensional forces. -/
def ForceMethods.Scales (p : ForceMethods) (ℓ : ℝ) (nd : ℝ → ℝ → ℝ) : Prop :=
  ∀ x T, 0 < T → p.force x T = kT T / ℓ * p.nd_force (nd x T) T

/-- The expected length is minus the gradient of the free energy `e` in the force, at every force and temperature in
`D` (a condition on the nondimensional force and the temperature). -/
structure LengthMethods.IsMinusGradient (l : LengthMethods) (e : EnergyMethods) (ℓ : ℝ) (D : ℝ → ℝ → Prop) : Prop where
  length : ∀ f T, 0 < T → D (ndForce ℓ f T) T → HasDerivAt (fun f => e.energy f T) (-l.length f T) f
  length_per_link : ∀ f T, 0 < T → D (ndForce ℓ f T) T →
    HasDerivAt (fun f => e.energy_per_link f T) (-l.length_per_link f T) f
  nd_length : ∀ η T, 0 < T → D η T → HasDerivAt (fun η => e.nd_energy η T) (-l.nd_length η T) η
  nd_length_per_link : ∀ η T, 0 < T → D η T →
    HasDerivAt (fun η => e.nd_energy_per_link η T) (-l.nd_length_per_link η T) η

/-- The expected force is the gradient of the free energy `e` in the end-to-end length, at every length and
temperature in `D` (a condition on the nondimensional length per link and the temperature).  Nondimensionally,
`η = ∂(ψ/N)/∂γ`. -/
structure ForceMethods.IsGradient (p : ForceMethods) (e : EnergyMethods) (N : ℕ) (ℓ : ℝ) (D : ℝ → ℝ → Prop) : Prop where
  force : ∀ ξ T, 0 < T → D (ndLength N ℓ ξ T) T → HasDerivAt (fun ξ => e.energy ξ T) (p.force ξ T) ξ
  nd_force : ∀ γ T, 0 < T → D γ T → HasDerivAt (fun γ => e.nd_energy_per_link γ T) (p.nd_force γ T) γ

/-- `h` is the Legendre transform of the free energy `g` in the force: force times expected length is added to it, at
every force and temperature in `D`. -/
structure EnergyMethods.IsLegendre (h g : EnergyMethods) (l : LengthMethods) (ℓ : ℝ) (D : ℝ → ℝ → Prop) : Prop where
  energy : ∀ f T, 0 < T → D (ndForce ℓ f T) T → h.energy f T = g.energy f T + f * l.length f T
  energy_per_link : ∀ f T, 0 < T → D (ndForce ℓ f T) T →
    h.energy_per_link f T = g.energy_per_link f T + f * l.length_per_link f T
  nd_energy : ∀ η T, 0 < T → D η T → h.nd_energy η T = g.nd_energy η T + η * l.nd_length η T
  nd_energy_per_link : ∀ η T, 0 < T → D η T →
    h.nd_energy_per_link η T = g.nd_energy_per_link η T + η * l.nd_length_per_link η T

/-- `g` is the inverse Legendre transform of the free energy `h` in the end-to-end length: expected force times length
is subtracted from it, at every length and temperature in `D`.  Nondimensionally, per link, `γ η` is subtracted. -/
structure EnergyMethods.IsLegendreInLength (g h : EnergyMethods) (p : ForceMethods) (N : ℕ) (ℓ : ℝ) (D : ℝ → ℝ → Prop) :
    Prop where
  energy : ∀ ξ T, 0 < T → D (ndLength N ℓ ξ T) T → g.energy ξ T = h.energy ξ T - ξ * p.force ξ T
  energy_per_link : ∀ ξ T, 0 < T → D (ndLength N ℓ ξ T) T →
    g.energy_per_link ξ T = h.energy_per_link ξ T - ξ * p.force ξ T / N
  nd_energy : ∀ γ T, 0 < T → D γ T → g.nd_energy γ T = h.nd_energy γ T - N * γ * p.nd_force γ T
  nd_energy_per_link : ∀ γ T, 0 < T → D γ T →
    g.nd_energy_per_link γ T = h.nd_energy_per_link γ T - γ * p.nd_force γ T

/-- Radial distributions are `4π r²` times densities, and the dimensional versions are the nondimensional ones in
units of the contour length `N ℓ`. -/
structure DistributionMethods.Scales (d : DistributionMethods) (pi : ℝ) (N : ℕ) (ℓ : ℝ) : Prop where
  radial : ∀ r, d.radial r = 4 * pi * r ^ 2 * d.density r
  nd_radial : ∀ γ, d.nd_radial γ = 4 * pi * γ ^ 2 * d.nd_density γ
  density : ∀ r, d.density r = d.nd_density (r / (N * ℓ)) / (N * ℓ) ^ 3
  radial_scale : ∀ r, d.radial r = d.nd_radial (r / (N * ℓ)) / (N * ℓ)

end Polymers.Spec
