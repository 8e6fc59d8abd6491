/- Generated by tools/ex2lean.py from the ex.rs files of /repo/src/physics/single_chain/fjc ; do not edit by hand. -/
import Verif.Model.Fjc

set_option linter.unusedVariables false

open Polymers

variable {α : Type} [Add α] [Sub α] [Mul α] [Div α] [Neg α] [OfScientific α] [NatCast α] [Elem α]

namespace Polymers.C

/-- `src/physics/single_chain/fjc/thermodynamics/modified_canonical/asymptotic/strong_potential/ex.rs` lines 2-5. -/
def physics_single_chain_fjc_thermodynamics_modified_canonical_asymptotic_strong_potential_force (number_of_links : Nat) (link_length : α) (potential_distance : α) (potential_stiffness : α) (temperature : α) : α :=
  Polymers.fjc.thermodynamics.modified_canonical.asymptotic.strong_potential.force number_of_links link_length potential_distance potential_stiffness temperature

/-- `src/physics/single_chain/fjc/thermodynamics/modified_canonical/asymptotic/strong_potential/ex.rs` lines 7-10. -/
def physics_single_chain_fjc_thermodynamics_modified_canonical_asymptotic_strong_potential_nondimensional_force (number_of_links : Nat) (nondimensional_potential_distance : α) (nondimensional_potential_stiffness : α) : α :=
  Polymers.fjc.thermodynamics.modified_canonical.asymptotic.strong_potential.nondimensional_force number_of_links nondimensional_potential_distance nondimensional_potential_stiffness

/-- `src/physics/single_chain/fjc/thermodynamics/modified_canonical/asymptotic/strong_potential/ex.rs` lines 12-15. -/
def physics_single_chain_fjc_thermodynamics_modified_canonical_asymptotic_strong_potential_helmholtz_free_energy (number_of_links : Nat) (link_length : α) (hinge_mass : α) (potential_distance : α) (potential_stiffness : α) (temperature : α) : α :=
  Polymers.fjc.thermodynamics.modified_canonical.asymptotic.strong_potential.helmholtz_free_energy number_of_links link_length hinge_mass potential_distance potential_stiffness temperature

/-- `src/physics/single_chain/fjc/thermodynamics/modified_canonical/asymptotic/strong_potential/ex.rs` lines 17-20. -/
def physics_single_chain_fjc_thermodynamics_modified_canonical_asymptotic_strong_potential_helmholtz_free_energy_per_link (number_of_links : Nat) (link_length : α) (hinge_mass : α) (potential_distance : α) (potential_stiffness : α) (temperature : α) : α :=
  Polymers.fjc.thermodynamics.modified_canonical.asymptotic.strong_potential.helmholtz_free_energy_per_link number_of_links link_length hinge_mass potential_distance potential_stiffness temperature

/-- `src/physics/single_chain/fjc/thermodynamics/modified_canonical/asymptotic/strong_potential/ex.rs` lines 22-25. -/
def physics_single_chain_fjc_thermodynamics_modified_canonical_asymptotic_strong_potential_relative_helmholtz_free_energy (number_of_links : Nat) (link_length : α) (potential_distance : α) (potential_stiffness : α) (temperature : α) : α :=
  Polymers.fjc.thermodynamics.modified_canonical.asymptotic.strong_potential.relative_helmholtz_free_energy number_of_links link_length potential_distance potential_stiffness temperature

/-- `src/physics/single_chain/fjc/thermodynamics/modified_canonical/asymptotic/strong_potential/ex.rs` lines 27-30. -/
def physics_single_chain_fjc_thermodynamics_modified_canonical_asymptotic_strong_potential_relative_helmholtz_free_energy_per_link (number_of_links : Nat) (link_length : α) (potential_distance : α) (potential_stiffness : α) (temperature : α) : α :=
  Polymers.fjc.thermodynamics.modified_canonical.asymptotic.strong_potential.relative_helmholtz_free_energy_per_link number_of_links link_length potential_distance potential_stiffness temperature

/-- `src/physics/single_chain/fjc/thermodynamics/modified_canonical/asymptotic/strong_potential/ex.rs` lines 32-35. -/
def physics_single_chain_fjc_thermodynamics_modified_canonical_asymptotic_strong_potential_nondimensional_helmholtz_free_energy (number_of_links : Nat) (link_length : α) (hinge_mass : α) (nondimensional_potential_distance : α) (nondimensional_potential_stiffness : α) (temperature : α) : α :=
  Polymers.fjc.thermodynamics.modified_canonical.asymptotic.strong_potential.nondimensional_helmholtz_free_energy number_of_links link_length hinge_mass nondimensional_potential_distance nondimensional_potential_stiffness temperature

/-- `src/physics/single_chain/fjc/thermodynamics/modified_canonical/asymptotic/strong_potential/ex.rs` lines 37-40. -/
def physics_single_chain_fjc_thermodynamics_modified_canonical_asymptotic_strong_potential_nondimensional_helmholtz_free_energy_per_link (number_of_links : Nat) (link_length : α) (hinge_mass : α) (nondimensional_potential_distance : α) (nondimensional_potential_stiffness : α) (temperature : α) : α :=
  Polymers.fjc.thermodynamics.modified_canonical.asymptotic.strong_potential.nondimensional_helmholtz_free_energy_per_link number_of_links link_length hinge_mass nondimensional_potential_distance nondimensional_potential_stiffness temperature

/-- `src/physics/single_chain/fjc/thermodynamics/modified_canonical/asymptotic/strong_potential/ex.rs` lines 42-45. -/
def physics_single_chain_fjc_thermodynamics_modified_canonical_asymptotic_strong_potential_nondimensional_relative_helmholtz_free_energy (number_of_links : Nat) (nondimensional_potential_distance : α) (nondimensional_potential_stiffness : α) : α :=
  Polymers.fjc.thermodynamics.modified_canonical.asymptotic.strong_potential.nondimensional_relative_helmholtz_free_energy number_of_links nondimensional_potential_distance nondimensional_potential_stiffness

/-- `src/physics/single_chain/fjc/thermodynamics/modified_canonical/asymptotic/strong_potential/ex.rs` lines 47-50. -/
def physics_single_chain_fjc_thermodynamics_modified_canonical_asymptotic_strong_potential_nondimensional_relative_helmholtz_free_energy_per_link (number_of_links : Nat) (nondimensional_potential_distance : α) (nondimensional_potential_stiffness : α) : α :=
  Polymers.fjc.thermodynamics.modified_canonical.asymptotic.strong_potential.nondimensional_relative_helmholtz_free_energy_per_link number_of_links nondimensional_potential_distance nondimensional_potential_stiffness

/-- `src/physics/single_chain/fjc/thermodynamics/modified_canonical/asymptotic/weak_potential/ex.rs` lines 2-5. -/
def physics_single_chain_fjc_thermodynamics_modified_canonical_asymptotic_weak_potential_end_to_end_length (number_of_links : Nat) (link_length : α) (potential_distance : α) (potential_stiffness : α) (temperature : α) : α :=
  Polymers.fjc.thermodynamics.modified_canonical.asymptotic.weak_potential.end_to_end_length number_of_links link_length potential_distance potential_stiffness temperature

/-- `src/physics/single_chain/fjc/thermodynamics/modified_canonical/asymptotic/weak_potential/ex.rs` lines 7-10. -/
def physics_single_chain_fjc_thermodynamics_modified_canonical_asymptotic_weak_potential_end_to_end_length_per_link (number_of_links : Nat) (link_length : α) (potential_distance : α) (potential_stiffness : α) (temperature : α) : α :=
  Polymers.fjc.thermodynamics.modified_canonical.asymptotic.weak_potential.end_to_end_length_per_link number_of_links link_length potential_distance potential_stiffness temperature

/-- `src/physics/single_chain/fjc/thermodynamics/modified_canonical/asymptotic/weak_potential/ex.rs` lines 12-15. -/
def physics_single_chain_fjc_thermodynamics_modified_canonical_asymptotic_weak_potential_nondimensional_end_to_end_length (number_of_links : Nat) (nondimensional_potential_distance : α) (nondimensional_potential_stiffness : α) : α :=
  Polymers.fjc.thermodynamics.modified_canonical.asymptotic.weak_potential.nondimensional_end_to_end_length number_of_links nondimensional_potential_distance nondimensional_potential_stiffness

/-- `src/physics/single_chain/fjc/thermodynamics/modified_canonical/asymptotic/weak_potential/ex.rs` lines 17-20. -/
def physics_single_chain_fjc_thermodynamics_modified_canonical_asymptotic_weak_potential_nondimensional_end_to_end_length_per_link (number_of_links : Nat) (nondimensional_potential_distance : α) (nondimensional_potential_stiffness : α) : α :=
  Polymers.fjc.thermodynamics.modified_canonical.asymptotic.weak_potential.nondimensional_end_to_end_length_per_link number_of_links nondimensional_potential_distance nondimensional_potential_stiffness

/-- `src/physics/single_chain/fjc/thermodynamics/modified_canonical/asymptotic/weak_potential/ex.rs` lines 22-25. -/
def physics_single_chain_fjc_thermodynamics_modified_canonical_asymptotic_weak_potential_force (potential_distance : α) (potential_stiffness : α) : α :=
  Polymers.fjc.thermodynamics.modified_canonical.asymptotic.weak_potential.force potential_distance potential_stiffness

/-- `src/physics/single_chain/fjc/thermodynamics/modified_canonical/asymptotic/weak_potential/ex.rs` lines 27-30. -/
def physics_single_chain_fjc_thermodynamics_modified_canonical_asymptotic_weak_potential_nondimensional_force (number_of_links : Nat) (nondimensional_potential_distance : α) (nondimensional_potential_stiffness : α) : α :=
  Polymers.fjc.thermodynamics.modified_canonical.asymptotic.weak_potential.nondimensional_force number_of_links nondimensional_potential_distance nondimensional_potential_stiffness

/-- `src/physics/single_chain/fjc/thermodynamics/modified_canonical/asymptotic/weak_potential/ex.rs` lines 32-35. -/
def physics_single_chain_fjc_thermodynamics_modified_canonical_asymptotic_weak_potential_gibbs_free_energy (number_of_links : Nat) (link_length : α) (hinge_mass : α) (potential_distance : α) (potential_stiffness : α) (temperature : α) : α :=
  Polymers.fjc.thermodynamics.modified_canonical.asymptotic.weak_potential.gibbs_free_energy number_of_links link_length hinge_mass potential_distance potential_stiffness temperature

/-- `src/physics/single_chain/fjc/thermodynamics/modified_canonical/asymptotic/weak_potential/ex.rs` lines 37-40. -/
def physics_single_chain_fjc_thermodynamics_modified_canonical_asymptotic_weak_potential_gibbs_free_energy_per_link (number_of_links : Nat) (link_length : α) (hinge_mass : α) (potential_distance : α) (potential_stiffness : α) (temperature : α) : α :=
  Polymers.fjc.thermodynamics.modified_canonical.asymptotic.weak_potential.gibbs_free_energy_per_link number_of_links link_length hinge_mass potential_distance potential_stiffness temperature

/-- `src/physics/single_chain/fjc/thermodynamics/modified_canonical/asymptotic/weak_potential/ex.rs` lines 42-45. -/
def physics_single_chain_fjc_thermodynamics_modified_canonical_asymptotic_weak_potential_relative_gibbs_free_energy (number_of_links : Nat) (link_length : α) (potential_distance : α) (potential_stiffness : α) (temperature : α) : α :=
  Polymers.fjc.thermodynamics.modified_canonical.asymptotic.weak_potential.relative_gibbs_free_energy number_of_links link_length potential_distance potential_stiffness temperature

/-- `src/physics/single_chain/fjc/thermodynamics/modified_canonical/asymptotic/weak_potential/ex.rs` lines 47-50. -/
def physics_single_chain_fjc_thermodynamics_modified_canonical_asymptotic_weak_potential_relative_gibbs_free_energy_per_link (number_of_links : Nat) (link_length : α) (potential_distance : α) (potential_stiffness : α) (temperature : α) : α :=
  Polymers.fjc.thermodynamics.modified_canonical.asymptotic.weak_potential.relative_gibbs_free_energy_per_link number_of_links link_length potential_distance potential_stiffness temperature

/-- `src/physics/single_chain/fjc/thermodynamics/modified_canonical/asymptotic/weak_potential/ex.rs` lines 52-55. -/
def physics_single_chain_fjc_thermodynamics_modified_canonical_asymptotic_weak_potential_nondimensional_gibbs_free_energy (number_of_links : Nat) (link_length : α) (hinge_mass : α) (nondimensional_potential_distance : α) (nondimensional_potential_stiffness : α) (temperature : α) : α :=
  Polymers.fjc.thermodynamics.modified_canonical.asymptotic.weak_potential.nondimensional_gibbs_free_energy number_of_links link_length hinge_mass nondimensional_potential_distance nondimensional_potential_stiffness temperature

/-- `src/physics/single_chain/fjc/thermodynamics/modified_canonical/asymptotic/weak_potential/ex.rs` lines 57-60. -/
def physics_single_chain_fjc_thermodynamics_modified_canonical_asymptotic_weak_potential_nondimensional_gibbs_free_energy_per_link (number_of_links : Nat) (link_length : α) (hinge_mass : α) (nondimensional_potential_distance : α) (nondimensional_potential_stiffness : α) (temperature : α) : α :=
  Polymers.fjc.thermodynamics.modified_canonical.asymptotic.weak_potential.nondimensional_gibbs_free_energy_per_link number_of_links link_length hinge_mass nondimensional_potential_distance nondimensional_potential_stiffness temperature

/-- `src/physics/single_chain/fjc/thermodynamics/modified_canonical/asymptotic/weak_potential/ex.rs` lines 62-65. -/
def physics_single_chain_fjc_thermodynamics_modified_canonical_asymptotic_weak_potential_nondimensional_relative_gibbs_free_energy (number_of_links : Nat) (nondimensional_potential_distance : α) (nondimensional_potential_stiffness : α) : α :=
  Polymers.fjc.thermodynamics.modified_canonical.asymptotic.weak_potential.nondimensional_relative_gibbs_free_energy number_of_links nondimensional_potential_distance nondimensional_potential_stiffness

/-- `src/physics/single_chain/fjc/thermodynamics/modified_canonical/asymptotic/weak_potential/ex.rs` lines 67-70. -/
def physics_single_chain_fjc_thermodynamics_modified_canonical_asymptotic_weak_potential_nondimensional_relative_gibbs_free_energy_per_link (number_of_links : Nat) (nondimensional_potential_distance : α) (nondimensional_potential_stiffness : α) : α :=
  Polymers.fjc.thermodynamics.modified_canonical.asymptotic.weak_potential.nondimensional_relative_gibbs_free_energy_per_link number_of_links nondimensional_potential_distance nondimensional_potential_stiffness

/-- `src/physics/single_chain/fjc/thermodynamics/isometric/legendre/ex.rs` lines 2-5. -/
def physics_single_chain_fjc_thermodynamics_isometric_legendre_force (number_of_links : Nat) (link_length : α) (end_to_end_length : α) (temperature : α) : α :=
  Polymers.fjc.thermodynamics.isometric.legendre.force number_of_links link_length end_to_end_length temperature

/-- `src/physics/single_chain/fjc/thermodynamics/isometric/legendre/ex.rs` lines 7-10. -/
def physics_single_chain_fjc_thermodynamics_isometric_legendre_nondimensional_force (nondimensional_end_to_end_length_per_link : α) : α :=
  Polymers.fjc.thermodynamics.isometric.legendre.nondimensional_force nondimensional_end_to_end_length_per_link

/-- `src/physics/single_chain/fjc/thermodynamics/isometric/legendre/ex.rs` lines 12-15. -/
def physics_single_chain_fjc_thermodynamics_isometric_legendre_helmholtz_free_energy (number_of_links : Nat) (link_length : α) (hinge_mass : α) (end_to_end_length : α) (temperature : α) : α :=
  Polymers.fjc.thermodynamics.isometric.legendre.helmholtz_free_energy number_of_links link_length hinge_mass end_to_end_length temperature

/-- `src/physics/single_chain/fjc/thermodynamics/isometric/legendre/ex.rs` lines 17-20. -/
def physics_single_chain_fjc_thermodynamics_isometric_legendre_helmholtz_free_energy_per_link (number_of_links : Nat) (link_length : α) (hinge_mass : α) (end_to_end_length : α) (temperature : α) : α :=
  Polymers.fjc.thermodynamics.isometric.legendre.helmholtz_free_energy_per_link number_of_links link_length hinge_mass end_to_end_length temperature

/-- `src/physics/single_chain/fjc/thermodynamics/isometric/legendre/ex.rs` lines 22-25. -/
def physics_single_chain_fjc_thermodynamics_isometric_legendre_relative_helmholtz_free_energy (number_of_links : Nat) (link_length : α) (end_to_end_length : α) (temperature : α) : α :=
  Polymers.fjc.thermodynamics.isometric.legendre.relative_helmholtz_free_energy number_of_links link_length end_to_end_length temperature

/-- `src/physics/single_chain/fjc/thermodynamics/isometric/legendre/ex.rs` lines 27-30. -/
def physics_single_chain_fjc_thermodynamics_isometric_legendre_relative_helmholtz_free_energy_per_link (number_of_links : Nat) (link_length : α) (end_to_end_length : α) (temperature : α) : α :=
  Polymers.fjc.thermodynamics.isometric.legendre.relative_helmholtz_free_energy_per_link number_of_links link_length end_to_end_length temperature

/-- `src/physics/single_chain/fjc/thermodynamics/isometric/legendre/ex.rs` lines 32-35. -/
def physics_single_chain_fjc_thermodynamics_isometric_legendre_nondimensional_helmholtz_free_energy (number_of_links : Nat) (link_length : α) (hinge_mass : α) (nondimensional_end_to_end_length_per_link : α) (temperature : α) : α :=
  Polymers.fjc.thermodynamics.isometric.legendre.nondimensional_helmholtz_free_energy number_of_links link_length hinge_mass nondimensional_end_to_end_length_per_link temperature

/-- `src/physics/single_chain/fjc/thermodynamics/isometric/legendre/ex.rs` lines 37-40. -/
def physics_single_chain_fjc_thermodynamics_isometric_legendre_nondimensional_helmholtz_free_energy_per_link (number_of_links : Nat) (link_length : α) (hinge_mass : α) (nondimensional_end_to_end_length_per_link : α) (temperature : α) : α :=
  Polymers.fjc.thermodynamics.isometric.legendre.nondimensional_helmholtz_free_energy_per_link number_of_links link_length hinge_mass nondimensional_end_to_end_length_per_link temperature

/-- `src/physics/single_chain/fjc/thermodynamics/isometric/legendre/ex.rs` lines 42-45. -/
def physics_single_chain_fjc_thermodynamics_isometric_legendre_nondimensional_relative_helmholtz_free_energy (number_of_links : Nat) (nondimensional_end_to_end_length_per_link : α) : α :=
  Polymers.fjc.thermodynamics.isometric.legendre.nondimensional_relative_helmholtz_free_energy number_of_links nondimensional_end_to_end_length_per_link

/-- `src/physics/single_chain/fjc/thermodynamics/isometric/legendre/ex.rs` lines 47-50. -/
def physics_single_chain_fjc_thermodynamics_isometric_legendre_nondimensional_relative_helmholtz_free_energy_per_link (nondimensional_end_to_end_length_per_link : α) : α :=
  Polymers.fjc.thermodynamics.isometric.legendre.nondimensional_relative_helmholtz_free_energy_per_link nondimensional_end_to_end_length_per_link

/-- `src/physics/single_chain/fjc/thermodynamics/isometric/legendre/ex.rs` lines 52-55. -/
def physics_single_chain_fjc_thermodynamics_isometric_legendre_equilibrium_distribution (number_of_links : Nat) (link_length : α) (normalization_nondimensional_equilibrium_distribution : α) (end_to_end_length : α) : α :=
  Polymers.fjc.thermodynamics.isometric.legendre.equilibrium_distribution number_of_links link_length normalization_nondimensional_equilibrium_distribution end_to_end_length

/-- `src/physics/single_chain/fjc/thermodynamics/isometric/legendre/ex.rs` lines 57-60. -/
def physics_single_chain_fjc_thermodynamics_isometric_legendre_nondimensional_equilibrium_distribution (number_of_links : Nat) (normalization_nondimensional_equilibrium_distribution : α) (nondimensional_end_to_end_length_per_link : α) : α :=
  Polymers.fjc.thermodynamics.isometric.legendre.nondimensional_equilibrium_distribution number_of_links normalization_nondimensional_equilibrium_distribution nondimensional_end_to_end_length_per_link

/-- `src/physics/single_chain/fjc/thermodynamics/isometric/legendre/ex.rs` lines 62-65. -/
def physics_single_chain_fjc_thermodynamics_isometric_legendre_equilibrium_radial_distribution (number_of_links : Nat) (link_length : α) (normalization_nondimensional_equilibrium_distribution : α) (end_to_end_length : α) : α :=
  Polymers.fjc.thermodynamics.isometric.legendre.equilibrium_radial_distribution number_of_links link_length normalization_nondimensional_equilibrium_distribution end_to_end_length

/-- `src/physics/single_chain/fjc/thermodynamics/isometric/legendre/ex.rs` lines 67-70. -/
def physics_single_chain_fjc_thermodynamics_isometric_legendre_nondimensional_equilibrium_radial_distribution (number_of_links : Nat) (normalization_nondimensional_equilibrium_distribution : α) (nondimensional_end_to_end_length_per_link : α) : α :=
  Polymers.fjc.thermodynamics.isometric.legendre.nondimensional_equilibrium_radial_distribution number_of_links normalization_nondimensional_equilibrium_distribution nondimensional_end_to_end_length_per_link

/-- `src/physics/single_chain/fjc/thermodynamics/isometric/legendre/ex.rs` lines 72-75. -/
def physics_single_chain_fjc_thermodynamics_isometric_legendre_gibbs_free_energy (number_of_links : Nat) (link_length : α) (hinge_mass : α) (end_to_end_length : α) (temperature : α) : α :=
  Polymers.fjc.thermodynamics.isometric.legendre.gibbs_free_energy number_of_links link_length hinge_mass end_to_end_length temperature

/-- `src/physics/single_chain/fjc/thermodynamics/isometric/legendre/ex.rs` lines 77-80. -/
def physics_single_chain_fjc_thermodynamics_isometric_legendre_gibbs_free_energy_per_link (number_of_links : Nat) (link_length : α) (hinge_mass : α) (end_to_end_length : α) (temperature : α) : α :=
  Polymers.fjc.thermodynamics.isometric.legendre.gibbs_free_energy_per_link number_of_links link_length hinge_mass end_to_end_length temperature

/-- `src/physics/single_chain/fjc/thermodynamics/isometric/legendre/ex.rs` lines 82-85. -/
def physics_single_chain_fjc_thermodynamics_isometric_legendre_relative_gibbs_free_energy (number_of_links : Nat) (link_length : α) (end_to_end_length : α) (temperature : α) : α :=
  Polymers.fjc.thermodynamics.isometric.legendre.relative_gibbs_free_energy number_of_links link_length end_to_end_length temperature

/-- `src/physics/single_chain/fjc/thermodynamics/isometric/legendre/ex.rs` lines 87-90. -/
def physics_single_chain_fjc_thermodynamics_isometric_legendre_relative_gibbs_free_energy_per_link (number_of_links : Nat) (link_length : α) (end_to_end_length : α) (temperature : α) : α :=
  Polymers.fjc.thermodynamics.isometric.legendre.relative_gibbs_free_energy_per_link number_of_links link_length end_to_end_length temperature

/-- `src/physics/single_chain/fjc/thermodynamics/isometric/legendre/ex.rs` lines 92-95. -/
def physics_single_chain_fjc_thermodynamics_isometric_legendre_nondimensional_gibbs_free_energy (number_of_links : Nat) (link_length : α) (hinge_mass : α) (nondimensional_end_to_end_length_per_link : α) (temperature : α) : α :=
  Polymers.fjc.thermodynamics.isometric.legendre.nondimensional_gibbs_free_energy number_of_links link_length hinge_mass nondimensional_end_to_end_length_per_link temperature

/-- `src/physics/single_chain/fjc/thermodynamics/isometric/legendre/ex.rs` lines 97-100. -/
def physics_single_chain_fjc_thermodynamics_isometric_legendre_nondimensional_gibbs_free_energy_per_link (number_of_links : Nat) (link_length : α) (hinge_mass : α) (nondimensional_end_to_end_length_per_link : α) (temperature : α) : α :=
  Polymers.fjc.thermodynamics.isometric.legendre.nondimensional_gibbs_free_energy_per_link number_of_links link_length hinge_mass nondimensional_end_to_end_length_per_link temperature

/-- `src/physics/single_chain/fjc/thermodynamics/isometric/legendre/ex.rs` lines 102-105. -/
def physics_single_chain_fjc_thermodynamics_isometric_legendre_nondimensional_relative_gibbs_free_energy (number_of_links : Nat) (nondimensional_end_to_end_length_per_link : α) : α :=
  Polymers.fjc.thermodynamics.isometric.legendre.nondimensional_relative_gibbs_free_energy number_of_links nondimensional_end_to_end_length_per_link

/-- `src/physics/single_chain/fjc/thermodynamics/isometric/legendre/ex.rs` lines 107-110. -/
def physics_single_chain_fjc_thermodynamics_isometric_legendre_nondimensional_relative_gibbs_free_energy_per_link (number_of_links : Nat) (nondimensional_end_to_end_length_per_link : α) : α :=
  Polymers.fjc.thermodynamics.isometric.legendre.nondimensional_relative_gibbs_free_energy_per_link number_of_links nondimensional_end_to_end_length_per_link

/-- `src/physics/single_chain/fjc/thermodynamics/isotensional/legendre/ex.rs` lines 2-5. -/
def physics_single_chain_fjc_thermodynamics_isotensional_legendre_helmholtz_free_energy (number_of_links : Nat) (link_length : α) (hinge_mass : α) (force : α) (temperature : α) : α :=
  Polymers.fjc.thermodynamics.isotensional.legendre.helmholtz_free_energy number_of_links link_length hinge_mass force temperature

/-- `src/physics/single_chain/fjc/thermodynamics/isotensional/legendre/ex.rs` lines 7-10. -/
def physics_single_chain_fjc_thermodynamics_isotensional_legendre_helmholtz_free_energy_per_link (link_length : α) (hinge_mass : α) (force : α) (temperature : α) : α :=
  Polymers.fjc.thermodynamics.isotensional.legendre.helmholtz_free_energy_per_link link_length hinge_mass force temperature

/-- `src/physics/single_chain/fjc/thermodynamics/isotensional/legendre/ex.rs` lines 12-15. -/
def physics_single_chain_fjc_thermodynamics_isotensional_legendre_relative_helmholtz_free_energy (number_of_links : Nat) (link_length : α) (force : α) (temperature : α) : α :=
  Polymers.fjc.thermodynamics.isotensional.legendre.relative_helmholtz_free_energy number_of_links link_length force temperature

/-- `src/physics/single_chain/fjc/thermodynamics/isotensional/legendre/ex.rs` lines 17-20. -/
def physics_single_chain_fjc_thermodynamics_isotensional_legendre_relative_helmholtz_free_energy_per_link (link_length : α) (force : α) (temperature : α) : α :=
  Polymers.fjc.thermodynamics.isotensional.legendre.relative_helmholtz_free_energy_per_link link_length force temperature

/-- `src/physics/single_chain/fjc/thermodynamics/isotensional/legendre/ex.rs` lines 22-25. -/
def physics_single_chain_fjc_thermodynamics_isotensional_legendre_nondimensional_helmholtz_free_energy (number_of_links : Nat) (link_length : α) (hinge_mass : α) (nondimensional_force : α) (temperature : α) : α :=
  Polymers.fjc.thermodynamics.isotensional.legendre.nondimensional_helmholtz_free_energy number_of_links link_length hinge_mass nondimensional_force temperature

/-- `src/physics/single_chain/fjc/thermodynamics/isotensional/legendre/ex.rs` lines 27-30. -/
def physics_single_chain_fjc_thermodynamics_isotensional_legendre_nondimensional_helmholtz_free_energy_per_link (link_length : α) (hinge_mass : α) (nondimensional_force : α) (temperature : α) : α :=
  Polymers.fjc.thermodynamics.isotensional.legendre.nondimensional_helmholtz_free_energy_per_link link_length hinge_mass nondimensional_force temperature

/-- `src/physics/single_chain/fjc/thermodynamics/isotensional/legendre/ex.rs` lines 32-35. -/
def physics_single_chain_fjc_thermodynamics_isotensional_legendre_nondimensional_relative_helmholtz_free_energy (number_of_links : Nat) (nondimensional_force : α) : α :=
  Polymers.fjc.thermodynamics.isotensional.legendre.nondimensional_relative_helmholtz_free_energy number_of_links nondimensional_force

/-- `src/physics/single_chain/fjc/thermodynamics/isotensional/legendre/ex.rs` lines 37-40. -/
def physics_single_chain_fjc_thermodynamics_isotensional_legendre_nondimensional_relative_helmholtz_free_energy_per_link (nondimensional_force : α) : α :=
  Polymers.fjc.thermodynamics.isotensional.legendre.nondimensional_relative_helmholtz_free_energy_per_link nondimensional_force

/-- `src/physics/single_chain/fjc/thermodynamics/isometric/ex.rs` lines 2-5. -/
def physics_single_chain_fjc_thermodynamics_isometric_force (number_of_links : Nat) (link_length : α) (end_to_end_length : α) (temperature : α) : α :=
  Polymers.fjc.thermodynamics.isometric.force number_of_links link_length end_to_end_length temperature

/-- `src/physics/single_chain/fjc/thermodynamics/isometric/ex.rs` lines 7-10. -/
def physics_single_chain_fjc_thermodynamics_isometric_nondimensional_force (number_of_links : Nat) (nondimensional_end_to_end_length_per_link : α) : α :=
  Polymers.fjc.thermodynamics.isometric.nondimensional_force number_of_links nondimensional_end_to_end_length_per_link

/-- `src/physics/single_chain/fjc/thermodynamics/isometric/ex.rs` lines 12-15. -/
def physics_single_chain_fjc_thermodynamics_isometric_helmholtz_free_energy (number_of_links : Nat) (link_length : α) (hinge_mass : α) (end_to_end_length : α) (temperature : α) : α :=
  Polymers.fjc.thermodynamics.isometric.helmholtz_free_energy number_of_links link_length hinge_mass end_to_end_length temperature

/-- `src/physics/single_chain/fjc/thermodynamics/isometric/ex.rs` lines 17-20. -/
def physics_single_chain_fjc_thermodynamics_isometric_helmholtz_free_energy_per_link (number_of_links : Nat) (link_length : α) (hinge_mass : α) (end_to_end_length : α) (temperature : α) : α :=
  Polymers.fjc.thermodynamics.isometric.helmholtz_free_energy_per_link number_of_links link_length hinge_mass end_to_end_length temperature

/-- `src/physics/single_chain/fjc/thermodynamics/isometric/ex.rs` lines 22-25. -/
def physics_single_chain_fjc_thermodynamics_isometric_relative_helmholtz_free_energy (number_of_links : Nat) (link_length : α) (end_to_end_length : α) (temperature : α) : α :=
  Polymers.fjc.thermodynamics.isometric.relative_helmholtz_free_energy number_of_links link_length end_to_end_length temperature

/-- `src/physics/single_chain/fjc/thermodynamics/isometric/ex.rs` lines 27-30. -/
def physics_single_chain_fjc_thermodynamics_isometric_relative_helmholtz_free_energy_per_link (number_of_links : Nat) (link_length : α) (end_to_end_length : α) (temperature : α) : α :=
  Polymers.fjc.thermodynamics.isometric.relative_helmholtz_free_energy_per_link number_of_links link_length end_to_end_length temperature

/-- `src/physics/single_chain/fjc/thermodynamics/isometric/ex.rs` lines 32-35. -/
def physics_single_chain_fjc_thermodynamics_isometric_nondimensional_helmholtz_free_energy (number_of_links : Nat) (link_length : α) (hinge_mass : α) (nondimensional_end_to_end_length_per_link : α) (temperature : α) : α :=
  Polymers.fjc.thermodynamics.isometric.nondimensional_helmholtz_free_energy number_of_links link_length hinge_mass nondimensional_end_to_end_length_per_link temperature

/-- `src/physics/single_chain/fjc/thermodynamics/isometric/ex.rs` lines 37-40. -/
def physics_single_chain_fjc_thermodynamics_isometric_nondimensional_helmholtz_free_energy_per_link (number_of_links : Nat) (link_length : α) (hinge_mass : α) (nondimensional_end_to_end_length_per_link : α) (temperature : α) : α :=
  Polymers.fjc.thermodynamics.isometric.nondimensional_helmholtz_free_energy_per_link number_of_links link_length hinge_mass nondimensional_end_to_end_length_per_link temperature

/-- `src/physics/single_chain/fjc/thermodynamics/isometric/ex.rs` lines 42-45. -/
def physics_single_chain_fjc_thermodynamics_isometric_nondimensional_relative_helmholtz_free_energy (number_of_links : Nat) (nondimensional_end_to_end_length_per_link : α) : α :=
  Polymers.fjc.thermodynamics.isometric.nondimensional_relative_helmholtz_free_energy number_of_links nondimensional_end_to_end_length_per_link

/-- `src/physics/single_chain/fjc/thermodynamics/isometric/ex.rs` lines 47-50. -/
def physics_single_chain_fjc_thermodynamics_isometric_nondimensional_relative_helmholtz_free_energy_per_link (number_of_links : Nat) (nondimensional_end_to_end_length_per_link : α) : α :=
  Polymers.fjc.thermodynamics.isometric.nondimensional_relative_helmholtz_free_energy_per_link number_of_links nondimensional_end_to_end_length_per_link

/-- `src/physics/single_chain/fjc/thermodynamics/isometric/ex.rs` lines 52-55. -/
def physics_single_chain_fjc_thermodynamics_isometric_equilibrium_distribution (number_of_links : Nat) (link_length : α) (end_to_end_length : α) : α :=
  Polymers.fjc.thermodynamics.isometric.equilibrium_distribution number_of_links link_length end_to_end_length

/-- `src/physics/single_chain/fjc/thermodynamics/isometric/ex.rs` lines 57-60. -/
def physics_single_chain_fjc_thermodynamics_isometric_nondimensional_equilibrium_distribution (number_of_links : Nat) (nondimensional_end_to_end_length_per_link : α) : α :=
  Polymers.fjc.thermodynamics.isometric.nondimensional_equilibrium_distribution number_of_links nondimensional_end_to_end_length_per_link

/-- `src/physics/single_chain/fjc/thermodynamics/isometric/ex.rs` lines 62-65. -/
def physics_single_chain_fjc_thermodynamics_isometric_equilibrium_radial_distribution (number_of_links : Nat) (link_length : α) (end_to_end_length : α) : α :=
  Polymers.fjc.thermodynamics.isometric.equilibrium_radial_distribution number_of_links link_length end_to_end_length

/-- `src/physics/single_chain/fjc/thermodynamics/isometric/ex.rs` lines 67-70. -/
def physics_single_chain_fjc_thermodynamics_isometric_nondimensional_equilibrium_radial_distribution (number_of_links : Nat) (nondimensional_end_to_end_length_per_link : α) : α :=
  Polymers.fjc.thermodynamics.isometric.nondimensional_equilibrium_radial_distribution number_of_links nondimensional_end_to_end_length_per_link

/-- `src/physics/single_chain/fjc/thermodynamics/isotensional/ex.rs` lines 2-5. -/
def physics_single_chain_fjc_thermodynamics_isotensional_end_to_end_length (number_of_links : Nat) (link_length : α) (force : α) (temperature : α) : α :=
  Polymers.fjc.thermodynamics.isotensional.end_to_end_length number_of_links link_length force temperature

/-- `src/physics/single_chain/fjc/thermodynamics/isotensional/ex.rs` lines 7-10. -/
def physics_single_chain_fjc_thermodynamics_isotensional_end_to_end_length_per_link (link_length : α) (force : α) (temperature : α) : α :=
  Polymers.fjc.thermodynamics.isotensional.end_to_end_length_per_link link_length force temperature

/-- `src/physics/single_chain/fjc/thermodynamics/isotensional/ex.rs` lines 12-15. -/
def physics_single_chain_fjc_thermodynamics_isotensional_nondimensional_end_to_end_length (number_of_links : Nat) (nondimensional_force : α) : α :=
  Polymers.fjc.thermodynamics.isotensional.nondimensional_end_to_end_length number_of_links nondimensional_force

/-- `src/physics/single_chain/fjc/thermodynamics/isotensional/ex.rs` lines 17-20. -/
def physics_single_chain_fjc_thermodynamics_isotensional_nondimensional_end_to_end_length_per_link (nondimensional_force : α) : α :=
  Polymers.fjc.thermodynamics.isotensional.nondimensional_end_to_end_length_per_link nondimensional_force

/-- `src/physics/single_chain/fjc/thermodynamics/isotensional/ex.rs` lines 22-25. -/
def physics_single_chain_fjc_thermodynamics_isotensional_gibbs_free_energy (number_of_links : Nat) (link_length : α) (hinge_mass : α) (force : α) (temperature : α) : α :=
  Polymers.fjc.thermodynamics.isotensional.gibbs_free_energy number_of_links link_length hinge_mass force temperature

/-- `src/physics/single_chain/fjc/thermodynamics/isotensional/ex.rs` lines 27-30. -/
def physics_single_chain_fjc_thermodynamics_isotensional_gibbs_free_energy_per_link (link_length : α) (hinge_mass : α) (force : α) (temperature : α) : α :=
  Polymers.fjc.thermodynamics.isotensional.gibbs_free_energy_per_link link_length hinge_mass force temperature

/-- `src/physics/single_chain/fjc/thermodynamics/isotensional/ex.rs` lines 32-35. -/
def physics_single_chain_fjc_thermodynamics_isotensional_relative_gibbs_free_energy (number_of_links : Nat) (link_length : α) (force : α) (temperature : α) : α :=
  Polymers.fjc.thermodynamics.isotensional.relative_gibbs_free_energy number_of_links link_length force temperature

/-- `src/physics/single_chain/fjc/thermodynamics/isotensional/ex.rs` lines 37-40. -/
def physics_single_chain_fjc_thermodynamics_isotensional_relative_gibbs_free_energy_per_link (link_length : α) (force : α) (temperature : α) : α :=
  Polymers.fjc.thermodynamics.isotensional.relative_gibbs_free_energy_per_link link_length force temperature

/-- `src/physics/single_chain/fjc/thermodynamics/isotensional/ex.rs` lines 42-45. -/
def physics_single_chain_fjc_thermodynamics_isotensional_nondimensional_gibbs_free_energy (number_of_links : Nat) (link_length : α) (hinge_mass : α) (nondimensional_force : α) (temperature : α) : α :=
  Polymers.fjc.thermodynamics.isotensional.nondimensional_gibbs_free_energy number_of_links link_length hinge_mass nondimensional_force temperature

/-- `src/physics/single_chain/fjc/thermodynamics/isotensional/ex.rs` lines 47-50. -/
def physics_single_chain_fjc_thermodynamics_isotensional_nondimensional_gibbs_free_energy_per_link (link_length : α) (hinge_mass : α) (nondimensional_force : α) (temperature : α) : α :=
  Polymers.fjc.thermodynamics.isotensional.nondimensional_gibbs_free_energy_per_link link_length hinge_mass nondimensional_force temperature

/-- `src/physics/single_chain/fjc/thermodynamics/isotensional/ex.rs` lines 52-55. -/
def physics_single_chain_fjc_thermodynamics_isotensional_nondimensional_relative_gibbs_free_energy (number_of_links : Nat) (nondimensional_force : α) : α :=
  Polymers.fjc.thermodynamics.isotensional.nondimensional_relative_gibbs_free_energy number_of_links nondimensional_force

/-- `src/physics/single_chain/fjc/thermodynamics/isotensional/ex.rs` lines 57-60. -/
def physics_single_chain_fjc_thermodynamics_isotensional_nondimensional_relative_gibbs_free_energy_per_link (nondimensional_force : α) : α :=
  Polymers.fjc.thermodynamics.isotensional.nondimensional_relative_gibbs_free_energy_per_link nondimensional_force

/-- `src/physics/single_chain/fjc/thermodynamics/modified_canonical/ex.rs` lines 2-5. -/
def physics_single_chain_fjc_thermodynamics_modified_canonical_end_to_end_length (number_of_links : Nat) (link_length : α) (potential_distance : α) (potential_stiffness : α) (temperature : α) : α :=
  Polymers.fjc.thermodynamics.modified_canonical.end_to_end_length number_of_links link_length potential_distance potential_stiffness temperature

/-- `src/physics/single_chain/fjc/thermodynamics/modified_canonical/ex.rs` lines 7-10. -/
def physics_single_chain_fjc_thermodynamics_modified_canonical_end_to_end_length_per_link (number_of_links : Nat) (link_length : α) (potential_distance : α) (potential_stiffness : α) (temperature : α) : α :=
  Polymers.fjc.thermodynamics.modified_canonical.end_to_end_length_per_link number_of_links link_length potential_distance potential_stiffness temperature

/-- `src/physics/single_chain/fjc/thermodynamics/modified_canonical/ex.rs` lines 12-15. -/
def physics_single_chain_fjc_thermodynamics_modified_canonical_nondimensional_end_to_end_length (number_of_links : Nat) (nondimensional_potential_distance : α) (nondimensional_potential_stiffness : α) : α :=
  Polymers.fjc.thermodynamics.modified_canonical.nondimensional_end_to_end_length number_of_links nondimensional_potential_distance nondimensional_potential_stiffness

/-- `src/physics/single_chain/fjc/thermodynamics/modified_canonical/ex.rs` lines 17-20. -/
def physics_single_chain_fjc_thermodynamics_modified_canonical_nondimensional_end_to_end_length_per_link (number_of_links : Nat) (nondimensional_potential_distance : α) (nondimensional_potential_stiffness : α) : α :=
  Polymers.fjc.thermodynamics.modified_canonical.nondimensional_end_to_end_length_per_link number_of_links nondimensional_potential_distance nondimensional_potential_stiffness

/-- `src/physics/single_chain/fjc/thermodynamics/modified_canonical/ex.rs` lines 22-25. -/
def physics_single_chain_fjc_thermodynamics_modified_canonical_force (number_of_links : Nat) (link_length : α) (potential_distance : α) (potential_stiffness : α) (temperature : α) : α :=
  Polymers.fjc.thermodynamics.modified_canonical.force number_of_links link_length potential_distance potential_stiffness temperature

/-- `src/physics/single_chain/fjc/thermodynamics/modified_canonical/ex.rs` lines 27-30. -/
def physics_single_chain_fjc_thermodynamics_modified_canonical_nondimensional_force (number_of_links : Nat) (nondimensional_potential_distance : α) (nondimensional_potential_stiffness : α) : α :=
  Polymers.fjc.thermodynamics.modified_canonical.nondimensional_force number_of_links nondimensional_potential_distance nondimensional_potential_stiffness

/-- `src/physics/single_chain/fjc/thermodynamics/modified_canonical/ex.rs` lines 32-35. -/
def physics_single_chain_fjc_thermodynamics_modified_canonical_helmholtz_free_energy (number_of_links : Nat) (link_length : α) (hinge_mass : α) (potential_distance : α) (potential_stiffness : α) (temperature : α) : α :=
  Polymers.fjc.thermodynamics.modified_canonical.helmholtz_free_energy number_of_links link_length hinge_mass potential_distance potential_stiffness temperature

/-- `src/physics/single_chain/fjc/thermodynamics/modified_canonical/ex.rs` lines 37-40. -/
def physics_single_chain_fjc_thermodynamics_modified_canonical_helmholtz_free_energy_per_link (number_of_links : Nat) (link_length : α) (hinge_mass : α) (potential_distance : α) (potential_stiffness : α) (temperature : α) : α :=
  Polymers.fjc.thermodynamics.modified_canonical.helmholtz_free_energy_per_link number_of_links link_length hinge_mass potential_distance potential_stiffness temperature

/-- `src/physics/single_chain/fjc/thermodynamics/modified_canonical/ex.rs` lines 42-45. -/
def physics_single_chain_fjc_thermodynamics_modified_canonical_relative_helmholtz_free_energy (number_of_links : Nat) (link_length : α) (potential_distance : α) (potential_stiffness : α) (temperature : α) : α :=
  Polymers.fjc.thermodynamics.modified_canonical.relative_helmholtz_free_energy number_of_links link_length potential_distance potential_stiffness temperature

/-- `src/physics/single_chain/fjc/thermodynamics/modified_canonical/ex.rs` lines 47-50. -/
def physics_single_chain_fjc_thermodynamics_modified_canonical_relative_helmholtz_free_energy_per_link (number_of_links : Nat) (link_length : α) (potential_distance : α) (potential_stiffness : α) (temperature : α) : α :=
  Polymers.fjc.thermodynamics.modified_canonical.relative_helmholtz_free_energy_per_link number_of_links link_length potential_distance potential_stiffness temperature

/-- `src/physics/single_chain/fjc/thermodynamics/modified_canonical/ex.rs` lines 52-55. -/
def physics_single_chain_fjc_thermodynamics_modified_canonical_nondimensional_helmholtz_free_energy (number_of_links : Nat) (link_length : α) (hinge_mass : α) (nondimensional_potential_distance : α) (nondimensional_potential_stiffness : α) (temperature : α) : α :=
  Polymers.fjc.thermodynamics.modified_canonical.nondimensional_helmholtz_free_energy number_of_links link_length hinge_mass nondimensional_potential_distance nondimensional_potential_stiffness temperature

/-- `src/physics/single_chain/fjc/thermodynamics/modified_canonical/ex.rs` lines 57-60. -/
def physics_single_chain_fjc_thermodynamics_modified_canonical_nondimensional_helmholtz_free_energy_per_link (number_of_links : Nat) (link_length : α) (hinge_mass : α) (nondimensional_potential_distance : α) (nondimensional_potential_stiffness : α) (temperature : α) : α :=
  Polymers.fjc.thermodynamics.modified_canonical.nondimensional_helmholtz_free_energy_per_link number_of_links link_length hinge_mass nondimensional_potential_distance nondimensional_potential_stiffness temperature

/-- `src/physics/single_chain/fjc/thermodynamics/modified_canonical/ex.rs` lines 62-65. -/
def physics_single_chain_fjc_thermodynamics_modified_canonical_nondimensional_relative_helmholtz_free_energy (number_of_links : Nat) (nondimensional_potential_distance : α) (nondimensional_potential_stiffness : α) : α :=
  Polymers.fjc.thermodynamics.modified_canonical.nondimensional_relative_helmholtz_free_energy number_of_links nondimensional_potential_distance nondimensional_potential_stiffness

/-- `src/physics/single_chain/fjc/thermodynamics/modified_canonical/ex.rs` lines 67-70. -/
def physics_single_chain_fjc_thermodynamics_modified_canonical_nondimensional_relative_helmholtz_free_energy_per_link (number_of_links : Nat) (nondimensional_potential_distance : α) (nondimensional_potential_stiffness : α) : α :=
  Polymers.fjc.thermodynamics.modified_canonical.nondimensional_relative_helmholtz_free_energy_per_link number_of_links nondimensional_potential_distance nondimensional_potential_stiffness

/-- `src/physics/single_chain/fjc/thermodynamics/modified_canonical/ex.rs` lines 72-75. -/
def physics_single_chain_fjc_thermodynamics_modified_canonical_gibbs_free_energy (number_of_links : Nat) (link_length : α) (hinge_mass : α) (potential_distance : α) (potential_stiffness : α) (temperature : α) : α :=
  Polymers.fjc.thermodynamics.modified_canonical.gibbs_free_energy number_of_links link_length hinge_mass potential_distance potential_stiffness temperature

/-- `src/physics/single_chain/fjc/thermodynamics/modified_canonical/ex.rs` lines 77-80. -/
def physics_single_chain_fjc_thermodynamics_modified_canonical_gibbs_free_energy_per_link (number_of_links : Nat) (link_length : α) (hinge_mass : α) (potential_distance : α) (potential_stiffness : α) (temperature : α) : α :=
  Polymers.fjc.thermodynamics.modified_canonical.gibbs_free_energy_per_link number_of_links link_length hinge_mass potential_distance potential_stiffness temperature

/-- `src/physics/single_chain/fjc/thermodynamics/modified_canonical/ex.rs` lines 82-85. -/
def physics_single_chain_fjc_thermodynamics_modified_canonical_relative_gibbs_free_energy (number_of_links : Nat) (link_length : α) (potential_distance : α) (potential_stiffness : α) (temperature : α) : α :=
  Polymers.fjc.thermodynamics.modified_canonical.relative_gibbs_free_energy number_of_links link_length potential_distance potential_stiffness temperature

/-- `src/physics/single_chain/fjc/thermodynamics/modified_canonical/ex.rs` lines 87-90. -/
def physics_single_chain_fjc_thermodynamics_modified_canonical_relative_gibbs_free_energy_per_link (number_of_links : Nat) (link_length : α) (potential_distance : α) (potential_stiffness : α) (temperature : α) : α :=
  Polymers.fjc.thermodynamics.modified_canonical.relative_gibbs_free_energy_per_link number_of_links link_length potential_distance potential_stiffness temperature

/-- `src/physics/single_chain/fjc/thermodynamics/modified_canonical/ex.rs` lines 92-95. -/
def physics_single_chain_fjc_thermodynamics_modified_canonical_nondimensional_gibbs_free_energy (number_of_links : Nat) (link_length : α) (hinge_mass : α) (nondimensional_potential_distance : α) (nondimensional_potential_stiffness : α) (temperature : α) : α :=
  Polymers.fjc.thermodynamics.modified_canonical.nondimensional_gibbs_free_energy number_of_links link_length hinge_mass nondimensional_potential_distance nondimensional_potential_stiffness temperature

/-- `src/physics/single_chain/fjc/thermodynamics/modified_canonical/ex.rs` lines 97-100. -/
def physics_single_chain_fjc_thermodynamics_modified_canonical_nondimensional_gibbs_free_energy_per_link (number_of_links : Nat) (link_length : α) (hinge_mass : α) (nondimensional_potential_distance : α) (nondimensional_potential_stiffness : α) (temperature : α) : α :=
  Polymers.fjc.thermodynamics.modified_canonical.nondimensional_gibbs_free_energy_per_link number_of_links link_length hinge_mass nondimensional_potential_distance nondimensional_potential_stiffness temperature

/-- `src/physics/single_chain/fjc/thermodynamics/modified_canonical/ex.rs` lines 102-105. -/
def physics_single_chain_fjc_thermodynamics_modified_canonical_nondimensional_relative_gibbs_free_energy (number_of_links : Nat) (nondimensional_potential_distance : α) (nondimensional_potential_stiffness : α) : α :=
  Polymers.fjc.thermodynamics.modified_canonical.nondimensional_relative_gibbs_free_energy number_of_links nondimensional_potential_distance nondimensional_potential_stiffness

/-- `src/physics/single_chain/fjc/thermodynamics/modified_canonical/ex.rs` lines 107-110. -/
def physics_single_chain_fjc_thermodynamics_modified_canonical_nondimensional_relative_gibbs_free_energy_per_link (number_of_links : Nat) (nondimensional_potential_distance : α) (nondimensional_potential_stiffness : α) : α :=
  Polymers.fjc.thermodynamics.modified_canonical.nondimensional_relative_gibbs_free_energy_per_link number_of_links nondimensional_potential_distance nondimensional_potential_stiffness

end Polymers.C
