/- Generated by tools/ex2lean.py from the ex.rs files of /repo/src/physics/single_chain/swfjc ; do not edit by hand. -/
import Verif.Model.Swfjc

set_option linter.unusedVariables false

open Polymers

variable {α : Type} [Add α] [Sub α] [Mul α] [Div α] [Neg α] [OfScientific α] [NatCast α] [Elem α]

namespace Polymers.C

/-- `src/physics/single_chain/swfjc/thermodynamics/isometric/legendre/ex.rs` lines 2-5. -/
def physics_single_chain_swfjc_thermodynamics_isometric_legendre_force (number_of_links : Nat) (link_length : α) (well_width : α) (end_to_end_length : α) (temperature : α) : α :=
  Polymers.swfjc.thermodynamics.isometric.legendre.force number_of_links link_length well_width end_to_end_length temperature

/-- `src/physics/single_chain/swfjc/thermodynamics/isometric/legendre/ex.rs` lines 7-10. -/
def physics_single_chain_swfjc_thermodynamics_isometric_legendre_nondimensional_force (link_length : α) (well_width : α) (nondimensional_end_to_end_length_per_link : α) : α :=
  Polymers.swfjc.thermodynamics.isometric.legendre.nondimensional_force link_length well_width nondimensional_end_to_end_length_per_link

/-- `src/physics/single_chain/swfjc/thermodynamics/isometric/legendre/ex.rs` lines 12-15. -/
def physics_single_chain_swfjc_thermodynamics_isometric_legendre_helmholtz_free_energy (number_of_links : Nat) (link_length : α) (hinge_mass : α) (well_width : α) (end_to_end_length : α) (temperature : α) : α :=
  Polymers.swfjc.thermodynamics.isometric.legendre.helmholtz_free_energy number_of_links link_length hinge_mass well_width end_to_end_length temperature

/-- `src/physics/single_chain/swfjc/thermodynamics/isometric/legendre/ex.rs` lines 17-20. -/
def physics_single_chain_swfjc_thermodynamics_isometric_legendre_helmholtz_free_energy_per_link (number_of_links : Nat) (link_length : α) (hinge_mass : α) (well_width : α) (end_to_end_length : α) (temperature : α) : α :=
  Polymers.swfjc.thermodynamics.isometric.legendre.helmholtz_free_energy_per_link number_of_links link_length hinge_mass well_width end_to_end_length temperature

/-- `src/physics/single_chain/swfjc/thermodynamics/isometric/legendre/ex.rs` lines 22-25. -/
def physics_single_chain_swfjc_thermodynamics_isometric_legendre_relative_helmholtz_free_energy (number_of_links : Nat) (link_length : α) (well_width : α) (end_to_end_length : α) (temperature : α) : α :=
  Polymers.swfjc.thermodynamics.isometric.legendre.relative_helmholtz_free_energy number_of_links link_length well_width end_to_end_length temperature

/-- `src/physics/single_chain/swfjc/thermodynamics/isometric/legendre/ex.rs` lines 27-30. -/
def physics_single_chain_swfjc_thermodynamics_isometric_legendre_relative_helmholtz_free_energy_per_link (number_of_links : Nat) (link_length : α) (well_width : α) (end_to_end_length : α) (temperature : α) : α :=
  Polymers.swfjc.thermodynamics.isometric.legendre.relative_helmholtz_free_energy_per_link number_of_links link_length well_width end_to_end_length temperature

/-- `src/physics/single_chain/swfjc/thermodynamics/isometric/legendre/ex.rs` lines 32-35. -/
def physics_single_chain_swfjc_thermodynamics_isometric_legendre_nondimensional_helmholtz_free_energy (number_of_links : Nat) (link_length : α) (hinge_mass : α) (well_width : α) (nondimensional_end_to_end_length_per_link : α) (temperature : α) : α :=
  Polymers.swfjc.thermodynamics.isometric.legendre.nondimensional_helmholtz_free_energy number_of_links link_length hinge_mass well_width nondimensional_end_to_end_length_per_link temperature

/-- `src/physics/single_chain/swfjc/thermodynamics/isometric/legendre/ex.rs` lines 37-40. -/
def physics_single_chain_swfjc_thermodynamics_isometric_legendre_nondimensional_helmholtz_free_energy_per_link (number_of_links : Nat) (link_length : α) (hinge_mass : α) (well_width : α) (nondimensional_end_to_end_length_per_link : α) (temperature : α) : α :=
  Polymers.swfjc.thermodynamics.isometric.legendre.nondimensional_helmholtz_free_energy_per_link number_of_links link_length hinge_mass well_width nondimensional_end_to_end_length_per_link temperature

/-- `src/physics/single_chain/swfjc/thermodynamics/isometric/legendre/ex.rs` lines 42-45. -/
def physics_single_chain_swfjc_thermodynamics_isometric_legendre_nondimensional_relative_helmholtz_free_energy (number_of_links : Nat) (link_length : α) (well_width : α) (nondimensional_end_to_end_length_per_link : α) : α :=
  Polymers.swfjc.thermodynamics.isometric.legendre.nondimensional_relative_helmholtz_free_energy number_of_links link_length well_width nondimensional_end_to_end_length_per_link

/-- `src/physics/single_chain/swfjc/thermodynamics/isometric/legendre/ex.rs` lines 47-50. -/
def physics_single_chain_swfjc_thermodynamics_isometric_legendre_nondimensional_relative_helmholtz_free_energy_per_link (link_length : α) (well_width : α) (nondimensional_end_to_end_length_per_link : α) : α :=
  Polymers.swfjc.thermodynamics.isometric.legendre.nondimensional_relative_helmholtz_free_energy_per_link link_length well_width nondimensional_end_to_end_length_per_link

/-- `src/physics/single_chain/swfjc/thermodynamics/isometric/legendre/ex.rs` lines 52-55. -/
def physics_single_chain_swfjc_thermodynamics_isometric_legendre_equilibrium_distribution (number_of_links : Nat) (link_length : α) (well_width : α) (normalization_nondimensional_equilibrium_distribution : α) (end_to_end_length : α) : α :=
  Polymers.swfjc.thermodynamics.isometric.legendre.equilibrium_distribution number_of_links link_length well_width normalization_nondimensional_equilibrium_distribution end_to_end_length

/-- `src/physics/single_chain/swfjc/thermodynamics/isometric/legendre/ex.rs` lines 57-60. -/
def physics_single_chain_swfjc_thermodynamics_isometric_legendre_nondimensional_equilibrium_distribution (number_of_links : Nat) (link_length : α) (well_width : α) (normalization_nondimensional_equilibrium_distribution : α) (nondimensional_end_to_end_length_per_link : α) : α :=
  Polymers.swfjc.thermodynamics.isometric.legendre.nondimensional_equilibrium_distribution number_of_links link_length well_width normalization_nondimensional_equilibrium_distribution nondimensional_end_to_end_length_per_link

/-- `src/physics/single_chain/swfjc/thermodynamics/isometric/legendre/ex.rs` lines 62-65. -/
def physics_single_chain_swfjc_thermodynamics_isometric_legendre_equilibrium_radial_distribution (number_of_links : Nat) (link_length : α) (well_width : α) (normalization_nondimensional_equilibrium_distribution : α) (end_to_end_length : α) : α :=
  Polymers.swfjc.thermodynamics.isometric.legendre.equilibrium_radial_distribution number_of_links link_length well_width normalization_nondimensional_equilibrium_distribution end_to_end_length

/-- `src/physics/single_chain/swfjc/thermodynamics/isometric/legendre/ex.rs` lines 67-70. -/
def physics_single_chain_swfjc_thermodynamics_isometric_legendre_nondimensional_equilibrium_radial_distribution (number_of_links : Nat) (link_length : α) (well_width : α) (normalization_nondimensional_equilibrium_distribution : α) (nondimensional_end_to_end_length_per_link : α) : α :=
  Polymers.swfjc.thermodynamics.isometric.legendre.nondimensional_equilibrium_radial_distribution number_of_links link_length well_width normalization_nondimensional_equilibrium_distribution nondimensional_end_to_end_length_per_link

/-- `src/physics/single_chain/swfjc/thermodynamics/isotensional/legendre/ex.rs` lines 2-5. -/
def physics_single_chain_swfjc_thermodynamics_isotensional_legendre_helmholtz_free_energy (number_of_links : Nat) (link_length : α) (hinge_mass : α) (well_width : α) (force : α) (temperature : α) : α :=
  Polymers.swfjc.thermodynamics.isotensional.legendre.helmholtz_free_energy number_of_links link_length hinge_mass well_width force temperature

/-- `src/physics/single_chain/swfjc/thermodynamics/isotensional/legendre/ex.rs` lines 7-10. -/
def physics_single_chain_swfjc_thermodynamics_isotensional_legendre_helmholtz_free_energy_per_link (link_length : α) (hinge_mass : α) (well_width : α) (force : α) (temperature : α) : α :=
  Polymers.swfjc.thermodynamics.isotensional.legendre.helmholtz_free_energy_per_link link_length hinge_mass well_width force temperature

/-- `src/physics/single_chain/swfjc/thermodynamics/isotensional/legendre/ex.rs` lines 12-15. -/
def physics_single_chain_swfjc_thermodynamics_isotensional_legendre_relative_helmholtz_free_energy (number_of_links : Nat) (link_length : α) (well_width : α) (force : α) (temperature : α) : α :=
  Polymers.swfjc.thermodynamics.isotensional.legendre.relative_helmholtz_free_energy number_of_links link_length well_width force temperature

/-- `src/physics/single_chain/swfjc/thermodynamics/isotensional/legendre/ex.rs` lines 17-20. -/
def physics_single_chain_swfjc_thermodynamics_isotensional_legendre_relative_helmholtz_free_energy_per_link (link_length : α) (well_width : α) (force : α) (temperature : α) : α :=
  Polymers.swfjc.thermodynamics.isotensional.legendre.relative_helmholtz_free_energy_per_link link_length well_width force temperature

/-- `src/physics/single_chain/swfjc/thermodynamics/isotensional/legendre/ex.rs` lines 22-25. -/
def physics_single_chain_swfjc_thermodynamics_isotensional_legendre_nondimensional_helmholtz_free_energy (number_of_links : Nat) (link_length : α) (hinge_mass : α) (well_width : α) (nondimensional_force : α) (temperature : α) : α :=
  Polymers.swfjc.thermodynamics.isotensional.legendre.nondimensional_helmholtz_free_energy number_of_links link_length hinge_mass well_width nondimensional_force temperature

/-- `src/physics/single_chain/swfjc/thermodynamics/isotensional/legendre/ex.rs` lines 27-30. -/
def physics_single_chain_swfjc_thermodynamics_isotensional_legendre_nondimensional_helmholtz_free_energy_per_link (link_length : α) (hinge_mass : α) (well_width : α) (nondimensional_force : α) (temperature : α) : α :=
  Polymers.swfjc.thermodynamics.isotensional.legendre.nondimensional_helmholtz_free_energy_per_link link_length hinge_mass well_width nondimensional_force temperature

/-- `src/physics/single_chain/swfjc/thermodynamics/isotensional/legendre/ex.rs` lines 32-35. -/
def physics_single_chain_swfjc_thermodynamics_isotensional_legendre_nondimensional_relative_helmholtz_free_energy (number_of_links : Nat) (link_length : α) (well_width : α) (nondimensional_force : α) : α :=
  Polymers.swfjc.thermodynamics.isotensional.legendre.nondimensional_relative_helmholtz_free_energy number_of_links link_length well_width nondimensional_force

/-- `src/physics/single_chain/swfjc/thermodynamics/isotensional/legendre/ex.rs` lines 37-40. -/
def physics_single_chain_swfjc_thermodynamics_isotensional_legendre_nondimensional_relative_helmholtz_free_energy_per_link (link_length : α) (well_width : α) (nondimensional_force : α) : α :=
  Polymers.swfjc.thermodynamics.isotensional.legendre.nondimensional_relative_helmholtz_free_energy_per_link link_length well_width nondimensional_force

/-- `src/physics/single_chain/swfjc/thermodynamics/isotensional/ex.rs` lines 2-5. -/
def physics_single_chain_swfjc_thermodynamics_isotensional_end_to_end_length (number_of_links : Nat) (link_length : α) (well_width : α) (force : α) (temperature : α) : α :=
  Polymers.swfjc.thermodynamics.isotensional.end_to_end_length number_of_links link_length well_width force temperature

/-- `src/physics/single_chain/swfjc/thermodynamics/isotensional/ex.rs` lines 7-10. -/
def physics_single_chain_swfjc_thermodynamics_isotensional_end_to_end_length_per_link (link_length : α) (well_width : α) (force : α) (temperature : α) : α :=
  Polymers.swfjc.thermodynamics.isotensional.end_to_end_length_per_link link_length well_width force temperature

/-- `src/physics/single_chain/swfjc/thermodynamics/isotensional/ex.rs` lines 12-15. -/
def physics_single_chain_swfjc_thermodynamics_isotensional_nondimensional_end_to_end_length (number_of_links : Nat) (link_length : α) (well_width : α) (nondimensional_force : α) : α :=
  Polymers.swfjc.thermodynamics.isotensional.nondimensional_end_to_end_length number_of_links link_length well_width nondimensional_force

/-- `src/physics/single_chain/swfjc/thermodynamics/isotensional/ex.rs` lines 17-20. -/
def physics_single_chain_swfjc_thermodynamics_isotensional_nondimensional_end_to_end_length_per_link (link_length : α) (well_width : α) (nondimensional_force : α) : α :=
  Polymers.swfjc.thermodynamics.isotensional.nondimensional_end_to_end_length_per_link link_length well_width nondimensional_force

/-- `src/physics/single_chain/swfjc/thermodynamics/isotensional/ex.rs` lines 22-25. -/
def physics_single_chain_swfjc_thermodynamics_isotensional_gibbs_free_energy (number_of_links : Nat) (link_length : α) (hinge_mass : α) (well_width : α) (force : α) (temperature : α) : α :=
  Polymers.swfjc.thermodynamics.isotensional.gibbs_free_energy number_of_links link_length hinge_mass well_width force temperature

/-- `src/physics/single_chain/swfjc/thermodynamics/isotensional/ex.rs` lines 27-30. -/
def physics_single_chain_swfjc_thermodynamics_isotensional_gibbs_free_energy_per_link (link_length : α) (hinge_mass : α) (well_width : α) (force : α) (temperature : α) : α :=
  Polymers.swfjc.thermodynamics.isotensional.gibbs_free_energy_per_link link_length hinge_mass well_width force temperature

/-- `src/physics/single_chain/swfjc/thermodynamics/isotensional/ex.rs` lines 32-35. -/
def physics_single_chain_swfjc_thermodynamics_isotensional_relative_gibbs_free_energy (number_of_links : Nat) (link_length : α) (well_width : α) (force : α) (temperature : α) : α :=
  Polymers.swfjc.thermodynamics.isotensional.relative_gibbs_free_energy number_of_links link_length well_width force temperature

/-- `src/physics/single_chain/swfjc/thermodynamics/isotensional/ex.rs` lines 37-40. -/
def physics_single_chain_swfjc_thermodynamics_isotensional_relative_gibbs_free_energy_per_link (link_length : α) (well_width : α) (force : α) (temperature : α) : α :=
  Polymers.swfjc.thermodynamics.isotensional.relative_gibbs_free_energy_per_link link_length well_width force temperature

/-- `src/physics/single_chain/swfjc/thermodynamics/isotensional/ex.rs` lines 42-45. -/
def physics_single_chain_swfjc_thermodynamics_isotensional_nondimensional_gibbs_free_energy (number_of_links : Nat) (link_length : α) (hinge_mass : α) (well_width : α) (nondimensional_force : α) (temperature : α) : α :=
  Polymers.swfjc.thermodynamics.isotensional.nondimensional_gibbs_free_energy number_of_links link_length hinge_mass well_width nondimensional_force temperature

/-- `src/physics/single_chain/swfjc/thermodynamics/isotensional/ex.rs` lines 47-50. -/
def physics_single_chain_swfjc_thermodynamics_isotensional_nondimensional_gibbs_free_energy_per_link (link_length : α) (hinge_mass : α) (well_width : α) (nondimensional_force : α) (temperature : α) : α :=
  Polymers.swfjc.thermodynamics.isotensional.nondimensional_gibbs_free_energy_per_link link_length hinge_mass well_width nondimensional_force temperature

/-- `src/physics/single_chain/swfjc/thermodynamics/isotensional/ex.rs` lines 52-55. -/
def physics_single_chain_swfjc_thermodynamics_isotensional_nondimensional_relative_gibbs_free_energy (number_of_links : Nat) (link_length : α) (well_width : α) (nondimensional_force : α) : α :=
  Polymers.swfjc.thermodynamics.isotensional.nondimensional_relative_gibbs_free_energy number_of_links link_length well_width nondimensional_force

/-- `src/physics/single_chain/swfjc/thermodynamics/isotensional/ex.rs` lines 57-60. -/
def physics_single_chain_swfjc_thermodynamics_isotensional_nondimensional_relative_gibbs_free_energy_per_link (link_length : α) (well_width : α) (nondimensional_force : α) : α :=
  Polymers.swfjc.thermodynamics.isotensional.nondimensional_relative_gibbs_free_energy_per_link link_length well_width nondimensional_force

end Polymers.C
