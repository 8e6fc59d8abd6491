/- Generated by tools/ex2lean.py from the ex.rs files of /repo/src/physics/single_chain/ideal ; do not edit by hand. -/
import Verif.Model.Ideal

set_option linter.unusedVariables false

open Polymers

variable {α : Type} [Add α] [Sub α] [Mul α] [Div α] [Neg α] [OfScientific α] [NatCast α] [Elem α]

namespace Polymers.C

/-- `src/physics/single_chain/ideal/thermodynamics/isometric/ex.rs` lines 2-5. -/
def physics_single_chain_ideal_thermodynamics_isometric_force (number_of_links : Nat) (link_length : α) (end_to_end_length : α) (temperature : α) : α :=
  Polymers.ideal.thermodynamics.isometric.force number_of_links link_length end_to_end_length temperature

/-- `src/physics/single_chain/ideal/thermodynamics/isometric/ex.rs` lines 7-10. -/
def physics_single_chain_ideal_thermodynamics_isometric_nondimensional_force (nondimensional_end_to_end_length_per_link : α) : α :=
  Polymers.ideal.thermodynamics.isometric.nondimensional_force nondimensional_end_to_end_length_per_link

/-- `src/physics/single_chain/ideal/thermodynamics/isometric/ex.rs` lines 12-15. -/
def physics_single_chain_ideal_thermodynamics_isometric_helmholtz_free_energy (number_of_links : Nat) (link_length : α) (hinge_mass : α) (end_to_end_length : α) (temperature : α) : α :=
  Polymers.ideal.thermodynamics.isometric.helmholtz_free_energy number_of_links link_length hinge_mass end_to_end_length temperature

/-- `src/physics/single_chain/ideal/thermodynamics/isometric/ex.rs` lines 17-20. -/
def physics_single_chain_ideal_thermodynamics_isometric_helmholtz_free_energy_per_link (number_of_links : Nat) (link_length : α) (hinge_mass : α) (end_to_end_length : α) (temperature : α) : α :=
  Polymers.ideal.thermodynamics.isometric.helmholtz_free_energy_per_link number_of_links link_length hinge_mass end_to_end_length temperature

/-- `src/physics/single_chain/ideal/thermodynamics/isometric/ex.rs` lines 22-25. -/
def physics_single_chain_ideal_thermodynamics_isometric_relative_helmholtz_free_energy (number_of_links : Nat) (link_length : α) (end_to_end_length : α) (temperature : α) : α :=
  Polymers.ideal.thermodynamics.isometric.relative_helmholtz_free_energy number_of_links link_length end_to_end_length temperature

/-- `src/physics/single_chain/ideal/thermodynamics/isometric/ex.rs` lines 27-30. -/
def physics_single_chain_ideal_thermodynamics_isometric_relative_helmholtz_free_energy_per_link (number_of_links : Nat) (link_length : α) (end_to_end_length : α) (temperature : α) : α :=
  Polymers.ideal.thermodynamics.isometric.relative_helmholtz_free_energy_per_link number_of_links link_length end_to_end_length temperature

/-- `src/physics/single_chain/ideal/thermodynamics/isometric/ex.rs` lines 32-35. -/
def physics_single_chain_ideal_thermodynamics_isometric_nondimensional_helmholtz_free_energy (number_of_links : Nat) (link_length : α) (hinge_mass : α) (nondimensional_end_to_end_length_per_link : α) (temperature : α) : α :=
  Polymers.ideal.thermodynamics.isometric.nondimensional_helmholtz_free_energy number_of_links link_length hinge_mass nondimensional_end_to_end_length_per_link temperature

/-- `src/physics/single_chain/ideal/thermodynamics/isometric/ex.rs` lines 37-40. -/
def physics_single_chain_ideal_thermodynamics_isometric_nondimensional_helmholtz_free_energy_per_link (link_length : α) (hinge_mass : α) (nondimensional_end_to_end_length_per_link : α) (temperature : α) : α :=
  Polymers.ideal.thermodynamics.isometric.nondimensional_helmholtz_free_energy_per_link link_length hinge_mass nondimensional_end_to_end_length_per_link temperature

/-- `src/physics/single_chain/ideal/thermodynamics/isometric/ex.rs` lines 42-45. -/
def physics_single_chain_ideal_thermodynamics_isometric_nondimensional_relative_helmholtz_free_energy (number_of_links : Nat) (nondimensional_end_to_end_length_per_link : α) : α :=
  Polymers.ideal.thermodynamics.isometric.nondimensional_relative_helmholtz_free_energy number_of_links nondimensional_end_to_end_length_per_link

/-- `src/physics/single_chain/ideal/thermodynamics/isometric/ex.rs` lines 47-50. -/
def physics_single_chain_ideal_thermodynamics_isometric_nondimensional_relative_helmholtz_free_energy_per_link (nondimensional_end_to_end_length_per_link : α) : α :=
  Polymers.ideal.thermodynamics.isometric.nondimensional_relative_helmholtz_free_energy_per_link nondimensional_end_to_end_length_per_link

/-- `src/physics/single_chain/ideal/thermodynamics/isometric/ex.rs` lines 52-55. -/
def physics_single_chain_ideal_thermodynamics_isometric_equilibrium_distribution (number_of_links : Nat) (link_length : α) (end_to_end_length : α) : α :=
  Polymers.ideal.thermodynamics.isometric.equilibrium_distribution number_of_links link_length end_to_end_length

/-- `src/physics/single_chain/ideal/thermodynamics/isometric/ex.rs` lines 57-60. -/
def physics_single_chain_ideal_thermodynamics_isometric_nondimensional_equilibrium_distribution (number_of_links : Nat) (nondimensional_end_to_end_length_per_link : α) : α :=
  Polymers.ideal.thermodynamics.isometric.nondimensional_equilibrium_distribution number_of_links nondimensional_end_to_end_length_per_link

/-- `src/physics/single_chain/ideal/thermodynamics/isometric/ex.rs` lines 62-65. -/
def physics_single_chain_ideal_thermodynamics_isometric_equilibrium_radial_distribution (number_of_links : Nat) (link_length : α) (end_to_end_length : α) : α :=
  Polymers.ideal.thermodynamics.isometric.equilibrium_radial_distribution number_of_links link_length end_to_end_length

/-- `src/physics/single_chain/ideal/thermodynamics/isometric/ex.rs` lines 67-70. -/
def physics_single_chain_ideal_thermodynamics_isometric_nondimensional_equilibrium_radial_distribution (number_of_links : Nat) (nondimensional_end_to_end_length_per_link : α) : α :=
  Polymers.ideal.thermodynamics.isometric.nondimensional_equilibrium_radial_distribution number_of_links nondimensional_end_to_end_length_per_link

/-- `src/physics/single_chain/ideal/thermodynamics/isotensional/ex.rs` lines 2-5. -/
def physics_single_chain_ideal_thermodynamics_isotensional_end_to_end_length (number_of_links : Nat) (link_length : α) (force : α) (temperature : α) : α :=
  Polymers.ideal.thermodynamics.isotensional.end_to_end_length number_of_links link_length force temperature

/-- `src/physics/single_chain/ideal/thermodynamics/isotensional/ex.rs` lines 7-10. -/
def physics_single_chain_ideal_thermodynamics_isotensional_end_to_end_length_per_link (link_length : α) (force : α) (temperature : α) : α :=
  Polymers.ideal.thermodynamics.isotensional.end_to_end_length_per_link link_length force temperature

/-- `src/physics/single_chain/ideal/thermodynamics/isotensional/ex.rs` lines 12-15. -/
def physics_single_chain_ideal_thermodynamics_isotensional_nondimensional_end_to_end_length (number_of_links : Nat) (nondimensional_force : α) : α :=
  Polymers.ideal.thermodynamics.isotensional.nondimensional_end_to_end_length number_of_links nondimensional_force

/-- `src/physics/single_chain/ideal/thermodynamics/isotensional/ex.rs` lines 17-20. -/
def physics_single_chain_ideal_thermodynamics_isotensional_nondimensional_end_to_end_length_per_link (nondimensional_force : α) : α :=
  Polymers.ideal.thermodynamics.isotensional.nondimensional_end_to_end_length_per_link nondimensional_force

/-- `src/physics/single_chain/ideal/thermodynamics/isotensional/ex.rs` lines 22-25. -/
def physics_single_chain_ideal_thermodynamics_isotensional_gibbs_free_energy (number_of_links : Nat) (link_length : α) (hinge_mass : α) (force : α) (temperature : α) : α :=
  Polymers.ideal.thermodynamics.isotensional.gibbs_free_energy number_of_links link_length hinge_mass force temperature

/-- `src/physics/single_chain/ideal/thermodynamics/isotensional/ex.rs` lines 27-30. -/
def physics_single_chain_ideal_thermodynamics_isotensional_gibbs_free_energy_per_link (link_length : α) (hinge_mass : α) (force : α) (temperature : α) : α :=
  Polymers.ideal.thermodynamics.isotensional.gibbs_free_energy_per_link link_length hinge_mass force temperature

/-- `src/physics/single_chain/ideal/thermodynamics/isotensional/ex.rs` lines 32-35. -/
def physics_single_chain_ideal_thermodynamics_isotensional_relative_gibbs_free_energy (number_of_links : Nat) (link_length : α) (force : α) (temperature : α) : α :=
  Polymers.ideal.thermodynamics.isotensional.relative_gibbs_free_energy number_of_links link_length force temperature

/-- `src/physics/single_chain/ideal/thermodynamics/isotensional/ex.rs` lines 37-40. -/
def physics_single_chain_ideal_thermodynamics_isotensional_relative_gibbs_free_energy_per_link (link_length : α) (force : α) (temperature : α) : α :=
  Polymers.ideal.thermodynamics.isotensional.relative_gibbs_free_energy_per_link link_length force temperature

/-- `src/physics/single_chain/ideal/thermodynamics/isotensional/ex.rs` lines 42-45. -/
def physics_single_chain_ideal_thermodynamics_isotensional_nondimensional_gibbs_free_energy (number_of_links : Nat) (link_length : α) (hinge_mass : α) (nondimensional_force : α) (temperature : α) : α :=
  Polymers.ideal.thermodynamics.isotensional.nondimensional_gibbs_free_energy number_of_links link_length hinge_mass nondimensional_force temperature

/-- `src/physics/single_chain/ideal/thermodynamics/isotensional/ex.rs` lines 47-50. -/
def physics_single_chain_ideal_thermodynamics_isotensional_nondimensional_gibbs_free_energy_per_link (link_length : α) (hinge_mass : α) (nondimensional_force : α) (temperature : α) : α :=
  Polymers.ideal.thermodynamics.isotensional.nondimensional_gibbs_free_energy_per_link link_length hinge_mass nondimensional_force temperature

/-- `src/physics/single_chain/ideal/thermodynamics/isotensional/ex.rs` lines 52-55. -/
def physics_single_chain_ideal_thermodynamics_isotensional_nondimensional_relative_gibbs_free_energy (number_of_links : Nat) (nondimensional_force : α) : α :=
  Polymers.ideal.thermodynamics.isotensional.nondimensional_relative_gibbs_free_energy number_of_links nondimensional_force

/-- `src/physics/single_chain/ideal/thermodynamics/isotensional/ex.rs` lines 57-60. -/
def physics_single_chain_ideal_thermodynamics_isotensional_nondimensional_relative_gibbs_free_energy_per_link (nondimensional_force : α) : α :=
  Polymers.ideal.thermodynamics.isotensional.nondimensional_relative_gibbs_free_energy_per_link nondimensional_force

end Polymers.C
