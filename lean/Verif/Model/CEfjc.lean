/- Generated by tools/ex2lean.py from the ex.rs files of /repo/src/physics/single_chain/efjc ; do not edit by hand. -/
import Verif.Model.Efjc

set_option linter.unusedVariables false

open Polymers

variable {α : Type} [Add α] [Sub α] [Mul α] [Div α] [Neg α] [OfScientific α] [NatCast α] [Elem α]

namespace Polymers.C

/-- `src/physics/single_chain/efjc/thermodynamics/isometric/asymptotic/alternative/legendre/ex.rs` lines 2-5. -/
def physics_single_chain_efjc_thermodynamics_isometric_asymptotic_alternative_legendre_force (number_of_links : Nat) (link_length : α) (link_stiffness : α) (end_to_end_length : α) (temperature : α) : α :=
  Polymers.efjc.thermodynamics.isometric.asymptotic.alternative.legendre.force number_of_links link_length link_stiffness end_to_end_length temperature

/-- `src/physics/single_chain/efjc/thermodynamics/isometric/asymptotic/alternative/legendre/ex.rs` lines 7-10. -/
def physics_single_chain_efjc_thermodynamics_isometric_asymptotic_alternative_legendre_nondimensional_force (nondimensional_link_stiffness : α) (nondimensional_end_to_end_length_per_link : α) : α :=
  Polymers.efjc.thermodynamics.isometric.asymptotic.alternative.legendre.nondimensional_force nondimensional_link_stiffness nondimensional_end_to_end_length_per_link

/-- `src/physics/single_chain/efjc/thermodynamics/isometric/asymptotic/alternative/legendre/ex.rs` lines 12-15. -/
def physics_single_chain_efjc_thermodynamics_isometric_asymptotic_alternative_legendre_helmholtz_free_energy (number_of_links : Nat) (link_length : α) (hinge_mass : α) (link_stiffness : α) (end_to_end_length : α) (temperature : α) : α :=
  Polymers.efjc.thermodynamics.isometric.asymptotic.alternative.legendre.helmholtz_free_energy number_of_links link_length hinge_mass link_stiffness end_to_end_length temperature

/-- `src/physics/single_chain/efjc/thermodynamics/isometric/asymptotic/alternative/legendre/ex.rs` lines 17-20. -/
def physics_single_chain_efjc_thermodynamics_isometric_asymptotic_alternative_legendre_helmholtz_free_energy_per_link (number_of_links : Nat) (link_length : α) (hinge_mass : α) (link_stiffness : α) (end_to_end_length : α) (temperature : α) : α :=
  Polymers.efjc.thermodynamics.isometric.asymptotic.alternative.legendre.helmholtz_free_energy_per_link number_of_links link_length hinge_mass link_stiffness end_to_end_length temperature

/-- `src/physics/single_chain/efjc/thermodynamics/isometric/asymptotic/alternative/legendre/ex.rs` lines 22-25. -/
def physics_single_chain_efjc_thermodynamics_isometric_asymptotic_alternative_legendre_relative_helmholtz_free_energy (number_of_links : Nat) (link_length : α) (link_stiffness : α) (end_to_end_length : α) (temperature : α) : α :=
  Polymers.efjc.thermodynamics.isometric.asymptotic.alternative.legendre.relative_helmholtz_free_energy number_of_links link_length link_stiffness end_to_end_length temperature

/-- `src/physics/single_chain/efjc/thermodynamics/isometric/asymptotic/alternative/legendre/ex.rs` lines 27-30. -/
def physics_single_chain_efjc_thermodynamics_isometric_asymptotic_alternative_legendre_relative_helmholtz_free_energy_per_link (number_of_links : Nat) (link_length : α) (link_stiffness : α) (end_to_end_length : α) (temperature : α) : α :=
  Polymers.efjc.thermodynamics.isometric.asymptotic.alternative.legendre.relative_helmholtz_free_energy_per_link number_of_links link_length link_stiffness end_to_end_length temperature

/-- `src/physics/single_chain/efjc/thermodynamics/isometric/asymptotic/alternative/legendre/ex.rs` lines 32-35. -/
def physics_single_chain_efjc_thermodynamics_isometric_asymptotic_alternative_legendre_nondimensional_helmholtz_free_energy (number_of_links : Nat) (link_length : α) (hinge_mass : α) (nondimensional_link_stiffness : α) (nondimensional_end_to_end_length_per_link : α) (temperature : α) : α :=
  Polymers.efjc.thermodynamics.isometric.asymptotic.alternative.legendre.nondimensional_helmholtz_free_energy number_of_links link_length hinge_mass nondimensional_link_stiffness nondimensional_end_to_end_length_per_link temperature

/-- `src/physics/single_chain/efjc/thermodynamics/isometric/asymptotic/alternative/legendre/ex.rs` lines 37-40. -/
def physics_single_chain_efjc_thermodynamics_isometric_asymptotic_alternative_legendre_nondimensional_helmholtz_free_energy_per_link (number_of_links : Nat) (link_length : α) (hinge_mass : α) (nondimensional_link_stiffness : α) (nondimensional_end_to_end_length_per_link : α) (temperature : α) : α :=
  Polymers.efjc.thermodynamics.isometric.asymptotic.alternative.legendre.nondimensional_helmholtz_free_energy_per_link number_of_links link_length hinge_mass nondimensional_link_stiffness nondimensional_end_to_end_length_per_link temperature

/-- `src/physics/single_chain/efjc/thermodynamics/isometric/asymptotic/alternative/legendre/ex.rs` lines 42-45. -/
def physics_single_chain_efjc_thermodynamics_isometric_asymptotic_alternative_legendre_nondimensional_relative_helmholtz_free_energy (number_of_links : Nat) (nondimensional_link_stiffness : α) (nondimensional_end_to_end_length_per_link : α) : α :=
  Polymers.efjc.thermodynamics.isometric.asymptotic.alternative.legendre.nondimensional_relative_helmholtz_free_energy number_of_links nondimensional_link_stiffness nondimensional_end_to_end_length_per_link

/-- `src/physics/single_chain/efjc/thermodynamics/isometric/asymptotic/alternative/legendre/ex.rs` lines 47-50. -/
def physics_single_chain_efjc_thermodynamics_isometric_asymptotic_alternative_legendre_nondimensional_relative_helmholtz_free_energy_per_link (nondimensional_link_stiffness : α) (nondimensional_end_to_end_length_per_link : α) : α :=
  Polymers.efjc.thermodynamics.isometric.asymptotic.alternative.legendre.nondimensional_relative_helmholtz_free_energy_per_link nondimensional_link_stiffness nondimensional_end_to_end_length_per_link

/-- `src/physics/single_chain/efjc/thermodynamics/isometric/asymptotic/reduced/legendre/ex.rs` lines 2-5. -/
def physics_single_chain_efjc_thermodynamics_isometric_asymptotic_reduced_legendre_force (number_of_links : Nat) (link_length : α) (link_stiffness : α) (end_to_end_length : α) (temperature : α) : α :=
  Polymers.efjc.thermodynamics.isometric.asymptotic.reduced.legendre.force number_of_links link_length link_stiffness end_to_end_length temperature

/-- `src/physics/single_chain/efjc/thermodynamics/isometric/asymptotic/reduced/legendre/ex.rs` lines 7-10. -/
def physics_single_chain_efjc_thermodynamics_isometric_asymptotic_reduced_legendre_nondimensional_force (nondimensional_link_stiffness : α) (nondimensional_end_to_end_length_per_link : α) : α :=
  Polymers.efjc.thermodynamics.isometric.asymptotic.reduced.legendre.nondimensional_force nondimensional_link_stiffness nondimensional_end_to_end_length_per_link

/-- `src/physics/single_chain/efjc/thermodynamics/isometric/asymptotic/reduced/legendre/ex.rs` lines 12-15. -/
def physics_single_chain_efjc_thermodynamics_isometric_asymptotic_reduced_legendre_helmholtz_free_energy (number_of_links : Nat) (link_length : α) (hinge_mass : α) (link_stiffness : α) (end_to_end_length : α) (temperature : α) : α :=
  Polymers.efjc.thermodynamics.isometric.asymptotic.reduced.legendre.helmholtz_free_energy number_of_links link_length hinge_mass link_stiffness end_to_end_length temperature

/-- `src/physics/single_chain/efjc/thermodynamics/isometric/asymptotic/reduced/legendre/ex.rs` lines 17-20. -/
def physics_single_chain_efjc_thermodynamics_isometric_asymptotic_reduced_legendre_helmholtz_free_energy_per_link (number_of_links : Nat) (link_length : α) (hinge_mass : α) (link_stiffness : α) (end_to_end_length : α) (temperature : α) : α :=
  Polymers.efjc.thermodynamics.isometric.asymptotic.reduced.legendre.helmholtz_free_energy_per_link number_of_links link_length hinge_mass link_stiffness end_to_end_length temperature

/-- `src/physics/single_chain/efjc/thermodynamics/isometric/asymptotic/reduced/legendre/ex.rs` lines 22-25. -/
def physics_single_chain_efjc_thermodynamics_isometric_asymptotic_reduced_legendre_relative_helmholtz_free_energy (number_of_links : Nat) (link_length : α) (link_stiffness : α) (end_to_end_length : α) (temperature : α) : α :=
  Polymers.efjc.thermodynamics.isometric.asymptotic.reduced.legendre.relative_helmholtz_free_energy number_of_links link_length link_stiffness end_to_end_length temperature

/-- `src/physics/single_chain/efjc/thermodynamics/isometric/asymptotic/reduced/legendre/ex.rs` lines 27-30. -/
def physics_single_chain_efjc_thermodynamics_isometric_asymptotic_reduced_legendre_relative_helmholtz_free_energy_per_link (number_of_links : Nat) (link_length : α) (link_stiffness : α) (end_to_end_length : α) (temperature : α) : α :=
  Polymers.efjc.thermodynamics.isometric.asymptotic.reduced.legendre.relative_helmholtz_free_energy_per_link number_of_links link_length link_stiffness end_to_end_length temperature

/-- `src/physics/single_chain/efjc/thermodynamics/isometric/asymptotic/reduced/legendre/ex.rs` lines 32-35. -/
def physics_single_chain_efjc_thermodynamics_isometric_asymptotic_reduced_legendre_nondimensional_helmholtz_free_energy (number_of_links : Nat) (link_length : α) (hinge_mass : α) (nondimensional_link_stiffness : α) (nondimensional_end_to_end_length_per_link : α) (temperature : α) : α :=
  Polymers.efjc.thermodynamics.isometric.asymptotic.reduced.legendre.nondimensional_helmholtz_free_energy number_of_links link_length hinge_mass nondimensional_link_stiffness nondimensional_end_to_end_length_per_link temperature

/-- `src/physics/single_chain/efjc/thermodynamics/isometric/asymptotic/reduced/legendre/ex.rs` lines 37-40. -/
def physics_single_chain_efjc_thermodynamics_isometric_asymptotic_reduced_legendre_nondimensional_helmholtz_free_energy_per_link (number_of_links : Nat) (link_length : α) (hinge_mass : α) (nondimensional_link_stiffness : α) (nondimensional_end_to_end_length_per_link : α) (temperature : α) : α :=
  Polymers.efjc.thermodynamics.isometric.asymptotic.reduced.legendre.nondimensional_helmholtz_free_energy_per_link number_of_links link_length hinge_mass nondimensional_link_stiffness nondimensional_end_to_end_length_per_link temperature

/-- `src/physics/single_chain/efjc/thermodynamics/isometric/asymptotic/reduced/legendre/ex.rs` lines 42-45. -/
def physics_single_chain_efjc_thermodynamics_isometric_asymptotic_reduced_legendre_nondimensional_relative_helmholtz_free_energy (number_of_links : Nat) (nondimensional_link_stiffness : α) (nondimensional_end_to_end_length_per_link : α) : α :=
  Polymers.efjc.thermodynamics.isometric.asymptotic.reduced.legendre.nondimensional_relative_helmholtz_free_energy number_of_links nondimensional_link_stiffness nondimensional_end_to_end_length_per_link

/-- `src/physics/single_chain/efjc/thermodynamics/isometric/asymptotic/reduced/legendre/ex.rs` lines 47-50. -/
def physics_single_chain_efjc_thermodynamics_isometric_asymptotic_reduced_legendre_nondimensional_relative_helmholtz_free_energy_per_link (nondimensional_link_stiffness : α) (nondimensional_end_to_end_length_per_link : α) : α :=
  Polymers.efjc.thermodynamics.isometric.asymptotic.reduced.legendre.nondimensional_relative_helmholtz_free_energy_per_link nondimensional_link_stiffness nondimensional_end_to_end_length_per_link

/-- `src/physics/single_chain/efjc/thermodynamics/isotensional/asymptotic/alternative/legendre/ex.rs` lines 2-5. -/
def physics_single_chain_efjc_thermodynamics_isotensional_asymptotic_alternative_legendre_helmholtz_free_energy (number_of_links : Nat) (link_length : α) (hinge_mass : α) (link_stiffness : α) (force : α) (temperature : α) : α :=
  Polymers.efjc.thermodynamics.isotensional.asymptotic.alternative.legendre.helmholtz_free_energy number_of_links link_length hinge_mass link_stiffness force temperature

/-- `src/physics/single_chain/efjc/thermodynamics/isotensional/asymptotic/alternative/legendre/ex.rs` lines 7-10. -/
def physics_single_chain_efjc_thermodynamics_isotensional_asymptotic_alternative_legendre_helmholtz_free_energy_per_link (link_length : α) (hinge_mass : α) (link_stiffness : α) (force : α) (temperature : α) : α :=
  Polymers.efjc.thermodynamics.isotensional.asymptotic.alternative.legendre.helmholtz_free_energy_per_link link_length hinge_mass link_stiffness force temperature

/-- `src/physics/single_chain/efjc/thermodynamics/isotensional/asymptotic/alternative/legendre/ex.rs` lines 12-15. -/
def physics_single_chain_efjc_thermodynamics_isotensional_asymptotic_alternative_legendre_relative_helmholtz_free_energy (number_of_links : Nat) (link_length : α) (link_stiffness : α) (force : α) (temperature : α) : α :=
  Polymers.efjc.thermodynamics.isotensional.asymptotic.alternative.legendre.relative_helmholtz_free_energy number_of_links link_length link_stiffness force temperature

/-- `src/physics/single_chain/efjc/thermodynamics/isotensional/asymptotic/alternative/legendre/ex.rs` lines 17-20. -/
def physics_single_chain_efjc_thermodynamics_isotensional_asymptotic_alternative_legendre_relative_helmholtz_free_energy_per_link (link_length : α) (link_stiffness : α) (force : α) (temperature : α) : α :=
  Polymers.efjc.thermodynamics.isotensional.asymptotic.alternative.legendre.relative_helmholtz_free_energy_per_link link_length link_stiffness force temperature

/-- `src/physics/single_chain/efjc/thermodynamics/isotensional/asymptotic/alternative/legendre/ex.rs` lines 22-25. -/
def physics_single_chain_efjc_thermodynamics_isotensional_asymptotic_alternative_legendre_nondimensional_helmholtz_free_energy (number_of_links : Nat) (link_length : α) (hinge_mass : α) (nondimensional_link_stiffness : α) (nondimensional_force : α) (temperature : α) : α :=
  Polymers.efjc.thermodynamics.isotensional.asymptotic.alternative.legendre.nondimensional_helmholtz_free_energy number_of_links link_length hinge_mass nondimensional_link_stiffness nondimensional_force temperature

/-- `src/physics/single_chain/efjc/thermodynamics/isotensional/asymptotic/alternative/legendre/ex.rs` lines 27-30. -/
def physics_single_chain_efjc_thermodynamics_isotensional_asymptotic_alternative_legendre_nondimensional_helmholtz_free_energy_per_link (link_length : α) (hinge_mass : α) (nondimensional_link_stiffness : α) (nondimensional_force : α) (temperature : α) : α :=
  Polymers.efjc.thermodynamics.isotensional.asymptotic.alternative.legendre.nondimensional_helmholtz_free_energy_per_link link_length hinge_mass nondimensional_link_stiffness nondimensional_force temperature

/-- `src/physics/single_chain/efjc/thermodynamics/isotensional/asymptotic/alternative/legendre/ex.rs` lines 32-35. -/
def physics_single_chain_efjc_thermodynamics_isotensional_asymptotic_alternative_legendre_nondimensional_relative_helmholtz_free_energy (number_of_links : Nat) (nondimensional_link_stiffness : α) (nondimensional_force : α) : α :=
  Polymers.efjc.thermodynamics.isotensional.asymptotic.alternative.legendre.nondimensional_relative_helmholtz_free_energy number_of_links nondimensional_link_stiffness nondimensional_force

/-- `src/physics/single_chain/efjc/thermodynamics/isotensional/asymptotic/alternative/legendre/ex.rs` lines 37-40. -/
def physics_single_chain_efjc_thermodynamics_isotensional_asymptotic_alternative_legendre_nondimensional_relative_helmholtz_free_energy_per_link (nondimensional_link_stiffness : α) (nondimensional_force : α) : α :=
  Polymers.efjc.thermodynamics.isotensional.asymptotic.alternative.legendre.nondimensional_relative_helmholtz_free_energy_per_link nondimensional_link_stiffness nondimensional_force

/-- `src/physics/single_chain/efjc/thermodynamics/isotensional/asymptotic/reduced/legendre/ex.rs` lines 2-5. -/
def physics_single_chain_efjc_thermodynamics_isotensional_asymptotic_reduced_legendre_helmholtz_free_energy (number_of_links : Nat) (link_length : α) (hinge_mass : α) (link_stiffness : α) (force : α) (temperature : α) : α :=
  Polymers.efjc.thermodynamics.isotensional.asymptotic.reduced.legendre.helmholtz_free_energy number_of_links link_length hinge_mass link_stiffness force temperature

/-- `src/physics/single_chain/efjc/thermodynamics/isotensional/asymptotic/reduced/legendre/ex.rs` lines 7-10. -/
def physics_single_chain_efjc_thermodynamics_isotensional_asymptotic_reduced_legendre_helmholtz_free_energy_per_link (link_length : α) (hinge_mass : α) (link_stiffness : α) (force : α) (temperature : α) : α :=
  Polymers.efjc.thermodynamics.isotensional.asymptotic.reduced.legendre.helmholtz_free_energy_per_link link_length hinge_mass link_stiffness force temperature

/-- `src/physics/single_chain/efjc/thermodynamics/isotensional/asymptotic/reduced/legendre/ex.rs` lines 12-15. -/
def physics_single_chain_efjc_thermodynamics_isotensional_asymptotic_reduced_legendre_relative_helmholtz_free_energy (number_of_links : Nat) (link_length : α) (link_stiffness : α) (force : α) (temperature : α) : α :=
  Polymers.efjc.thermodynamics.isotensional.asymptotic.reduced.legendre.relative_helmholtz_free_energy number_of_links link_length link_stiffness force temperature

/-- `src/physics/single_chain/efjc/thermodynamics/isotensional/asymptotic/reduced/legendre/ex.rs` lines 17-20. -/
def physics_single_chain_efjc_thermodynamics_isotensional_asymptotic_reduced_legendre_relative_helmholtz_free_energy_per_link (link_length : α) (link_stiffness : α) (force : α) (temperature : α) : α :=
  Polymers.efjc.thermodynamics.isotensional.asymptotic.reduced.legendre.relative_helmholtz_free_energy_per_link link_length link_stiffness force temperature

/-- `src/physics/single_chain/efjc/thermodynamics/isotensional/asymptotic/reduced/legendre/ex.rs` lines 22-25. -/
def physics_single_chain_efjc_thermodynamics_isotensional_asymptotic_reduced_legendre_nondimensional_helmholtz_free_energy (number_of_links : Nat) (link_length : α) (hinge_mass : α) (nondimensional_link_stiffness : α) (nondimensional_force : α) (temperature : α) : α :=
  Polymers.efjc.thermodynamics.isotensional.asymptotic.reduced.legendre.nondimensional_helmholtz_free_energy number_of_links link_length hinge_mass nondimensional_link_stiffness nondimensional_force temperature

/-- `src/physics/single_chain/efjc/thermodynamics/isotensional/asymptotic/reduced/legendre/ex.rs` lines 27-30. -/
def physics_single_chain_efjc_thermodynamics_isotensional_asymptotic_reduced_legendre_nondimensional_helmholtz_free_energy_per_link (link_length : α) (hinge_mass : α) (nondimensional_link_stiffness : α) (nondimensional_force : α) (temperature : α) : α :=
  Polymers.efjc.thermodynamics.isotensional.asymptotic.reduced.legendre.nondimensional_helmholtz_free_energy_per_link link_length hinge_mass nondimensional_link_stiffness nondimensional_force temperature

/-- `src/physics/single_chain/efjc/thermodynamics/isotensional/asymptotic/reduced/legendre/ex.rs` lines 32-35. -/
def physics_single_chain_efjc_thermodynamics_isotensional_asymptotic_reduced_legendre_nondimensional_relative_helmholtz_free_energy (number_of_links : Nat) (nondimensional_link_stiffness : α) (nondimensional_force : α) : α :=
  Polymers.efjc.thermodynamics.isotensional.asymptotic.reduced.legendre.nondimensional_relative_helmholtz_free_energy number_of_links nondimensional_link_stiffness nondimensional_force

/-- `src/physics/single_chain/efjc/thermodynamics/isotensional/asymptotic/reduced/legendre/ex.rs` lines 37-40. -/
def physics_single_chain_efjc_thermodynamics_isotensional_asymptotic_reduced_legendre_nondimensional_relative_helmholtz_free_energy_per_link (nondimensional_link_stiffness : α) (nondimensional_force : α) : α :=
  Polymers.efjc.thermodynamics.isotensional.asymptotic.reduced.legendre.nondimensional_relative_helmholtz_free_energy_per_link nondimensional_link_stiffness nondimensional_force

/-- `src/physics/single_chain/efjc/thermodynamics/isometric/asymptotic/legendre/ex.rs` lines 2-5. -/
def physics_single_chain_efjc_thermodynamics_isometric_asymptotic_legendre_force (number_of_links : Nat) (link_length : α) (link_stiffness : α) (end_to_end_length : α) (temperature : α) : α :=
  Polymers.efjc.thermodynamics.isometric.asymptotic.legendre.force number_of_links link_length link_stiffness end_to_end_length temperature

/-- `src/physics/single_chain/efjc/thermodynamics/isometric/asymptotic/legendre/ex.rs` lines 7-10. -/
def physics_single_chain_efjc_thermodynamics_isometric_asymptotic_legendre_nondimensional_force (nondimensional_link_stiffness : α) (nondimensional_end_to_end_length_per_link : α) : α :=
  Polymers.efjc.thermodynamics.isometric.asymptotic.legendre.nondimensional_force nondimensional_link_stiffness nondimensional_end_to_end_length_per_link

/-- `src/physics/single_chain/efjc/thermodynamics/isometric/asymptotic/legendre/ex.rs` lines 12-15. -/
def physics_single_chain_efjc_thermodynamics_isometric_asymptotic_legendre_helmholtz_free_energy (number_of_links : Nat) (link_length : α) (hinge_mass : α) (link_stiffness : α) (end_to_end_length : α) (temperature : α) : α :=
  Polymers.efjc.thermodynamics.isometric.asymptotic.legendre.helmholtz_free_energy number_of_links link_length hinge_mass link_stiffness end_to_end_length temperature

/-- `src/physics/single_chain/efjc/thermodynamics/isometric/asymptotic/legendre/ex.rs` lines 17-20. -/
def physics_single_chain_efjc_thermodynamics_isometric_asymptotic_legendre_helmholtz_free_energy_per_link (number_of_links : Nat) (link_length : α) (hinge_mass : α) (link_stiffness : α) (end_to_end_length : α) (temperature : α) : α :=
  Polymers.efjc.thermodynamics.isometric.asymptotic.legendre.helmholtz_free_energy_per_link number_of_links link_length hinge_mass link_stiffness end_to_end_length temperature

/-- `src/physics/single_chain/efjc/thermodynamics/isometric/asymptotic/legendre/ex.rs` lines 22-25. -/
def physics_single_chain_efjc_thermodynamics_isometric_asymptotic_legendre_relative_helmholtz_free_energy (number_of_links : Nat) (link_length : α) (link_stiffness : α) (end_to_end_length : α) (temperature : α) : α :=
  Polymers.efjc.thermodynamics.isometric.asymptotic.legendre.relative_helmholtz_free_energy number_of_links link_length link_stiffness end_to_end_length temperature

/-- `src/physics/single_chain/efjc/thermodynamics/isometric/asymptotic/legendre/ex.rs` lines 27-30. -/
def physics_single_chain_efjc_thermodynamics_isometric_asymptotic_legendre_relative_helmholtz_free_energy_per_link (number_of_links : Nat) (link_length : α) (link_stiffness : α) (end_to_end_length : α) (temperature : α) : α :=
  Polymers.efjc.thermodynamics.isometric.asymptotic.legendre.relative_helmholtz_free_energy_per_link number_of_links link_length link_stiffness end_to_end_length temperature

/-- `src/physics/single_chain/efjc/thermodynamics/isometric/asymptotic/legendre/ex.rs` lines 32-35. -/
def physics_single_chain_efjc_thermodynamics_isometric_asymptotic_legendre_nondimensional_helmholtz_free_energy (number_of_links : Nat) (link_length : α) (hinge_mass : α) (nondimensional_link_stiffness : α) (nondimensional_end_to_end_length_per_link : α) (temperature : α) : α :=
  Polymers.efjc.thermodynamics.isometric.asymptotic.legendre.nondimensional_helmholtz_free_energy number_of_links link_length hinge_mass nondimensional_link_stiffness nondimensional_end_to_end_length_per_link temperature

/-- `src/physics/single_chain/efjc/thermodynamics/isometric/asymptotic/legendre/ex.rs` lines 37-40. -/
def physics_single_chain_efjc_thermodynamics_isometric_asymptotic_legendre_nondimensional_helmholtz_free_energy_per_link (number_of_links : Nat) (link_length : α) (hinge_mass : α) (nondimensional_link_stiffness : α) (nondimensional_end_to_end_length_per_link : α) (temperature : α) : α :=
  Polymers.efjc.thermodynamics.isometric.asymptotic.legendre.nondimensional_helmholtz_free_energy_per_link number_of_links link_length hinge_mass nondimensional_link_stiffness nondimensional_end_to_end_length_per_link temperature

/-- `src/physics/single_chain/efjc/thermodynamics/isometric/asymptotic/legendre/ex.rs` lines 42-45. -/
def physics_single_chain_efjc_thermodynamics_isometric_asymptotic_legendre_nondimensional_relative_helmholtz_free_energy (number_of_links : Nat) (nondimensional_link_stiffness : α) (nondimensional_end_to_end_length_per_link : α) : α :=
  Polymers.efjc.thermodynamics.isometric.asymptotic.legendre.nondimensional_relative_helmholtz_free_energy number_of_links nondimensional_link_stiffness nondimensional_end_to_end_length_per_link

/-- `src/physics/single_chain/efjc/thermodynamics/isometric/asymptotic/legendre/ex.rs` lines 47-50. -/
def physics_single_chain_efjc_thermodynamics_isometric_asymptotic_legendre_nondimensional_relative_helmholtz_free_energy_per_link (nondimensional_link_stiffness : α) (nondimensional_end_to_end_length_per_link : α) : α :=
  Polymers.efjc.thermodynamics.isometric.asymptotic.legendre.nondimensional_relative_helmholtz_free_energy_per_link nondimensional_link_stiffness nondimensional_end_to_end_length_per_link

/-- `src/physics/single_chain/efjc/thermodynamics/isotensional/asymptotic/alternative/ex.rs` lines 2-5. -/
def physics_single_chain_efjc_thermodynamics_isotensional_asymptotic_alternative_end_to_end_length (number_of_links : Nat) (link_length : α) (link_stiffness : α) (force : α) (temperature : α) : α :=
  Polymers.efjc.thermodynamics.isotensional.asymptotic.alternative.end_to_end_length number_of_links link_length link_stiffness force temperature

/-- `src/physics/single_chain/efjc/thermodynamics/isotensional/asymptotic/alternative/ex.rs` lines 7-10. -/
def physics_single_chain_efjc_thermodynamics_isotensional_asymptotic_alternative_end_to_end_length_per_link (link_length : α) (link_stiffness : α) (force : α) (temperature : α) : α :=
  Polymers.efjc.thermodynamics.isotensional.asymptotic.alternative.end_to_end_length_per_link link_length link_stiffness force temperature

/-- `src/physics/single_chain/efjc/thermodynamics/isotensional/asymptotic/alternative/ex.rs` lines 12-15. -/
def physics_single_chain_efjc_thermodynamics_isotensional_asymptotic_alternative_nondimensional_end_to_end_length (number_of_links : Nat) (nondimensional_link_stiffness : α) (nondimensional_force : α) : α :=
  Polymers.efjc.thermodynamics.isotensional.asymptotic.alternative.nondimensional_end_to_end_length number_of_links nondimensional_link_stiffness nondimensional_force

/-- `src/physics/single_chain/efjc/thermodynamics/isotensional/asymptotic/alternative/ex.rs` lines 17-20. -/
def physics_single_chain_efjc_thermodynamics_isotensional_asymptotic_alternative_nondimensional_end_to_end_length_per_link (nondimensional_link_stiffness : α) (nondimensional_force : α) : α :=
  Polymers.efjc.thermodynamics.isotensional.asymptotic.alternative.nondimensional_end_to_end_length_per_link nondimensional_link_stiffness nondimensional_force

/-- `src/physics/single_chain/efjc/thermodynamics/isotensional/asymptotic/alternative/ex.rs` lines 22-25. -/
def physics_single_chain_efjc_thermodynamics_isotensional_asymptotic_alternative_gibbs_free_energy (number_of_links : Nat) (link_length : α) (hinge_mass : α) (link_stiffness : α) (force : α) (temperature : α) : α :=
  Polymers.efjc.thermodynamics.isotensional.asymptotic.alternative.gibbs_free_energy number_of_links link_length hinge_mass link_stiffness force temperature

/-- `src/physics/single_chain/efjc/thermodynamics/isotensional/asymptotic/alternative/ex.rs` lines 27-30. -/
def physics_single_chain_efjc_thermodynamics_isotensional_asymptotic_alternative_gibbs_free_energy_per_link (link_length : α) (hinge_mass : α) (link_stiffness : α) (force : α) (temperature : α) : α :=
  Polymers.efjc.thermodynamics.isotensional.asymptotic.alternative.gibbs_free_energy_per_link link_length hinge_mass link_stiffness force temperature

/-- `src/physics/single_chain/efjc/thermodynamics/isotensional/asymptotic/alternative/ex.rs` lines 32-35. -/
def physics_single_chain_efjc_thermodynamics_isotensional_asymptotic_alternative_relative_gibbs_free_energy (number_of_links : Nat) (link_length : α) (link_stiffness : α) (force : α) (temperature : α) : α :=
  Polymers.efjc.thermodynamics.isotensional.asymptotic.alternative.relative_gibbs_free_energy number_of_links link_length link_stiffness force temperature

/-- `src/physics/single_chain/efjc/thermodynamics/isotensional/asymptotic/alternative/ex.rs` lines 37-40. -/
def physics_single_chain_efjc_thermodynamics_isotensional_asymptotic_alternative_relative_gibbs_free_energy_per_link (link_length : α) (link_stiffness : α) (force : α) (temperature : α) : α :=
  Polymers.efjc.thermodynamics.isotensional.asymptotic.alternative.relative_gibbs_free_energy_per_link link_length link_stiffness force temperature

/-- `src/physics/single_chain/efjc/thermodynamics/isotensional/asymptotic/alternative/ex.rs` lines 42-45. -/
def physics_single_chain_efjc_thermodynamics_isotensional_asymptotic_alternative_nondimensional_gibbs_free_energy (number_of_links : Nat) (link_length : α) (hinge_mass : α) (nondimensional_link_stiffness : α) (nondimensional_force : α) (temperature : α) : α :=
  Polymers.efjc.thermodynamics.isotensional.asymptotic.alternative.nondimensional_gibbs_free_energy number_of_links link_length hinge_mass nondimensional_link_stiffness nondimensional_force temperature

/-- `src/physics/single_chain/efjc/thermodynamics/isotensional/asymptotic/alternative/ex.rs` lines 47-50. -/
def physics_single_chain_efjc_thermodynamics_isotensional_asymptotic_alternative_nondimensional_gibbs_free_energy_per_link (link_length : α) (hinge_mass : α) (nondimensional_link_stiffness : α) (nondimensional_force : α) (temperature : α) : α :=
  Polymers.efjc.thermodynamics.isotensional.asymptotic.alternative.nondimensional_gibbs_free_energy_per_link link_length hinge_mass nondimensional_link_stiffness nondimensional_force temperature

/-- `src/physics/single_chain/efjc/thermodynamics/isotensional/asymptotic/alternative/ex.rs` lines 52-55. -/
def physics_single_chain_efjc_thermodynamics_isotensional_asymptotic_alternative_nondimensional_relative_gibbs_free_energy (number_of_links : Nat) (nondimensional_link_stiffness : α) (nondimensional_force : α) : α :=
  Polymers.efjc.thermodynamics.isotensional.asymptotic.alternative.nondimensional_relative_gibbs_free_energy number_of_links nondimensional_link_stiffness nondimensional_force

/-- `src/physics/single_chain/efjc/thermodynamics/isotensional/asymptotic/alternative/ex.rs` lines 57-60. -/
def physics_single_chain_efjc_thermodynamics_isotensional_asymptotic_alternative_nondimensional_relative_gibbs_free_energy_per_link (nondimensional_link_stiffness : α) (nondimensional_force : α) : α :=
  Polymers.efjc.thermodynamics.isotensional.asymptotic.alternative.nondimensional_relative_gibbs_free_energy_per_link nondimensional_link_stiffness nondimensional_force

/-- `src/physics/single_chain/efjc/thermodynamics/isotensional/asymptotic/legendre/ex.rs` lines 2-5. -/
def physics_single_chain_efjc_thermodynamics_isotensional_asymptotic_legendre_helmholtz_free_energy (number_of_links : Nat) (link_length : α) (hinge_mass : α) (link_stiffness : α) (force : α) (temperature : α) : α :=
  Polymers.efjc.thermodynamics.isotensional.asymptotic.legendre.helmholtz_free_energy number_of_links link_length hinge_mass link_stiffness force temperature

/-- `src/physics/single_chain/efjc/thermodynamics/isotensional/asymptotic/legendre/ex.rs` lines 7-10. -/
def physics_single_chain_efjc_thermodynamics_isotensional_asymptotic_legendre_helmholtz_free_energy_per_link (link_length : α) (hinge_mass : α) (link_stiffness : α) (force : α) (temperature : α) : α :=
  Polymers.efjc.thermodynamics.isotensional.asymptotic.legendre.helmholtz_free_energy_per_link link_length hinge_mass link_stiffness force temperature

/-- `src/physics/single_chain/efjc/thermodynamics/isotensional/asymptotic/legendre/ex.rs` lines 12-15. -/
def physics_single_chain_efjc_thermodynamics_isotensional_asymptotic_legendre_relative_helmholtz_free_energy (number_of_links : Nat) (link_length : α) (link_stiffness : α) (force : α) (temperature : α) : α :=
  Polymers.efjc.thermodynamics.isotensional.asymptotic.legendre.relative_helmholtz_free_energy number_of_links link_length link_stiffness force temperature

/-- `src/physics/single_chain/efjc/thermodynamics/isotensional/asymptotic/legendre/ex.rs` lines 17-20. -/
def physics_single_chain_efjc_thermodynamics_isotensional_asymptotic_legendre_relative_helmholtz_free_energy_per_link (link_length : α) (link_stiffness : α) (force : α) (temperature : α) : α :=
  Polymers.efjc.thermodynamics.isotensional.asymptotic.legendre.relative_helmholtz_free_energy_per_link link_length link_stiffness force temperature

/-- `src/physics/single_chain/efjc/thermodynamics/isotensional/asymptotic/legendre/ex.rs` lines 22-25. -/
def physics_single_chain_efjc_thermodynamics_isotensional_asymptotic_legendre_nondimensional_helmholtz_free_energy (number_of_links : Nat) (link_length : α) (hinge_mass : α) (nondimensional_link_stiffness : α) (nondimensional_force : α) (temperature : α) : α :=
  Polymers.efjc.thermodynamics.isotensional.asymptotic.legendre.nondimensional_helmholtz_free_energy number_of_links link_length hinge_mass nondimensional_link_stiffness nondimensional_force temperature

/-- `src/physics/single_chain/efjc/thermodynamics/isotensional/asymptotic/legendre/ex.rs` lines 27-30. -/
def physics_single_chain_efjc_thermodynamics_isotensional_asymptotic_legendre_nondimensional_helmholtz_free_energy_per_link (link_length : α) (hinge_mass : α) (nondimensional_link_stiffness : α) (nondimensional_force : α) (temperature : α) : α :=
  Polymers.efjc.thermodynamics.isotensional.asymptotic.legendre.nondimensional_helmholtz_free_energy_per_link link_length hinge_mass nondimensional_link_stiffness nondimensional_force temperature

/-- `src/physics/single_chain/efjc/thermodynamics/isotensional/asymptotic/legendre/ex.rs` lines 32-35. -/
def physics_single_chain_efjc_thermodynamics_isotensional_asymptotic_legendre_nondimensional_relative_helmholtz_free_energy (number_of_links : Nat) (nondimensional_link_stiffness : α) (nondimensional_force : α) : α :=
  Polymers.efjc.thermodynamics.isotensional.asymptotic.legendre.nondimensional_relative_helmholtz_free_energy number_of_links nondimensional_link_stiffness nondimensional_force

/-- `src/physics/single_chain/efjc/thermodynamics/isotensional/asymptotic/legendre/ex.rs` lines 37-40. -/
def physics_single_chain_efjc_thermodynamics_isotensional_asymptotic_legendre_nondimensional_relative_helmholtz_free_energy_per_link (nondimensional_link_stiffness : α) (nondimensional_force : α) : α :=
  Polymers.efjc.thermodynamics.isotensional.asymptotic.legendre.nondimensional_relative_helmholtz_free_energy_per_link nondimensional_link_stiffness nondimensional_force

/-- `src/physics/single_chain/efjc/thermodynamics/isotensional/asymptotic/reduced/ex.rs` lines 2-5. -/
def physics_single_chain_efjc_thermodynamics_isotensional_asymptotic_reduced_end_to_end_length (number_of_links : Nat) (link_length : α) (link_stiffness : α) (force : α) (temperature : α) : α :=
  Polymers.efjc.thermodynamics.isotensional.asymptotic.reduced.end_to_end_length number_of_links link_length link_stiffness force temperature

/-- `src/physics/single_chain/efjc/thermodynamics/isotensional/asymptotic/reduced/ex.rs` lines 7-10. -/
def physics_single_chain_efjc_thermodynamics_isotensional_asymptotic_reduced_end_to_end_length_per_link (link_length : α) (link_stiffness : α) (force : α) (temperature : α) : α :=
  Polymers.efjc.thermodynamics.isotensional.asymptotic.reduced.end_to_end_length_per_link link_length link_stiffness force temperature

/-- `src/physics/single_chain/efjc/thermodynamics/isotensional/asymptotic/reduced/ex.rs` lines 12-15. -/
def physics_single_chain_efjc_thermodynamics_isotensional_asymptotic_reduced_nondimensional_end_to_end_length (number_of_links : Nat) (nondimensional_link_stiffness : α) (nondimensional_force : α) : α :=
  Polymers.efjc.thermodynamics.isotensional.asymptotic.reduced.nondimensional_end_to_end_length number_of_links nondimensional_link_stiffness nondimensional_force

/-- `src/physics/single_chain/efjc/thermodynamics/isotensional/asymptotic/reduced/ex.rs` lines 17-20. -/
def physics_single_chain_efjc_thermodynamics_isotensional_asymptotic_reduced_nondimensional_end_to_end_length_per_link (nondimensional_link_stiffness : α) (nondimensional_force : α) : α :=
  Polymers.efjc.thermodynamics.isotensional.asymptotic.reduced.nondimensional_end_to_end_length_per_link nondimensional_link_stiffness nondimensional_force

/-- `src/physics/single_chain/efjc/thermodynamics/isotensional/asymptotic/reduced/ex.rs` lines 22-25. -/
def physics_single_chain_efjc_thermodynamics_isotensional_asymptotic_reduced_gibbs_free_energy (number_of_links : Nat) (link_length : α) (hinge_mass : α) (link_stiffness : α) (force : α) (temperature : α) : α :=
  Polymers.efjc.thermodynamics.isotensional.asymptotic.reduced.gibbs_free_energy number_of_links link_length hinge_mass link_stiffness force temperature

/-- `src/physics/single_chain/efjc/thermodynamics/isotensional/asymptotic/reduced/ex.rs` lines 27-30. -/
def physics_single_chain_efjc_thermodynamics_isotensional_asymptotic_reduced_gibbs_free_energy_per_link (link_length : α) (hinge_mass : α) (link_stiffness : α) (force : α) (temperature : α) : α :=
  Polymers.efjc.thermodynamics.isotensional.asymptotic.reduced.gibbs_free_energy_per_link link_length hinge_mass link_stiffness force temperature

/-- `src/physics/single_chain/efjc/thermodynamics/isotensional/asymptotic/reduced/ex.rs` lines 32-35. -/
def physics_single_chain_efjc_thermodynamics_isotensional_asymptotic_reduced_relative_gibbs_free_energy (number_of_links : Nat) (link_length : α) (link_stiffness : α) (force : α) (temperature : α) : α :=
  Polymers.efjc.thermodynamics.isotensional.asymptotic.reduced.relative_gibbs_free_energy number_of_links link_length link_stiffness force temperature

/-- `src/physics/single_chain/efjc/thermodynamics/isotensional/asymptotic/reduced/ex.rs` lines 37-40. -/
def physics_single_chain_efjc_thermodynamics_isotensional_asymptotic_reduced_relative_gibbs_free_energy_per_link (link_length : α) (link_stiffness : α) (force : α) (temperature : α) : α :=
  Polymers.efjc.thermodynamics.isotensional.asymptotic.reduced.relative_gibbs_free_energy_per_link link_length link_stiffness force temperature

/-- `src/physics/single_chain/efjc/thermodynamics/isotensional/asymptotic/reduced/ex.rs` lines 42-45. -/
def physics_single_chain_efjc_thermodynamics_isotensional_asymptotic_reduced_nondimensional_gibbs_free_energy (number_of_links : Nat) (link_length : α) (hinge_mass : α) (nondimensional_link_stiffness : α) (nondimensional_force : α) (temperature : α) : α :=
  Polymers.efjc.thermodynamics.isotensional.asymptotic.reduced.nondimensional_gibbs_free_energy number_of_links link_length hinge_mass nondimensional_link_stiffness nondimensional_force temperature

/-- `src/physics/single_chain/efjc/thermodynamics/isotensional/asymptotic/reduced/ex.rs` lines 47-50. -/
def physics_single_chain_efjc_thermodynamics_isotensional_asymptotic_reduced_nondimensional_gibbs_free_energy_per_link (link_length : α) (hinge_mass : α) (nondimensional_link_stiffness : α) (nondimensional_force : α) (temperature : α) : α :=
  Polymers.efjc.thermodynamics.isotensional.asymptotic.reduced.nondimensional_gibbs_free_energy_per_link link_length hinge_mass nondimensional_link_stiffness nondimensional_force temperature

/-- `src/physics/single_chain/efjc/thermodynamics/isotensional/asymptotic/reduced/ex.rs` lines 52-55. -/
def physics_single_chain_efjc_thermodynamics_isotensional_asymptotic_reduced_nondimensional_relative_gibbs_free_energy (number_of_links : Nat) (nondimensional_link_stiffness : α) (nondimensional_force : α) : α :=
  Polymers.efjc.thermodynamics.isotensional.asymptotic.reduced.nondimensional_relative_gibbs_free_energy number_of_links nondimensional_link_stiffness nondimensional_force

/-- `src/physics/single_chain/efjc/thermodynamics/isotensional/asymptotic/reduced/ex.rs` lines 57-60. -/
def physics_single_chain_efjc_thermodynamics_isotensional_asymptotic_reduced_nondimensional_relative_gibbs_free_energy_per_link (nondimensional_link_stiffness : α) (nondimensional_force : α) : α :=
  Polymers.efjc.thermodynamics.isotensional.asymptotic.reduced.nondimensional_relative_gibbs_free_energy_per_link nondimensional_link_stiffness nondimensional_force

/-- `src/physics/single_chain/efjc/thermodynamics/isotensional/asymptotic/ex.rs` lines 2-5. -/
def physics_single_chain_efjc_thermodynamics_isotensional_asymptotic_end_to_end_length (number_of_links : Nat) (link_length : α) (link_stiffness : α) (force : α) (temperature : α) : α :=
  Polymers.efjc.thermodynamics.isotensional.asymptotic.end_to_end_length number_of_links link_length link_stiffness force temperature

/-- `src/physics/single_chain/efjc/thermodynamics/isotensional/asymptotic/ex.rs` lines 7-10. -/
def physics_single_chain_efjc_thermodynamics_isotensional_asymptotic_end_to_end_length_per_link (link_length : α) (link_stiffness : α) (force : α) (temperature : α) : α :=
  Polymers.efjc.thermodynamics.isotensional.asymptotic.end_to_end_length_per_link link_length link_stiffness force temperature

/-- `src/physics/single_chain/efjc/thermodynamics/isotensional/asymptotic/ex.rs` lines 12-15. -/
def physics_single_chain_efjc_thermodynamics_isotensional_asymptotic_nondimensional_end_to_end_length (number_of_links : Nat) (nondimensional_link_stiffness : α) (nondimensional_force : α) : α :=
  Polymers.efjc.thermodynamics.isotensional.asymptotic.nondimensional_end_to_end_length number_of_links nondimensional_link_stiffness nondimensional_force

/-- `src/physics/single_chain/efjc/thermodynamics/isotensional/asymptotic/ex.rs` lines 17-20. -/
def physics_single_chain_efjc_thermodynamics_isotensional_asymptotic_nondimensional_end_to_end_length_per_link (nondimensional_link_stiffness : α) (nondimensional_force : α) : α :=
  Polymers.efjc.thermodynamics.isotensional.asymptotic.nondimensional_end_to_end_length_per_link nondimensional_link_stiffness nondimensional_force

/-- `src/physics/single_chain/efjc/thermodynamics/isotensional/asymptotic/ex.rs` lines 22-25. -/
def physics_single_chain_efjc_thermodynamics_isotensional_asymptotic_gibbs_free_energy (number_of_links : Nat) (link_length : α) (hinge_mass : α) (link_stiffness : α) (force : α) (temperature : α) : α :=
  Polymers.efjc.thermodynamics.isotensional.asymptotic.gibbs_free_energy number_of_links link_length hinge_mass link_stiffness force temperature

/-- `src/physics/single_chain/efjc/thermodynamics/isotensional/asymptotic/ex.rs` lines 27-30. -/
def physics_single_chain_efjc_thermodynamics_isotensional_asymptotic_gibbs_free_energy_per_link (link_length : α) (hinge_mass : α) (link_stiffness : α) (force : α) (temperature : α) : α :=
  Polymers.efjc.thermodynamics.isotensional.asymptotic.gibbs_free_energy_per_link link_length hinge_mass link_stiffness force temperature

/-- `src/physics/single_chain/efjc/thermodynamics/isotensional/asymptotic/ex.rs` lines 32-35. -/
def physics_single_chain_efjc_thermodynamics_isotensional_asymptotic_relative_gibbs_free_energy (number_of_links : Nat) (link_length : α) (link_stiffness : α) (force : α) (temperature : α) : α :=
  Polymers.efjc.thermodynamics.isotensional.asymptotic.relative_gibbs_free_energy number_of_links link_length link_stiffness force temperature

/-- `src/physics/single_chain/efjc/thermodynamics/isotensional/asymptotic/ex.rs` lines 37-40. -/
def physics_single_chain_efjc_thermodynamics_isotensional_asymptotic_relative_gibbs_free_energy_per_link (link_length : α) (link_stiffness : α) (force : α) (temperature : α) : α :=
  Polymers.efjc.thermodynamics.isotensional.asymptotic.relative_gibbs_free_energy_per_link link_length link_stiffness force temperature

/-- `src/physics/single_chain/efjc/thermodynamics/isotensional/asymptotic/ex.rs` lines 42-45. -/
def physics_single_chain_efjc_thermodynamics_isotensional_asymptotic_nondimensional_gibbs_free_energy (number_of_links : Nat) (link_length : α) (hinge_mass : α) (nondimensional_link_stiffness : α) (nondimensional_force : α) (temperature : α) : α :=
  Polymers.efjc.thermodynamics.isotensional.asymptotic.nondimensional_gibbs_free_energy number_of_links link_length hinge_mass nondimensional_link_stiffness nondimensional_force temperature

/-- `src/physics/single_chain/efjc/thermodynamics/isotensional/asymptotic/ex.rs` lines 47-50. -/
def physics_single_chain_efjc_thermodynamics_isotensional_asymptotic_nondimensional_gibbs_free_energy_per_link (link_length : α) (hinge_mass : α) (nondimensional_link_stiffness : α) (nondimensional_force : α) (temperature : α) : α :=
  Polymers.efjc.thermodynamics.isotensional.asymptotic.nondimensional_gibbs_free_energy_per_link link_length hinge_mass nondimensional_link_stiffness nondimensional_force temperature

/-- `src/physics/single_chain/efjc/thermodynamics/isotensional/asymptotic/ex.rs` lines 52-55. -/
def physics_single_chain_efjc_thermodynamics_isotensional_asymptotic_nondimensional_relative_gibbs_free_energy (number_of_links : Nat) (nondimensional_link_stiffness : α) (nondimensional_force : α) : α :=
  Polymers.efjc.thermodynamics.isotensional.asymptotic.nondimensional_relative_gibbs_free_energy number_of_links nondimensional_link_stiffness nondimensional_force

/-- `src/physics/single_chain/efjc/thermodynamics/isotensional/asymptotic/ex.rs` lines 57-60. -/
def physics_single_chain_efjc_thermodynamics_isotensional_asymptotic_nondimensional_relative_gibbs_free_energy_per_link (nondimensional_link_stiffness : α) (nondimensional_force : α) : α :=
  Polymers.efjc.thermodynamics.isotensional.asymptotic.nondimensional_relative_gibbs_free_energy_per_link nondimensional_link_stiffness nondimensional_force

/-- `src/physics/single_chain/efjc/thermodynamics/isotensional/legendre/ex.rs` lines 2-5. -/
def physics_single_chain_efjc_thermodynamics_isotensional_legendre_helmholtz_free_energy (number_of_links : Nat) (link_length : α) (hinge_mass : α) (link_stiffness : α) (force : α) (temperature : α) : α :=
  Polymers.efjc.thermodynamics.isotensional.legendre.helmholtz_free_energy number_of_links link_length hinge_mass link_stiffness force temperature

/-- `src/physics/single_chain/efjc/thermodynamics/isotensional/legendre/ex.rs` lines 7-10. -/
def physics_single_chain_efjc_thermodynamics_isotensional_legendre_helmholtz_free_energy_per_link (link_length : α) (hinge_mass : α) (link_stiffness : α) (force : α) (temperature : α) : α :=
  Polymers.efjc.thermodynamics.isotensional.legendre.helmholtz_free_energy_per_link link_length hinge_mass link_stiffness force temperature

/-- `src/physics/single_chain/efjc/thermodynamics/isotensional/legendre/ex.rs` lines 12-15. -/
def physics_single_chain_efjc_thermodynamics_isotensional_legendre_relative_helmholtz_free_energy (number_of_links : Nat) (link_length : α) (link_stiffness : α) (force : α) (temperature : α) : α :=
  Polymers.efjc.thermodynamics.isotensional.legendre.relative_helmholtz_free_energy number_of_links link_length link_stiffness force temperature

/-- `src/physics/single_chain/efjc/thermodynamics/isotensional/legendre/ex.rs` lines 17-20. -/
def physics_single_chain_efjc_thermodynamics_isotensional_legendre_relative_helmholtz_free_energy_per_link (link_length : α) (link_stiffness : α) (force : α) (temperature : α) : α :=
  Polymers.efjc.thermodynamics.isotensional.legendre.relative_helmholtz_free_energy_per_link link_length link_stiffness force temperature

/-- `src/physics/single_chain/efjc/thermodynamics/isotensional/legendre/ex.rs` lines 22-25. -/
def physics_single_chain_efjc_thermodynamics_isotensional_legendre_nondimensional_helmholtz_free_energy (number_of_links : Nat) (link_length : α) (hinge_mass : α) (nondimensional_link_stiffness : α) (nondimensional_force : α) (temperature : α) : α :=
  Polymers.efjc.thermodynamics.isotensional.legendre.nondimensional_helmholtz_free_energy number_of_links link_length hinge_mass nondimensional_link_stiffness nondimensional_force temperature

/-- `src/physics/single_chain/efjc/thermodynamics/isotensional/legendre/ex.rs` lines 27-30. -/
def physics_single_chain_efjc_thermodynamics_isotensional_legendre_nondimensional_helmholtz_free_energy_per_link (link_length : α) (hinge_mass : α) (nondimensional_link_stiffness : α) (nondimensional_force : α) (temperature : α) : α :=
  Polymers.efjc.thermodynamics.isotensional.legendre.nondimensional_helmholtz_free_energy_per_link link_length hinge_mass nondimensional_link_stiffness nondimensional_force temperature

/-- `src/physics/single_chain/efjc/thermodynamics/isotensional/legendre/ex.rs` lines 32-35. -/
def physics_single_chain_efjc_thermodynamics_isotensional_legendre_nondimensional_relative_helmholtz_free_energy (number_of_links : Nat) (nondimensional_link_stiffness : α) (nondimensional_force : α) : α :=
  Polymers.efjc.thermodynamics.isotensional.legendre.nondimensional_relative_helmholtz_free_energy number_of_links nondimensional_link_stiffness nondimensional_force

/-- `src/physics/single_chain/efjc/thermodynamics/isotensional/legendre/ex.rs` lines 37-40. -/
def physics_single_chain_efjc_thermodynamics_isotensional_legendre_nondimensional_relative_helmholtz_free_energy_per_link (nondimensional_link_stiffness : α) (nondimensional_force : α) : α :=
  Polymers.efjc.thermodynamics.isotensional.legendre.nondimensional_relative_helmholtz_free_energy_per_link nondimensional_link_stiffness nondimensional_force

/-- `src/physics/single_chain/efjc/thermodynamics/isotensional/ex.rs` lines 2-5. -/
def physics_single_chain_efjc_thermodynamics_isotensional_end_to_end_length (number_of_links : Nat) (link_length : α) (link_stiffness : α) (force : α) (temperature : α) : α :=
  Polymers.efjc.thermodynamics.isotensional.end_to_end_length number_of_links link_length link_stiffness force temperature

/-- `src/physics/single_chain/efjc/thermodynamics/isotensional/ex.rs` lines 7-10. -/
def physics_single_chain_efjc_thermodynamics_isotensional_end_to_end_length_per_link (link_length : α) (link_stiffness : α) (force : α) (temperature : α) : α :=
  Polymers.efjc.thermodynamics.isotensional.end_to_end_length_per_link link_length link_stiffness force temperature

/-- `src/physics/single_chain/efjc/thermodynamics/isotensional/ex.rs` lines 12-15. -/
def physics_single_chain_efjc_thermodynamics_isotensional_nondimensional_end_to_end_length (number_of_links : Nat) (nondimensional_link_stiffness : α) (nondimensional_force : α) : α :=
  Polymers.efjc.thermodynamics.isotensional.nondimensional_end_to_end_length number_of_links nondimensional_link_stiffness nondimensional_force

/-- `src/physics/single_chain/efjc/thermodynamics/isotensional/ex.rs` lines 17-20. -/
def physics_single_chain_efjc_thermodynamics_isotensional_nondimensional_end_to_end_length_per_link (nondimensional_link_stiffness : α) (nondimensional_force : α) : α :=
  Polymers.efjc.thermodynamics.isotensional.nondimensional_end_to_end_length_per_link nondimensional_link_stiffness nondimensional_force

/-- `src/physics/single_chain/efjc/thermodynamics/isotensional/ex.rs` lines 22-25. -/
def physics_single_chain_efjc_thermodynamics_isotensional_gibbs_free_energy (number_of_links : Nat) (link_length : α) (hinge_mass : α) (link_stiffness : α) (force : α) (temperature : α) : α :=
  Polymers.efjc.thermodynamics.isotensional.gibbs_free_energy number_of_links link_length hinge_mass link_stiffness force temperature

/-- `src/physics/single_chain/efjc/thermodynamics/isotensional/ex.rs` lines 27-30. -/
def physics_single_chain_efjc_thermodynamics_isotensional_gibbs_free_energy_per_link (link_length : α) (hinge_mass : α) (link_stiffness : α) (force : α) (temperature : α) : α :=
  Polymers.efjc.thermodynamics.isotensional.gibbs_free_energy_per_link link_length hinge_mass link_stiffness force temperature

/-- `src/physics/single_chain/efjc/thermodynamics/isotensional/ex.rs` lines 32-35. -/
def physics_single_chain_efjc_thermodynamics_isotensional_relative_gibbs_free_energy (number_of_links : Nat) (link_length : α) (link_stiffness : α) (force : α) (temperature : α) : α :=
  Polymers.efjc.thermodynamics.isotensional.relative_gibbs_free_energy number_of_links link_length link_stiffness force temperature

/-- `src/physics/single_chain/efjc/thermodynamics/isotensional/ex.rs` lines 37-40. -/
def physics_single_chain_efjc_thermodynamics_isotensional_relative_gibbs_free_energy_per_link (link_length : α) (link_stiffness : α) (force : α) (temperature : α) : α :=
  Polymers.efjc.thermodynamics.isotensional.relative_gibbs_free_energy_per_link link_length link_stiffness force temperature

/-- `src/physics/single_chain/efjc/thermodynamics/isotensional/ex.rs` lines 42-45. -/
def physics_single_chain_efjc_thermodynamics_isotensional_nondimensional_gibbs_free_energy (number_of_links : Nat) (link_length : α) (hinge_mass : α) (nondimensional_link_stiffness : α) (nondimensional_force : α) (temperature : α) : α :=
  Polymers.efjc.thermodynamics.isotensional.nondimensional_gibbs_free_energy number_of_links link_length hinge_mass nondimensional_link_stiffness nondimensional_force temperature

/-- `src/physics/single_chain/efjc/thermodynamics/isotensional/ex.rs` lines 47-50. -/
def physics_single_chain_efjc_thermodynamics_isotensional_nondimensional_gibbs_free_energy_per_link (link_length : α) (hinge_mass : α) (nondimensional_link_stiffness : α) (nondimensional_force : α) (temperature : α) : α :=
  Polymers.efjc.thermodynamics.isotensional.nondimensional_gibbs_free_energy_per_link link_length hinge_mass nondimensional_link_stiffness nondimensional_force temperature

/-- `src/physics/single_chain/efjc/thermodynamics/isotensional/ex.rs` lines 52-55. -/
def physics_single_chain_efjc_thermodynamics_isotensional_nondimensional_relative_gibbs_free_energy (number_of_links : Nat) (nondimensional_link_stiffness : α) (nondimensional_force : α) : α :=
  Polymers.efjc.thermodynamics.isotensional.nondimensional_relative_gibbs_free_energy number_of_links nondimensional_link_stiffness nondimensional_force

/-- `src/physics/single_chain/efjc/thermodynamics/isotensional/ex.rs` lines 57-60. -/
def physics_single_chain_efjc_thermodynamics_isotensional_nondimensional_relative_gibbs_free_energy_per_link (nondimensional_link_stiffness : α) (nondimensional_force : α) : α :=
  Polymers.efjc.thermodynamics.isotensional.nondimensional_relative_gibbs_free_energy_per_link nondimensional_link_stiffness nondimensional_force

end Polymers.C
