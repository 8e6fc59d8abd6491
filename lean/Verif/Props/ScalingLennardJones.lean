/- Generated by tools/gen_scaling.py ; do not edit by hand. -/
import Verif.Spec.Api
import Verif.Lemmas.Scaling

set_option maxRecDepth 4000
set_option maxHeartbeats 1000000

namespace Polymers.Props

open Polymers.Spec Polymers.Api

/-- C15 for the helmholtz methods of `src/physics/single_chain/ufjc/lennard_jones/thermodynamics/isometric/asymptotic/reduced/legendre/mod.rs`. -/
theorem C15_lennard_jones_isometric_asymptotic_reduced_legendre_helmholtz (N : ℕ) (ℓ : ℝ) (m : ℝ) (k : ℝ) (hN : 0 < N) (hℓ : 0 < ℓ) :
    (lennard_jones_isometric_asymptotic_reduced_legendre_helmholtz N ℓ m k).Scales N (ndLength N ℓ) := by
  scaling_tac hN hℓ [lennard_jones_isometric_asymptotic_reduced_legendre_helmholtz,
    Polymers.ufjc.lennard_jones.LENNARDJONESFJC.init,
    Polymers.ufjc.lennard_jones.thermodynamics.LENNARDJONESFJC.init,
    Polymers.ufjc.lennard_jones.thermodynamics.isometric.LENNARDJONESFJC.init,
    Polymers.ufjc.lennard_jones.thermodynamics.isometric.asymptotic.LENNARDJONESFJC.init,
    Polymers.ufjc.lennard_jones.thermodynamics.isometric.asymptotic.reduced.LENNARDJONESFJC.init,
    Polymers.ufjc.lennard_jones.thermodynamics.isometric.asymptotic.reduced.legendre.LENNARDJONESFJC.init,
    Polymers.ufjc.lennard_jones.thermodynamics.isometric.asymptotic.reduced.legendre.LENNARDJONESFJC.helmholtz_free_energy,
    Polymers.ufjc.lennard_jones.thermodynamics.isometric.asymptotic.reduced.legendre.LENNARDJONESFJC.helmholtz_free_energy_per_link,
    Polymers.ufjc.lennard_jones.thermodynamics.isometric.asymptotic.reduced.legendre.LENNARDJONESFJC.relative_helmholtz_free_energy,
    Polymers.ufjc.lennard_jones.thermodynamics.isometric.asymptotic.reduced.legendre.LENNARDJONESFJC.relative_helmholtz_free_energy_per_link,
    Polymers.ufjc.lennard_jones.thermodynamics.isometric.asymptotic.reduced.legendre.LENNARDJONESFJC.nondimensional_helmholtz_free_energy,
    Polymers.ufjc.lennard_jones.thermodynamics.isometric.asymptotic.reduced.legendre.LENNARDJONESFJC.nondimensional_helmholtz_free_energy_per_link,
    Polymers.ufjc.lennard_jones.thermodynamics.isometric.asymptotic.reduced.legendre.LENNARDJONESFJC.nondimensional_relative_helmholtz_free_energy,
    Polymers.ufjc.lennard_jones.thermodynamics.isometric.asymptotic.reduced.legendre.LENNARDJONESFJC.nondimensional_relative_helmholtz_free_energy_per_link,
    Polymers.ufjc.lennard_jones.thermodynamics.isometric.asymptotic.reduced.legendre.nondimensional_helmholtz_free_energy,
    Polymers.ufjc.lennard_jones.thermodynamics.isometric.asymptotic.reduced.legendre.helmholtz_free_energy,
    Polymers.ufjc.lennard_jones.thermodynamics.isometric.asymptotic.reduced.legendre.helmholtz_free_energy_per_link,
    Polymers.ufjc.lennard_jones.thermodynamics.isometric.asymptotic.reduced.legendre.relative_helmholtz_free_energy,
    Polymers.ufjc.lennard_jones.thermodynamics.isometric.asymptotic.reduced.legendre.relative_helmholtz_free_energy_per_link,
    Polymers.ufjc.lennard_jones.thermodynamics.isometric.asymptotic.reduced.legendre.nondimensional_relative_helmholtz_free_energy,
    Polymers.ufjc.lennard_jones.thermodynamics.isometric.asymptotic.reduced.legendre.nondimensional_relative_helmholtz_free_energy_per_link]
    [Polymers.ufjc.lennard_jones.thermodynamics.isometric.asymptotic.reduced.legendre.nondimensional_helmholtz_free_energy_per_link]

example : (lennard_jones_isometric_asymptotic_reduced_legendre_helmholtz 8 1 1 500).Scales 8 (ndLength 8 1) :=
  C15_lennard_jones_isometric_asymptotic_reduced_legendre_helmholtz 8 1 1 500 (by norm_num) (by norm_num)

/-- C16 for the helmholtz methods of `src/physics/single_chain/ufjc/lennard_jones/thermodynamics/isometric/asymptotic/reduced/legendre/mod.rs`. -/
theorem C16_reference_lennard_jones_isometric_asymptotic_reduced_legendre_helmholtz (N : ℕ) (ℓ : ℝ) (m : ℝ) (k : ℝ) (hN : 0 < N) (hℓ : 0 < ℓ) :
    (lennard_jones_isometric_asymptotic_reduced_legendre_helmholtz N ℓ m k).RelativeTo (ndLength N ℓ) 1e-6 := by
  refine EnergyMethods.RelativeTo.of_nd hN (C15_lennard_jones_isometric_asymptotic_reduced_legendre_helmholtz N ℓ m k hN hℓ) ?_
  relative_tac hN [lennard_jones_isometric_asymptotic_reduced_legendre_helmholtz,
    Polymers.ufjc.lennard_jones.LENNARDJONESFJC.init,
    Polymers.ufjc.lennard_jones.thermodynamics.LENNARDJONESFJC.init,
    Polymers.ufjc.lennard_jones.thermodynamics.isometric.LENNARDJONESFJC.init,
    Polymers.ufjc.lennard_jones.thermodynamics.isometric.asymptotic.LENNARDJONESFJC.init,
    Polymers.ufjc.lennard_jones.thermodynamics.isometric.asymptotic.reduced.LENNARDJONESFJC.init,
    Polymers.ufjc.lennard_jones.thermodynamics.isometric.asymptotic.reduced.legendre.LENNARDJONESFJC.init,
    Polymers.ufjc.lennard_jones.thermodynamics.isometric.asymptotic.reduced.legendre.LENNARDJONESFJC.helmholtz_free_energy,
    Polymers.ufjc.lennard_jones.thermodynamics.isometric.asymptotic.reduced.legendre.LENNARDJONESFJC.helmholtz_free_energy_per_link,
    Polymers.ufjc.lennard_jones.thermodynamics.isometric.asymptotic.reduced.legendre.LENNARDJONESFJC.relative_helmholtz_free_energy,
    Polymers.ufjc.lennard_jones.thermodynamics.isometric.asymptotic.reduced.legendre.LENNARDJONESFJC.relative_helmholtz_free_energy_per_link,
    Polymers.ufjc.lennard_jones.thermodynamics.isometric.asymptotic.reduced.legendre.LENNARDJONESFJC.nondimensional_helmholtz_free_energy,
    Polymers.ufjc.lennard_jones.thermodynamics.isometric.asymptotic.reduced.legendre.LENNARDJONESFJC.nondimensional_helmholtz_free_energy_per_link,
    Polymers.ufjc.lennard_jones.thermodynamics.isometric.asymptotic.reduced.legendre.LENNARDJONESFJC.nondimensional_relative_helmholtz_free_energy,
    Polymers.ufjc.lennard_jones.thermodynamics.isometric.asymptotic.reduced.legendre.LENNARDJONESFJC.nondimensional_relative_helmholtz_free_energy_per_link,
    Polymers.ufjc.lennard_jones.thermodynamics.isometric.asymptotic.reduced.legendre.nondimensional_helmholtz_free_energy,
    Polymers.ufjc.lennard_jones.thermodynamics.isometric.asymptotic.reduced.legendre.helmholtz_free_energy,
    Polymers.ufjc.lennard_jones.thermodynamics.isometric.asymptotic.reduced.legendre.helmholtz_free_energy_per_link,
    Polymers.ufjc.lennard_jones.thermodynamics.isometric.asymptotic.reduced.legendre.relative_helmholtz_free_energy,
    Polymers.ufjc.lennard_jones.thermodynamics.isometric.asymptotic.reduced.legendre.relative_helmholtz_free_energy_per_link,
    Polymers.ufjc.lennard_jones.thermodynamics.isometric.asymptotic.reduced.legendre.nondimensional_relative_helmholtz_free_energy,
    Polymers.ufjc.lennard_jones.thermodynamics.isometric.asymptotic.reduced.legendre.nondimensional_relative_helmholtz_free_energy_per_link]
    [Polymers.ufjc.lennard_jones.thermodynamics.isometric.asymptotic.reduced.legendre.nondimensional_helmholtz_free_energy_per_link]

example : (lennard_jones_isometric_asymptotic_reduced_legendre_helmholtz 8 1 1 500).RelativeTo (ndLength 8 1) 1e-6 :=
  C16_reference_lennard_jones_isometric_asymptotic_reduced_legendre_helmholtz 8 1 1 500 (by norm_num) (by norm_num)

/-- C16: the hinge mass does not enter the relative helmholtz energies of `src/physics/single_chain/ufjc/lennard_jones/thermodynamics/isometric/asymptotic/reduced/legendre/mod.rs`. -/
theorem C16_mass_lennard_jones_isometric_asymptotic_reduced_legendre_helmholtz (N : ℕ) (ℓ : ℝ) (m : ℝ) (k : ℝ) (m' : ℝ) :
    (lennard_jones_isometric_asymptotic_reduced_legendre_helmholtz N ℓ m k).SameRelative (lennard_jones_isometric_asymptotic_reduced_legendre_helmholtz N ℓ m' k) :=
  ⟨rfl, rfl, rfl, rfl⟩

/-- C15 for the forces methods of `src/physics/single_chain/ufjc/lennard_jones/thermodynamics/isometric/asymptotic/reduced/legendre/mod.rs`. -/
theorem C15_lennard_jones_isometric_asymptotic_reduced_legendre_forces (N : ℕ) (ℓ : ℝ) (m : ℝ) (k : ℝ) (hN : 0 < N) (hℓ : 0 < ℓ) :
    (lennard_jones_isometric_asymptotic_reduced_legendre_forces N ℓ m k).Scales ℓ (ndLength N ℓ) := by
  scaling_tac hN hℓ [lennard_jones_isometric_asymptotic_reduced_legendre_forces,
    Polymers.ufjc.lennard_jones.LENNARDJONESFJC.init,
    Polymers.ufjc.lennard_jones.thermodynamics.LENNARDJONESFJC.init,
    Polymers.ufjc.lennard_jones.thermodynamics.isometric.LENNARDJONESFJC.init,
    Polymers.ufjc.lennard_jones.thermodynamics.isometric.asymptotic.LENNARDJONESFJC.init,
    Polymers.ufjc.lennard_jones.thermodynamics.isometric.asymptotic.reduced.LENNARDJONESFJC.init,
    Polymers.ufjc.lennard_jones.thermodynamics.isometric.asymptotic.reduced.legendre.LENNARDJONESFJC.init,
    Polymers.ufjc.lennard_jones.thermodynamics.isometric.asymptotic.reduced.legendre.LENNARDJONESFJC.force,
    Polymers.ufjc.lennard_jones.thermodynamics.isometric.asymptotic.reduced.legendre.LENNARDJONESFJC.nondimensional_force,
    Polymers.ufjc.lennard_jones.thermodynamics.isometric.asymptotic.reduced.legendre.force]
    [Polymers.ufjc.lennard_jones.thermodynamics.isometric.asymptotic.reduced.legendre.nondimensional_force]

example : (lennard_jones_isometric_asymptotic_reduced_legendre_forces 8 1 1 500).Scales 1 (ndLength 8 1) :=
  C15_lennard_jones_isometric_asymptotic_reduced_legendre_forces 8 1 1 500 (by norm_num) (by norm_num)

/-- C15 for the helmholtz methods of `src/physics/single_chain/ufjc/lennard_jones/thermodynamics/isotensional/asymptotic/reduced/legendre/mod.rs`. -/
theorem C15_lennard_jones_isotensional_asymptotic_reduced_legendre_helmholtz (N : ℕ) (ℓ : ℝ) (m : ℝ) (k : ℝ) (hN : 0 < N) (hℓ : 0 < ℓ) :
    (lennard_jones_isotensional_asymptotic_reduced_legendre_helmholtz N ℓ m k).Scales N (ndForce ℓ) := by
  scaling_tac hN hℓ [lennard_jones_isotensional_asymptotic_reduced_legendre_helmholtz,
    Polymers.ufjc.lennard_jones.LENNARDJONESFJC.init,
    Polymers.ufjc.lennard_jones.thermodynamics.LENNARDJONESFJC.init,
    Polymers.ufjc.lennard_jones.thermodynamics.isotensional.LENNARDJONESFJC.init,
    Polymers.ufjc.lennard_jones.thermodynamics.isotensional.asymptotic.LENNARDJONESFJC.init,
    Polymers.ufjc.lennard_jones.thermodynamics.isotensional.asymptotic.reduced.LENNARDJONESFJC.init,
    Polymers.ufjc.lennard_jones.thermodynamics.isotensional.asymptotic.reduced.legendre.LENNARDJONESFJC.init,
    Polymers.ufjc.lennard_jones.thermodynamics.isotensional.asymptotic.reduced.legendre.LENNARDJONESFJC.helmholtz_free_energy,
    Polymers.ufjc.lennard_jones.thermodynamics.isotensional.asymptotic.reduced.legendre.LENNARDJONESFJC.helmholtz_free_energy_per_link,
    Polymers.ufjc.lennard_jones.thermodynamics.isotensional.asymptotic.reduced.legendre.LENNARDJONESFJC.relative_helmholtz_free_energy,
    Polymers.ufjc.lennard_jones.thermodynamics.isotensional.asymptotic.reduced.legendre.LENNARDJONESFJC.relative_helmholtz_free_energy_per_link,
    Polymers.ufjc.lennard_jones.thermodynamics.isotensional.asymptotic.reduced.legendre.LENNARDJONESFJC.nondimensional_helmholtz_free_energy,
    Polymers.ufjc.lennard_jones.thermodynamics.isotensional.asymptotic.reduced.legendre.LENNARDJONESFJC.nondimensional_helmholtz_free_energy_per_link,
    Polymers.ufjc.lennard_jones.thermodynamics.isotensional.asymptotic.reduced.legendre.LENNARDJONESFJC.nondimensional_relative_helmholtz_free_energy,
    Polymers.ufjc.lennard_jones.thermodynamics.isotensional.asymptotic.reduced.legendre.LENNARDJONESFJC.nondimensional_relative_helmholtz_free_energy_per_link,
    Polymers.ufjc.lennard_jones.thermodynamics.isotensional.asymptotic.reduced.legendre.nondimensional_helmholtz_free_energy,
    Polymers.ufjc.lennard_jones.thermodynamics.isotensional.asymptotic.reduced.legendre.helmholtz_free_energy,
    Polymers.ufjc.lennard_jones.thermodynamics.isotensional.asymptotic.reduced.legendre.helmholtz_free_energy_per_link,
    Polymers.ufjc.lennard_jones.thermodynamics.isotensional.asymptotic.reduced.legendre.relative_helmholtz_free_energy,
    Polymers.ufjc.lennard_jones.thermodynamics.isotensional.asymptotic.reduced.legendre.relative_helmholtz_free_energy_per_link,
    Polymers.ufjc.lennard_jones.thermodynamics.isotensional.asymptotic.reduced.legendre.nondimensional_relative_helmholtz_free_energy,
    Polymers.ufjc.lennard_jones.thermodynamics.isotensional.asymptotic.reduced.legendre.nondimensional_relative_helmholtz_free_energy_per_link]
    [Polymers.ufjc.lennard_jones.thermodynamics.isotensional.asymptotic.reduced.legendre.nondimensional_helmholtz_free_energy_per_link]

example : (lennard_jones_isotensional_asymptotic_reduced_legendre_helmholtz 8 1 1 500).Scales 8 (ndForce 1) :=
  C15_lennard_jones_isotensional_asymptotic_reduced_legendre_helmholtz 8 1 1 500 (by norm_num) (by norm_num)

/-- C16 for the helmholtz methods of `src/physics/single_chain/ufjc/lennard_jones/thermodynamics/isotensional/asymptotic/reduced/legendre/mod.rs`. -/
theorem C16_reference_lennard_jones_isotensional_asymptotic_reduced_legendre_helmholtz (N : ℕ) (ℓ : ℝ) (m : ℝ) (k : ℝ) (hN : 0 < N) (hℓ : 0 < ℓ) :
    (lennard_jones_isotensional_asymptotic_reduced_legendre_helmholtz N ℓ m k).RelativeTo (ndForce ℓ) 1e-6 := by
  refine EnergyMethods.RelativeTo.of_nd hN (C15_lennard_jones_isotensional_asymptotic_reduced_legendre_helmholtz N ℓ m k hN hℓ) ?_
  relative_tac hN [lennard_jones_isotensional_asymptotic_reduced_legendre_helmholtz,
    Polymers.ufjc.lennard_jones.LENNARDJONESFJC.init,
    Polymers.ufjc.lennard_jones.thermodynamics.LENNARDJONESFJC.init,
    Polymers.ufjc.lennard_jones.thermodynamics.isotensional.LENNARDJONESFJC.init,
    Polymers.ufjc.lennard_jones.thermodynamics.isotensional.asymptotic.LENNARDJONESFJC.init,
    Polymers.ufjc.lennard_jones.thermodynamics.isotensional.asymptotic.reduced.LENNARDJONESFJC.init,
    Polymers.ufjc.lennard_jones.thermodynamics.isotensional.asymptotic.reduced.legendre.LENNARDJONESFJC.init,
    Polymers.ufjc.lennard_jones.thermodynamics.isotensional.asymptotic.reduced.legendre.LENNARDJONESFJC.helmholtz_free_energy,
    Polymers.ufjc.lennard_jones.thermodynamics.isotensional.asymptotic.reduced.legendre.LENNARDJONESFJC.helmholtz_free_energy_per_link,
    Polymers.ufjc.lennard_jones.thermodynamics.isotensional.asymptotic.reduced.legendre.LENNARDJONESFJC.relative_helmholtz_free_energy,
    Polymers.ufjc.lennard_jones.thermodynamics.isotensional.asymptotic.reduced.legendre.LENNARDJONESFJC.relative_helmholtz_free_energy_per_link,
    Polymers.ufjc.lennard_jones.thermodynamics.isotensional.asymptotic.reduced.legendre.LENNARDJONESFJC.nondimensional_helmholtz_free_energy,
    Polymers.ufjc.lennard_jones.thermodynamics.isotensional.asymptotic.reduced.legendre.LENNARDJONESFJC.nondimensional_helmholtz_free_energy_per_link,
    Polymers.ufjc.lennard_jones.thermodynamics.isotensional.asymptotic.reduced.legendre.LENNARDJONESFJC.nondimensional_relative_helmholtz_free_energy,
    Polymers.ufjc.lennard_jones.thermodynamics.isotensional.asymptotic.reduced.legendre.LENNARDJONESFJC.nondimensional_relative_helmholtz_free_energy_per_link,
    Polymers.ufjc.lennard_jones.thermodynamics.isotensional.asymptotic.reduced.legendre.nondimensional_helmholtz_free_energy,
    Polymers.ufjc.lennard_jones.thermodynamics.isotensional.asymptotic.reduced.legendre.helmholtz_free_energy,
    Polymers.ufjc.lennard_jones.thermodynamics.isotensional.asymptotic.reduced.legendre.helmholtz_free_energy_per_link,
    Polymers.ufjc.lennard_jones.thermodynamics.isotensional.asymptotic.reduced.legendre.relative_helmholtz_free_energy,
    Polymers.ufjc.lennard_jones.thermodynamics.isotensional.asymptotic.reduced.legendre.relative_helmholtz_free_energy_per_link,
    Polymers.ufjc.lennard_jones.thermodynamics.isotensional.asymptotic.reduced.legendre.nondimensional_relative_helmholtz_free_energy,
    Polymers.ufjc.lennard_jones.thermodynamics.isotensional.asymptotic.reduced.legendre.nondimensional_relative_helmholtz_free_energy_per_link]
    [Polymers.ufjc.lennard_jones.thermodynamics.isotensional.asymptotic.reduced.legendre.nondimensional_helmholtz_free_energy_per_link]

example : (lennard_jones_isotensional_asymptotic_reduced_legendre_helmholtz 8 1 1 500).RelativeTo (ndForce 1) 1e-6 :=
  C16_reference_lennard_jones_isotensional_asymptotic_reduced_legendre_helmholtz 8 1 1 500 (by norm_num) (by norm_num)

/-- C16: the hinge mass does not enter the relative helmholtz energies of `src/physics/single_chain/ufjc/lennard_jones/thermodynamics/isotensional/asymptotic/reduced/legendre/mod.rs`. -/
theorem C16_mass_lennard_jones_isotensional_asymptotic_reduced_legendre_helmholtz (N : ℕ) (ℓ : ℝ) (m : ℝ) (k : ℝ) (m' : ℝ) :
    (lennard_jones_isotensional_asymptotic_reduced_legendre_helmholtz N ℓ m k).SameRelative (lennard_jones_isotensional_asymptotic_reduced_legendre_helmholtz N ℓ m' k) :=
  ⟨rfl, rfl, rfl, rfl⟩

/-- C15 for the helmholtz methods of `src/physics/single_chain/ufjc/lennard_jones/thermodynamics/isometric/asymptotic/legendre/mod.rs`. -/
theorem C15_lennard_jones_isometric_asymptotic_legendre_helmholtz (N : ℕ) (ℓ : ℝ) (m : ℝ) (k : ℝ) (hN : 0 < N) (hℓ : 0 < ℓ) :
    (lennard_jones_isometric_asymptotic_legendre_helmholtz N ℓ m k).Scales N (ndLength N ℓ) := by
  scaling_tac hN hℓ [lennard_jones_isometric_asymptotic_legendre_helmholtz,
    Polymers.ufjc.lennard_jones.LENNARDJONESFJC.init,
    Polymers.ufjc.lennard_jones.thermodynamics.LENNARDJONESFJC.init,
    Polymers.ufjc.lennard_jones.thermodynamics.isometric.LENNARDJONESFJC.init,
    Polymers.ufjc.lennard_jones.thermodynamics.isometric.asymptotic.LENNARDJONESFJC.init,
    Polymers.ufjc.lennard_jones.thermodynamics.isometric.asymptotic.legendre.LENNARDJONESFJC.init,
    Polymers.ufjc.lennard_jones.thermodynamics.isometric.asymptotic.legendre.LENNARDJONESFJC.helmholtz_free_energy,
    Polymers.ufjc.lennard_jones.thermodynamics.isometric.asymptotic.legendre.LENNARDJONESFJC.helmholtz_free_energy_per_link,
    Polymers.ufjc.lennard_jones.thermodynamics.isometric.asymptotic.legendre.LENNARDJONESFJC.relative_helmholtz_free_energy,
    Polymers.ufjc.lennard_jones.thermodynamics.isometric.asymptotic.legendre.LENNARDJONESFJC.relative_helmholtz_free_energy_per_link,
    Polymers.ufjc.lennard_jones.thermodynamics.isometric.asymptotic.legendre.LENNARDJONESFJC.nondimensional_helmholtz_free_energy,
    Polymers.ufjc.lennard_jones.thermodynamics.isometric.asymptotic.legendre.LENNARDJONESFJC.nondimensional_helmholtz_free_energy_per_link,
    Polymers.ufjc.lennard_jones.thermodynamics.isometric.asymptotic.legendre.LENNARDJONESFJC.nondimensional_relative_helmholtz_free_energy,
    Polymers.ufjc.lennard_jones.thermodynamics.isometric.asymptotic.legendre.LENNARDJONESFJC.nondimensional_relative_helmholtz_free_energy_per_link,
    Polymers.ufjc.lennard_jones.thermodynamics.isometric.asymptotic.legendre.nondimensional_helmholtz_free_energy,
    Polymers.ufjc.lennard_jones.thermodynamics.isometric.asymptotic.legendre.helmholtz_free_energy,
    Polymers.ufjc.lennard_jones.thermodynamics.isometric.asymptotic.legendre.helmholtz_free_energy_per_link,
    Polymers.ufjc.lennard_jones.thermodynamics.isometric.asymptotic.legendre.relative_helmholtz_free_energy,
    Polymers.ufjc.lennard_jones.thermodynamics.isometric.asymptotic.legendre.relative_helmholtz_free_energy_per_link,
    Polymers.ufjc.lennard_jones.thermodynamics.isometric.asymptotic.legendre.nondimensional_relative_helmholtz_free_energy,
    Polymers.ufjc.lennard_jones.thermodynamics.isometric.asymptotic.legendre.nondimensional_relative_helmholtz_free_energy_per_link]
    [Polymers.ufjc.lennard_jones.thermodynamics.isometric.asymptotic.legendre.nondimensional_helmholtz_free_energy_per_link]

example : (lennard_jones_isometric_asymptotic_legendre_helmholtz 8 1 1 500).Scales 8 (ndLength 8 1) :=
  C15_lennard_jones_isometric_asymptotic_legendre_helmholtz 8 1 1 500 (by norm_num) (by norm_num)

/-- C16 for the helmholtz methods of `src/physics/single_chain/ufjc/lennard_jones/thermodynamics/isometric/asymptotic/legendre/mod.rs`. -/
theorem C16_reference_lennard_jones_isometric_asymptotic_legendre_helmholtz (N : ℕ) (ℓ : ℝ) (m : ℝ) (k : ℝ) (hN : 0 < N) (hℓ : 0 < ℓ) :
    (lennard_jones_isometric_asymptotic_legendre_helmholtz N ℓ m k).RelativeTo (ndLength N ℓ) 1e-6 := by
  refine EnergyMethods.RelativeTo.of_nd hN (C15_lennard_jones_isometric_asymptotic_legendre_helmholtz N ℓ m k hN hℓ) ?_
  relative_tac hN [lennard_jones_isometric_asymptotic_legendre_helmholtz,
    Polymers.ufjc.lennard_jones.LENNARDJONESFJC.init,
    Polymers.ufjc.lennard_jones.thermodynamics.LENNARDJONESFJC.init,
    Polymers.ufjc.lennard_jones.thermodynamics.isometric.LENNARDJONESFJC.init,
    Polymers.ufjc.lennard_jones.thermodynamics.isometric.asymptotic.LENNARDJONESFJC.init,
    Polymers.ufjc.lennard_jones.thermodynamics.isometric.asymptotic.legendre.LENNARDJONESFJC.init,
    Polymers.ufjc.lennard_jones.thermodynamics.isometric.asymptotic.legendre.LENNARDJONESFJC.helmholtz_free_energy,
    Polymers.ufjc.lennard_jones.thermodynamics.isometric.asymptotic.legendre.LENNARDJONESFJC.helmholtz_free_energy_per_link,
    Polymers.ufjc.lennard_jones.thermodynamics.isometric.asymptotic.legendre.LENNARDJONESFJC.relative_helmholtz_free_energy,
    Polymers.ufjc.lennard_jones.thermodynamics.isometric.asymptotic.legendre.LENNARDJONESFJC.relative_helmholtz_free_energy_per_link,
    Polymers.ufjc.lennard_jones.thermodynamics.isometric.asymptotic.legendre.LENNARDJONESFJC.nondimensional_helmholtz_free_energy,
    Polymers.ufjc.lennard_jones.thermodynamics.isometric.asymptotic.legendre.LENNARDJONESFJC.nondimensional_helmholtz_free_energy_per_link,
    Polymers.ufjc.lennard_jones.thermodynamics.isometric.asymptotic.legendre.LENNARDJONESFJC.nondimensional_relative_helmholtz_free_energy,
    Polymers.ufjc.lennard_jones.thermodynamics.isometric.asymptotic.legendre.LENNARDJONESFJC.nondimensional_relative_helmholtz_free_energy_per_link,
    Polymers.ufjc.lennard_jones.thermodynamics.isometric.asymptotic.legendre.nondimensional_helmholtz_free_energy,
    Polymers.ufjc.lennard_jones.thermodynamics.isometric.asymptotic.legendre.helmholtz_free_energy,
    Polymers.ufjc.lennard_jones.thermodynamics.isometric.asymptotic.legendre.helmholtz_free_energy_per_link,
    Polymers.ufjc.lennard_jones.thermodynamics.isometric.asymptotic.legendre.relative_helmholtz_free_energy,
    Polymers.ufjc.lennard_jones.thermodynamics.isometric.asymptotic.legendre.relative_helmholtz_free_energy_per_link,
    Polymers.ufjc.lennard_jones.thermodynamics.isometric.asymptotic.legendre.nondimensional_relative_helmholtz_free_energy,
    Polymers.ufjc.lennard_jones.thermodynamics.isometric.asymptotic.legendre.nondimensional_relative_helmholtz_free_energy_per_link]
    [Polymers.ufjc.lennard_jones.thermodynamics.isometric.asymptotic.legendre.nondimensional_helmholtz_free_energy_per_link]

example : (lennard_jones_isometric_asymptotic_legendre_helmholtz 8 1 1 500).RelativeTo (ndLength 8 1) 1e-6 :=
  C16_reference_lennard_jones_isometric_asymptotic_legendre_helmholtz 8 1 1 500 (by norm_num) (by norm_num)

/-- C16: the hinge mass does not enter the relative helmholtz energies of `src/physics/single_chain/ufjc/lennard_jones/thermodynamics/isometric/asymptotic/legendre/mod.rs`. -/
theorem C16_mass_lennard_jones_isometric_asymptotic_legendre_helmholtz (N : ℕ) (ℓ : ℝ) (m : ℝ) (k : ℝ) (m' : ℝ) :
    (lennard_jones_isometric_asymptotic_legendre_helmholtz N ℓ m k).SameRelative (lennard_jones_isometric_asymptotic_legendre_helmholtz N ℓ m' k) :=
  ⟨rfl, rfl, rfl, rfl⟩

/-- C15 for the forces methods of `src/physics/single_chain/ufjc/lennard_jones/thermodynamics/isometric/asymptotic/legendre/mod.rs`. -/
theorem C15_lennard_jones_isometric_asymptotic_legendre_forces (N : ℕ) (ℓ : ℝ) (m : ℝ) (k : ℝ) (hN : 0 < N) (hℓ : 0 < ℓ) :
    (lennard_jones_isometric_asymptotic_legendre_forces N ℓ m k).Scales ℓ (ndLength N ℓ) := by
  scaling_tac hN hℓ [lennard_jones_isometric_asymptotic_legendre_forces,
    Polymers.ufjc.lennard_jones.LENNARDJONESFJC.init,
    Polymers.ufjc.lennard_jones.thermodynamics.LENNARDJONESFJC.init,
    Polymers.ufjc.lennard_jones.thermodynamics.isometric.LENNARDJONESFJC.init,
    Polymers.ufjc.lennard_jones.thermodynamics.isometric.asymptotic.LENNARDJONESFJC.init,
    Polymers.ufjc.lennard_jones.thermodynamics.isometric.asymptotic.legendre.LENNARDJONESFJC.init,
    Polymers.ufjc.lennard_jones.thermodynamics.isometric.asymptotic.legendre.LENNARDJONESFJC.force,
    Polymers.ufjc.lennard_jones.thermodynamics.isometric.asymptotic.legendre.LENNARDJONESFJC.nondimensional_force,
    Polymers.ufjc.lennard_jones.thermodynamics.isometric.asymptotic.legendre.force]
    [Polymers.ufjc.lennard_jones.thermodynamics.isometric.asymptotic.legendre.nondimensional_force]

example : (lennard_jones_isometric_asymptotic_legendre_forces 8 1 1 500).Scales 1 (ndLength 8 1) :=
  C15_lennard_jones_isometric_asymptotic_legendre_forces 8 1 1 500 (by norm_num) (by norm_num)

/-- C15 for the helmholtz methods of `src/physics/single_chain/ufjc/lennard_jones/thermodynamics/isotensional/asymptotic/legendre/mod.rs`. -/
theorem C15_lennard_jones_isotensional_asymptotic_legendre_helmholtz (N : ℕ) (ℓ : ℝ) (m : ℝ) (k : ℝ) (hN : 0 < N) (hℓ : 0 < ℓ) :
    (lennard_jones_isotensional_asymptotic_legendre_helmholtz N ℓ m k).Scales N (ndForce ℓ) := by
  scaling_tac hN hℓ [lennard_jones_isotensional_asymptotic_legendre_helmholtz,
    Polymers.ufjc.lennard_jones.LENNARDJONESFJC.init,
    Polymers.ufjc.lennard_jones.thermodynamics.LENNARDJONESFJC.init,
    Polymers.ufjc.lennard_jones.thermodynamics.isotensional.LENNARDJONESFJC.init,
    Polymers.ufjc.lennard_jones.thermodynamics.isotensional.asymptotic.LENNARDJONESFJC.init,
    Polymers.ufjc.lennard_jones.thermodynamics.isotensional.asymptotic.legendre.LENNARDJONESFJC.init,
    Polymers.ufjc.lennard_jones.thermodynamics.isotensional.asymptotic.legendre.LENNARDJONESFJC.helmholtz_free_energy,
    Polymers.ufjc.lennard_jones.thermodynamics.isotensional.asymptotic.legendre.LENNARDJONESFJC.helmholtz_free_energy_per_link,
    Polymers.ufjc.lennard_jones.thermodynamics.isotensional.asymptotic.legendre.LENNARDJONESFJC.relative_helmholtz_free_energy,
    Polymers.ufjc.lennard_jones.thermodynamics.isotensional.asymptotic.legendre.LENNARDJONESFJC.relative_helmholtz_free_energy_per_link,
    Polymers.ufjc.lennard_jones.thermodynamics.isotensional.asymptotic.legendre.LENNARDJONESFJC.nondimensional_helmholtz_free_energy,
    Polymers.ufjc.lennard_jones.thermodynamics.isotensional.asymptotic.legendre.LENNARDJONESFJC.nondimensional_helmholtz_free_energy_per_link,
    Polymers.ufjc.lennard_jones.thermodynamics.isotensional.asymptotic.legendre.LENNARDJONESFJC.nondimensional_relative_helmholtz_free_energy,
    Polymers.ufjc.lennard_jones.thermodynamics.isotensional.asymptotic.legendre.LENNARDJONESFJC.nondimensional_relative_helmholtz_free_energy_per_link,
    Polymers.ufjc.lennard_jones.thermodynamics.isotensional.asymptotic.legendre.nondimensional_helmholtz_free_energy,
    Polymers.ufjc.lennard_jones.thermodynamics.isotensional.asymptotic.legendre.helmholtz_free_energy,
    Polymers.ufjc.lennard_jones.thermodynamics.isotensional.asymptotic.legendre.helmholtz_free_energy_per_link,
    Polymers.ufjc.lennard_jones.thermodynamics.isotensional.asymptotic.legendre.relative_helmholtz_free_energy,
    Polymers.ufjc.lennard_jones.thermodynamics.isotensional.asymptotic.legendre.relative_helmholtz_free_energy_per_link,
    Polymers.ufjc.lennard_jones.thermodynamics.isotensional.asymptotic.legendre.nondimensional_relative_helmholtz_free_energy,
    Polymers.ufjc.lennard_jones.thermodynamics.isotensional.asymptotic.legendre.nondimensional_relative_helmholtz_free_energy_per_link]
    [Polymers.ufjc.lennard_jones.thermodynamics.isotensional.asymptotic.legendre.nondimensional_helmholtz_free_energy_per_link]

example : (lennard_jones_isotensional_asymptotic_legendre_helmholtz 8 1 1 500).Scales 8 (ndForce 1) :=
  C15_lennard_jones_isotensional_asymptotic_legendre_helmholtz 8 1 1 500 (by norm_num) (by norm_num)

/-- C16 for the helmholtz methods of `src/physics/single_chain/ufjc/lennard_jones/thermodynamics/isotensional/asymptotic/legendre/mod.rs`. -/
theorem C16_reference_lennard_jones_isotensional_asymptotic_legendre_helmholtz (N : ℕ) (ℓ : ℝ) (m : ℝ) (k : ℝ) (hN : 0 < N) (hℓ : 0 < ℓ) :
    (lennard_jones_isotensional_asymptotic_legendre_helmholtz N ℓ m k).RelativeTo (ndForce ℓ) 1e-6 := by
  refine EnergyMethods.RelativeTo.of_nd hN (C15_lennard_jones_isotensional_asymptotic_legendre_helmholtz N ℓ m k hN hℓ) ?_
  relative_tac hN [lennard_jones_isotensional_asymptotic_legendre_helmholtz,
    Polymers.ufjc.lennard_jones.LENNARDJONESFJC.init,
    Polymers.ufjc.lennard_jones.thermodynamics.LENNARDJONESFJC.init,
    Polymers.ufjc.lennard_jones.thermodynamics.isotensional.LENNARDJONESFJC.init,
    Polymers.ufjc.lennard_jones.thermodynamics.isotensional.asymptotic.LENNARDJONESFJC.init,
    Polymers.ufjc.lennard_jones.thermodynamics.isotensional.asymptotic.legendre.LENNARDJONESFJC.init,
    Polymers.ufjc.lennard_jones.thermodynamics.isotensional.asymptotic.legendre.LENNARDJONESFJC.helmholtz_free_energy,
    Polymers.ufjc.lennard_jones.thermodynamics.isotensional.asymptotic.legendre.LENNARDJONESFJC.helmholtz_free_energy_per_link,
    Polymers.ufjc.lennard_jones.thermodynamics.isotensional.asymptotic.legendre.LENNARDJONESFJC.relative_helmholtz_free_energy,
    Polymers.ufjc.lennard_jones.thermodynamics.isotensional.asymptotic.legendre.LENNARDJONESFJC.relative_helmholtz_free_energy_per_link,
    Polymers.ufjc.lennard_jones.thermodynamics.isotensional.asymptotic.legendre.LENNARDJONESFJC.nondimensional_helmholtz_free_energy,
    Polymers.ufjc.lennard_jones.thermodynamics.isotensional.asymptotic.legendre.LENNARDJONESFJC.nondimensional_helmholtz_free_energy_per_link,
    Polymers.ufjc.lennard_jones.thermodynamics.isotensional.asymptotic.legendre.LENNARDJONESFJC.nondimensional_relative_helmholtz_free_energy,
    Polymers.ufjc.lennard_jones.thermodynamics.isotensional.asymptotic.legendre.LENNARDJONESFJC.nondimensional_relative_helmholtz_free_energy_per_link,
    Polymers.ufjc.lennard_jones.thermodynamics.isotensional.asymptotic.legendre.nondimensional_helmholtz_free_energy,
    Polymers.ufjc.lennard_jones.thermodynamics.isotensional.asymptotic.legendre.helmholtz_free_energy,
    Polymers.ufjc.lennard_jones.thermodynamics.isotensional.asymptotic.legendre.helmholtz_free_energy_per_link,
    Polymers.ufjc.lennard_jones.thermodynamics.isotensional.asymptotic.legendre.relative_helmholtz_free_energy,
    Polymers.ufjc.lennard_jones.thermodynamics.isotensional.asymptotic.legendre.relative_helmholtz_free_energy_per_link,
    Polymers.ufjc.lennard_jones.thermodynamics.isotensional.asymptotic.legendre.nondimensional_relative_helmholtz_free_energy,
    Polymers.ufjc.lennard_jones.thermodynamics.isotensional.asymptotic.legendre.nondimensional_relative_helmholtz_free_energy_per_link]
    [Polymers.ufjc.lennard_jones.thermodynamics.isotensional.asymptotic.legendre.nondimensional_helmholtz_free_energy_per_link]

example : (lennard_jones_isotensional_asymptotic_legendre_helmholtz 8 1 1 500).RelativeTo (ndForce 1) 1e-6 :=
  C16_reference_lennard_jones_isotensional_asymptotic_legendre_helmholtz 8 1 1 500 (by norm_num) (by norm_num)

/-- C16: the hinge mass does not enter the relative helmholtz energies of `src/physics/single_chain/ufjc/lennard_jones/thermodynamics/isotensional/asymptotic/legendre/mod.rs`. -/
theorem C16_mass_lennard_jones_isotensional_asymptotic_legendre_helmholtz (N : ℕ) (ℓ : ℝ) (m : ℝ) (k : ℝ) (m' : ℝ) :
    (lennard_jones_isotensional_asymptotic_legendre_helmholtz N ℓ m k).SameRelative (lennard_jones_isotensional_asymptotic_legendre_helmholtz N ℓ m' k) :=
  ⟨rfl, rfl, rfl, rfl⟩

/-- C15 for the gibbs methods of `src/physics/single_chain/ufjc/lennard_jones/thermodynamics/isotensional/asymptotic/reduced/mod.rs`. -/
theorem C15_lennard_jones_isotensional_asymptotic_reduced_gibbs (N : ℕ) (ℓ : ℝ) (m : ℝ) (k : ℝ) (hN : 0 < N) (hℓ : 0 < ℓ) :
    (lennard_jones_isotensional_asymptotic_reduced_gibbs N ℓ m k).Scales N (ndForce ℓ) := by
  scaling_tac hN hℓ [lennard_jones_isotensional_asymptotic_reduced_gibbs,
    Polymers.ufjc.lennard_jones.LENNARDJONESFJC.init,
    Polymers.ufjc.lennard_jones.thermodynamics.LENNARDJONESFJC.init,
    Polymers.ufjc.lennard_jones.thermodynamics.isotensional.LENNARDJONESFJC.init,
    Polymers.ufjc.lennard_jones.thermodynamics.isotensional.asymptotic.LENNARDJONESFJC.init,
    Polymers.ufjc.lennard_jones.thermodynamics.isotensional.asymptotic.reduced.LENNARDJONESFJC.init,
    Polymers.ufjc.lennard_jones.thermodynamics.isotensional.asymptotic.reduced.LENNARDJONESFJC.gibbs_free_energy,
    Polymers.ufjc.lennard_jones.thermodynamics.isotensional.asymptotic.reduced.LENNARDJONESFJC.gibbs_free_energy_per_link,
    Polymers.ufjc.lennard_jones.thermodynamics.isotensional.asymptotic.reduced.LENNARDJONESFJC.relative_gibbs_free_energy,
    Polymers.ufjc.lennard_jones.thermodynamics.isotensional.asymptotic.reduced.LENNARDJONESFJC.relative_gibbs_free_energy_per_link,
    Polymers.ufjc.lennard_jones.thermodynamics.isotensional.asymptotic.reduced.LENNARDJONESFJC.nondimensional_gibbs_free_energy,
    Polymers.ufjc.lennard_jones.thermodynamics.isotensional.asymptotic.reduced.LENNARDJONESFJC.nondimensional_gibbs_free_energy_per_link,
    Polymers.ufjc.lennard_jones.thermodynamics.isotensional.asymptotic.reduced.LENNARDJONESFJC.nondimensional_relative_gibbs_free_energy,
    Polymers.ufjc.lennard_jones.thermodynamics.isotensional.asymptotic.reduced.LENNARDJONESFJC.nondimensional_relative_gibbs_free_energy_per_link,
    Polymers.ufjc.lennard_jones.thermodynamics.isotensional.asymptotic.reduced.nondimensional_gibbs_free_energy,
    Polymers.ufjc.lennard_jones.thermodynamics.isotensional.asymptotic.reduced.gibbs_free_energy,
    Polymers.ufjc.lennard_jones.thermodynamics.isotensional.asymptotic.reduced.gibbs_free_energy_per_link,
    Polymers.ufjc.lennard_jones.thermodynamics.isotensional.asymptotic.reduced.relative_gibbs_free_energy,
    Polymers.ufjc.lennard_jones.thermodynamics.isotensional.asymptotic.reduced.relative_gibbs_free_energy_per_link,
    Polymers.ufjc.lennard_jones.thermodynamics.isotensional.asymptotic.reduced.nondimensional_relative_gibbs_free_energy,
    Polymers.ufjc.lennard_jones.thermodynamics.isotensional.asymptotic.reduced.nondimensional_relative_gibbs_free_energy_per_link]
    [Polymers.ufjc.lennard_jones.thermodynamics.isotensional.asymptotic.reduced.nondimensional_gibbs_free_energy_per_link]

example : (lennard_jones_isotensional_asymptotic_reduced_gibbs 8 1 1 500).Scales 8 (ndForce 1) :=
  C15_lennard_jones_isotensional_asymptotic_reduced_gibbs 8 1 1 500 (by norm_num) (by norm_num)

/-- C16 for the gibbs methods of `src/physics/single_chain/ufjc/lennard_jones/thermodynamics/isotensional/asymptotic/reduced/mod.rs`. -/
theorem C16_reference_lennard_jones_isotensional_asymptotic_reduced_gibbs (N : ℕ) (ℓ : ℝ) (m : ℝ) (k : ℝ) (hN : 0 < N) (hℓ : 0 < ℓ) :
    (lennard_jones_isotensional_asymptotic_reduced_gibbs N ℓ m k).RelativeTo (ndForce ℓ) 1e-6 := by
  refine EnergyMethods.RelativeTo.of_nd hN (C15_lennard_jones_isotensional_asymptotic_reduced_gibbs N ℓ m k hN hℓ) ?_
  relative_tac hN [lennard_jones_isotensional_asymptotic_reduced_gibbs,
    Polymers.ufjc.lennard_jones.LENNARDJONESFJC.init,
    Polymers.ufjc.lennard_jones.thermodynamics.LENNARDJONESFJC.init,
    Polymers.ufjc.lennard_jones.thermodynamics.isotensional.LENNARDJONESFJC.init,
    Polymers.ufjc.lennard_jones.thermodynamics.isotensional.asymptotic.LENNARDJONESFJC.init,
    Polymers.ufjc.lennard_jones.thermodynamics.isotensional.asymptotic.reduced.LENNARDJONESFJC.init,
    Polymers.ufjc.lennard_jones.thermodynamics.isotensional.asymptotic.reduced.LENNARDJONESFJC.gibbs_free_energy,
    Polymers.ufjc.lennard_jones.thermodynamics.isotensional.asymptotic.reduced.LENNARDJONESFJC.gibbs_free_energy_per_link,
    Polymers.ufjc.lennard_jones.thermodynamics.isotensional.asymptotic.reduced.LENNARDJONESFJC.relative_gibbs_free_energy,
    Polymers.ufjc.lennard_jones.thermodynamics.isotensional.asymptotic.reduced.LENNARDJONESFJC.relative_gibbs_free_energy_per_link,
    Polymers.ufjc.lennard_jones.thermodynamics.isotensional.asymptotic.reduced.LENNARDJONESFJC.nondimensional_gibbs_free_energy,
    Polymers.ufjc.lennard_jones.thermodynamics.isotensional.asymptotic.reduced.LENNARDJONESFJC.nondimensional_gibbs_free_energy_per_link,
    Polymers.ufjc.lennard_jones.thermodynamics.isotensional.asymptotic.reduced.LENNARDJONESFJC.nondimensional_relative_gibbs_free_energy,
    Polymers.ufjc.lennard_jones.thermodynamics.isotensional.asymptotic.reduced.LENNARDJONESFJC.nondimensional_relative_gibbs_free_energy_per_link,
    Polymers.ufjc.lennard_jones.thermodynamics.isotensional.asymptotic.reduced.nondimensional_gibbs_free_energy,
    Polymers.ufjc.lennard_jones.thermodynamics.isotensional.asymptotic.reduced.gibbs_free_energy,
    Polymers.ufjc.lennard_jones.thermodynamics.isotensional.asymptotic.reduced.gibbs_free_energy_per_link,
    Polymers.ufjc.lennard_jones.thermodynamics.isotensional.asymptotic.reduced.relative_gibbs_free_energy,
    Polymers.ufjc.lennard_jones.thermodynamics.isotensional.asymptotic.reduced.relative_gibbs_free_energy_per_link,
    Polymers.ufjc.lennard_jones.thermodynamics.isotensional.asymptotic.reduced.nondimensional_relative_gibbs_free_energy,
    Polymers.ufjc.lennard_jones.thermodynamics.isotensional.asymptotic.reduced.nondimensional_relative_gibbs_free_energy_per_link]
    [Polymers.ufjc.lennard_jones.thermodynamics.isotensional.asymptotic.reduced.nondimensional_gibbs_free_energy_per_link]

example : (lennard_jones_isotensional_asymptotic_reduced_gibbs 8 1 1 500).RelativeTo (ndForce 1) 1e-6 :=
  C16_reference_lennard_jones_isotensional_asymptotic_reduced_gibbs 8 1 1 500 (by norm_num) (by norm_num)

/-- C16: the hinge mass does not enter the relative gibbs energies of `src/physics/single_chain/ufjc/lennard_jones/thermodynamics/isotensional/asymptotic/reduced/mod.rs`. -/
theorem C16_mass_lennard_jones_isotensional_asymptotic_reduced_gibbs (N : ℕ) (ℓ : ℝ) (m : ℝ) (k : ℝ) (m' : ℝ) :
    (lennard_jones_isotensional_asymptotic_reduced_gibbs N ℓ m k).SameRelative (lennard_jones_isotensional_asymptotic_reduced_gibbs N ℓ m' k) :=
  ⟨rfl, rfl, rfl, rfl⟩

/-- C15 for the lengths methods of `src/physics/single_chain/ufjc/lennard_jones/thermodynamics/isotensional/asymptotic/reduced/mod.rs`. -/
theorem C15_lennard_jones_isotensional_asymptotic_reduced_lengths (N : ℕ) (ℓ : ℝ) (m : ℝ) (k : ℝ) (hN : 0 < N) (hℓ : 0 < ℓ) :
    (lennard_jones_isotensional_asymptotic_reduced_lengths N ℓ m k).Scales N ℓ (ndForce ℓ) := by
  scaling_tac hN hℓ [lennard_jones_isotensional_asymptotic_reduced_lengths,
    Polymers.ufjc.lennard_jones.LENNARDJONESFJC.init,
    Polymers.ufjc.lennard_jones.thermodynamics.LENNARDJONESFJC.init,
    Polymers.ufjc.lennard_jones.thermodynamics.isotensional.LENNARDJONESFJC.init,
    Polymers.ufjc.lennard_jones.thermodynamics.isotensional.asymptotic.LENNARDJONESFJC.init,
    Polymers.ufjc.lennard_jones.thermodynamics.isotensional.asymptotic.reduced.LENNARDJONESFJC.init,
    Polymers.ufjc.lennard_jones.thermodynamics.isotensional.asymptotic.reduced.LENNARDJONESFJC.end_to_end_length,
    Polymers.ufjc.lennard_jones.thermodynamics.isotensional.asymptotic.reduced.LENNARDJONESFJC.end_to_end_length_per_link,
    Polymers.ufjc.lennard_jones.thermodynamics.isotensional.asymptotic.reduced.LENNARDJONESFJC.nondimensional_end_to_end_length,
    Polymers.ufjc.lennard_jones.thermodynamics.isotensional.asymptotic.reduced.LENNARDJONESFJC.nondimensional_end_to_end_length_per_link,
    Polymers.ufjc.lennard_jones.thermodynamics.isotensional.asymptotic.reduced.nondimensional_end_to_end_length,
    Polymers.ufjc.lennard_jones.thermodynamics.isotensional.asymptotic.reduced.end_to_end_length,
    Polymers.ufjc.lennard_jones.thermodynamics.isotensional.asymptotic.reduced.end_to_end_length_per_link]
    [Polymers.ufjc.lennard_jones.thermodynamics.isotensional.asymptotic.reduced.nondimensional_end_to_end_length_per_link]

example : (lennard_jones_isotensional_asymptotic_reduced_lengths 8 1 1 500).Scales 8 1 (ndForce 1) :=
  C15_lennard_jones_isotensional_asymptotic_reduced_lengths 8 1 1 500 (by norm_num) (by norm_num)

/-- C15 for the gibbs methods of `src/physics/single_chain/ufjc/lennard_jones/thermodynamics/isotensional/asymptotic/mod.rs`. -/
theorem C15_lennard_jones_isotensional_asymptotic_gibbs (N : ℕ) (ℓ : ℝ) (m : ℝ) (k : ℝ) (hN : 0 < N) (hℓ : 0 < ℓ) :
    (lennard_jones_isotensional_asymptotic_gibbs N ℓ m k).Scales N (ndForce ℓ) := by
  scaling_tac hN hℓ [lennard_jones_isotensional_asymptotic_gibbs,
    Polymers.ufjc.lennard_jones.LENNARDJONESFJC.init,
    Polymers.ufjc.lennard_jones.thermodynamics.LENNARDJONESFJC.init,
    Polymers.ufjc.lennard_jones.thermodynamics.isotensional.LENNARDJONESFJC.init,
    Polymers.ufjc.lennard_jones.thermodynamics.isotensional.asymptotic.LENNARDJONESFJC.init,
    Polymers.ufjc.lennard_jones.thermodynamics.isotensional.asymptotic.LENNARDJONESFJC.gibbs_free_energy,
    Polymers.ufjc.lennard_jones.thermodynamics.isotensional.asymptotic.LENNARDJONESFJC.gibbs_free_energy_per_link,
    Polymers.ufjc.lennard_jones.thermodynamics.isotensional.asymptotic.LENNARDJONESFJC.relative_gibbs_free_energy,
    Polymers.ufjc.lennard_jones.thermodynamics.isotensional.asymptotic.LENNARDJONESFJC.relative_gibbs_free_energy_per_link,
    Polymers.ufjc.lennard_jones.thermodynamics.isotensional.asymptotic.LENNARDJONESFJC.nondimensional_gibbs_free_energy,
    Polymers.ufjc.lennard_jones.thermodynamics.isotensional.asymptotic.LENNARDJONESFJC.nondimensional_gibbs_free_energy_per_link,
    Polymers.ufjc.lennard_jones.thermodynamics.isotensional.asymptotic.LENNARDJONESFJC.nondimensional_relative_gibbs_free_energy,
    Polymers.ufjc.lennard_jones.thermodynamics.isotensional.asymptotic.LENNARDJONESFJC.nondimensional_relative_gibbs_free_energy_per_link,
    Polymers.ufjc.lennard_jones.thermodynamics.isotensional.asymptotic.nondimensional_gibbs_free_energy,
    Polymers.ufjc.lennard_jones.thermodynamics.isotensional.asymptotic.gibbs_free_energy,
    Polymers.ufjc.lennard_jones.thermodynamics.isotensional.asymptotic.gibbs_free_energy_per_link,
    Polymers.ufjc.lennard_jones.thermodynamics.isotensional.asymptotic.relative_gibbs_free_energy,
    Polymers.ufjc.lennard_jones.thermodynamics.isotensional.asymptotic.relative_gibbs_free_energy_per_link,
    Polymers.ufjc.lennard_jones.thermodynamics.isotensional.asymptotic.nondimensional_relative_gibbs_free_energy,
    Polymers.ufjc.lennard_jones.thermodynamics.isotensional.asymptotic.nondimensional_relative_gibbs_free_energy_per_link]
    [Polymers.ufjc.lennard_jones.thermodynamics.isotensional.asymptotic.nondimensional_gibbs_free_energy_per_link]

example : (lennard_jones_isotensional_asymptotic_gibbs 8 1 1 500).Scales 8 (ndForce 1) :=
  C15_lennard_jones_isotensional_asymptotic_gibbs 8 1 1 500 (by norm_num) (by norm_num)

/-- C16 for the gibbs methods of `src/physics/single_chain/ufjc/lennard_jones/thermodynamics/isotensional/asymptotic/mod.rs`. -/
theorem C16_reference_lennard_jones_isotensional_asymptotic_gibbs (N : ℕ) (ℓ : ℝ) (m : ℝ) (k : ℝ) (hN : 0 < N) (hℓ : 0 < ℓ) :
    (lennard_jones_isotensional_asymptotic_gibbs N ℓ m k).RelativeTo (ndForce ℓ) 1e-6 := by
  refine EnergyMethods.RelativeTo.of_nd hN (C15_lennard_jones_isotensional_asymptotic_gibbs N ℓ m k hN hℓ) ?_
  relative_tac hN [lennard_jones_isotensional_asymptotic_gibbs,
    Polymers.ufjc.lennard_jones.LENNARDJONESFJC.init,
    Polymers.ufjc.lennard_jones.thermodynamics.LENNARDJONESFJC.init,
    Polymers.ufjc.lennard_jones.thermodynamics.isotensional.LENNARDJONESFJC.init,
    Polymers.ufjc.lennard_jones.thermodynamics.isotensional.asymptotic.LENNARDJONESFJC.init,
    Polymers.ufjc.lennard_jones.thermodynamics.isotensional.asymptotic.LENNARDJONESFJC.gibbs_free_energy,
    Polymers.ufjc.lennard_jones.thermodynamics.isotensional.asymptotic.LENNARDJONESFJC.gibbs_free_energy_per_link,
    Polymers.ufjc.lennard_jones.thermodynamics.isotensional.asymptotic.LENNARDJONESFJC.relative_gibbs_free_energy,
    Polymers.ufjc.lennard_jones.thermodynamics.isotensional.asymptotic.LENNARDJONESFJC.relative_gibbs_free_energy_per_link,
    Polymers.ufjc.lennard_jones.thermodynamics.isotensional.asymptotic.LENNARDJONESFJC.nondimensional_gibbs_free_energy,
    Polymers.ufjc.lennard_jones.thermodynamics.isotensional.asymptotic.LENNARDJONESFJC.nondimensional_gibbs_free_energy_per_link,
    Polymers.ufjc.lennard_jones.thermodynamics.isotensional.asymptotic.LENNARDJONESFJC.nondimensional_relative_gibbs_free_energy,
    Polymers.ufjc.lennard_jones.thermodynamics.isotensional.asymptotic.LENNARDJONESFJC.nondimensional_relative_gibbs_free_energy_per_link,
    Polymers.ufjc.lennard_jones.thermodynamics.isotensional.asymptotic.nondimensional_gibbs_free_energy,
    Polymers.ufjc.lennard_jones.thermodynamics.isotensional.asymptotic.gibbs_free_energy,
    Polymers.ufjc.lennard_jones.thermodynamics.isotensional.asymptotic.gibbs_free_energy_per_link,
    Polymers.ufjc.lennard_jones.thermodynamics.isotensional.asymptotic.relative_gibbs_free_energy,
    Polymers.ufjc.lennard_jones.thermodynamics.isotensional.asymptotic.relative_gibbs_free_energy_per_link,
    Polymers.ufjc.lennard_jones.thermodynamics.isotensional.asymptotic.nondimensional_relative_gibbs_free_energy,
    Polymers.ufjc.lennard_jones.thermodynamics.isotensional.asymptotic.nondimensional_relative_gibbs_free_energy_per_link]
    [Polymers.ufjc.lennard_jones.thermodynamics.isotensional.asymptotic.nondimensional_gibbs_free_energy_per_link]

example : (lennard_jones_isotensional_asymptotic_gibbs 8 1 1 500).RelativeTo (ndForce 1) 1e-6 :=
  C16_reference_lennard_jones_isotensional_asymptotic_gibbs 8 1 1 500 (by norm_num) (by norm_num)

/-- C16: the hinge mass does not enter the relative gibbs energies of `src/physics/single_chain/ufjc/lennard_jones/thermodynamics/isotensional/asymptotic/mod.rs`. -/
theorem C16_mass_lennard_jones_isotensional_asymptotic_gibbs (N : ℕ) (ℓ : ℝ) (m : ℝ) (k : ℝ) (m' : ℝ) :
    (lennard_jones_isotensional_asymptotic_gibbs N ℓ m k).SameRelative (lennard_jones_isotensional_asymptotic_gibbs N ℓ m' k) :=
  ⟨rfl, rfl, rfl, rfl⟩

/-- C15 for the lengths methods of `src/physics/single_chain/ufjc/lennard_jones/thermodynamics/isotensional/asymptotic/mod.rs`. -/
theorem C15_lennard_jones_isotensional_asymptotic_lengths (N : ℕ) (ℓ : ℝ) (m : ℝ) (k : ℝ) (hN : 0 < N) (hℓ : 0 < ℓ) :
    (lennard_jones_isotensional_asymptotic_lengths N ℓ m k).Scales N ℓ (ndForce ℓ) := by
  scaling_tac hN hℓ [lennard_jones_isotensional_asymptotic_lengths,
    Polymers.ufjc.lennard_jones.LENNARDJONESFJC.init,
    Polymers.ufjc.lennard_jones.thermodynamics.LENNARDJONESFJC.init,
    Polymers.ufjc.lennard_jones.thermodynamics.isotensional.LENNARDJONESFJC.init,
    Polymers.ufjc.lennard_jones.thermodynamics.isotensional.asymptotic.LENNARDJONESFJC.init,
    Polymers.ufjc.lennard_jones.thermodynamics.isotensional.asymptotic.LENNARDJONESFJC.end_to_end_length,
    Polymers.ufjc.lennard_jones.thermodynamics.isotensional.asymptotic.LENNARDJONESFJC.end_to_end_length_per_link,
    Polymers.ufjc.lennard_jones.thermodynamics.isotensional.asymptotic.LENNARDJONESFJC.nondimensional_end_to_end_length,
    Polymers.ufjc.lennard_jones.thermodynamics.isotensional.asymptotic.LENNARDJONESFJC.nondimensional_end_to_end_length_per_link,
    Polymers.ufjc.lennard_jones.thermodynamics.isotensional.asymptotic.nondimensional_end_to_end_length,
    Polymers.ufjc.lennard_jones.thermodynamics.isotensional.asymptotic.end_to_end_length,
    Polymers.ufjc.lennard_jones.thermodynamics.isotensional.asymptotic.end_to_end_length_per_link]
    [Polymers.ufjc.lennard_jones.thermodynamics.isotensional.asymptotic.nondimensional_end_to_end_length_per_link]

example : (lennard_jones_isotensional_asymptotic_lengths 8 1 1 500).Scales 8 1 (ndForce 1) :=
  C15_lennard_jones_isotensional_asymptotic_lengths 8 1 1 500 (by norm_num) (by norm_num)

/-- C15 for the helmholtz methods of `src/physics/single_chain/ufjc/lennard_jones/thermodynamics/isotensional/legendre/mod.rs`. -/
theorem C15_lennard_jones_isotensional_legendre_helmholtz (N : ℕ) (ℓ : ℝ) (m : ℝ) (k : ℝ) (hN : 0 < N) (hℓ : 0 < ℓ) :
    (lennard_jones_isotensional_legendre_helmholtz N ℓ m k).Scales N (ndForce ℓ) := by
  scaling_tac hN hℓ [lennard_jones_isotensional_legendre_helmholtz,
    Polymers.ufjc.lennard_jones.LENNARDJONESFJC.init,
    Polymers.ufjc.lennard_jones.thermodynamics.LENNARDJONESFJC.init,
    Polymers.ufjc.lennard_jones.thermodynamics.isotensional.LENNARDJONESFJC.init,
    Polymers.ufjc.lennard_jones.thermodynamics.isotensional.legendre.LENNARDJONESFJC.init,
    Polymers.ufjc.lennard_jones.thermodynamics.isotensional.legendre.LENNARDJONESFJC.helmholtz_free_energy,
    Polymers.ufjc.lennard_jones.thermodynamics.isotensional.legendre.LENNARDJONESFJC.helmholtz_free_energy_per_link,
    Polymers.ufjc.lennard_jones.thermodynamics.isotensional.legendre.LENNARDJONESFJC.relative_helmholtz_free_energy,
    Polymers.ufjc.lennard_jones.thermodynamics.isotensional.legendre.LENNARDJONESFJC.relative_helmholtz_free_energy_per_link,
    Polymers.ufjc.lennard_jones.thermodynamics.isotensional.legendre.LENNARDJONESFJC.nondimensional_helmholtz_free_energy,
    Polymers.ufjc.lennard_jones.thermodynamics.isotensional.legendre.LENNARDJONESFJC.nondimensional_helmholtz_free_energy_per_link,
    Polymers.ufjc.lennard_jones.thermodynamics.isotensional.legendre.LENNARDJONESFJC.nondimensional_relative_helmholtz_free_energy,
    Polymers.ufjc.lennard_jones.thermodynamics.isotensional.legendre.LENNARDJONESFJC.nondimensional_relative_helmholtz_free_energy_per_link,
    Polymers.ufjc.lennard_jones.thermodynamics.isotensional.legendre.nondimensional_helmholtz_free_energy,
    Polymers.ufjc.lennard_jones.thermodynamics.isotensional.legendre.helmholtz_free_energy,
    Polymers.ufjc.lennard_jones.thermodynamics.isotensional.legendre.helmholtz_free_energy_per_link,
    Polymers.ufjc.lennard_jones.thermodynamics.isotensional.legendre.relative_helmholtz_free_energy,
    Polymers.ufjc.lennard_jones.thermodynamics.isotensional.legendre.relative_helmholtz_free_energy_per_link,
    Polymers.ufjc.lennard_jones.thermodynamics.isotensional.legendre.nondimensional_relative_helmholtz_free_energy,
    Polymers.ufjc.lennard_jones.thermodynamics.isotensional.legendre.nondimensional_relative_helmholtz_free_energy_per_link]
    [Polymers.ufjc.lennard_jones.thermodynamics.isotensional.legendre.nondimensional_helmholtz_free_energy_per_link]

example : (lennard_jones_isotensional_legendre_helmholtz 8 1 1 500).Scales 8 (ndForce 1) :=
  C15_lennard_jones_isotensional_legendre_helmholtz 8 1 1 500 (by norm_num) (by norm_num)

/-- C16 for the helmholtz methods of `src/physics/single_chain/ufjc/lennard_jones/thermodynamics/isotensional/legendre/mod.rs`. -/
theorem C16_reference_lennard_jones_isotensional_legendre_helmholtz (N : ℕ) (ℓ : ℝ) (m : ℝ) (k : ℝ) (hN : 0 < N) (hℓ : 0 < ℓ) :
    (lennard_jones_isotensional_legendre_helmholtz N ℓ m k).RelativeTo (ndForce ℓ) 1e-6 := by
  refine EnergyMethods.RelativeTo.of_nd hN (C15_lennard_jones_isotensional_legendre_helmholtz N ℓ m k hN hℓ) ?_
  relative_tac hN [lennard_jones_isotensional_legendre_helmholtz,
    Polymers.ufjc.lennard_jones.LENNARDJONESFJC.init,
    Polymers.ufjc.lennard_jones.thermodynamics.LENNARDJONESFJC.init,
    Polymers.ufjc.lennard_jones.thermodynamics.isotensional.LENNARDJONESFJC.init,
    Polymers.ufjc.lennard_jones.thermodynamics.isotensional.legendre.LENNARDJONESFJC.init,
    Polymers.ufjc.lennard_jones.thermodynamics.isotensional.legendre.LENNARDJONESFJC.helmholtz_free_energy,
    Polymers.ufjc.lennard_jones.thermodynamics.isotensional.legendre.LENNARDJONESFJC.helmholtz_free_energy_per_link,
    Polymers.ufjc.lennard_jones.thermodynamics.isotensional.legendre.LENNARDJONESFJC.relative_helmholtz_free_energy,
    Polymers.ufjc.lennard_jones.thermodynamics.isotensional.legendre.LENNARDJONESFJC.relative_helmholtz_free_energy_per_link,
    Polymers.ufjc.lennard_jones.thermodynamics.isotensional.legendre.LENNARDJONESFJC.nondimensional_helmholtz_free_energy,
    Polymers.ufjc.lennard_jones.thermodynamics.isotensional.legendre.LENNARDJONESFJC.nondimensional_helmholtz_free_energy_per_link,
    Polymers.ufjc.lennard_jones.thermodynamics.isotensional.legendre.LENNARDJONESFJC.nondimensional_relative_helmholtz_free_energy,
    Polymers.ufjc.lennard_jones.thermodynamics.isotensional.legendre.LENNARDJONESFJC.nondimensional_relative_helmholtz_free_energy_per_link,
    Polymers.ufjc.lennard_jones.thermodynamics.isotensional.legendre.nondimensional_helmholtz_free_energy,
    Polymers.ufjc.lennard_jones.thermodynamics.isotensional.legendre.helmholtz_free_energy,
    Polymers.ufjc.lennard_jones.thermodynamics.isotensional.legendre.helmholtz_free_energy_per_link,
    Polymers.ufjc.lennard_jones.thermodynamics.isotensional.legendre.relative_helmholtz_free_energy,
    Polymers.ufjc.lennard_jones.thermodynamics.isotensional.legendre.relative_helmholtz_free_energy_per_link,
    Polymers.ufjc.lennard_jones.thermodynamics.isotensional.legendre.nondimensional_relative_helmholtz_free_energy,
    Polymers.ufjc.lennard_jones.thermodynamics.isotensional.legendre.nondimensional_relative_helmholtz_free_energy_per_link]
    [Polymers.ufjc.lennard_jones.thermodynamics.isotensional.legendre.nondimensional_helmholtz_free_energy_per_link]

example : (lennard_jones_isotensional_legendre_helmholtz 8 1 1 500).RelativeTo (ndForce 1) 1e-6 :=
  C16_reference_lennard_jones_isotensional_legendre_helmholtz 8 1 1 500 (by norm_num) (by norm_num)

/-- C16: the hinge mass does not enter the relative helmholtz energies of `src/physics/single_chain/ufjc/lennard_jones/thermodynamics/isotensional/legendre/mod.rs`. -/
theorem C16_mass_lennard_jones_isotensional_legendre_helmholtz (N : ℕ) (ℓ : ℝ) (m : ℝ) (k : ℝ) (m' : ℝ) :
    (lennard_jones_isotensional_legendre_helmholtz N ℓ m k).SameRelative (lennard_jones_isotensional_legendre_helmholtz N ℓ m' k) :=
  ⟨rfl, rfl, rfl, rfl⟩

/-- C15 for the gibbs methods of `src/physics/single_chain/ufjc/lennard_jones/thermodynamics/isotensional/mod.rs`. -/
theorem C15_lennard_jones_isotensional_gibbs (N : ℕ) (ℓ : ℝ) (m : ℝ) (k : ℝ) (hN : 0 < N) (hℓ : 0 < ℓ) :
    (lennard_jones_isotensional_gibbs N ℓ m k).Scales N (ndForce ℓ) := by
  scaling_tac hN hℓ [lennard_jones_isotensional_gibbs,
    Polymers.ufjc.lennard_jones.LENNARDJONESFJC.init,
    Polymers.ufjc.lennard_jones.thermodynamics.LENNARDJONESFJC.init,
    Polymers.ufjc.lennard_jones.thermodynamics.isotensional.LENNARDJONESFJC.init,
    Polymers.ufjc.lennard_jones.thermodynamics.isotensional.LENNARDJONESFJC.gibbs_free_energy,
    Polymers.ufjc.lennard_jones.thermodynamics.isotensional.LENNARDJONESFJC.gibbs_free_energy_per_link,
    Polymers.ufjc.lennard_jones.thermodynamics.isotensional.LENNARDJONESFJC.relative_gibbs_free_energy,
    Polymers.ufjc.lennard_jones.thermodynamics.isotensional.LENNARDJONESFJC.relative_gibbs_free_energy_per_link,
    Polymers.ufjc.lennard_jones.thermodynamics.isotensional.LENNARDJONESFJC.nondimensional_gibbs_free_energy,
    Polymers.ufjc.lennard_jones.thermodynamics.isotensional.LENNARDJONESFJC.nondimensional_gibbs_free_energy_per_link,
    Polymers.ufjc.lennard_jones.thermodynamics.isotensional.LENNARDJONESFJC.nondimensional_relative_gibbs_free_energy,
    Polymers.ufjc.lennard_jones.thermodynamics.isotensional.LENNARDJONESFJC.nondimensional_relative_gibbs_free_energy_per_link,
    Polymers.ufjc.lennard_jones.thermodynamics.isotensional.nondimensional_gibbs_free_energy,
    Polymers.ufjc.lennard_jones.thermodynamics.isotensional.gibbs_free_energy,
    Polymers.ufjc.lennard_jones.thermodynamics.isotensional.gibbs_free_energy_per_link,
    Polymers.ufjc.lennard_jones.thermodynamics.isotensional.relative_gibbs_free_energy,
    Polymers.ufjc.lennard_jones.thermodynamics.isotensional.relative_gibbs_free_energy_per_link,
    Polymers.ufjc.lennard_jones.thermodynamics.isotensional.nondimensional_relative_gibbs_free_energy,
    Polymers.ufjc.lennard_jones.thermodynamics.isotensional.nondimensional_relative_gibbs_free_energy_per_link]
    [Polymers.ufjc.lennard_jones.thermodynamics.isotensional.nondimensional_gibbs_free_energy_per_link]

example : (lennard_jones_isotensional_gibbs 8 1 1 500).Scales 8 (ndForce 1) :=
  C15_lennard_jones_isotensional_gibbs 8 1 1 500 (by norm_num) (by norm_num)

/-- C16 for the gibbs methods of `src/physics/single_chain/ufjc/lennard_jones/thermodynamics/isotensional/mod.rs`. -/
theorem C16_reference_lennard_jones_isotensional_gibbs (N : ℕ) (ℓ : ℝ) (m : ℝ) (k : ℝ) (hN : 0 < N) (hℓ : 0 < ℓ) :
    (lennard_jones_isotensional_gibbs N ℓ m k).RelativeTo (ndForce ℓ) 1e-6 := by
  refine EnergyMethods.RelativeTo.of_nd hN (C15_lennard_jones_isotensional_gibbs N ℓ m k hN hℓ) ?_
  relative_tac hN [lennard_jones_isotensional_gibbs,
    Polymers.ufjc.lennard_jones.LENNARDJONESFJC.init,
    Polymers.ufjc.lennard_jones.thermodynamics.LENNARDJONESFJC.init,
    Polymers.ufjc.lennard_jones.thermodynamics.isotensional.LENNARDJONESFJC.init,
    Polymers.ufjc.lennard_jones.thermodynamics.isotensional.LENNARDJONESFJC.gibbs_free_energy,
    Polymers.ufjc.lennard_jones.thermodynamics.isotensional.LENNARDJONESFJC.gibbs_free_energy_per_link,
    Polymers.ufjc.lennard_jones.thermodynamics.isotensional.LENNARDJONESFJC.relative_gibbs_free_energy,
    Polymers.ufjc.lennard_jones.thermodynamics.isotensional.LENNARDJONESFJC.relative_gibbs_free_energy_per_link,
    Polymers.ufjc.lennard_jones.thermodynamics.isotensional.LENNARDJONESFJC.nondimensional_gibbs_free_energy,
    Polymers.ufjc.lennard_jones.thermodynamics.isotensional.LENNARDJONESFJC.nondimensional_gibbs_free_energy_per_link,
    Polymers.ufjc.lennard_jones.thermodynamics.isotensional.LENNARDJONESFJC.nondimensional_relative_gibbs_free_energy,
    Polymers.ufjc.lennard_jones.thermodynamics.isotensional.LENNARDJONESFJC.nondimensional_relative_gibbs_free_energy_per_link,
    Polymers.ufjc.lennard_jones.thermodynamics.isotensional.nondimensional_gibbs_free_energy,
    Polymers.ufjc.lennard_jones.thermodynamics.isotensional.gibbs_free_energy,
    Polymers.ufjc.lennard_jones.thermodynamics.isotensional.gibbs_free_energy_per_link,
    Polymers.ufjc.lennard_jones.thermodynamics.isotensional.relative_gibbs_free_energy,
    Polymers.ufjc.lennard_jones.thermodynamics.isotensional.relative_gibbs_free_energy_per_link,
    Polymers.ufjc.lennard_jones.thermodynamics.isotensional.nondimensional_relative_gibbs_free_energy,
    Polymers.ufjc.lennard_jones.thermodynamics.isotensional.nondimensional_relative_gibbs_free_energy_per_link]
    [Polymers.ufjc.lennard_jones.thermodynamics.isotensional.nondimensional_gibbs_free_energy_per_link]

example : (lennard_jones_isotensional_gibbs 8 1 1 500).RelativeTo (ndForce 1) 1e-6 :=
  C16_reference_lennard_jones_isotensional_gibbs 8 1 1 500 (by norm_num) (by norm_num)

/-- C16: the hinge mass does not enter the relative gibbs energies of `src/physics/single_chain/ufjc/lennard_jones/thermodynamics/isotensional/mod.rs`. -/
theorem C16_mass_lennard_jones_isotensional_gibbs (N : ℕ) (ℓ : ℝ) (m : ℝ) (k : ℝ) (m' : ℝ) :
    (lennard_jones_isotensional_gibbs N ℓ m k).SameRelative (lennard_jones_isotensional_gibbs N ℓ m' k) :=
  ⟨rfl, rfl, rfl, rfl⟩

/-- C15 for the lengths methods of `src/physics/single_chain/ufjc/lennard_jones/thermodynamics/isotensional/mod.rs`. -/
theorem C15_lennard_jones_isotensional_lengths (N : ℕ) (ℓ : ℝ) (m : ℝ) (k : ℝ) (hN : 0 < N) (hℓ : 0 < ℓ) :
    (lennard_jones_isotensional_lengths N ℓ m k).Scales N ℓ (ndForce ℓ) := by
  scaling_tac hN hℓ [lennard_jones_isotensional_lengths,
    Polymers.ufjc.lennard_jones.LENNARDJONESFJC.init,
    Polymers.ufjc.lennard_jones.thermodynamics.LENNARDJONESFJC.init,
    Polymers.ufjc.lennard_jones.thermodynamics.isotensional.LENNARDJONESFJC.init,
    Polymers.ufjc.lennard_jones.thermodynamics.isotensional.LENNARDJONESFJC.end_to_end_length,
    Polymers.ufjc.lennard_jones.thermodynamics.isotensional.LENNARDJONESFJC.end_to_end_length_per_link,
    Polymers.ufjc.lennard_jones.thermodynamics.isotensional.LENNARDJONESFJC.nondimensional_end_to_end_length,
    Polymers.ufjc.lennard_jones.thermodynamics.isotensional.LENNARDJONESFJC.nondimensional_end_to_end_length_per_link,
    Polymers.ufjc.lennard_jones.thermodynamics.isotensional.nondimensional_end_to_end_length,
    Polymers.ufjc.lennard_jones.thermodynamics.isotensional.end_to_end_length,
    Polymers.ufjc.lennard_jones.thermodynamics.isotensional.end_to_end_length_per_link]
    [Polymers.ufjc.lennard_jones.thermodynamics.isotensional.nondimensional_end_to_end_length_per_link]

example : (lennard_jones_isotensional_lengths 8 1 1 500).Scales 8 1 (ndForce 1) :=
  C15_lennard_jones_isotensional_lengths 8 1 1 500 (by norm_num) (by norm_num)

end Polymers.Props
