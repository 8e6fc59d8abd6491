/- Generated by tools/gen_scaling.py ; do not edit by hand. -/
import Verif.Spec.Api
import Verif.Lemmas.Scaling

set_option maxRecDepth 4000
set_option maxHeartbeats 1000000

namespace Polymers.Props

open Polymers.Spec Polymers.Api

/-- C15 for the helmholtz methods of `src/physics/single_chain/ideal/thermodynamics/isometric/mod.rs`. -/
theorem C15_ideal_isometric_helmholtz (N : ℕ) (ℓ : ℝ) (m : ℝ) (hN : 0 < N) (hℓ : 0 < ℓ) :
    (ideal_isometric_helmholtz N ℓ m).Scales N (ndLength N ℓ) := by
  scaling_tac hN hℓ [ideal_isometric_helmholtz,
    Polymers.ideal.Ideal.init, Polymers.ideal.thermodynamics.Ideal.init,
    Polymers.ideal.thermodynamics.isometric.Ideal.init,
    Polymers.ideal.thermodynamics.isometric.Ideal.helmholtz_free_energy,
    Polymers.ideal.thermodynamics.isometric.Ideal.helmholtz_free_energy_per_link,
    Polymers.ideal.thermodynamics.isometric.Ideal.relative_helmholtz_free_energy,
    Polymers.ideal.thermodynamics.isometric.Ideal.relative_helmholtz_free_energy_per_link,
    Polymers.ideal.thermodynamics.isometric.Ideal.nondimensional_helmholtz_free_energy,
    Polymers.ideal.thermodynamics.isometric.Ideal.nondimensional_helmholtz_free_energy_per_link,
    Polymers.ideal.thermodynamics.isometric.Ideal.nondimensional_relative_helmholtz_free_energy,
    Polymers.ideal.thermodynamics.isometric.Ideal.nondimensional_relative_helmholtz_free_energy_per_link,
    Polymers.ideal.thermodynamics.isometric.helmholtz_free_energy,
    Polymers.ideal.thermodynamics.isometric.helmholtz_free_energy_per_link,
    Polymers.ideal.thermodynamics.isometric.nondimensional_relative_helmholtz_free_energy,
    Polymers.ideal.thermodynamics.isometric.relative_helmholtz_free_energy,
    Polymers.ideal.thermodynamics.isometric.nondimensional_relative_helmholtz_free_energy_per_link,
    Polymers.ideal.thermodynamics.isometric.relative_helmholtz_free_energy_per_link,
    Polymers.ideal.thermodynamics.isometric.nondimensional_helmholtz_free_energy]
    [Polymers.ideal.thermodynamics.isometric.nondimensional_helmholtz_free_energy_per_link]

example : (ideal_isometric_helmholtz 8 1 1).Scales 8 (ndLength 8 1) :=
  C15_ideal_isometric_helmholtz 8 1 1 (by norm_num) (by norm_num)

/-- C16: the hinge mass does not enter the relative helmholtz energies of `src/physics/single_chain/ideal/thermodynamics/isometric/mod.rs`. -/
theorem C16_mass_ideal_isometric_helmholtz (N : ℕ) (ℓ : ℝ) (m : ℝ) (m' : ℝ) :
    (ideal_isometric_helmholtz N ℓ m).SameRelative (ideal_isometric_helmholtz N ℓ m') :=
  ⟨rfl, rfl, rfl, rfl⟩

/-- C15 for the forces methods of `src/physics/single_chain/ideal/thermodynamics/isometric/mod.rs`. -/
theorem C15_ideal_isometric_forces (N : ℕ) (ℓ : ℝ) (m : ℝ) (hN : 0 < N) (hℓ : 0 < ℓ) :
    (ideal_isometric_forces N ℓ m).Scales ℓ (ndLength N ℓ) := by
  scaling_tac hN hℓ [ideal_isometric_forces,
    Polymers.ideal.Ideal.init, Polymers.ideal.thermodynamics.Ideal.init,
    Polymers.ideal.thermodynamics.isometric.Ideal.init, Polymers.ideal.thermodynamics.isometric.Ideal.force,
    Polymers.ideal.thermodynamics.isometric.Ideal.nondimensional_force,
    Polymers.ideal.thermodynamics.isometric.force]
    [Polymers.ideal.thermodynamics.isometric.nondimensional_force]

example : (ideal_isometric_forces 8 1 1).Scales 1 (ndLength 8 1) :=
  C15_ideal_isometric_forces 8 1 1 (by norm_num) (by norm_num)

/-- C15 for the gibbs methods of `src/physics/single_chain/ideal/thermodynamics/isotensional/mod.rs`. -/
theorem C15_ideal_isotensional_gibbs (N : ℕ) (ℓ : ℝ) (m : ℝ) (hN : 0 < N) (hℓ : 0 < ℓ) :
    (ideal_isotensional_gibbs N ℓ m).Scales N (ndForce ℓ) := by
  scaling_tac hN hℓ [ideal_isotensional_gibbs,
    Polymers.ideal.Ideal.init, Polymers.ideal.thermodynamics.Ideal.init,
    Polymers.ideal.thermodynamics.isotensional.Ideal.init,
    Polymers.ideal.thermodynamics.isotensional.Ideal.gibbs_free_energy,
    Polymers.ideal.thermodynamics.isotensional.Ideal.gibbs_free_energy_per_link,
    Polymers.ideal.thermodynamics.isotensional.Ideal.relative_gibbs_free_energy,
    Polymers.ideal.thermodynamics.isotensional.Ideal.relative_gibbs_free_energy_per_link,
    Polymers.ideal.thermodynamics.isotensional.Ideal.nondimensional_gibbs_free_energy,
    Polymers.ideal.thermodynamics.isotensional.Ideal.nondimensional_gibbs_free_energy_per_link,
    Polymers.ideal.thermodynamics.isotensional.Ideal.nondimensional_relative_gibbs_free_energy,
    Polymers.ideal.thermodynamics.isotensional.Ideal.nondimensional_relative_gibbs_free_energy_per_link,
    Polymers.ideal.thermodynamics.isotensional.gibbs_free_energy,
    Polymers.ideal.thermodynamics.isotensional.gibbs_free_energy_per_link,
    Polymers.ideal.thermodynamics.isotensional.relative_gibbs_free_energy,
    Polymers.ideal.thermodynamics.isotensional.relative_gibbs_free_energy_per_link,
    Polymers.ideal.thermodynamics.isotensional.nondimensional_gibbs_free_energy,
    Polymers.ideal.thermodynamics.isotensional.nondimensional_relative_gibbs_free_energy,
    Polymers.ideal.thermodynamics.isotensional.nondimensional_relative_gibbs_free_energy_per_link]
    [Polymers.ideal.thermodynamics.isotensional.nondimensional_gibbs_free_energy_per_link]

example : (ideal_isotensional_gibbs 8 1 1).Scales 8 (ndForce 1) :=
  C15_ideal_isotensional_gibbs 8 1 1 (by norm_num) (by norm_num)

/-- C16: the hinge mass does not enter the relative gibbs energies of `src/physics/single_chain/ideal/thermodynamics/isotensional/mod.rs`. -/
theorem C16_mass_ideal_isotensional_gibbs (N : ℕ) (ℓ : ℝ) (m : ℝ) (m' : ℝ) :
    (ideal_isotensional_gibbs N ℓ m).SameRelative (ideal_isotensional_gibbs N ℓ m') :=
  ⟨rfl, rfl, rfl, rfl⟩

/-- C15 for the lengths methods of `src/physics/single_chain/ideal/thermodynamics/isotensional/mod.rs`. -/
theorem C15_ideal_isotensional_lengths (N : ℕ) (ℓ : ℝ) (m : ℝ) (hN : 0 < N) (hℓ : 0 < ℓ) :
    (ideal_isotensional_lengths N ℓ m).Scales N ℓ (ndForce ℓ) := by
  scaling_tac hN hℓ [ideal_isotensional_lengths,
    Polymers.ideal.Ideal.init, Polymers.ideal.thermodynamics.Ideal.init,
    Polymers.ideal.thermodynamics.isotensional.Ideal.init,
    Polymers.ideal.thermodynamics.isotensional.Ideal.end_to_end_length,
    Polymers.ideal.thermodynamics.isotensional.Ideal.end_to_end_length_per_link,
    Polymers.ideal.thermodynamics.isotensional.Ideal.nondimensional_end_to_end_length,
    Polymers.ideal.thermodynamics.isotensional.Ideal.nondimensional_end_to_end_length_per_link,
    Polymers.ideal.thermodynamics.isotensional.end_to_end_length,
    Polymers.ideal.thermodynamics.isotensional.end_to_end_length_per_link,
    Polymers.ideal.thermodynamics.isotensional.nondimensional_end_to_end_length]
    [Polymers.ideal.thermodynamics.isotensional.nondimensional_end_to_end_length_per_link]

example : (ideal_isotensional_lengths 8 1 1).Scales 8 1 (ndForce 1) :=
  C15_ideal_isotensional_lengths 8 1 1 (by norm_num) (by norm_num)

end Polymers.Props
