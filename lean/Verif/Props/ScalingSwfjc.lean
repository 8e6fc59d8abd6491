/- Generated by tools/gen_scaling.py ; do not edit by hand. -/
import Verif.Spec.Api
import Verif.Lemmas.Scaling

set_option maxRecDepth 4000
set_option maxHeartbeats 1000000

namespace Polymers.Props

open Polymers.Spec Polymers.Api

/-- C15 for the helmholtz methods of `src/physics/single_chain/swfjc/thermodynamics/isometric/legendre/mod.rs`. -/
theorem C15_swfjc_isometric_legendre_helmholtz (N : ℕ) (ℓ : ℝ) (m : ℝ) (w : ℝ) (hN : 0 < N) (hℓ : 0 < ℓ) :
    (swfjc_isometric_legendre_helmholtz N ℓ m w).Scales N (ndLength N ℓ) := by
  scaling_tac hN hℓ [swfjc_isometric_legendre_helmholtz,
    Polymers.swfjc.SWFJC.init, Polymers.swfjc.thermodynamics.SWFJC.init,
    Polymers.swfjc.thermodynamics.isometric.SWFJC.init,
    Polymers.swfjc.thermodynamics.isometric.legendre.SWFJC.init,
    Polymers.swfjc.thermodynamics.isometric.legendre.SWFJC.helmholtz_free_energy,
    Polymers.swfjc.thermodynamics.isometric.legendre.SWFJC.helmholtz_free_energy_per_link,
    Polymers.swfjc.thermodynamics.isometric.legendre.SWFJC.relative_helmholtz_free_energy,
    Polymers.swfjc.thermodynamics.isometric.legendre.SWFJC.relative_helmholtz_free_energy_per_link,
    Polymers.swfjc.thermodynamics.isometric.legendre.SWFJC.nondimensional_helmholtz_free_energy,
    Polymers.swfjc.thermodynamics.isometric.legendre.SWFJC.nondimensional_helmholtz_free_energy_per_link,
    Polymers.swfjc.thermodynamics.isometric.legendre.SWFJC.nondimensional_relative_helmholtz_free_energy,
    Polymers.swfjc.thermodynamics.isometric.legendre.SWFJC.nondimensional_relative_helmholtz_free_energy_per_link,
    Polymers.swfjc.thermodynamics.isometric.legendre.nondimensional_helmholtz_free_energy,
    Polymers.swfjc.thermodynamics.isometric.legendre.helmholtz_free_energy,
    Polymers.swfjc.thermodynamics.isometric.legendre.helmholtz_free_energy_per_link,
    Polymers.swfjc.thermodynamics.isometric.legendre.relative_helmholtz_free_energy,
    Polymers.swfjc.thermodynamics.isometric.legendre.relative_helmholtz_free_energy_per_link,
    Polymers.swfjc.thermodynamics.isometric.legendre.nondimensional_relative_helmholtz_free_energy,
    Polymers.swfjc.thermodynamics.isometric.legendre.nondimensional_relative_helmholtz_free_energy_per_link]
    [Polymers.swfjc.thermodynamics.isometric.legendre.nondimensional_helmholtz_free_energy_per_link]

example : (swfjc_isometric_legendre_helmholtz 8 1 1 (1 / 2)).Scales 8 (ndLength 8 1) :=
  C15_swfjc_isometric_legendre_helmholtz 8 1 1 (1 / 2) (by norm_num) (by norm_num)

/-- C16 for the helmholtz methods of `src/physics/single_chain/swfjc/thermodynamics/isometric/legendre/mod.rs`. -/
theorem C16_reference_swfjc_isometric_legendre_helmholtz (N : ℕ) (ℓ : ℝ) (m : ℝ) (w : ℝ) (hN : 0 < N) (hℓ : 0 < ℓ) :
    (swfjc_isometric_legendre_helmholtz N ℓ m w).RelativeTo (ndLength N ℓ) 1e-6 := by
  refine EnergyMethods.RelativeTo.of_nd hN (C15_swfjc_isometric_legendre_helmholtz N ℓ m w hN hℓ) ?_
  relative_tac hN [swfjc_isometric_legendre_helmholtz,
    Polymers.swfjc.SWFJC.init, Polymers.swfjc.thermodynamics.SWFJC.init,
    Polymers.swfjc.thermodynamics.isometric.SWFJC.init,
    Polymers.swfjc.thermodynamics.isometric.legendre.SWFJC.init,
    Polymers.swfjc.thermodynamics.isometric.legendre.SWFJC.helmholtz_free_energy,
    Polymers.swfjc.thermodynamics.isometric.legendre.SWFJC.helmholtz_free_energy_per_link,
    Polymers.swfjc.thermodynamics.isometric.legendre.SWFJC.relative_helmholtz_free_energy,
    Polymers.swfjc.thermodynamics.isometric.legendre.SWFJC.relative_helmholtz_free_energy_per_link,
    Polymers.swfjc.thermodynamics.isometric.legendre.SWFJC.nondimensional_helmholtz_free_energy,
    Polymers.swfjc.thermodynamics.isometric.legendre.SWFJC.nondimensional_helmholtz_free_energy_per_link,
    Polymers.swfjc.thermodynamics.isometric.legendre.SWFJC.nondimensional_relative_helmholtz_free_energy,
    Polymers.swfjc.thermodynamics.isometric.legendre.SWFJC.nondimensional_relative_helmholtz_free_energy_per_link,
    Polymers.swfjc.thermodynamics.isometric.legendre.nondimensional_helmholtz_free_energy,
    Polymers.swfjc.thermodynamics.isometric.legendre.helmholtz_free_energy,
    Polymers.swfjc.thermodynamics.isometric.legendre.helmholtz_free_energy_per_link,
    Polymers.swfjc.thermodynamics.isometric.legendre.relative_helmholtz_free_energy,
    Polymers.swfjc.thermodynamics.isometric.legendre.relative_helmholtz_free_energy_per_link,
    Polymers.swfjc.thermodynamics.isometric.legendre.nondimensional_relative_helmholtz_free_energy,
    Polymers.swfjc.thermodynamics.isometric.legendre.nondimensional_relative_helmholtz_free_energy_per_link]
    [Polymers.swfjc.thermodynamics.isometric.legendre.nondimensional_helmholtz_free_energy_per_link]

example : (swfjc_isometric_legendre_helmholtz 8 1 1 (1 / 2)).RelativeTo (ndLength 8 1) 1e-6 :=
  C16_reference_swfjc_isometric_legendre_helmholtz 8 1 1 (1 / 2) (by norm_num) (by norm_num)

/-- C16: the hinge mass does not enter the relative helmholtz energies of `src/physics/single_chain/swfjc/thermodynamics/isometric/legendre/mod.rs`. -/
theorem C16_mass_swfjc_isometric_legendre_helmholtz (N : ℕ) (ℓ : ℝ) (m : ℝ) (w : ℝ) (m' : ℝ) :
    (swfjc_isometric_legendre_helmholtz N ℓ m w).SameRelative (swfjc_isometric_legendre_helmholtz N ℓ m' w) :=
  ⟨rfl, rfl, rfl, rfl⟩

/-- C15 for the forces methods of `src/physics/single_chain/swfjc/thermodynamics/isometric/legendre/mod.rs`. -/
theorem C15_swfjc_isometric_legendre_forces (N : ℕ) (ℓ : ℝ) (m : ℝ) (w : ℝ) (hN : 0 < N) (hℓ : 0 < ℓ) :
    (swfjc_isometric_legendre_forces N ℓ m w).Scales ℓ (ndLength N ℓ) := by
  scaling_tac hN hℓ [swfjc_isometric_legendre_forces,
    Polymers.swfjc.SWFJC.init, Polymers.swfjc.thermodynamics.SWFJC.init,
    Polymers.swfjc.thermodynamics.isometric.SWFJC.init,
    Polymers.swfjc.thermodynamics.isometric.legendre.SWFJC.init,
    Polymers.swfjc.thermodynamics.isometric.legendre.SWFJC.force,
    Polymers.swfjc.thermodynamics.isometric.legendre.SWFJC.nondimensional_force,
    Polymers.swfjc.thermodynamics.isometric.legendre.force]
    [Polymers.swfjc.thermodynamics.isometric.legendre.nondimensional_force]

example : (swfjc_isometric_legendre_forces 8 1 1 (1 / 2)).Scales 1 (ndLength 8 1) :=
  C15_swfjc_isometric_legendre_forces 8 1 1 (1 / 2) (by norm_num) (by norm_num)

/-- C36 for the distribution methods of `src/physics/single_chain/swfjc/thermodynamics/isometric/legendre/mod.rs`. -/
theorem C36_scales_swfjc_isometric_legendre_distribution (N : ℕ) (ℓ : ℝ) (m : ℝ) (w : ℝ) (hN : 0 < N) (hℓ : 0 < ℓ) :
    (swfjc_isometric_legendre_distribution N ℓ m w).Scales Real.pi N ℓ := by
  distribution_tac hN hℓ [swfjc_isometric_legendre_distribution,
    Polymers.swfjc.SWFJC.init, Polymers.swfjc.thermodynamics.SWFJC.init,
    Polymers.swfjc.thermodynamics.isometric.SWFJC.init,
    Polymers.swfjc.thermodynamics.isometric.legendre.SWFJC.init,
    Polymers.swfjc.thermodynamics.isometric.legendre.SWFJC.equilibrium_distribution,
    Polymers.swfjc.thermodynamics.isometric.legendre.SWFJC.nondimensional_equilibrium_distribution,
    Polymers.swfjc.thermodynamics.isometric.legendre.SWFJC.equilibrium_radial_distribution,
    Polymers.swfjc.thermodynamics.isometric.legendre.SWFJC.nondimensional_equilibrium_radial_distribution,
    Polymers.swfjc.thermodynamics.isometric.legendre.equilibrium_distribution,
    Polymers.swfjc.thermodynamics.isometric.legendre.nondimensional_equilibrium_radial_distribution,
    Polymers.swfjc.thermodynamics.isometric.legendre.equilibrium_radial_distribution]

example : (swfjc_isometric_legendre_distribution 8 1 1 (1 / 2)).Scales Real.pi 8 1 :=
  C36_scales_swfjc_isometric_legendre_distribution 8 1 1 (1 / 2) (by norm_num) (by norm_num)

/-- C15 for the helmholtz methods of `src/physics/single_chain/swfjc/thermodynamics/isotensional/legendre/mod.rs`. -/
theorem C15_swfjc_isotensional_legendre_helmholtz (N : ℕ) (ℓ : ℝ) (m : ℝ) (w : ℝ) (hN : 0 < N) (hℓ : 0 < ℓ) :
    (swfjc_isotensional_legendre_helmholtz N ℓ m w).Scales N (ndForce ℓ) := by
  scaling_tac hN hℓ [swfjc_isotensional_legendre_helmholtz,
    Polymers.swfjc.SWFJC.init, Polymers.swfjc.thermodynamics.SWFJC.init,
    Polymers.swfjc.thermodynamics.isotensional.SWFJC.init,
    Polymers.swfjc.thermodynamics.isotensional.legendre.SWFJC.init,
    Polymers.swfjc.thermodynamics.isotensional.legendre.SWFJC.helmholtz_free_energy,
    Polymers.swfjc.thermodynamics.isotensional.legendre.SWFJC.helmholtz_free_energy_per_link,
    Polymers.swfjc.thermodynamics.isotensional.legendre.SWFJC.relative_helmholtz_free_energy,
    Polymers.swfjc.thermodynamics.isotensional.legendre.SWFJC.relative_helmholtz_free_energy_per_link,
    Polymers.swfjc.thermodynamics.isotensional.legendre.SWFJC.nondimensional_helmholtz_free_energy,
    Polymers.swfjc.thermodynamics.isotensional.legendre.SWFJC.nondimensional_helmholtz_free_energy_per_link,
    Polymers.swfjc.thermodynamics.isotensional.legendre.SWFJC.nondimensional_relative_helmholtz_free_energy,
    Polymers.swfjc.thermodynamics.isotensional.legendre.SWFJC.nondimensional_relative_helmholtz_free_energy_per_link,
    Polymers.swfjc.thermodynamics.isotensional.legendre.nondimensional_helmholtz_free_energy,
    Polymers.swfjc.thermodynamics.isotensional.legendre.helmholtz_free_energy,
    Polymers.swfjc.thermodynamics.isotensional.legendre.helmholtz_free_energy_per_link,
    Polymers.swfjc.thermodynamics.isotensional.legendre.nondimensional_relative_helmholtz_free_energy,
    Polymers.swfjc.thermodynamics.isotensional.legendre.relative_helmholtz_free_energy,
    Polymers.swfjc.thermodynamics.isotensional.legendre.nondimensional_relative_helmholtz_free_energy_per_link,
    Polymers.swfjc.thermodynamics.isotensional.legendre.relative_helmholtz_free_energy_per_link]
    [Polymers.swfjc.thermodynamics.isotensional.legendre.nondimensional_helmholtz_free_energy_per_link]

example : (swfjc_isotensional_legendre_helmholtz 8 1 1 (1 / 2)).Scales 8 (ndForce 1) :=
  C15_swfjc_isotensional_legendre_helmholtz 8 1 1 (1 / 2) (by norm_num) (by norm_num)

/-- C16 for the helmholtz methods of `src/physics/single_chain/swfjc/thermodynamics/isotensional/legendre/mod.rs`. -/
theorem C16_reference_swfjc_isotensional_legendre_helmholtz (N : ℕ) (ℓ : ℝ) (m : ℝ) (w : ℝ) (hN : 0 < N) (hℓ : 0 < ℓ) :
    (swfjc_isotensional_legendre_helmholtz N ℓ m w).RelativeTo (ndForce ℓ) 1e-6 := by
  refine EnergyMethods.RelativeTo.of_nd hN (C15_swfjc_isotensional_legendre_helmholtz N ℓ m w hN hℓ) ?_
  relative_tac hN [swfjc_isotensional_legendre_helmholtz,
    Polymers.swfjc.SWFJC.init, Polymers.swfjc.thermodynamics.SWFJC.init,
    Polymers.swfjc.thermodynamics.isotensional.SWFJC.init,
    Polymers.swfjc.thermodynamics.isotensional.legendre.SWFJC.init,
    Polymers.swfjc.thermodynamics.isotensional.legendre.SWFJC.helmholtz_free_energy,
    Polymers.swfjc.thermodynamics.isotensional.legendre.SWFJC.helmholtz_free_energy_per_link,
    Polymers.swfjc.thermodynamics.isotensional.legendre.SWFJC.relative_helmholtz_free_energy,
    Polymers.swfjc.thermodynamics.isotensional.legendre.SWFJC.relative_helmholtz_free_energy_per_link,
    Polymers.swfjc.thermodynamics.isotensional.legendre.SWFJC.nondimensional_helmholtz_free_energy,
    Polymers.swfjc.thermodynamics.isotensional.legendre.SWFJC.nondimensional_helmholtz_free_energy_per_link,
    Polymers.swfjc.thermodynamics.isotensional.legendre.SWFJC.nondimensional_relative_helmholtz_free_energy,
    Polymers.swfjc.thermodynamics.isotensional.legendre.SWFJC.nondimensional_relative_helmholtz_free_energy_per_link,
    Polymers.swfjc.thermodynamics.isotensional.legendre.nondimensional_helmholtz_free_energy,
    Polymers.swfjc.thermodynamics.isotensional.legendre.helmholtz_free_energy,
    Polymers.swfjc.thermodynamics.isotensional.legendre.helmholtz_free_energy_per_link,
    Polymers.swfjc.thermodynamics.isotensional.legendre.nondimensional_relative_helmholtz_free_energy,
    Polymers.swfjc.thermodynamics.isotensional.legendre.relative_helmholtz_free_energy,
    Polymers.swfjc.thermodynamics.isotensional.legendre.nondimensional_relative_helmholtz_free_energy_per_link,
    Polymers.swfjc.thermodynamics.isotensional.legendre.relative_helmholtz_free_energy_per_link]
    [Polymers.swfjc.thermodynamics.isotensional.legendre.nondimensional_helmholtz_free_energy_per_link]

example : (swfjc_isotensional_legendre_helmholtz 8 1 1 (1 / 2)).RelativeTo (ndForce 1) 1e-6 :=
  C16_reference_swfjc_isotensional_legendre_helmholtz 8 1 1 (1 / 2) (by norm_num) (by norm_num)

/-- C16: the hinge mass does not enter the relative helmholtz energies of `src/physics/single_chain/swfjc/thermodynamics/isotensional/legendre/mod.rs`. -/
theorem C16_mass_swfjc_isotensional_legendre_helmholtz (N : ℕ) (ℓ : ℝ) (m : ℝ) (w : ℝ) (m' : ℝ) :
    (swfjc_isotensional_legendre_helmholtz N ℓ m w).SameRelative (swfjc_isotensional_legendre_helmholtz N ℓ m' w) :=
  ⟨rfl, rfl, rfl, rfl⟩

/-- C15 for the gibbs methods of `src/physics/single_chain/swfjc/thermodynamics/isotensional/mod.rs`. -/
theorem C15_swfjc_isotensional_gibbs (N : ℕ) (ℓ : ℝ) (m : ℝ) (w : ℝ) (hN : 0 < N) (hℓ : 0 < ℓ) :
    (swfjc_isotensional_gibbs N ℓ m w).Scales N (ndForce ℓ) := by
  scaling_tac hN hℓ [swfjc_isotensional_gibbs,
    Polymers.swfjc.SWFJC.init, Polymers.swfjc.thermodynamics.SWFJC.init,
    Polymers.swfjc.thermodynamics.isotensional.SWFJC.init,
    Polymers.swfjc.thermodynamics.isotensional.SWFJC.gibbs_free_energy,
    Polymers.swfjc.thermodynamics.isotensional.SWFJC.gibbs_free_energy_per_link,
    Polymers.swfjc.thermodynamics.isotensional.SWFJC.relative_gibbs_free_energy,
    Polymers.swfjc.thermodynamics.isotensional.SWFJC.relative_gibbs_free_energy_per_link,
    Polymers.swfjc.thermodynamics.isotensional.SWFJC.nondimensional_gibbs_free_energy,
    Polymers.swfjc.thermodynamics.isotensional.SWFJC.nondimensional_gibbs_free_energy_per_link,
    Polymers.swfjc.thermodynamics.isotensional.SWFJC.nondimensional_relative_gibbs_free_energy,
    Polymers.swfjc.thermodynamics.isotensional.SWFJC.nondimensional_relative_gibbs_free_energy_per_link,
    Polymers.swfjc.thermodynamics.isotensional.gibbs_free_energy,
    Polymers.swfjc.thermodynamics.isotensional.gibbs_free_energy_per_link,
    Polymers.swfjc.thermodynamics.isotensional.relative_gibbs_free_energy,
    Polymers.swfjc.thermodynamics.isotensional.relative_gibbs_free_energy_per_link,
    Polymers.swfjc.thermodynamics.isotensional.nondimensional_gibbs_free_energy,
    Polymers.swfjc.thermodynamics.isotensional.nondimensional_relative_gibbs_free_energy,
    Polymers.swfjc.thermodynamics.isotensional.nondimensional_relative_gibbs_free_energy_per_link]
    [Polymers.swfjc.thermodynamics.isotensional.nondimensional_gibbs_free_energy_per_link]

example : (swfjc_isotensional_gibbs 8 1 1 (1 / 2)).Scales 8 (ndForce 1) :=
  C15_swfjc_isotensional_gibbs 8 1 1 (1 / 2) (by norm_num) (by norm_num)

/-- C16 for the gibbs methods of `src/physics/single_chain/swfjc/thermodynamics/isotensional/mod.rs`. -/
theorem C16_reference_swfjc_isotensional_gibbs (N : ℕ) (ℓ : ℝ) (m : ℝ) (w : ℝ) (hN : 0 < N) (hℓ : 0 < ℓ) :
    (swfjc_isotensional_gibbs N ℓ m w).RelativeTo (ndForce ℓ) 1e-6 := by
  refine EnergyMethods.RelativeTo.of_nd hN (C15_swfjc_isotensional_gibbs N ℓ m w hN hℓ) ?_
  relative_tac hN [swfjc_isotensional_gibbs,
    Polymers.swfjc.SWFJC.init, Polymers.swfjc.thermodynamics.SWFJC.init,
    Polymers.swfjc.thermodynamics.isotensional.SWFJC.init,
    Polymers.swfjc.thermodynamics.isotensional.SWFJC.gibbs_free_energy,
    Polymers.swfjc.thermodynamics.isotensional.SWFJC.gibbs_free_energy_per_link,
    Polymers.swfjc.thermodynamics.isotensional.SWFJC.relative_gibbs_free_energy,
    Polymers.swfjc.thermodynamics.isotensional.SWFJC.relative_gibbs_free_energy_per_link,
    Polymers.swfjc.thermodynamics.isotensional.SWFJC.nondimensional_gibbs_free_energy,
    Polymers.swfjc.thermodynamics.isotensional.SWFJC.nondimensional_gibbs_free_energy_per_link,
    Polymers.swfjc.thermodynamics.isotensional.SWFJC.nondimensional_relative_gibbs_free_energy,
    Polymers.swfjc.thermodynamics.isotensional.SWFJC.nondimensional_relative_gibbs_free_energy_per_link,
    Polymers.swfjc.thermodynamics.isotensional.gibbs_free_energy,
    Polymers.swfjc.thermodynamics.isotensional.gibbs_free_energy_per_link,
    Polymers.swfjc.thermodynamics.isotensional.relative_gibbs_free_energy,
    Polymers.swfjc.thermodynamics.isotensional.relative_gibbs_free_energy_per_link,
    Polymers.swfjc.thermodynamics.isotensional.nondimensional_gibbs_free_energy,
    Polymers.swfjc.thermodynamics.isotensional.nondimensional_relative_gibbs_free_energy,
    Polymers.swfjc.thermodynamics.isotensional.nondimensional_relative_gibbs_free_energy_per_link]
    [Polymers.swfjc.thermodynamics.isotensional.nondimensional_gibbs_free_energy_per_link]

example : (swfjc_isotensional_gibbs 8 1 1 (1 / 2)).RelativeTo (ndForce 1) 1e-6 :=
  C16_reference_swfjc_isotensional_gibbs 8 1 1 (1 / 2) (by norm_num) (by norm_num)

/-- C16: the hinge mass does not enter the relative gibbs energies of `src/physics/single_chain/swfjc/thermodynamics/isotensional/mod.rs`. -/
theorem C16_mass_swfjc_isotensional_gibbs (N : ℕ) (ℓ : ℝ) (m : ℝ) (w : ℝ) (m' : ℝ) :
    (swfjc_isotensional_gibbs N ℓ m w).SameRelative (swfjc_isotensional_gibbs N ℓ m' w) :=
  ⟨rfl, rfl, rfl, rfl⟩

/-- C15 for the lengths methods of `src/physics/single_chain/swfjc/thermodynamics/isotensional/mod.rs`. -/
theorem C15_swfjc_isotensional_lengths (N : ℕ) (ℓ : ℝ) (m : ℝ) (w : ℝ) (hN : 0 < N) (hℓ : 0 < ℓ) :
    (swfjc_isotensional_lengths N ℓ m w).Scales N ℓ (ndForce ℓ) := by
  scaling_tac hN hℓ [swfjc_isotensional_lengths,
    Polymers.swfjc.SWFJC.init, Polymers.swfjc.thermodynamics.SWFJC.init,
    Polymers.swfjc.thermodynamics.isotensional.SWFJC.init,
    Polymers.swfjc.thermodynamics.isotensional.SWFJC.end_to_end_length,
    Polymers.swfjc.thermodynamics.isotensional.SWFJC.end_to_end_length_per_link,
    Polymers.swfjc.thermodynamics.isotensional.SWFJC.nondimensional_end_to_end_length,
    Polymers.swfjc.thermodynamics.isotensional.SWFJC.nondimensional_end_to_end_length_per_link,
    Polymers.swfjc.thermodynamics.isotensional.end_to_end_length,
    Polymers.swfjc.thermodynamics.isotensional.end_to_end_length_per_link,
    Polymers.swfjc.thermodynamics.isotensional.nondimensional_end_to_end_length]
    [Polymers.swfjc.thermodynamics.isotensional.nondimensional_end_to_end_length_per_link]

example : (swfjc_isotensional_lengths 8 1 1 (1 / 2)).Scales 8 1 (ndForce 1) :=
  C15_swfjc_isotensional_lengths 8 1 1 (1 / 2) (by norm_num) (by norm_num)

end Polymers.Props
