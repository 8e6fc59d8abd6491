/- Generated by tools/gen_scaling.py ; do not edit by hand. -/
import Verif.Spec.Api
import Verif.Lemmas.Scaling

set_option maxRecDepth 4000
set_option maxHeartbeats 1000000

namespace Polymers.Props

open Polymers.Spec Polymers.Api

/-- C15 for the gibbs methods of `src/physics/single_chain/fjc/thermodynamics/isometric/legendre/mod.rs`. -/
theorem C15_fjc_isometric_legendre_gibbs (N : ℕ) (ℓ : ℝ) (m : ℝ) (hN : 0 < N) (hℓ : 0 < ℓ) :
    (fjc_isometric_legendre_gibbs N ℓ m).Scales N (ndLength N ℓ) := by
  scaling_tac hN hℓ [fjc_isometric_legendre_gibbs,
    Polymers.fjc.FJC.init, Polymers.fjc.thermodynamics.FJC.init, Polymers.fjc.thermodynamics.isometric.FJC.init,
    Polymers.fjc.thermodynamics.isometric.legendre.FJC.init,
    Polymers.fjc.thermodynamics.isometric.legendre.FJC.gibbs_free_energy,
    Polymers.fjc.thermodynamics.isometric.legendre.FJC.gibbs_free_energy_per_link,
    Polymers.fjc.thermodynamics.isometric.legendre.FJC.relative_gibbs_free_energy,
    Polymers.fjc.thermodynamics.isometric.legendre.FJC.relative_gibbs_free_energy_per_link,
    Polymers.fjc.thermodynamics.isometric.legendre.FJC.nondimensional_gibbs_free_energy,
    Polymers.fjc.thermodynamics.isometric.legendre.FJC.nondimensional_gibbs_free_energy_per_link,
    Polymers.fjc.thermodynamics.isometric.legendre.FJC.nondimensional_relative_gibbs_free_energy,
    Polymers.fjc.thermodynamics.isometric.legendre.FJC.nondimensional_relative_gibbs_free_energy_per_link,
    Polymers.fjc.thermodynamics.isometric.legendre.nondimensional_gibbs_free_energy,
    Polymers.fjc.thermodynamics.isometric.legendre.gibbs_free_energy,
    Polymers.fjc.thermodynamics.isometric.legendre.gibbs_free_energy_per_link,
    Polymers.fjc.thermodynamics.isometric.legendre.nondimensional_relative_gibbs_free_energy,
    Polymers.fjc.thermodynamics.isometric.legendre.relative_gibbs_free_energy,
    Polymers.fjc.thermodynamics.isometric.legendre.nondimensional_relative_gibbs_free_energy_per_link,
    Polymers.fjc.thermodynamics.isometric.legendre.relative_gibbs_free_energy_per_link]
    [Polymers.fjc.thermodynamics.isometric.legendre.nondimensional_gibbs_free_energy_per_link]

example : (fjc_isometric_legendre_gibbs 8 1 1).Scales 8 (ndLength 8 1) :=
  C15_fjc_isometric_legendre_gibbs 8 1 1 (by norm_num) (by norm_num)

/-- C16: the hinge mass does not enter the relative gibbs energies of `src/physics/single_chain/fjc/thermodynamics/isometric/legendre/mod.rs`. -/
theorem C16_mass_fjc_isometric_legendre_gibbs (N : ℕ) (ℓ : ℝ) (m : ℝ) (m' : ℝ) :
    (fjc_isometric_legendre_gibbs N ℓ m).SameRelative (fjc_isometric_legendre_gibbs N ℓ m') :=
  ⟨rfl, rfl, rfl, rfl⟩

/-- C15 for the helmholtz methods of `src/physics/single_chain/fjc/thermodynamics/isometric/legendre/mod.rs`. -/
theorem C15_fjc_isometric_legendre_helmholtz (N : ℕ) (ℓ : ℝ) (m : ℝ) (hN : 0 < N) (hℓ : 0 < ℓ) :
    (fjc_isometric_legendre_helmholtz N ℓ m).Scales N (ndLength N ℓ) := by
  scaling_tac hN hℓ [fjc_isometric_legendre_helmholtz,
    Polymers.fjc.FJC.init, Polymers.fjc.thermodynamics.FJC.init, Polymers.fjc.thermodynamics.isometric.FJC.init,
    Polymers.fjc.thermodynamics.isometric.legendre.FJC.init,
    Polymers.fjc.thermodynamics.isometric.legendre.FJC.helmholtz_free_energy,
    Polymers.fjc.thermodynamics.isometric.legendre.FJC.helmholtz_free_energy_per_link,
    Polymers.fjc.thermodynamics.isometric.legendre.FJC.relative_helmholtz_free_energy,
    Polymers.fjc.thermodynamics.isometric.legendre.FJC.relative_helmholtz_free_energy_per_link,
    Polymers.fjc.thermodynamics.isometric.legendre.FJC.nondimensional_helmholtz_free_energy,
    Polymers.fjc.thermodynamics.isometric.legendre.FJC.nondimensional_helmholtz_free_energy_per_link,
    Polymers.fjc.thermodynamics.isometric.legendre.FJC.nondimensional_relative_helmholtz_free_energy,
    Polymers.fjc.thermodynamics.isometric.legendre.FJC.nondimensional_relative_helmholtz_free_energy_per_link,
    Polymers.fjc.thermodynamics.isometric.legendre.nondimensional_relative_helmholtz_free_energy_per_link,
    Polymers.fjc.thermodynamics.isometric.legendre.nondimensional_relative_helmholtz_free_energy,
    Polymers.fjc.thermodynamics.isometric.legendre.nondimensional_helmholtz_free_energy,
    Polymers.fjc.thermodynamics.isometric.legendre.helmholtz_free_energy,
    Polymers.fjc.thermodynamics.isometric.legendre.helmholtz_free_energy_per_link,
    Polymers.fjc.thermodynamics.isometric.legendre.relative_helmholtz_free_energy,
    Polymers.fjc.thermodynamics.isometric.legendre.relative_helmholtz_free_energy_per_link]
    [Polymers.fjc.thermodynamics.isometric.legendre.nondimensional_helmholtz_free_energy_per_link]

example : (fjc_isometric_legendre_helmholtz 8 1 1).Scales 8 (ndLength 8 1) :=
  C15_fjc_isometric_legendre_helmholtz 8 1 1 (by norm_num) (by norm_num)

/-- C16: the hinge mass does not enter the relative helmholtz energies of `src/physics/single_chain/fjc/thermodynamics/isometric/legendre/mod.rs`. -/
theorem C16_mass_fjc_isometric_legendre_helmholtz (N : ℕ) (ℓ : ℝ) (m : ℝ) (m' : ℝ) :
    (fjc_isometric_legendre_helmholtz N ℓ m).SameRelative (fjc_isometric_legendre_helmholtz N ℓ m') :=
  ⟨rfl, rfl, rfl, rfl⟩

/-- C15 for the forces methods of `src/physics/single_chain/fjc/thermodynamics/isometric/legendre/mod.rs`. -/
theorem C15_fjc_isometric_legendre_forces (N : ℕ) (ℓ : ℝ) (m : ℝ) (hN : 0 < N) (hℓ : 0 < ℓ) :
    (fjc_isometric_legendre_forces N ℓ m).Scales ℓ (ndLength N ℓ) := by
  scaling_tac hN hℓ [fjc_isometric_legendre_forces,
    Polymers.fjc.FJC.init, Polymers.fjc.thermodynamics.FJC.init, Polymers.fjc.thermodynamics.isometric.FJC.init,
    Polymers.fjc.thermodynamics.isometric.legendre.FJC.init,
    Polymers.fjc.thermodynamics.isometric.legendre.FJC.force,
    Polymers.fjc.thermodynamics.isometric.legendre.FJC.nondimensional_force,
    Polymers.fjc.thermodynamics.isometric.legendre.force]
    [Polymers.fjc.thermodynamics.isometric.legendre.nondimensional_force]

example : (fjc_isometric_legendre_forces 8 1 1).Scales 1 (ndLength 8 1) :=
  C15_fjc_isometric_legendre_forces 8 1 1 (by norm_num) (by norm_num)

/-- C36 for the distribution methods of `src/physics/single_chain/fjc/thermodynamics/isometric/legendre/mod.rs`. -/
theorem C36_scales_fjc_isometric_legendre_distribution (N : ℕ) (ℓ : ℝ) (m : ℝ) (hN : 0 < N) (hℓ : 0 < ℓ) :
    (fjc_isometric_legendre_distribution N ℓ m).Scales Real.pi N ℓ := by
  distribution_tac hN hℓ [fjc_isometric_legendre_distribution,
    Polymers.fjc.FJC.init, Polymers.fjc.thermodynamics.FJC.init, Polymers.fjc.thermodynamics.isometric.FJC.init,
    Polymers.fjc.thermodynamics.isometric.legendre.FJC.init,
    Polymers.fjc.thermodynamics.isometric.legendre.FJC.equilibrium_distribution,
    Polymers.fjc.thermodynamics.isometric.legendre.FJC.nondimensional_equilibrium_distribution,
    Polymers.fjc.thermodynamics.isometric.legendre.FJC.equilibrium_radial_distribution,
    Polymers.fjc.thermodynamics.isometric.legendre.FJC.nondimensional_equilibrium_radial_distribution,
    Polymers.fjc.thermodynamics.isometric.legendre.equilibrium_distribution,
    Polymers.fjc.thermodynamics.isometric.legendre.nondimensional_equilibrium_radial_distribution,
    Polymers.fjc.thermodynamics.isometric.legendre.equilibrium_radial_distribution]

example : (fjc_isometric_legendre_distribution 8 1 1).Scales Real.pi 8 1 :=
  C36_scales_fjc_isometric_legendre_distribution 8 1 1 (by norm_num) (by norm_num)

/-- C15 for the helmholtz methods of `src/physics/single_chain/fjc/thermodynamics/isotensional/legendre/mod.rs`. -/
theorem C15_fjc_isotensional_legendre_helmholtz (N : ℕ) (ℓ : ℝ) (m : ℝ) (hN : 0 < N) (hℓ : 0 < ℓ) :
    (fjc_isotensional_legendre_helmholtz N ℓ m).Scales N (ndForce ℓ) := by
  scaling_tac hN hℓ [fjc_isotensional_legendre_helmholtz,
    Polymers.fjc.FJC.init, Polymers.fjc.thermodynamics.FJC.init, Polymers.fjc.thermodynamics.isotensional.FJC.init,
    Polymers.fjc.thermodynamics.isotensional.legendre.FJC.init,
    Polymers.fjc.thermodynamics.isotensional.legendre.FJC.helmholtz_free_energy,
    Polymers.fjc.thermodynamics.isotensional.legendre.FJC.helmholtz_free_energy_per_link,
    Polymers.fjc.thermodynamics.isotensional.legendre.FJC.relative_helmholtz_free_energy,
    Polymers.fjc.thermodynamics.isotensional.legendre.FJC.relative_helmholtz_free_energy_per_link,
    Polymers.fjc.thermodynamics.isotensional.legendre.FJC.nondimensional_helmholtz_free_energy,
    Polymers.fjc.thermodynamics.isotensional.legendre.FJC.nondimensional_helmholtz_free_energy_per_link,
    Polymers.fjc.thermodynamics.isotensional.legendre.FJC.nondimensional_relative_helmholtz_free_energy,
    Polymers.fjc.thermodynamics.isotensional.legendre.FJC.nondimensional_relative_helmholtz_free_energy_per_link,
    Polymers.fjc.thermodynamics.isotensional.legendre.helmholtz_free_energy,
    Polymers.fjc.thermodynamics.isotensional.legendre.helmholtz_free_energy_per_link,
    Polymers.fjc.thermodynamics.isotensional.legendre.relative_helmholtz_free_energy,
    Polymers.fjc.thermodynamics.isotensional.legendre.relative_helmholtz_free_energy_per_link,
    Polymers.fjc.thermodynamics.isotensional.legendre.nondimensional_helmholtz_free_energy,
    Polymers.fjc.thermodynamics.isotensional.legendre.nondimensional_relative_helmholtz_free_energy,
    Polymers.fjc.thermodynamics.isotensional.legendre.nondimensional_relative_helmholtz_free_energy_per_link]
    [Polymers.fjc.thermodynamics.isotensional.legendre.nondimensional_helmholtz_free_energy_per_link]

example : (fjc_isotensional_legendre_helmholtz 8 1 1).Scales 8 (ndForce 1) :=
  C15_fjc_isotensional_legendre_helmholtz 8 1 1 (by norm_num) (by norm_num)

/-- C16: the hinge mass does not enter the relative helmholtz energies of `src/physics/single_chain/fjc/thermodynamics/isotensional/legendre/mod.rs`. -/
theorem C16_mass_fjc_isotensional_legendre_helmholtz (N : ℕ) (ℓ : ℝ) (m : ℝ) (m' : ℝ) :
    (fjc_isotensional_legendre_helmholtz N ℓ m).SameRelative (fjc_isotensional_legendre_helmholtz N ℓ m') :=
  ⟨rfl, rfl, rfl, rfl⟩

/-- C15 for the helmholtz methods of `src/physics/single_chain/fjc/thermodynamics/isometric/mod.rs`. -/
theorem C15_fjc_isometric_helmholtz (N : ℕ) (ℓ : ℝ) (m : ℝ) (hN : 0 < N) (hℓ : 0 < ℓ) :
    (fjc_isometric_helmholtz N ℓ m).Scales N (ndLength N ℓ) := by
  scaling_tac hN hℓ [fjc_isometric_helmholtz,
    Polymers.fjc.FJC.init, Polymers.fjc.thermodynamics.FJC.init, Polymers.fjc.thermodynamics.isometric.FJC.init,
    Polymers.fjc.thermodynamics.isometric.FJC.helmholtz_free_energy,
    Polymers.fjc.thermodynamics.isometric.FJC.helmholtz_free_energy_per_link,
    Polymers.fjc.thermodynamics.isometric.FJC.relative_helmholtz_free_energy,
    Polymers.fjc.thermodynamics.isometric.FJC.relative_helmholtz_free_energy_per_link,
    Polymers.fjc.thermodynamics.isometric.FJC.nondimensional_helmholtz_free_energy,
    Polymers.fjc.thermodynamics.isometric.FJC.nondimensional_helmholtz_free_energy_per_link,
    Polymers.fjc.thermodynamics.isometric.FJC.nondimensional_relative_helmholtz_free_energy,
    Polymers.fjc.thermodynamics.isometric.FJC.nondimensional_relative_helmholtz_free_energy_per_link,
    Polymers.fjc.thermodynamics.isometric.helmholtz_free_energy,
    Polymers.fjc.thermodynamics.isometric.nondimensional_helmholtz_free_energy_per_link,
    Polymers.fjc.thermodynamics.isometric.helmholtz_free_energy_per_link,
    Polymers.fjc.thermodynamics.isometric.nondimensional_relative_helmholtz_free_energy,
    Polymers.fjc.thermodynamics.isometric.relative_helmholtz_free_energy,
    Polymers.fjc.thermodynamics.isometric.nondimensional_relative_helmholtz_free_energy_per_link,
    Polymers.fjc.thermodynamics.isometric.relative_helmholtz_free_energy_per_link]
    [Polymers.fjc.thermodynamics.isometric.nondimensional_helmholtz_free_energy]

example : (fjc_isometric_helmholtz 8 1 1).Scales 8 (ndLength 8 1) :=
  C15_fjc_isometric_helmholtz 8 1 1 (by norm_num) (by norm_num)

/-- C16: the hinge mass does not enter the relative helmholtz energies of `src/physics/single_chain/fjc/thermodynamics/isometric/mod.rs`. -/
theorem C16_mass_fjc_isometric_helmholtz (N : ℕ) (ℓ : ℝ) (m : ℝ) (m' : ℝ) :
    (fjc_isometric_helmholtz N ℓ m).SameRelative (fjc_isometric_helmholtz N ℓ m') :=
  ⟨rfl, rfl, rfl, rfl⟩

/-- C15 for the forces methods of `src/physics/single_chain/fjc/thermodynamics/isometric/mod.rs`. -/
theorem C15_fjc_isometric_forces (N : ℕ) (ℓ : ℝ) (m : ℝ) (hN : 0 < N) (hℓ : 0 < ℓ) :
    (fjc_isometric_forces N ℓ m).Scales ℓ (ndLength N ℓ) := by
  scaling_tac hN hℓ [fjc_isometric_forces,
    Polymers.fjc.FJC.init, Polymers.fjc.thermodynamics.FJC.init, Polymers.fjc.thermodynamics.isometric.FJC.init,
    Polymers.fjc.thermodynamics.isometric.FJC.force,
    Polymers.fjc.thermodynamics.isometric.FJC.nondimensional_force, Polymers.fjc.thermodynamics.isometric.force]
    [Polymers.fjc.thermodynamics.isometric.nondimensional_force]

example : (fjc_isometric_forces 8 1 1).Scales 1 (ndLength 8 1) :=
  C15_fjc_isometric_forces 8 1 1 (by norm_num) (by norm_num)

/-- C36 for the distribution methods of `src/physics/single_chain/fjc/thermodynamics/isometric/mod.rs`. -/
theorem C36_scales_fjc_isometric_distribution (N : ℕ) (ℓ : ℝ) (m : ℝ) (hN : 0 < N) (hℓ : 0 < ℓ) :
    (fjc_isometric_distribution N ℓ m).Scales Real.pi N ℓ := by
  distribution_tac hN hℓ [fjc_isometric_distribution,
    Polymers.fjc.FJC.init, Polymers.fjc.thermodynamics.FJC.init, Polymers.fjc.thermodynamics.isometric.FJC.init,
    Polymers.fjc.thermodynamics.isometric.FJC.equilibrium_distribution,
    Polymers.fjc.thermodynamics.isometric.FJC.nondimensional_equilibrium_distribution,
    Polymers.fjc.thermodynamics.isometric.FJC.equilibrium_radial_distribution,
    Polymers.fjc.thermodynamics.isometric.FJC.nondimensional_equilibrium_radial_distribution,
    Polymers.fjc.thermodynamics.isometric.equilibrium_distribution,
    Polymers.fjc.thermodynamics.isometric.nondimensional_equilibrium_radial_distribution,
    Polymers.fjc.thermodynamics.isometric.equilibrium_radial_distribution]

example : (fjc_isometric_distribution 8 1 1).Scales Real.pi 8 1 :=
  C36_scales_fjc_isometric_distribution 8 1 1 (by norm_num) (by norm_num)

/-- C15 for the gibbs methods of `src/physics/single_chain/fjc/thermodynamics/isotensional/mod.rs`. -/
theorem C15_fjc_isotensional_gibbs (N : ℕ) (ℓ : ℝ) (m : ℝ) (hN : 0 < N) (hℓ : 0 < ℓ) :
    (fjc_isotensional_gibbs N ℓ m).Scales N (ndForce ℓ) := by
  scaling_tac hN hℓ [fjc_isotensional_gibbs,
    Polymers.fjc.FJC.init, Polymers.fjc.thermodynamics.FJC.init, Polymers.fjc.thermodynamics.isotensional.FJC.init,
    Polymers.fjc.thermodynamics.isotensional.FJC.gibbs_free_energy,
    Polymers.fjc.thermodynamics.isotensional.FJC.gibbs_free_energy_per_link,
    Polymers.fjc.thermodynamics.isotensional.FJC.relative_gibbs_free_energy,
    Polymers.fjc.thermodynamics.isotensional.FJC.relative_gibbs_free_energy_per_link,
    Polymers.fjc.thermodynamics.isotensional.FJC.nondimensional_gibbs_free_energy,
    Polymers.fjc.thermodynamics.isotensional.FJC.nondimensional_gibbs_free_energy_per_link,
    Polymers.fjc.thermodynamics.isotensional.FJC.nondimensional_relative_gibbs_free_energy,
    Polymers.fjc.thermodynamics.isotensional.FJC.nondimensional_relative_gibbs_free_energy_per_link,
    Polymers.fjc.thermodynamics.isotensional.nondimensional_relative_gibbs_free_energy,
    Polymers.fjc.thermodynamics.isotensional.relative_gibbs_free_energy,
    Polymers.fjc.thermodynamics.isotensional.gibbs_free_energy,
    Polymers.fjc.thermodynamics.isotensional.nondimensional_relative_gibbs_free_energy_per_link,
    Polymers.fjc.thermodynamics.isotensional.relative_gibbs_free_energy_per_link,
    Polymers.fjc.thermodynamics.isotensional.gibbs_free_energy_per_link,
    Polymers.fjc.thermodynamics.isotensional.nondimensional_gibbs_free_energy]
    [Polymers.fjc.thermodynamics.isotensional.nondimensional_gibbs_free_energy_per_link]

example : (fjc_isotensional_gibbs 8 1 1).Scales 8 (ndForce 1) :=
  C15_fjc_isotensional_gibbs 8 1 1 (by norm_num) (by norm_num)

/-- C16: the hinge mass does not enter the relative gibbs energies of `src/physics/single_chain/fjc/thermodynamics/isotensional/mod.rs`. -/
theorem C16_mass_fjc_isotensional_gibbs (N : ℕ) (ℓ : ℝ) (m : ℝ) (m' : ℝ) :
    (fjc_isotensional_gibbs N ℓ m).SameRelative (fjc_isotensional_gibbs N ℓ m') :=
  ⟨rfl, rfl, rfl, rfl⟩

/-- C15 for the lengths methods of `src/physics/single_chain/fjc/thermodynamics/isotensional/mod.rs`. -/
theorem C15_fjc_isotensional_lengths (N : ℕ) (ℓ : ℝ) (m : ℝ) (hN : 0 < N) (hℓ : 0 < ℓ) :
    (fjc_isotensional_lengths N ℓ m).Scales N ℓ (ndForce ℓ) := by
  scaling_tac hN hℓ [fjc_isotensional_lengths,
    Polymers.fjc.FJC.init, Polymers.fjc.thermodynamics.FJC.init, Polymers.fjc.thermodynamics.isotensional.FJC.init,
    Polymers.fjc.thermodynamics.isotensional.FJC.end_to_end_length,
    Polymers.fjc.thermodynamics.isotensional.FJC.end_to_end_length_per_link,
    Polymers.fjc.thermodynamics.isotensional.FJC.nondimensional_end_to_end_length,
    Polymers.fjc.thermodynamics.isotensional.FJC.nondimensional_end_to_end_length_per_link,
    Polymers.fjc.thermodynamics.isotensional.end_to_end_length,
    Polymers.fjc.thermodynamics.isotensional.end_to_end_length_per_link,
    Polymers.fjc.thermodynamics.isotensional.nondimensional_end_to_end_length]
    [Polymers.fjc.thermodynamics.isotensional.nondimensional_end_to_end_length_per_link]

example : (fjc_isotensional_lengths 8 1 1).Scales 8 1 (ndForce 1) :=
  C15_fjc_isotensional_lengths 8 1 1 (by norm_num) (by norm_num)

end Polymers.Props
