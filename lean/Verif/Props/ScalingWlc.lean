/- Generated by tools/gen_scaling.py ; do not edit by hand. -/
import Verif.Spec.Api
import Verif.Lemmas.Scaling

set_option maxRecDepth 4000
set_option maxHeartbeats 1000000

namespace Polymers.Props

open Polymers.Spec Polymers.Api

/-- C15 for the gibbs methods of `src/physics/single_chain/wlc/thermodynamics/isometric/legendre/mod.rs`. -/
theorem C15_wlc_isometric_legendre_gibbs (N : ℕ) (ℓ : ℝ) (m : ℝ) (p : ℝ) (hN : 0 < N) (hℓ : 0 < ℓ) :
    (wlc_isometric_legendre_gibbs N ℓ m p).Scales N (ndLength N ℓ) := by
  scaling_tac hN hℓ [wlc_isometric_legendre_gibbs,
    Polymers.wlc.WLC.init, Polymers.wlc.thermodynamics.WLC.init, Polymers.wlc.thermodynamics.isometric.WLC.init,
    Polymers.wlc.thermodynamics.isometric.legendre.WLC.init,
    Polymers.wlc.thermodynamics.isometric.legendre.WLC.gibbs_free_energy,
    Polymers.wlc.thermodynamics.isometric.legendre.WLC.gibbs_free_energy_per_link,
    Polymers.wlc.thermodynamics.isometric.legendre.WLC.relative_gibbs_free_energy,
    Polymers.wlc.thermodynamics.isometric.legendre.WLC.relative_gibbs_free_energy_per_link,
    Polymers.wlc.thermodynamics.isometric.legendre.WLC.nondimensional_gibbs_free_energy,
    Polymers.wlc.thermodynamics.isometric.legendre.WLC.nondimensional_gibbs_free_energy_per_link,
    Polymers.wlc.thermodynamics.isometric.legendre.WLC.nondimensional_relative_gibbs_free_energy,
    Polymers.wlc.thermodynamics.isometric.legendre.WLC.nondimensional_relative_gibbs_free_energy_per_link,
    Polymers.wlc.thermodynamics.isometric.legendre.gibbs_free_energy,
    Polymers.wlc.thermodynamics.isometric.legendre.nondimensional_gibbs_free_energy_per_link,
    Polymers.wlc.thermodynamics.isometric.legendre.gibbs_free_energy_per_link,
    Polymers.wlc.thermodynamics.isometric.legendre.nondimensional_relative_gibbs_free_energy,
    Polymers.wlc.thermodynamics.isometric.legendre.relative_gibbs_free_energy,
    Polymers.wlc.thermodynamics.isometric.legendre.nondimensional_relative_gibbs_free_energy_per_link,
    Polymers.wlc.thermodynamics.isometric.legendre.relative_gibbs_free_energy_per_link]
    [Polymers.wlc.thermodynamics.isometric.legendre.nondimensional_gibbs_free_energy,
    Polymers.wlc.thermodynamics.isometric.nondimensional_helmholtz_free_energy,
    Polymers.wlc.thermodynamics.isometric.nondimensional_helmholtz_free_energy_per_link]

example : (wlc_isometric_legendre_gibbs 8 1 1 2).Scales 8 (ndLength 8 1) :=
  C15_wlc_isometric_legendre_gibbs 8 1 1 2 (by norm_num) (by norm_num)

/-- C16 for the gibbs methods of `src/physics/single_chain/wlc/thermodynamics/isometric/legendre/mod.rs`. -/
theorem C16_reference_wlc_isometric_legendre_gibbs (N : ℕ) (ℓ : ℝ) (m : ℝ) (p : ℝ) (hN : 0 < N) (hℓ : 0 < ℓ) :
    (wlc_isometric_legendre_gibbs N ℓ m p).RelativeTo (ndLength N ℓ) 1e-6 := by
  refine EnergyMethods.RelativeTo.of_nd hN (C15_wlc_isometric_legendre_gibbs N ℓ m p hN hℓ) ?_
  relative_tac hN [wlc_isometric_legendre_gibbs,
    Polymers.wlc.WLC.init, Polymers.wlc.thermodynamics.WLC.init, Polymers.wlc.thermodynamics.isometric.WLC.init,
    Polymers.wlc.thermodynamics.isometric.legendre.WLC.init,
    Polymers.wlc.thermodynamics.isometric.legendre.WLC.gibbs_free_energy,
    Polymers.wlc.thermodynamics.isometric.legendre.WLC.gibbs_free_energy_per_link,
    Polymers.wlc.thermodynamics.isometric.legendre.WLC.relative_gibbs_free_energy,
    Polymers.wlc.thermodynamics.isometric.legendre.WLC.relative_gibbs_free_energy_per_link,
    Polymers.wlc.thermodynamics.isometric.legendre.WLC.nondimensional_gibbs_free_energy,
    Polymers.wlc.thermodynamics.isometric.legendre.WLC.nondimensional_gibbs_free_energy_per_link,
    Polymers.wlc.thermodynamics.isometric.legendre.WLC.nondimensional_relative_gibbs_free_energy,
    Polymers.wlc.thermodynamics.isometric.legendre.WLC.nondimensional_relative_gibbs_free_energy_per_link,
    Polymers.wlc.thermodynamics.isometric.legendre.gibbs_free_energy,
    Polymers.wlc.thermodynamics.isometric.legendre.nondimensional_gibbs_free_energy_per_link,
    Polymers.wlc.thermodynamics.isometric.legendre.gibbs_free_energy_per_link,
    Polymers.wlc.thermodynamics.isometric.legendre.nondimensional_relative_gibbs_free_energy,
    Polymers.wlc.thermodynamics.isometric.legendre.relative_gibbs_free_energy,
    Polymers.wlc.thermodynamics.isometric.legendre.nondimensional_relative_gibbs_free_energy_per_link,
    Polymers.wlc.thermodynamics.isometric.legendre.relative_gibbs_free_energy_per_link]
    [Polymers.wlc.thermodynamics.isometric.legendre.nondimensional_gibbs_free_energy,
    Polymers.wlc.thermodynamics.isometric.nondimensional_helmholtz_free_energy,
    Polymers.wlc.thermodynamics.isometric.nondimensional_helmholtz_free_energy_per_link]

example : (wlc_isometric_legendre_gibbs 8 1 1 2).RelativeTo (ndLength 8 1) 1e-6 :=
  C16_reference_wlc_isometric_legendre_gibbs 8 1 1 2 (by norm_num) (by norm_num)

/-- C16: the hinge mass does not enter the relative gibbs energies of `src/physics/single_chain/wlc/thermodynamics/isometric/legendre/mod.rs`. -/
theorem C16_mass_wlc_isometric_legendre_gibbs (N : ℕ) (ℓ : ℝ) (m : ℝ) (p : ℝ) (m' : ℝ) :
    (wlc_isometric_legendre_gibbs N ℓ m p).SameRelative (wlc_isometric_legendre_gibbs N ℓ m' p) :=
  ⟨rfl, rfl, rfl, rfl⟩

/-- C15 for the helmholtz methods of `src/physics/single_chain/wlc/thermodynamics/isotensional/legendre/mod.rs`. -/
theorem C15_wlc_isotensional_legendre_helmholtz (N : ℕ) (ℓ : ℝ) (m : ℝ) (p : ℝ) (hN : 0 < N) (hℓ : 0 < ℓ) :
    (wlc_isotensional_legendre_helmholtz N ℓ m p).Scales N (ndForce ℓ) := by
  scaling_tac hN hℓ [wlc_isotensional_legendre_helmholtz,
    Polymers.wlc.WLC.init, Polymers.wlc.thermodynamics.WLC.init, Polymers.wlc.thermodynamics.isotensional.WLC.init,
    Polymers.wlc.thermodynamics.isotensional.legendre.WLC.init,
    Polymers.wlc.thermodynamics.isotensional.legendre.WLC.helmholtz_free_energy,
    Polymers.wlc.thermodynamics.isotensional.legendre.WLC.helmholtz_free_energy_per_link,
    Polymers.wlc.thermodynamics.isotensional.legendre.WLC.relative_helmholtz_free_energy,
    Polymers.wlc.thermodynamics.isotensional.legendre.WLC.relative_helmholtz_free_energy_per_link,
    Polymers.wlc.thermodynamics.isotensional.legendre.WLC.nondimensional_helmholtz_free_energy,
    Polymers.wlc.thermodynamics.isotensional.legendre.WLC.nondimensional_helmholtz_free_energy_per_link,
    Polymers.wlc.thermodynamics.isotensional.legendre.WLC.nondimensional_relative_helmholtz_free_energy,
    Polymers.wlc.thermodynamics.isotensional.legendre.WLC.nondimensional_relative_helmholtz_free_energy_per_link,
    Polymers.wlc.thermodynamics.isotensional.legendre.helmholtz_free_energy,
    Polymers.wlc.thermodynamics.isotensional.legendre.nondimensional_helmholtz_free_energy_per_link,
    Polymers.wlc.thermodynamics.isotensional.legendre.helmholtz_free_energy_per_link,
    Polymers.wlc.thermodynamics.isotensional.legendre.nondimensional_relative_helmholtz_free_energy,
    Polymers.wlc.thermodynamics.isotensional.legendre.relative_helmholtz_free_energy,
    Polymers.wlc.thermodynamics.isotensional.legendre.nondimensional_relative_helmholtz_free_energy_per_link,
    Polymers.wlc.thermodynamics.isotensional.legendre.relative_helmholtz_free_energy_per_link]
    [Polymers.wlc.thermodynamics.isotensional.legendre.nondimensional_helmholtz_free_energy,
    Polymers.wlc.thermodynamics.isotensional.nondimensional_gibbs_free_energy,
    Polymers.wlc.thermodynamics.isotensional.nondimensional_gibbs_free_energy_per_link,
    Polymers.wlc.thermodynamics.isotensional.nondimensional_end_to_end_length]

example : (wlc_isotensional_legendre_helmholtz 8 1 1 2).Scales 8 (ndForce 1) :=
  C15_wlc_isotensional_legendre_helmholtz 8 1 1 2 (by norm_num) (by norm_num)

/-- C16: the hinge mass does not enter the relative helmholtz energies of `src/physics/single_chain/wlc/thermodynamics/isotensional/legendre/mod.rs`. -/
theorem C16_mass_wlc_isotensional_legendre_helmholtz (N : ℕ) (ℓ : ℝ) (m : ℝ) (p : ℝ) (m' : ℝ) :
    (wlc_isotensional_legendre_helmholtz N ℓ m p).SameRelative (wlc_isotensional_legendre_helmholtz N ℓ m' p) :=
  ⟨rfl, rfl, rfl, rfl⟩

/-- C15 for the helmholtz methods of `src/physics/single_chain/wlc/thermodynamics/isometric/mod.rs`. -/
theorem C15_wlc_isometric_helmholtz (N : ℕ) (ℓ : ℝ) (m : ℝ) (p : ℝ) (hN : 0 < N) (hℓ : 0 < ℓ) :
    (wlc_isometric_helmholtz N ℓ m p).Scales N (ndLength N ℓ) := by
  scaling_tac hN hℓ [wlc_isometric_helmholtz,
    Polymers.wlc.WLC.init, Polymers.wlc.thermodynamics.WLC.init, Polymers.wlc.thermodynamics.isometric.WLC.init,
    Polymers.wlc.thermodynamics.isometric.WLC.helmholtz_free_energy,
    Polymers.wlc.thermodynamics.isometric.WLC.helmholtz_free_energy_per_link,
    Polymers.wlc.thermodynamics.isometric.WLC.relative_helmholtz_free_energy,
    Polymers.wlc.thermodynamics.isometric.WLC.relative_helmholtz_free_energy_per_link,
    Polymers.wlc.thermodynamics.isometric.WLC.nondimensional_helmholtz_free_energy,
    Polymers.wlc.thermodynamics.isometric.WLC.nondimensional_helmholtz_free_energy_per_link,
    Polymers.wlc.thermodynamics.isometric.WLC.nondimensional_relative_helmholtz_free_energy,
    Polymers.wlc.thermodynamics.isometric.WLC.nondimensional_relative_helmholtz_free_energy_per_link,
    Polymers.wlc.thermodynamics.isometric.nondimensional_relative_helmholtz_free_energy,
    Polymers.wlc.thermodynamics.isometric.helmholtz_free_energy,
    Polymers.wlc.thermodynamics.isometric.nondimensional_helmholtz_free_energy_per_link,
    Polymers.wlc.thermodynamics.isometric.helmholtz_free_energy_per_link,
    Polymers.wlc.thermodynamics.isometric.relative_helmholtz_free_energy,
    Polymers.wlc.thermodynamics.isometric.nondimensional_relative_helmholtz_free_energy_per_link,
    Polymers.wlc.thermodynamics.isometric.relative_helmholtz_free_energy_per_link]
    [Polymers.wlc.thermodynamics.isometric.nondimensional_helmholtz_free_energy]

example : (wlc_isometric_helmholtz 8 1 1 2).Scales 8 (ndLength 8 1) :=
  C15_wlc_isometric_helmholtz 8 1 1 2 (by norm_num) (by norm_num)

/-- C16 for the helmholtz methods of `src/physics/single_chain/wlc/thermodynamics/isometric/mod.rs`. -/
theorem C16_reference_wlc_isometric_helmholtz (N : ℕ) (ℓ : ℝ) (m : ℝ) (p : ℝ) (hN : 0 < N) (hℓ : 0 < ℓ) :
    (wlc_isometric_helmholtz N ℓ m p).RelativeTo (ndLength N ℓ) 1e-6 := by
  refine EnergyMethods.RelativeTo.of_nd hN (C15_wlc_isometric_helmholtz N ℓ m p hN hℓ) ?_
  relative_tac hN [wlc_isometric_helmholtz,
    Polymers.wlc.WLC.init, Polymers.wlc.thermodynamics.WLC.init, Polymers.wlc.thermodynamics.isometric.WLC.init,
    Polymers.wlc.thermodynamics.isometric.WLC.helmholtz_free_energy,
    Polymers.wlc.thermodynamics.isometric.WLC.helmholtz_free_energy_per_link,
    Polymers.wlc.thermodynamics.isometric.WLC.relative_helmholtz_free_energy,
    Polymers.wlc.thermodynamics.isometric.WLC.relative_helmholtz_free_energy_per_link,
    Polymers.wlc.thermodynamics.isometric.WLC.nondimensional_helmholtz_free_energy,
    Polymers.wlc.thermodynamics.isometric.WLC.nondimensional_helmholtz_free_energy_per_link,
    Polymers.wlc.thermodynamics.isometric.WLC.nondimensional_relative_helmholtz_free_energy,
    Polymers.wlc.thermodynamics.isometric.WLC.nondimensional_relative_helmholtz_free_energy_per_link,
    Polymers.wlc.thermodynamics.isometric.nondimensional_relative_helmholtz_free_energy,
    Polymers.wlc.thermodynamics.isometric.helmholtz_free_energy,
    Polymers.wlc.thermodynamics.isometric.nondimensional_helmholtz_free_energy_per_link,
    Polymers.wlc.thermodynamics.isometric.helmholtz_free_energy_per_link,
    Polymers.wlc.thermodynamics.isometric.relative_helmholtz_free_energy,
    Polymers.wlc.thermodynamics.isometric.nondimensional_relative_helmholtz_free_energy_per_link,
    Polymers.wlc.thermodynamics.isometric.relative_helmholtz_free_energy_per_link]
    [Polymers.wlc.thermodynamics.isometric.nondimensional_helmholtz_free_energy]

example : (wlc_isometric_helmholtz 8 1 1 2).RelativeTo (ndLength 8 1) 1e-6 :=
  C16_reference_wlc_isometric_helmholtz 8 1 1 2 (by norm_num) (by norm_num)

/-- C16: the hinge mass does not enter the relative helmholtz energies of `src/physics/single_chain/wlc/thermodynamics/isometric/mod.rs`. -/
theorem C16_mass_wlc_isometric_helmholtz (N : ℕ) (ℓ : ℝ) (m : ℝ) (p : ℝ) (m' : ℝ) :
    (wlc_isometric_helmholtz N ℓ m p).SameRelative (wlc_isometric_helmholtz N ℓ m' p) :=
  ⟨rfl, rfl, rfl, rfl⟩

/-- C15 for the forces methods of `src/physics/single_chain/wlc/thermodynamics/isometric/mod.rs`. -/
theorem C15_wlc_isometric_forces (N : ℕ) (ℓ : ℝ) (m : ℝ) (p : ℝ) (hN : 0 < N) (hℓ : 0 < ℓ) :
    (wlc_isometric_forces N ℓ m p).Scales ℓ (ndLength N ℓ) := by
  scaling_tac hN hℓ [wlc_isometric_forces,
    Polymers.wlc.WLC.init, Polymers.wlc.thermodynamics.WLC.init, Polymers.wlc.thermodynamics.isometric.WLC.init,
    Polymers.wlc.thermodynamics.isometric.WLC.force,
    Polymers.wlc.thermodynamics.isometric.WLC.nondimensional_force, Polymers.wlc.thermodynamics.isometric.force]
    [Polymers.wlc.thermodynamics.isometric.nondimensional_force]

example : (wlc_isometric_forces 8 1 1 2).Scales 1 (ndLength 8 1) :=
  C15_wlc_isometric_forces 8 1 1 2 (by norm_num) (by norm_num)

/-- C36 for the distribution methods of `src/physics/single_chain/wlc/thermodynamics/isometric/mod.rs`. -/
theorem C36_scales_wlc_isometric_distribution (N : ℕ) (ℓ : ℝ) (m : ℝ) (p : ℝ) (hN : 0 < N) (hℓ : 0 < ℓ) :
    (wlc_isometric_distribution N ℓ m p).Scales Real.pi N ℓ := by
  distribution_tac hN hℓ [wlc_isometric_distribution,
    Polymers.wlc.WLC.init, Polymers.wlc.thermodynamics.WLC.init, Polymers.wlc.thermodynamics.isometric.WLC.init,
    Polymers.wlc.thermodynamics.isometric.WLC.equilibrium_distribution,
    Polymers.wlc.thermodynamics.isometric.WLC.nondimensional_equilibrium_distribution,
    Polymers.wlc.thermodynamics.isometric.WLC.equilibrium_radial_distribution,
    Polymers.wlc.thermodynamics.isometric.WLC.nondimensional_equilibrium_radial_distribution,
    Polymers.wlc.thermodynamics.isometric.equilibrium_distribution,
    Polymers.wlc.thermodynamics.isometric.nondimensional_equilibrium_radial_distribution,
    Polymers.wlc.thermodynamics.isometric.equilibrium_radial_distribution]

example : (wlc_isometric_distribution 8 1 1 2).Scales Real.pi 8 1 :=
  C36_scales_wlc_isometric_distribution 8 1 1 2 (by norm_num) (by norm_num)

/-- C15 for the gibbs methods of `src/physics/single_chain/wlc/thermodynamics/isotensional/mod.rs`. -/
theorem C15_wlc_isotensional_gibbs (N : ℕ) (ℓ : ℝ) (m : ℝ) (p : ℝ) (hN : 0 < N) (hℓ : 0 < ℓ) :
    (wlc_isotensional_gibbs N ℓ m p).Scales N (ndForce ℓ) := by
  scaling_tac hN hℓ [wlc_isotensional_gibbs,
    Polymers.wlc.WLC.init, Polymers.wlc.thermodynamics.WLC.init, Polymers.wlc.thermodynamics.isotensional.WLC.init,
    Polymers.wlc.thermodynamics.isotensional.WLC.gibbs_free_energy,
    Polymers.wlc.thermodynamics.isotensional.WLC.gibbs_free_energy_per_link,
    Polymers.wlc.thermodynamics.isotensional.WLC.relative_gibbs_free_energy,
    Polymers.wlc.thermodynamics.isotensional.WLC.relative_gibbs_free_energy_per_link,
    Polymers.wlc.thermodynamics.isotensional.WLC.nondimensional_gibbs_free_energy,
    Polymers.wlc.thermodynamics.isotensional.WLC.nondimensional_gibbs_free_energy_per_link,
    Polymers.wlc.thermodynamics.isotensional.WLC.nondimensional_relative_gibbs_free_energy,
    Polymers.wlc.thermodynamics.isotensional.WLC.nondimensional_relative_gibbs_free_energy_per_link,
    Polymers.wlc.thermodynamics.isotensional.gibbs_free_energy,
    Polymers.wlc.thermodynamics.isotensional.nondimensional_gibbs_free_energy_per_link,
    Polymers.wlc.thermodynamics.isotensional.gibbs_free_energy_per_link,
    Polymers.wlc.thermodynamics.isotensional.nondimensional_relative_gibbs_free_energy,
    Polymers.wlc.thermodynamics.isotensional.relative_gibbs_free_energy,
    Polymers.wlc.thermodynamics.isotensional.nondimensional_relative_gibbs_free_energy_per_link,
    Polymers.wlc.thermodynamics.isotensional.relative_gibbs_free_energy_per_link]
    [Polymers.wlc.thermodynamics.isotensional.nondimensional_gibbs_free_energy]

example : (wlc_isotensional_gibbs 8 1 1 2).Scales 8 (ndForce 1) :=
  C15_wlc_isotensional_gibbs 8 1 1 2 (by norm_num) (by norm_num)

/-- C16: the hinge mass does not enter the relative gibbs energies of `src/physics/single_chain/wlc/thermodynamics/isotensional/mod.rs`. -/
theorem C16_mass_wlc_isotensional_gibbs (N : ℕ) (ℓ : ℝ) (m : ℝ) (p : ℝ) (m' : ℝ) :
    (wlc_isotensional_gibbs N ℓ m p).SameRelative (wlc_isotensional_gibbs N ℓ m' p) :=
  ⟨rfl, rfl, rfl, rfl⟩

/-- C15 for the lengths methods of `src/physics/single_chain/wlc/thermodynamics/isotensional/mod.rs`. -/
theorem C15_wlc_isotensional_lengths (N : ℕ) (ℓ : ℝ) (m : ℝ) (p : ℝ) (hN : 0 < N) (hℓ : 0 < ℓ) :
    (wlc_isotensional_lengths N ℓ m p).Scales N ℓ (ndForce ℓ) := by
  scaling_tac hN hℓ [wlc_isotensional_lengths,
    Polymers.wlc.WLC.init, Polymers.wlc.thermodynamics.WLC.init, Polymers.wlc.thermodynamics.isotensional.WLC.init,
    Polymers.wlc.thermodynamics.isotensional.WLC.end_to_end_length,
    Polymers.wlc.thermodynamics.isotensional.WLC.end_to_end_length_per_link,
    Polymers.wlc.thermodynamics.isotensional.WLC.nondimensional_end_to_end_length,
    Polymers.wlc.thermodynamics.isotensional.WLC.nondimensional_end_to_end_length_per_link,
    Polymers.wlc.thermodynamics.isotensional.end_to_end_length,
    Polymers.wlc.thermodynamics.isotensional.nondimensional_end_to_end_length_per_link,
    Polymers.wlc.thermodynamics.isotensional.end_to_end_length_per_link]
    [Polymers.wlc.thermodynamics.isotensional.nondimensional_end_to_end_length]

example : (wlc_isotensional_lengths 8 1 1 2).Scales 8 1 (ndForce 1) :=
  C15_wlc_isotensional_lengths 8 1 1 2 (by norm_num) (by norm_num)

end Polymers.Props
