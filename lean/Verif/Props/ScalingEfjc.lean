/- Generated by tools/gen_scaling.py ; do not edit by hand. -/
import Verif.Spec.Api
import Verif.Lemmas.Scaling

set_option maxRecDepth 4000
set_option maxHeartbeats 1000000

namespace Polymers.Props

open Polymers.Spec Polymers.Api

/-- C15 for the helmholtz methods of `src/physics/single_chain/efjc/thermodynamics/isometric/asymptotic/alternative/legendre/mod.rs`. -/
theorem C15_efjc_isometric_asymptotic_alternative_legendre_helmholtz (N : ℕ) (ℓ : ℝ) (m : ℝ) (k : ℝ) (hN : 0 < N) (hℓ : 0 < ℓ) :
    (efjc_isometric_asymptotic_alternative_legendre_helmholtz N ℓ m k).Scales N (ndLength N ℓ) := by
  scaling_tac hN hℓ [efjc_isometric_asymptotic_alternative_legendre_helmholtz,
    Polymers.efjc.EFJC.init, Polymers.efjc.thermodynamics.EFJC.init,
    Polymers.efjc.thermodynamics.isometric.EFJC.init, Polymers.efjc.thermodynamics.isometric.asymptotic.EFJC.init,
    Polymers.efjc.thermodynamics.isometric.asymptotic.alternative.EFJC.init,
    Polymers.efjc.thermodynamics.isometric.asymptotic.alternative.legendre.EFJC.init,
    Polymers.efjc.thermodynamics.isometric.asymptotic.alternative.legendre.EFJC.helmholtz_free_energy,
    Polymers.efjc.thermodynamics.isometric.asymptotic.alternative.legendre.EFJC.helmholtz_free_energy_per_link,
    Polymers.efjc.thermodynamics.isometric.asymptotic.alternative.legendre.EFJC.relative_helmholtz_free_energy,
    Polymers.efjc.thermodynamics.isometric.asymptotic.alternative.legendre.EFJC.relative_helmholtz_free_energy_per_link,
    Polymers.efjc.thermodynamics.isometric.asymptotic.alternative.legendre.EFJC.nondimensional_helmholtz_free_energy,
    Polymers.efjc.thermodynamics.isometric.asymptotic.alternative.legendre.EFJC.nondimensional_helmholtz_free_energy_per_link,
    Polymers.efjc.thermodynamics.isometric.asymptotic.alternative.legendre.EFJC.nondimensional_relative_helmholtz_free_energy,
    Polymers.efjc.thermodynamics.isometric.asymptotic.alternative.legendre.EFJC.nondimensional_relative_helmholtz_free_energy_per_link,
    Polymers.efjc.thermodynamics.isometric.asymptotic.alternative.legendre.nondimensional_helmholtz_free_energy,
    Polymers.efjc.thermodynamics.isometric.asymptotic.alternative.legendre.helmholtz_free_energy,
    Polymers.efjc.thermodynamics.isometric.asymptotic.alternative.legendre.helmholtz_free_energy_per_link,
    Polymers.efjc.thermodynamics.isometric.asymptotic.alternative.legendre.relative_helmholtz_free_energy,
    Polymers.efjc.thermodynamics.isometric.asymptotic.alternative.legendre.relative_helmholtz_free_energy_per_link,
    Polymers.efjc.thermodynamics.isometric.asymptotic.alternative.legendre.nondimensional_relative_helmholtz_free_energy,
    Polymers.efjc.thermodynamics.isometric.asymptotic.alternative.legendre.nondimensional_relative_helmholtz_free_energy_per_link]
    [Polymers.efjc.thermodynamics.isometric.asymptotic.alternative.legendre.nondimensional_helmholtz_free_energy_per_link]

example : (efjc_isometric_asymptotic_alternative_legendre_helmholtz 8 1 1 500).Scales 8 (ndLength 8 1) :=
  C15_efjc_isometric_asymptotic_alternative_legendre_helmholtz 8 1 1 500 (by norm_num) (by norm_num)

/-- C16 for the helmholtz methods of `src/physics/single_chain/efjc/thermodynamics/isometric/asymptotic/alternative/legendre/mod.rs`. -/
theorem C16_reference_efjc_isometric_asymptotic_alternative_legendre_helmholtz (N : ℕ) (ℓ : ℝ) (m : ℝ) (k : ℝ) (hN : 0 < N) (hℓ : 0 < ℓ) :
    (efjc_isometric_asymptotic_alternative_legendre_helmholtz N ℓ m k).RelativeTo (ndLength N ℓ) 1e-6 := by
  refine EnergyMethods.RelativeTo.of_nd hN (C15_efjc_isometric_asymptotic_alternative_legendre_helmholtz N ℓ m k hN hℓ) ?_
  relative_tac hN [efjc_isometric_asymptotic_alternative_legendre_helmholtz,
    Polymers.efjc.EFJC.init, Polymers.efjc.thermodynamics.EFJC.init,
    Polymers.efjc.thermodynamics.isometric.EFJC.init, Polymers.efjc.thermodynamics.isometric.asymptotic.EFJC.init,
    Polymers.efjc.thermodynamics.isometric.asymptotic.alternative.EFJC.init,
    Polymers.efjc.thermodynamics.isometric.asymptotic.alternative.legendre.EFJC.init,
    Polymers.efjc.thermodynamics.isometric.asymptotic.alternative.legendre.EFJC.helmholtz_free_energy,
    Polymers.efjc.thermodynamics.isometric.asymptotic.alternative.legendre.EFJC.helmholtz_free_energy_per_link,
    Polymers.efjc.thermodynamics.isometric.asymptotic.alternative.legendre.EFJC.relative_helmholtz_free_energy,
    Polymers.efjc.thermodynamics.isometric.asymptotic.alternative.legendre.EFJC.relative_helmholtz_free_energy_per_link,
    Polymers.efjc.thermodynamics.isometric.asymptotic.alternative.legendre.EFJC.nondimensional_helmholtz_free_energy,
    Polymers.efjc.thermodynamics.isometric.asymptotic.alternative.legendre.EFJC.nondimensional_helmholtz_free_energy_per_link,
    Polymers.efjc.thermodynamics.isometric.asymptotic.alternative.legendre.EFJC.nondimensional_relative_helmholtz_free_energy,
    Polymers.efjc.thermodynamics.isometric.asymptotic.alternative.legendre.EFJC.nondimensional_relative_helmholtz_free_energy_per_link,
    Polymers.efjc.thermodynamics.isometric.asymptotic.alternative.legendre.nondimensional_helmholtz_free_energy,
    Polymers.efjc.thermodynamics.isometric.asymptotic.alternative.legendre.helmholtz_free_energy,
    Polymers.efjc.thermodynamics.isometric.asymptotic.alternative.legendre.helmholtz_free_energy_per_link,
    Polymers.efjc.thermodynamics.isometric.asymptotic.alternative.legendre.relative_helmholtz_free_energy,
    Polymers.efjc.thermodynamics.isometric.asymptotic.alternative.legendre.relative_helmholtz_free_energy_per_link,
    Polymers.efjc.thermodynamics.isometric.asymptotic.alternative.legendre.nondimensional_relative_helmholtz_free_energy,
    Polymers.efjc.thermodynamics.isometric.asymptotic.alternative.legendre.nondimensional_relative_helmholtz_free_energy_per_link]
    [Polymers.efjc.thermodynamics.isometric.asymptotic.alternative.legendre.nondimensional_helmholtz_free_energy_per_link]

example : (efjc_isometric_asymptotic_alternative_legendre_helmholtz 8 1 1 500).RelativeTo (ndLength 8 1) 1e-6 :=
  C16_reference_efjc_isometric_asymptotic_alternative_legendre_helmholtz 8 1 1 500 (by norm_num) (by norm_num)

/-- C16: the hinge mass does not enter the relative helmholtz energies of `src/physics/single_chain/efjc/thermodynamics/isometric/asymptotic/alternative/legendre/mod.rs`. -/
theorem C16_mass_efjc_isometric_asymptotic_alternative_legendre_helmholtz (N : ℕ) (ℓ : ℝ) (m : ℝ) (k : ℝ) (m' : ℝ) :
    (efjc_isometric_asymptotic_alternative_legendre_helmholtz N ℓ m k).SameRelative (efjc_isometric_asymptotic_alternative_legendre_helmholtz N ℓ m' k) :=
  ⟨rfl, rfl, rfl, rfl⟩

/-- C15 for the forces methods of `src/physics/single_chain/efjc/thermodynamics/isometric/asymptotic/alternative/legendre/mod.rs`. -/
theorem C15_efjc_isometric_asymptotic_alternative_legendre_forces (N : ℕ) (ℓ : ℝ) (m : ℝ) (k : ℝ) (hN : 0 < N) (hℓ : 0 < ℓ) :
    (efjc_isometric_asymptotic_alternative_legendre_forces N ℓ m k).Scales ℓ (ndLength N ℓ) := by
  scaling_tac hN hℓ [efjc_isometric_asymptotic_alternative_legendre_forces,
    Polymers.efjc.EFJC.init, Polymers.efjc.thermodynamics.EFJC.init,
    Polymers.efjc.thermodynamics.isometric.EFJC.init, Polymers.efjc.thermodynamics.isometric.asymptotic.EFJC.init,
    Polymers.efjc.thermodynamics.isometric.asymptotic.alternative.EFJC.init,
    Polymers.efjc.thermodynamics.isometric.asymptotic.alternative.legendre.EFJC.init,
    Polymers.efjc.thermodynamics.isometric.asymptotic.alternative.legendre.EFJC.force,
    Polymers.efjc.thermodynamics.isometric.asymptotic.alternative.legendre.EFJC.nondimensional_force,
    Polymers.efjc.thermodynamics.isometric.asymptotic.alternative.legendre.force]
    [Polymers.efjc.thermodynamics.isometric.asymptotic.alternative.legendre.nondimensional_force]

example : (efjc_isometric_asymptotic_alternative_legendre_forces 8 1 1 500).Scales 1 (ndLength 8 1) :=
  C15_efjc_isometric_asymptotic_alternative_legendre_forces 8 1 1 500 (by norm_num) (by norm_num)

/-- C15 for the helmholtz methods of `src/physics/single_chain/efjc/thermodynamics/isometric/asymptotic/reduced/legendre/mod.rs`. -/
theorem C15_efjc_isometric_asymptotic_reduced_legendre_helmholtz (N : ℕ) (ℓ : ℝ) (m : ℝ) (k : ℝ) (hN : 0 < N) (hℓ : 0 < ℓ) :
    (efjc_isometric_asymptotic_reduced_legendre_helmholtz N ℓ m k).Scales N (ndLength N ℓ) := by
  scaling_tac hN hℓ [efjc_isometric_asymptotic_reduced_legendre_helmholtz,
    Polymers.efjc.EFJC.init, Polymers.efjc.thermodynamics.EFJC.init,
    Polymers.efjc.thermodynamics.isometric.EFJC.init, Polymers.efjc.thermodynamics.isometric.asymptotic.EFJC.init,
    Polymers.efjc.thermodynamics.isometric.asymptotic.reduced.EFJC.init,
    Polymers.efjc.thermodynamics.isometric.asymptotic.reduced.legendre.EFJC.init,
    Polymers.efjc.thermodynamics.isometric.asymptotic.reduced.legendre.EFJC.helmholtz_free_energy,
    Polymers.efjc.thermodynamics.isometric.asymptotic.reduced.legendre.EFJC.helmholtz_free_energy_per_link,
    Polymers.efjc.thermodynamics.isometric.asymptotic.reduced.legendre.EFJC.relative_helmholtz_free_energy,
    Polymers.efjc.thermodynamics.isometric.asymptotic.reduced.legendre.EFJC.relative_helmholtz_free_energy_per_link,
    Polymers.efjc.thermodynamics.isometric.asymptotic.reduced.legendre.EFJC.nondimensional_helmholtz_free_energy,
    Polymers.efjc.thermodynamics.isometric.asymptotic.reduced.legendre.EFJC.nondimensional_helmholtz_free_energy_per_link,
    Polymers.efjc.thermodynamics.isometric.asymptotic.reduced.legendre.EFJC.nondimensional_relative_helmholtz_free_energy,
    Polymers.efjc.thermodynamics.isometric.asymptotic.reduced.legendre.EFJC.nondimensional_relative_helmholtz_free_energy_per_link,
    Polymers.efjc.thermodynamics.isometric.asymptotic.reduced.legendre.nondimensional_helmholtz_free_energy,
    Polymers.efjc.thermodynamics.isometric.asymptotic.reduced.legendre.helmholtz_free_energy,
    Polymers.efjc.thermodynamics.isometric.asymptotic.reduced.legendre.helmholtz_free_energy_per_link,
    Polymers.efjc.thermodynamics.isometric.asymptotic.reduced.legendre.relative_helmholtz_free_energy,
    Polymers.efjc.thermodynamics.isometric.asymptotic.reduced.legendre.relative_helmholtz_free_energy_per_link,
    Polymers.efjc.thermodynamics.isometric.asymptotic.reduced.legendre.nondimensional_relative_helmholtz_free_energy,
    Polymers.efjc.thermodynamics.isometric.asymptotic.reduced.legendre.nondimensional_relative_helmholtz_free_energy_per_link]
    [Polymers.efjc.thermodynamics.isometric.asymptotic.reduced.legendre.nondimensional_helmholtz_free_energy_per_link]

example : (efjc_isometric_asymptotic_reduced_legendre_helmholtz 8 1 1 500).Scales 8 (ndLength 8 1) :=
  C15_efjc_isometric_asymptotic_reduced_legendre_helmholtz 8 1 1 500 (by norm_num) (by norm_num)

/-- C16 for the helmholtz methods of `src/physics/single_chain/efjc/thermodynamics/isometric/asymptotic/reduced/legendre/mod.rs`. -/
theorem C16_reference_efjc_isometric_asymptotic_reduced_legendre_helmholtz (N : ℕ) (ℓ : ℝ) (m : ℝ) (k : ℝ) (hN : 0 < N) (hℓ : 0 < ℓ) :
    (efjc_isometric_asymptotic_reduced_legendre_helmholtz N ℓ m k).RelativeTo (ndLength N ℓ) 1e-6 := by
  refine EnergyMethods.RelativeTo.of_nd hN (C15_efjc_isometric_asymptotic_reduced_legendre_helmholtz N ℓ m k hN hℓ) ?_
  relative_tac hN [efjc_isometric_asymptotic_reduced_legendre_helmholtz,
    Polymers.efjc.EFJC.init, Polymers.efjc.thermodynamics.EFJC.init,
    Polymers.efjc.thermodynamics.isometric.EFJC.init, Polymers.efjc.thermodynamics.isometric.asymptotic.EFJC.init,
    Polymers.efjc.thermodynamics.isometric.asymptotic.reduced.EFJC.init,
    Polymers.efjc.thermodynamics.isometric.asymptotic.reduced.legendre.EFJC.init,
    Polymers.efjc.thermodynamics.isometric.asymptotic.reduced.legendre.EFJC.helmholtz_free_energy,
    Polymers.efjc.thermodynamics.isometric.asymptotic.reduced.legendre.EFJC.helmholtz_free_energy_per_link,
    Polymers.efjc.thermodynamics.isometric.asymptotic.reduced.legendre.EFJC.relative_helmholtz_free_energy,
    Polymers.efjc.thermodynamics.isometric.asymptotic.reduced.legendre.EFJC.relative_helmholtz_free_energy_per_link,
    Polymers.efjc.thermodynamics.isometric.asymptotic.reduced.legendre.EFJC.nondimensional_helmholtz_free_energy,
    Polymers.efjc.thermodynamics.isometric.asymptotic.reduced.legendre.EFJC.nondimensional_helmholtz_free_energy_per_link,
    Polymers.efjc.thermodynamics.isometric.asymptotic.reduced.legendre.EFJC.nondimensional_relative_helmholtz_free_energy,
    Polymers.efjc.thermodynamics.isometric.asymptotic.reduced.legendre.EFJC.nondimensional_relative_helmholtz_free_energy_per_link,
    Polymers.efjc.thermodynamics.isometric.asymptotic.reduced.legendre.nondimensional_helmholtz_free_energy,
    Polymers.efjc.thermodynamics.isometric.asymptotic.reduced.legendre.helmholtz_free_energy,
    Polymers.efjc.thermodynamics.isometric.asymptotic.reduced.legendre.helmholtz_free_energy_per_link,
    Polymers.efjc.thermodynamics.isometric.asymptotic.reduced.legendre.relative_helmholtz_free_energy,
    Polymers.efjc.thermodynamics.isometric.asymptotic.reduced.legendre.relative_helmholtz_free_energy_per_link,
    Polymers.efjc.thermodynamics.isometric.asymptotic.reduced.legendre.nondimensional_relative_helmholtz_free_energy,
    Polymers.efjc.thermodynamics.isometric.asymptotic.reduced.legendre.nondimensional_relative_helmholtz_free_energy_per_link]
    [Polymers.efjc.thermodynamics.isometric.asymptotic.reduced.legendre.nondimensional_helmholtz_free_energy_per_link]

example : (efjc_isometric_asymptotic_reduced_legendre_helmholtz 8 1 1 500).RelativeTo (ndLength 8 1) 1e-6 :=
  C16_reference_efjc_isometric_asymptotic_reduced_legendre_helmholtz 8 1 1 500 (by norm_num) (by norm_num)

/-- C16: the hinge mass does not enter the relative helmholtz energies of `src/physics/single_chain/efjc/thermodynamics/isometric/asymptotic/reduced/legendre/mod.rs`. -/
theorem C16_mass_efjc_isometric_asymptotic_reduced_legendre_helmholtz (N : ℕ) (ℓ : ℝ) (m : ℝ) (k : ℝ) (m' : ℝ) :
    (efjc_isometric_asymptotic_reduced_legendre_helmholtz N ℓ m k).SameRelative (efjc_isometric_asymptotic_reduced_legendre_helmholtz N ℓ m' k) :=
  ⟨rfl, rfl, rfl, rfl⟩

/-- C15 for the forces methods of `src/physics/single_chain/efjc/thermodynamics/isometric/asymptotic/reduced/legendre/mod.rs`. -/
theorem C15_efjc_isometric_asymptotic_reduced_legendre_forces (N : ℕ) (ℓ : ℝ) (m : ℝ) (k : ℝ) (hN : 0 < N) (hℓ : 0 < ℓ) :
    (efjc_isometric_asymptotic_reduced_legendre_forces N ℓ m k).Scales ℓ (ndLength N ℓ) := by
  scaling_tac hN hℓ [efjc_isometric_asymptotic_reduced_legendre_forces,
    Polymers.efjc.EFJC.init, Polymers.efjc.thermodynamics.EFJC.init,
    Polymers.efjc.thermodynamics.isometric.EFJC.init, Polymers.efjc.thermodynamics.isometric.asymptotic.EFJC.init,
    Polymers.efjc.thermodynamics.isometric.asymptotic.reduced.EFJC.init,
    Polymers.efjc.thermodynamics.isometric.asymptotic.reduced.legendre.EFJC.init,
    Polymers.efjc.thermodynamics.isometric.asymptotic.reduced.legendre.EFJC.force,
    Polymers.efjc.thermodynamics.isometric.asymptotic.reduced.legendre.EFJC.nondimensional_force,
    Polymers.efjc.thermodynamics.isometric.asymptotic.reduced.legendre.force]
    [Polymers.efjc.thermodynamics.isometric.asymptotic.reduced.legendre.nondimensional_force]

example : (efjc_isometric_asymptotic_reduced_legendre_forces 8 1 1 500).Scales 1 (ndLength 8 1) :=
  C15_efjc_isometric_asymptotic_reduced_legendre_forces 8 1 1 500 (by norm_num) (by norm_num)

/-- C15 for the helmholtz methods of `src/physics/single_chain/efjc/thermodynamics/isotensional/asymptotic/alternative/legendre/mod.rs`. -/
theorem C15_efjc_isotensional_asymptotic_alternative_legendre_helmholtz (N : ℕ) (ℓ : ℝ) (m : ℝ) (k : ℝ) (hN : 0 < N) (hℓ : 0 < ℓ) :
    (efjc_isotensional_asymptotic_alternative_legendre_helmholtz N ℓ m k).Scales N (ndForce ℓ) := by
  scaling_tac hN hℓ [efjc_isotensional_asymptotic_alternative_legendre_helmholtz,
    Polymers.efjc.EFJC.init, Polymers.efjc.thermodynamics.EFJC.init,
    Polymers.efjc.thermodynamics.isotensional.EFJC.init,
    Polymers.efjc.thermodynamics.isotensional.asymptotic.EFJC.init,
    Polymers.efjc.thermodynamics.isotensional.asymptotic.alternative.EFJC.init,
    Polymers.efjc.thermodynamics.isotensional.asymptotic.alternative.legendre.EFJC.init,
    Polymers.efjc.thermodynamics.isotensional.asymptotic.alternative.legendre.EFJC.helmholtz_free_energy,
    Polymers.efjc.thermodynamics.isotensional.asymptotic.alternative.legendre.EFJC.helmholtz_free_energy_per_link,
    Polymers.efjc.thermodynamics.isotensional.asymptotic.alternative.legendre.EFJC.relative_helmholtz_free_energy,
    Polymers.efjc.thermodynamics.isotensional.asymptotic.alternative.legendre.EFJC.relative_helmholtz_free_energy_per_link,
    Polymers.efjc.thermodynamics.isotensional.asymptotic.alternative.legendre.EFJC.nondimensional_helmholtz_free_energy,
    Polymers.efjc.thermodynamics.isotensional.asymptotic.alternative.legendre.EFJC.nondimensional_helmholtz_free_energy_per_link,
    Polymers.efjc.thermodynamics.isotensional.asymptotic.alternative.legendre.EFJC.nondimensional_relative_helmholtz_free_energy,
    Polymers.efjc.thermodynamics.isotensional.asymptotic.alternative.legendre.EFJC.nondimensional_relative_helmholtz_free_energy_per_link,
    Polymers.efjc.thermodynamics.isotensional.asymptotic.alternative.legendre.nondimensional_helmholtz_free_energy,
    Polymers.efjc.thermodynamics.isotensional.asymptotic.alternative.legendre.helmholtz_free_energy,
    Polymers.efjc.thermodynamics.isotensional.asymptotic.alternative.legendre.helmholtz_free_energy_per_link,
    Polymers.efjc.thermodynamics.isotensional.asymptotic.alternative.legendre.relative_helmholtz_free_energy,
    Polymers.efjc.thermodynamics.isotensional.asymptotic.alternative.legendre.relative_helmholtz_free_energy_per_link,
    Polymers.efjc.thermodynamics.isotensional.asymptotic.alternative.legendre.nondimensional_relative_helmholtz_free_energy,
    Polymers.efjc.thermodynamics.isotensional.asymptotic.alternative.legendre.nondimensional_relative_helmholtz_free_energy_per_link]
    [Polymers.efjc.thermodynamics.isotensional.asymptotic.alternative.legendre.nondimensional_helmholtz_free_energy_per_link]

example : (efjc_isotensional_asymptotic_alternative_legendre_helmholtz 8 1 1 500).Scales 8 (ndForce 1) :=
  C15_efjc_isotensional_asymptotic_alternative_legendre_helmholtz 8 1 1 500 (by norm_num) (by norm_num)

/-- C16 for the helmholtz methods of `src/physics/single_chain/efjc/thermodynamics/isotensional/asymptotic/alternative/legendre/mod.rs`. -/
theorem C16_reference_efjc_isotensional_asymptotic_alternative_legendre_helmholtz (N : ℕ) (ℓ : ℝ) (m : ℝ) (k : ℝ) (hN : 0 < N) (hℓ : 0 < ℓ) :
    (efjc_isotensional_asymptotic_alternative_legendre_helmholtz N ℓ m k).RelativeTo (ndForce ℓ) 1e-6 := by
  refine EnergyMethods.RelativeTo.of_nd hN (C15_efjc_isotensional_asymptotic_alternative_legendre_helmholtz N ℓ m k hN hℓ) ?_
  relative_tac hN [efjc_isotensional_asymptotic_alternative_legendre_helmholtz,
    Polymers.efjc.EFJC.init, Polymers.efjc.thermodynamics.EFJC.init,
    Polymers.efjc.thermodynamics.isotensional.EFJC.init,
    Polymers.efjc.thermodynamics.isotensional.asymptotic.EFJC.init,
    Polymers.efjc.thermodynamics.isotensional.asymptotic.alternative.EFJC.init,
    Polymers.efjc.thermodynamics.isotensional.asymptotic.alternative.legendre.EFJC.init,
    Polymers.efjc.thermodynamics.isotensional.asymptotic.alternative.legendre.EFJC.helmholtz_free_energy,
    Polymers.efjc.thermodynamics.isotensional.asymptotic.alternative.legendre.EFJC.helmholtz_free_energy_per_link,
    Polymers.efjc.thermodynamics.isotensional.asymptotic.alternative.legendre.EFJC.relative_helmholtz_free_energy,
    Polymers.efjc.thermodynamics.isotensional.asymptotic.alternative.legendre.EFJC.relative_helmholtz_free_energy_per_link,
    Polymers.efjc.thermodynamics.isotensional.asymptotic.alternative.legendre.EFJC.nondimensional_helmholtz_free_energy,
    Polymers.efjc.thermodynamics.isotensional.asymptotic.alternative.legendre.EFJC.nondimensional_helmholtz_free_energy_per_link,
    Polymers.efjc.thermodynamics.isotensional.asymptotic.alternative.legendre.EFJC.nondimensional_relative_helmholtz_free_energy,
    Polymers.efjc.thermodynamics.isotensional.asymptotic.alternative.legendre.EFJC.nondimensional_relative_helmholtz_free_energy_per_link,
    Polymers.efjc.thermodynamics.isotensional.asymptotic.alternative.legendre.nondimensional_helmholtz_free_energy,
    Polymers.efjc.thermodynamics.isotensional.asymptotic.alternative.legendre.helmholtz_free_energy,
    Polymers.efjc.thermodynamics.isotensional.asymptotic.alternative.legendre.helmholtz_free_energy_per_link,
    Polymers.efjc.thermodynamics.isotensional.asymptotic.alternative.legendre.relative_helmholtz_free_energy,
    Polymers.efjc.thermodynamics.isotensional.asymptotic.alternative.legendre.relative_helmholtz_free_energy_per_link,
    Polymers.efjc.thermodynamics.isotensional.asymptotic.alternative.legendre.nondimensional_relative_helmholtz_free_energy,
    Polymers.efjc.thermodynamics.isotensional.asymptotic.alternative.legendre.nondimensional_relative_helmholtz_free_energy_per_link]
    [Polymers.efjc.thermodynamics.isotensional.asymptotic.alternative.legendre.nondimensional_helmholtz_free_energy_per_link]

example : (efjc_isotensional_asymptotic_alternative_legendre_helmholtz 8 1 1 500).RelativeTo (ndForce 1) 1e-6 :=
  C16_reference_efjc_isotensional_asymptotic_alternative_legendre_helmholtz 8 1 1 500 (by norm_num) (by norm_num)

/-- C16: the hinge mass does not enter the relative helmholtz energies of `src/physics/single_chain/efjc/thermodynamics/isotensional/asymptotic/alternative/legendre/mod.rs`. -/
theorem C16_mass_efjc_isotensional_asymptotic_alternative_legendre_helmholtz (N : ℕ) (ℓ : ℝ) (m : ℝ) (k : ℝ) (m' : ℝ) :
    (efjc_isotensional_asymptotic_alternative_legendre_helmholtz N ℓ m k).SameRelative (efjc_isotensional_asymptotic_alternative_legendre_helmholtz N ℓ m' k) :=
  ⟨rfl, rfl, rfl, rfl⟩

/-- C15 for the helmholtz methods of `src/physics/single_chain/efjc/thermodynamics/isotensional/asymptotic/reduced/legendre/mod.rs`. -/
theorem C15_efjc_isotensional_asymptotic_reduced_legendre_helmholtz (N : ℕ) (ℓ : ℝ) (m : ℝ) (k : ℝ) (hN : 0 < N) (hℓ : 0 < ℓ) :
    (efjc_isotensional_asymptotic_reduced_legendre_helmholtz N ℓ m k).Scales N (ndForce ℓ) := by
  scaling_tac hN hℓ [efjc_isotensional_asymptotic_reduced_legendre_helmholtz,
    Polymers.efjc.EFJC.init, Polymers.efjc.thermodynamics.EFJC.init,
    Polymers.efjc.thermodynamics.isotensional.EFJC.init,
    Polymers.efjc.thermodynamics.isotensional.asymptotic.EFJC.init,
    Polymers.efjc.thermodynamics.isotensional.asymptotic.reduced.EFJC.init,
    Polymers.efjc.thermodynamics.isotensional.asymptotic.reduced.legendre.EFJC.init,
    Polymers.efjc.thermodynamics.isotensional.asymptotic.reduced.legendre.EFJC.helmholtz_free_energy,
    Polymers.efjc.thermodynamics.isotensional.asymptotic.reduced.legendre.EFJC.helmholtz_free_energy_per_link,
    Polymers.efjc.thermodynamics.isotensional.asymptotic.reduced.legendre.EFJC.relative_helmholtz_free_energy,
    Polymers.efjc.thermodynamics.isotensional.asymptotic.reduced.legendre.EFJC.relative_helmholtz_free_energy_per_link,
    Polymers.efjc.thermodynamics.isotensional.asymptotic.reduced.legendre.EFJC.nondimensional_helmholtz_free_energy,
    Polymers.efjc.thermodynamics.isotensional.asymptotic.reduced.legendre.EFJC.nondimensional_helmholtz_free_energy_per_link,
    Polymers.efjc.thermodynamics.isotensional.asymptotic.reduced.legendre.EFJC.nondimensional_relative_helmholtz_free_energy,
    Polymers.efjc.thermodynamics.isotensional.asymptotic.reduced.legendre.EFJC.nondimensional_relative_helmholtz_free_energy_per_link,
    Polymers.efjc.thermodynamics.isotensional.asymptotic.reduced.legendre.nondimensional_helmholtz_free_energy,
    Polymers.efjc.thermodynamics.isotensional.asymptotic.reduced.legendre.helmholtz_free_energy,
    Polymers.efjc.thermodynamics.isotensional.asymptotic.reduced.legendre.helmholtz_free_energy_per_link,
    Polymers.efjc.thermodynamics.isotensional.asymptotic.reduced.legendre.relative_helmholtz_free_energy,
    Polymers.efjc.thermodynamics.isotensional.asymptotic.reduced.legendre.relative_helmholtz_free_energy_per_link,
    Polymers.efjc.thermodynamics.isotensional.asymptotic.reduced.legendre.nondimensional_relative_helmholtz_free_energy,
    Polymers.efjc.thermodynamics.isotensional.asymptotic.reduced.legendre.nondimensional_relative_helmholtz_free_energy_per_link]
    [Polymers.efjc.thermodynamics.isotensional.asymptotic.reduced.legendre.nondimensional_helmholtz_free_energy_per_link]

example : (efjc_isotensional_asymptotic_reduced_legendre_helmholtz 8 1 1 500).Scales 8 (ndForce 1) :=
  C15_efjc_isotensional_asymptotic_reduced_legendre_helmholtz 8 1 1 500 (by norm_num) (by norm_num)

/-- C16 for the helmholtz methods of `src/physics/single_chain/efjc/thermodynamics/isotensional/asymptotic/reduced/legendre/mod.rs`. -/
theorem C16_reference_efjc_isotensional_asymptotic_reduced_legendre_helmholtz (N : ℕ) (ℓ : ℝ) (m : ℝ) (k : ℝ) (hN : 0 < N) (hℓ : 0 < ℓ) :
    (efjc_isotensional_asymptotic_reduced_legendre_helmholtz N ℓ m k).RelativeTo (ndForce ℓ) 1e-6 := by
  refine EnergyMethods.RelativeTo.of_nd hN (C15_efjc_isotensional_asymptotic_reduced_legendre_helmholtz N ℓ m k hN hℓ) ?_
  relative_tac hN [efjc_isotensional_asymptotic_reduced_legendre_helmholtz,
    Polymers.efjc.EFJC.init, Polymers.efjc.thermodynamics.EFJC.init,
    Polymers.efjc.thermodynamics.isotensional.EFJC.init,
    Polymers.efjc.thermodynamics.isotensional.asymptotic.EFJC.init,
    Polymers.efjc.thermodynamics.isotensional.asymptotic.reduced.EFJC.init,
    Polymers.efjc.thermodynamics.isotensional.asymptotic.reduced.legendre.EFJC.init,
    Polymers.efjc.thermodynamics.isotensional.asymptotic.reduced.legendre.EFJC.helmholtz_free_energy,
    Polymers.efjc.thermodynamics.isotensional.asymptotic.reduced.legendre.EFJC.helmholtz_free_energy_per_link,
    Polymers.efjc.thermodynamics.isotensional.asymptotic.reduced.legendre.EFJC.relative_helmholtz_free_energy,
    Polymers.efjc.thermodynamics.isotensional.asymptotic.reduced.legendre.EFJC.relative_helmholtz_free_energy_per_link,
    Polymers.efjc.thermodynamics.isotensional.asymptotic.reduced.legendre.EFJC.nondimensional_helmholtz_free_energy,
    Polymers.efjc.thermodynamics.isotensional.asymptotic.reduced.legendre.EFJC.nondimensional_helmholtz_free_energy_per_link,
    Polymers.efjc.thermodynamics.isotensional.asymptotic.reduced.legendre.EFJC.nondimensional_relative_helmholtz_free_energy,
    Polymers.efjc.thermodynamics.isotensional.asymptotic.reduced.legendre.EFJC.nondimensional_relative_helmholtz_free_energy_per_link,
    Polymers.efjc.thermodynamics.isotensional.asymptotic.reduced.legendre.nondimensional_helmholtz_free_energy,
    Polymers.efjc.thermodynamics.isotensional.asymptotic.reduced.legendre.helmholtz_free_energy,
    Polymers.efjc.thermodynamics.isotensional.asymptotic.reduced.legendre.helmholtz_free_energy_per_link,
    Polymers.efjc.thermodynamics.isotensional.asymptotic.reduced.legendre.relative_helmholtz_free_energy,
    Polymers.efjc.thermodynamics.isotensional.asymptotic.reduced.legendre.relative_helmholtz_free_energy_per_link,
    Polymers.efjc.thermodynamics.isotensional.asymptotic.reduced.legendre.nondimensional_relative_helmholtz_free_energy,
    Polymers.efjc.thermodynamics.isotensional.asymptotic.reduced.legendre.nondimensional_relative_helmholtz_free_energy_per_link]
    [Polymers.efjc.thermodynamics.isotensional.asymptotic.reduced.legendre.nondimensional_helmholtz_free_energy_per_link]

example : (efjc_isotensional_asymptotic_reduced_legendre_helmholtz 8 1 1 500).RelativeTo (ndForce 1) 1e-6 :=
  C16_reference_efjc_isotensional_asymptotic_reduced_legendre_helmholtz 8 1 1 500 (by norm_num) (by norm_num)

/-- C16: the hinge mass does not enter the relative helmholtz energies of `src/physics/single_chain/efjc/thermodynamics/isotensional/asymptotic/reduced/legendre/mod.rs`. -/
theorem C16_mass_efjc_isotensional_asymptotic_reduced_legendre_helmholtz (N : ℕ) (ℓ : ℝ) (m : ℝ) (k : ℝ) (m' : ℝ) :
    (efjc_isotensional_asymptotic_reduced_legendre_helmholtz N ℓ m k).SameRelative (efjc_isotensional_asymptotic_reduced_legendre_helmholtz N ℓ m' k) :=
  ⟨rfl, rfl, rfl, rfl⟩

/-- C15 for the helmholtz methods of `src/physics/single_chain/efjc/thermodynamics/isometric/asymptotic/legendre/mod.rs`. -/
theorem C15_efjc_isometric_asymptotic_legendre_helmholtz (N : ℕ) (ℓ : ℝ) (m : ℝ) (k : ℝ) (hN : 0 < N) (hℓ : 0 < ℓ) :
    (efjc_isometric_asymptotic_legendre_helmholtz N ℓ m k).Scales N (ndLength N ℓ) := by
  scaling_tac hN hℓ [efjc_isometric_asymptotic_legendre_helmholtz,
    Polymers.efjc.EFJC.init, Polymers.efjc.thermodynamics.EFJC.init,
    Polymers.efjc.thermodynamics.isometric.EFJC.init, Polymers.efjc.thermodynamics.isometric.asymptotic.EFJC.init,
    Polymers.efjc.thermodynamics.isometric.asymptotic.legendre.EFJC.init,
    Polymers.efjc.thermodynamics.isometric.asymptotic.legendre.EFJC.helmholtz_free_energy,
    Polymers.efjc.thermodynamics.isometric.asymptotic.legendre.EFJC.helmholtz_free_energy_per_link,
    Polymers.efjc.thermodynamics.isometric.asymptotic.legendre.EFJC.relative_helmholtz_free_energy,
    Polymers.efjc.thermodynamics.isometric.asymptotic.legendre.EFJC.relative_helmholtz_free_energy_per_link,
    Polymers.efjc.thermodynamics.isometric.asymptotic.legendre.EFJC.nondimensional_helmholtz_free_energy,
    Polymers.efjc.thermodynamics.isometric.asymptotic.legendre.EFJC.nondimensional_helmholtz_free_energy_per_link,
    Polymers.efjc.thermodynamics.isometric.asymptotic.legendre.EFJC.nondimensional_relative_helmholtz_free_energy,
    Polymers.efjc.thermodynamics.isometric.asymptotic.legendre.EFJC.nondimensional_relative_helmholtz_free_energy_per_link,
    Polymers.efjc.thermodynamics.isometric.asymptotic.legendre.nondimensional_helmholtz_free_energy,
    Polymers.efjc.thermodynamics.isometric.asymptotic.legendre.helmholtz_free_energy,
    Polymers.efjc.thermodynamics.isometric.asymptotic.legendre.helmholtz_free_energy_per_link,
    Polymers.efjc.thermodynamics.isometric.asymptotic.legendre.relative_helmholtz_free_energy,
    Polymers.efjc.thermodynamics.isometric.asymptotic.legendre.relative_helmholtz_free_energy_per_link,
    Polymers.efjc.thermodynamics.isometric.asymptotic.legendre.nondimensional_relative_helmholtz_free_energy,
    Polymers.efjc.thermodynamics.isometric.asymptotic.legendre.nondimensional_relative_helmholtz_free_energy_per_link]
    [Polymers.efjc.thermodynamics.isometric.asymptotic.legendre.nondimensional_helmholtz_free_energy_per_link]

example : (efjc_isometric_asymptotic_legendre_helmholtz 8 1 1 500).Scales 8 (ndLength 8 1) :=
  C15_efjc_isometric_asymptotic_legendre_helmholtz 8 1 1 500 (by norm_num) (by norm_num)

/-- C16 for the helmholtz methods of `src/physics/single_chain/efjc/thermodynamics/isometric/asymptotic/legendre/mod.rs`. -/
theorem C16_reference_efjc_isometric_asymptotic_legendre_helmholtz (N : ℕ) (ℓ : ℝ) (m : ℝ) (k : ℝ) (hN : 0 < N) (hℓ : 0 < ℓ) :
    (efjc_isometric_asymptotic_legendre_helmholtz N ℓ m k).RelativeTo (ndLength N ℓ) 1e-6 := by
  refine EnergyMethods.RelativeTo.of_nd hN (C15_efjc_isometric_asymptotic_legendre_helmholtz N ℓ m k hN hℓ) ?_
  relative_tac hN [efjc_isometric_asymptotic_legendre_helmholtz,
    Polymers.efjc.EFJC.init, Polymers.efjc.thermodynamics.EFJC.init,
    Polymers.efjc.thermodynamics.isometric.EFJC.init, Polymers.efjc.thermodynamics.isometric.asymptotic.EFJC.init,
    Polymers.efjc.thermodynamics.isometric.asymptotic.legendre.EFJC.init,
    Polymers.efjc.thermodynamics.isometric.asymptotic.legendre.EFJC.helmholtz_free_energy,
    Polymers.efjc.thermodynamics.isometric.asymptotic.legendre.EFJC.helmholtz_free_energy_per_link,
    Polymers.efjc.thermodynamics.isometric.asymptotic.legendre.EFJC.relative_helmholtz_free_energy,
    Polymers.efjc.thermodynamics.isometric.asymptotic.legendre.EFJC.relative_helmholtz_free_energy_per_link,
    Polymers.efjc.thermodynamics.isometric.asymptotic.legendre.EFJC.nondimensional_helmholtz_free_energy,
    Polymers.efjc.thermodynamics.isometric.asymptotic.legendre.EFJC.nondimensional_helmholtz_free_energy_per_link,
    Polymers.efjc.thermodynamics.isometric.asymptotic.legendre.EFJC.nondimensional_relative_helmholtz_free_energy,
    Polymers.efjc.thermodynamics.isometric.asymptotic.legendre.EFJC.nondimensional_relative_helmholtz_free_energy_per_link,
    Polymers.efjc.thermodynamics.isometric.asymptotic.legendre.nondimensional_helmholtz_free_energy,
    Polymers.efjc.thermodynamics.isometric.asymptotic.legendre.helmholtz_free_energy,
    Polymers.efjc.thermodynamics.isometric.asymptotic.legendre.helmholtz_free_energy_per_link,
    Polymers.efjc.thermodynamics.isometric.asymptotic.legendre.relative_helmholtz_free_energy,
    Polymers.efjc.thermodynamics.isometric.asymptotic.legendre.relative_helmholtz_free_energy_per_link,
    Polymers.efjc.thermodynamics.isometric.asymptotic.legendre.nondimensional_relative_helmholtz_free_energy,
    Polymers.efjc.thermodynamics.isometric.asymptotic.legendre.nondimensional_relative_helmholtz_free_energy_per_link]
    [Polymers.efjc.thermodynamics.isometric.asymptotic.legendre.nondimensional_helmholtz_free_energy_per_link]

example : (efjc_isometric_asymptotic_legendre_helmholtz 8 1 1 500).RelativeTo (ndLength 8 1) 1e-6 :=
  C16_reference_efjc_isometric_asymptotic_legendre_helmholtz 8 1 1 500 (by norm_num) (by norm_num)

/-- C16: the hinge mass does not enter the relative helmholtz energies of `src/physics/single_chain/efjc/thermodynamics/isometric/asymptotic/legendre/mod.rs`. -/
theorem C16_mass_efjc_isometric_asymptotic_legendre_helmholtz (N : ℕ) (ℓ : ℝ) (m : ℝ) (k : ℝ) (m' : ℝ) :
    (efjc_isometric_asymptotic_legendre_helmholtz N ℓ m k).SameRelative (efjc_isometric_asymptotic_legendre_helmholtz N ℓ m' k) :=
  ⟨rfl, rfl, rfl, rfl⟩

/-- C15 for the forces methods of `src/physics/single_chain/efjc/thermodynamics/isometric/asymptotic/legendre/mod.rs`. -/
theorem C15_efjc_isometric_asymptotic_legendre_forces (N : ℕ) (ℓ : ℝ) (m : ℝ) (k : ℝ) (hN : 0 < N) (hℓ : 0 < ℓ) :
    (efjc_isometric_asymptotic_legendre_forces N ℓ m k).Scales ℓ (ndLength N ℓ) := by
  scaling_tac hN hℓ [efjc_isometric_asymptotic_legendre_forces,
    Polymers.efjc.EFJC.init, Polymers.efjc.thermodynamics.EFJC.init,
    Polymers.efjc.thermodynamics.isometric.EFJC.init, Polymers.efjc.thermodynamics.isometric.asymptotic.EFJC.init,
    Polymers.efjc.thermodynamics.isometric.asymptotic.legendre.EFJC.init,
    Polymers.efjc.thermodynamics.isometric.asymptotic.legendre.EFJC.force,
    Polymers.efjc.thermodynamics.isometric.asymptotic.legendre.EFJC.nondimensional_force,
    Polymers.efjc.thermodynamics.isometric.asymptotic.legendre.force]
    [Polymers.efjc.thermodynamics.isometric.asymptotic.legendre.nondimensional_force]

example : (efjc_isometric_asymptotic_legendre_forces 8 1 1 500).Scales 1 (ndLength 8 1) :=
  C15_efjc_isometric_asymptotic_legendre_forces 8 1 1 500 (by norm_num) (by norm_num)

/-- C15 for the gibbs methods of `src/physics/single_chain/efjc/thermodynamics/isotensional/asymptotic/alternative/mod.rs`. -/
theorem C15_efjc_isotensional_asymptotic_alternative_gibbs (N : ℕ) (ℓ : ℝ) (m : ℝ) (k : ℝ) (hN : 0 < N) (hℓ : 0 < ℓ) :
    (efjc_isotensional_asymptotic_alternative_gibbs N ℓ m k).Scales N (ndForce ℓ) := by
  scaling_tac hN hℓ [efjc_isotensional_asymptotic_alternative_gibbs,
    Polymers.efjc.EFJC.init, Polymers.efjc.thermodynamics.EFJC.init,
    Polymers.efjc.thermodynamics.isotensional.EFJC.init,
    Polymers.efjc.thermodynamics.isotensional.asymptotic.EFJC.init,
    Polymers.efjc.thermodynamics.isotensional.asymptotic.alternative.EFJC.init,
    Polymers.efjc.thermodynamics.isotensional.asymptotic.alternative.EFJC.gibbs_free_energy,
    Polymers.efjc.thermodynamics.isotensional.asymptotic.alternative.EFJC.gibbs_free_energy_per_link,
    Polymers.efjc.thermodynamics.isotensional.asymptotic.alternative.EFJC.relative_gibbs_free_energy,
    Polymers.efjc.thermodynamics.isotensional.asymptotic.alternative.EFJC.relative_gibbs_free_energy_per_link,
    Polymers.efjc.thermodynamics.isotensional.asymptotic.alternative.EFJC.nondimensional_gibbs_free_energy,
    Polymers.efjc.thermodynamics.isotensional.asymptotic.alternative.EFJC.nondimensional_gibbs_free_energy_per_link,
    Polymers.efjc.thermodynamics.isotensional.asymptotic.alternative.EFJC.nondimensional_relative_gibbs_free_energy,
    Polymers.efjc.thermodynamics.isotensional.asymptotic.alternative.EFJC.nondimensional_relative_gibbs_free_energy_per_link,
    Polymers.efjc.thermodynamics.isotensional.asymptotic.alternative.gibbs_free_energy,
    Polymers.efjc.thermodynamics.isotensional.asymptotic.alternative.gibbs_free_energy_per_link,
    Polymers.efjc.thermodynamics.isotensional.asymptotic.alternative.relative_gibbs_free_energy,
    Polymers.efjc.thermodynamics.isotensional.asymptotic.alternative.relative_gibbs_free_energy_per_link,
    Polymers.efjc.thermodynamics.isotensional.asymptotic.alternative.nondimensional_gibbs_free_energy,
    Polymers.efjc.thermodynamics.isotensional.asymptotic.alternative.nondimensional_relative_gibbs_free_energy,
    Polymers.efjc.thermodynamics.isotensional.asymptotic.alternative.nondimensional_relative_gibbs_free_energy_per_link]
    [Polymers.efjc.thermodynamics.isotensional.asymptotic.alternative.nondimensional_gibbs_free_energy_per_link]

example : (efjc_isotensional_asymptotic_alternative_gibbs 8 1 1 500).Scales 8 (ndForce 1) :=
  C15_efjc_isotensional_asymptotic_alternative_gibbs 8 1 1 500 (by norm_num) (by norm_num)

/-- C16 for the gibbs methods of `src/physics/single_chain/efjc/thermodynamics/isotensional/asymptotic/alternative/mod.rs`. -/
theorem C16_reference_efjc_isotensional_asymptotic_alternative_gibbs (N : ℕ) (ℓ : ℝ) (m : ℝ) (k : ℝ) (hN : 0 < N) (hℓ : 0 < ℓ) :
    (efjc_isotensional_asymptotic_alternative_gibbs N ℓ m k).RelativeTo (ndForce ℓ) 1e-6 := by
  refine EnergyMethods.RelativeTo.of_nd hN (C15_efjc_isotensional_asymptotic_alternative_gibbs N ℓ m k hN hℓ) ?_
  relative_tac hN [efjc_isotensional_asymptotic_alternative_gibbs,
    Polymers.efjc.EFJC.init, Polymers.efjc.thermodynamics.EFJC.init,
    Polymers.efjc.thermodynamics.isotensional.EFJC.init,
    Polymers.efjc.thermodynamics.isotensional.asymptotic.EFJC.init,
    Polymers.efjc.thermodynamics.isotensional.asymptotic.alternative.EFJC.init,
    Polymers.efjc.thermodynamics.isotensional.asymptotic.alternative.EFJC.gibbs_free_energy,
    Polymers.efjc.thermodynamics.isotensional.asymptotic.alternative.EFJC.gibbs_free_energy_per_link,
    Polymers.efjc.thermodynamics.isotensional.asymptotic.alternative.EFJC.relative_gibbs_free_energy,
    Polymers.efjc.thermodynamics.isotensional.asymptotic.alternative.EFJC.relative_gibbs_free_energy_per_link,
    Polymers.efjc.thermodynamics.isotensional.asymptotic.alternative.EFJC.nondimensional_gibbs_free_energy,
    Polymers.efjc.thermodynamics.isotensional.asymptotic.alternative.EFJC.nondimensional_gibbs_free_energy_per_link,
    Polymers.efjc.thermodynamics.isotensional.asymptotic.alternative.EFJC.nondimensional_relative_gibbs_free_energy,
    Polymers.efjc.thermodynamics.isotensional.asymptotic.alternative.EFJC.nondimensional_relative_gibbs_free_energy_per_link,
    Polymers.efjc.thermodynamics.isotensional.asymptotic.alternative.gibbs_free_energy,
    Polymers.efjc.thermodynamics.isotensional.asymptotic.alternative.gibbs_free_energy_per_link,
    Polymers.efjc.thermodynamics.isotensional.asymptotic.alternative.relative_gibbs_free_energy,
    Polymers.efjc.thermodynamics.isotensional.asymptotic.alternative.relative_gibbs_free_energy_per_link,
    Polymers.efjc.thermodynamics.isotensional.asymptotic.alternative.nondimensional_gibbs_free_energy,
    Polymers.efjc.thermodynamics.isotensional.asymptotic.alternative.nondimensional_relative_gibbs_free_energy,
    Polymers.efjc.thermodynamics.isotensional.asymptotic.alternative.nondimensional_relative_gibbs_free_energy_per_link]
    [Polymers.efjc.thermodynamics.isotensional.asymptotic.alternative.nondimensional_gibbs_free_energy_per_link]

example : (efjc_isotensional_asymptotic_alternative_gibbs 8 1 1 500).RelativeTo (ndForce 1) 1e-6 :=
  C16_reference_efjc_isotensional_asymptotic_alternative_gibbs 8 1 1 500 (by norm_num) (by norm_num)

/-- C16: the hinge mass does not enter the relative gibbs energies of `src/physics/single_chain/efjc/thermodynamics/isotensional/asymptotic/alternative/mod.rs`. -/
theorem C16_mass_efjc_isotensional_asymptotic_alternative_gibbs (N : ℕ) (ℓ : ℝ) (m : ℝ) (k : ℝ) (m' : ℝ) :
    (efjc_isotensional_asymptotic_alternative_gibbs N ℓ m k).SameRelative (efjc_isotensional_asymptotic_alternative_gibbs N ℓ m' k) :=
  ⟨rfl, rfl, rfl, rfl⟩

/-- C15 for the lengths methods of `src/physics/single_chain/efjc/thermodynamics/isotensional/asymptotic/alternative/mod.rs`. -/
theorem C15_efjc_isotensional_asymptotic_alternative_lengths (N : ℕ) (ℓ : ℝ) (m : ℝ) (k : ℝ) (hN : 0 < N) (hℓ : 0 < ℓ) :
    (efjc_isotensional_asymptotic_alternative_lengths N ℓ m k).Scales N ℓ (ndForce ℓ) := by
  scaling_tac hN hℓ [efjc_isotensional_asymptotic_alternative_lengths,
    Polymers.efjc.EFJC.init, Polymers.efjc.thermodynamics.EFJC.init,
    Polymers.efjc.thermodynamics.isotensional.EFJC.init,
    Polymers.efjc.thermodynamics.isotensional.asymptotic.EFJC.init,
    Polymers.efjc.thermodynamics.isotensional.asymptotic.alternative.EFJC.init,
    Polymers.efjc.thermodynamics.isotensional.asymptotic.alternative.EFJC.end_to_end_length,
    Polymers.efjc.thermodynamics.isotensional.asymptotic.alternative.EFJC.end_to_end_length_per_link,
    Polymers.efjc.thermodynamics.isotensional.asymptotic.alternative.EFJC.nondimensional_end_to_end_length,
    Polymers.efjc.thermodynamics.isotensional.asymptotic.alternative.EFJC.nondimensional_end_to_end_length_per_link,
    Polymers.efjc.thermodynamics.isotensional.asymptotic.alternative.end_to_end_length,
    Polymers.efjc.thermodynamics.isotensional.asymptotic.alternative.end_to_end_length_per_link,
    Polymers.efjc.thermodynamics.isotensional.asymptotic.alternative.nondimensional_end_to_end_length]
    [Polymers.efjc.thermodynamics.isotensional.asymptotic.alternative.nondimensional_end_to_end_length_per_link]

example : (efjc_isotensional_asymptotic_alternative_lengths 8 1 1 500).Scales 8 1 (ndForce 1) :=
  C15_efjc_isotensional_asymptotic_alternative_lengths 8 1 1 500 (by norm_num) (by norm_num)

/-- C15 for the helmholtz methods of `src/physics/single_chain/efjc/thermodynamics/isotensional/asymptotic/legendre/mod.rs`. -/
theorem C15_efjc_isotensional_asymptotic_legendre_helmholtz (N : ℕ) (ℓ : ℝ) (m : ℝ) (k : ℝ) (hN : 0 < N) (hℓ : 0 < ℓ) :
    (efjc_isotensional_asymptotic_legendre_helmholtz N ℓ m k).Scales N (ndForce ℓ) := by
  scaling_tac hN hℓ [efjc_isotensional_asymptotic_legendre_helmholtz,
    Polymers.efjc.EFJC.init, Polymers.efjc.thermodynamics.EFJC.init,
    Polymers.efjc.thermodynamics.isotensional.EFJC.init,
    Polymers.efjc.thermodynamics.isotensional.asymptotic.EFJC.init,
    Polymers.efjc.thermodynamics.isotensional.asymptotic.legendre.EFJC.init,
    Polymers.efjc.thermodynamics.isotensional.asymptotic.legendre.EFJC.helmholtz_free_energy,
    Polymers.efjc.thermodynamics.isotensional.asymptotic.legendre.EFJC.helmholtz_free_energy_per_link,
    Polymers.efjc.thermodynamics.isotensional.asymptotic.legendre.EFJC.relative_helmholtz_free_energy,
    Polymers.efjc.thermodynamics.isotensional.asymptotic.legendre.EFJC.relative_helmholtz_free_energy_per_link,
    Polymers.efjc.thermodynamics.isotensional.asymptotic.legendre.EFJC.nondimensional_helmholtz_free_energy,
    Polymers.efjc.thermodynamics.isotensional.asymptotic.legendre.EFJC.nondimensional_helmholtz_free_energy_per_link,
    Polymers.efjc.thermodynamics.isotensional.asymptotic.legendre.EFJC.nondimensional_relative_helmholtz_free_energy,
    Polymers.efjc.thermodynamics.isotensional.asymptotic.legendre.EFJC.nondimensional_relative_helmholtz_free_energy_per_link,
    Polymers.efjc.thermodynamics.isotensional.asymptotic.legendre.nondimensional_helmholtz_free_energy,
    Polymers.efjc.thermodynamics.isotensional.asymptotic.legendre.helmholtz_free_energy,
    Polymers.efjc.thermodynamics.isotensional.asymptotic.legendre.helmholtz_free_energy_per_link,
    Polymers.efjc.thermodynamics.isotensional.asymptotic.legendre.relative_helmholtz_free_energy,
    Polymers.efjc.thermodynamics.isotensional.asymptotic.legendre.relative_helmholtz_free_energy_per_link,
    Polymers.efjc.thermodynamics.isotensional.asymptotic.legendre.nondimensional_relative_helmholtz_free_energy,
    Polymers.efjc.thermodynamics.isotensional.asymptotic.legendre.nondimensional_relative_helmholtz_free_energy_per_link]
    [Polymers.efjc.thermodynamics.isotensional.asymptotic.legendre.nondimensional_helmholtz_free_energy_per_link]

example : (efjc_isotensional_asymptotic_legendre_helmholtz 8 1 1 500).Scales 8 (ndForce 1) :=
  C15_efjc_isotensional_asymptotic_legendre_helmholtz 8 1 1 500 (by norm_num) (by norm_num)

/-- C16 for the helmholtz methods of `src/physics/single_chain/efjc/thermodynamics/isotensional/asymptotic/legendre/mod.rs`. -/
theorem C16_reference_efjc_isotensional_asymptotic_legendre_helmholtz (N : ℕ) (ℓ : ℝ) (m : ℝ) (k : ℝ) (hN : 0 < N) (hℓ : 0 < ℓ) :
    (efjc_isotensional_asymptotic_legendre_helmholtz N ℓ m k).RelativeTo (ndForce ℓ) 1e-6 := by
  refine EnergyMethods.RelativeTo.of_nd hN (C15_efjc_isotensional_asymptotic_legendre_helmholtz N ℓ m k hN hℓ) ?_
  relative_tac hN [efjc_isotensional_asymptotic_legendre_helmholtz,
    Polymers.efjc.EFJC.init, Polymers.efjc.thermodynamics.EFJC.init,
    Polymers.efjc.thermodynamics.isotensional.EFJC.init,
    Polymers.efjc.thermodynamics.isotensional.asymptotic.EFJC.init,
    Polymers.efjc.thermodynamics.isotensional.asymptotic.legendre.EFJC.init,
    Polymers.efjc.thermodynamics.isotensional.asymptotic.legendre.EFJC.helmholtz_free_energy,
    Polymers.efjc.thermodynamics.isotensional.asymptotic.legendre.EFJC.helmholtz_free_energy_per_link,
    Polymers.efjc.thermodynamics.isotensional.asymptotic.legendre.EFJC.relative_helmholtz_free_energy,
    Polymers.efjc.thermodynamics.isotensional.asymptotic.legendre.EFJC.relative_helmholtz_free_energy_per_link,
    Polymers.efjc.thermodynamics.isotensional.asymptotic.legendre.EFJC.nondimensional_helmholtz_free_energy,
    Polymers.efjc.thermodynamics.isotensional.asymptotic.legendre.EFJC.nondimensional_helmholtz_free_energy_per_link,
    Polymers.efjc.thermodynamics.isotensional.asymptotic.legendre.EFJC.nondimensional_relative_helmholtz_free_energy,
    Polymers.efjc.thermodynamics.isotensional.asymptotic.legendre.EFJC.nondimensional_relative_helmholtz_free_energy_per_link,
    Polymers.efjc.thermodynamics.isotensional.asymptotic.legendre.nondimensional_helmholtz_free_energy,
    Polymers.efjc.thermodynamics.isotensional.asymptotic.legendre.helmholtz_free_energy,
    Polymers.efjc.thermodynamics.isotensional.asymptotic.legendre.helmholtz_free_energy_per_link,
    Polymers.efjc.thermodynamics.isotensional.asymptotic.legendre.relative_helmholtz_free_energy,
    Polymers.efjc.thermodynamics.isotensional.asymptotic.legendre.relative_helmholtz_free_energy_per_link,
    Polymers.efjc.thermodynamics.isotensional.asymptotic.legendre.nondimensional_relative_helmholtz_free_energy,
    Polymers.efjc.thermodynamics.isotensional.asymptotic.legendre.nondimensional_relative_helmholtz_free_energy_per_link]
    [Polymers.efjc.thermodynamics.isotensional.asymptotic.legendre.nondimensional_helmholtz_free_energy_per_link]

example : (efjc_isotensional_asymptotic_legendre_helmholtz 8 1 1 500).RelativeTo (ndForce 1) 1e-6 :=
  C16_reference_efjc_isotensional_asymptotic_legendre_helmholtz 8 1 1 500 (by norm_num) (by norm_num)

/-- C16: the hinge mass does not enter the relative helmholtz energies of `src/physics/single_chain/efjc/thermodynamics/isotensional/asymptotic/legendre/mod.rs`. -/
theorem C16_mass_efjc_isotensional_asymptotic_legendre_helmholtz (N : ℕ) (ℓ : ℝ) (m : ℝ) (k : ℝ) (m' : ℝ) :
    (efjc_isotensional_asymptotic_legendre_helmholtz N ℓ m k).SameRelative (efjc_isotensional_asymptotic_legendre_helmholtz N ℓ m' k) :=
  ⟨rfl, rfl, rfl, rfl⟩

/-- C15 for the gibbs methods of `src/physics/single_chain/efjc/thermodynamics/isotensional/asymptotic/reduced/mod.rs`. -/
theorem C15_efjc_isotensional_asymptotic_reduced_gibbs (N : ℕ) (ℓ : ℝ) (m : ℝ) (k : ℝ) (hN : 0 < N) (hℓ : 0 < ℓ) :
    (efjc_isotensional_asymptotic_reduced_gibbs N ℓ m k).Scales N (ndForce ℓ) := by
  scaling_tac hN hℓ [efjc_isotensional_asymptotic_reduced_gibbs,
    Polymers.efjc.EFJC.init, Polymers.efjc.thermodynamics.EFJC.init,
    Polymers.efjc.thermodynamics.isotensional.EFJC.init,
    Polymers.efjc.thermodynamics.isotensional.asymptotic.EFJC.init,
    Polymers.efjc.thermodynamics.isotensional.asymptotic.reduced.EFJC.init,
    Polymers.efjc.thermodynamics.isotensional.asymptotic.reduced.EFJC.gibbs_free_energy,
    Polymers.efjc.thermodynamics.isotensional.asymptotic.reduced.EFJC.gibbs_free_energy_per_link,
    Polymers.efjc.thermodynamics.isotensional.asymptotic.reduced.EFJC.relative_gibbs_free_energy,
    Polymers.efjc.thermodynamics.isotensional.asymptotic.reduced.EFJC.relative_gibbs_free_energy_per_link,
    Polymers.efjc.thermodynamics.isotensional.asymptotic.reduced.EFJC.nondimensional_gibbs_free_energy,
    Polymers.efjc.thermodynamics.isotensional.asymptotic.reduced.EFJC.nondimensional_gibbs_free_energy_per_link,
    Polymers.efjc.thermodynamics.isotensional.asymptotic.reduced.EFJC.nondimensional_relative_gibbs_free_energy,
    Polymers.efjc.thermodynamics.isotensional.asymptotic.reduced.EFJC.nondimensional_relative_gibbs_free_energy_per_link,
    Polymers.efjc.thermodynamics.isotensional.asymptotic.reduced.gibbs_free_energy,
    Polymers.efjc.thermodynamics.isotensional.asymptotic.reduced.gibbs_free_energy_per_link,
    Polymers.efjc.thermodynamics.isotensional.asymptotic.reduced.relative_gibbs_free_energy,
    Polymers.efjc.thermodynamics.isotensional.asymptotic.reduced.relative_gibbs_free_energy_per_link,
    Polymers.efjc.thermodynamics.isotensional.asymptotic.reduced.nondimensional_gibbs_free_energy,
    Polymers.efjc.thermodynamics.isotensional.asymptotic.reduced.nondimensional_relative_gibbs_free_energy,
    Polymers.efjc.thermodynamics.isotensional.asymptotic.reduced.nondimensional_relative_gibbs_free_energy_per_link]
    [Polymers.efjc.thermodynamics.isotensional.asymptotic.reduced.nondimensional_gibbs_free_energy_per_link]

example : (efjc_isotensional_asymptotic_reduced_gibbs 8 1 1 500).Scales 8 (ndForce 1) :=
  C15_efjc_isotensional_asymptotic_reduced_gibbs 8 1 1 500 (by norm_num) (by norm_num)

/-- C16 for the gibbs methods of `src/physics/single_chain/efjc/thermodynamics/isotensional/asymptotic/reduced/mod.rs`. -/
theorem C16_reference_efjc_isotensional_asymptotic_reduced_gibbs (N : ℕ) (ℓ : ℝ) (m : ℝ) (k : ℝ) (hN : 0 < N) (hℓ : 0 < ℓ) :
    (efjc_isotensional_asymptotic_reduced_gibbs N ℓ m k).RelativeTo (ndForce ℓ) 1e-6 := by
  refine EnergyMethods.RelativeTo.of_nd hN (C15_efjc_isotensional_asymptotic_reduced_gibbs N ℓ m k hN hℓ) ?_
  relative_tac hN [efjc_isotensional_asymptotic_reduced_gibbs,
    Polymers.efjc.EFJC.init, Polymers.efjc.thermodynamics.EFJC.init,
    Polymers.efjc.thermodynamics.isotensional.EFJC.init,
    Polymers.efjc.thermodynamics.isotensional.asymptotic.EFJC.init,
    Polymers.efjc.thermodynamics.isotensional.asymptotic.reduced.EFJC.init,
    Polymers.efjc.thermodynamics.isotensional.asymptotic.reduced.EFJC.gibbs_free_energy,
    Polymers.efjc.thermodynamics.isotensional.asymptotic.reduced.EFJC.gibbs_free_energy_per_link,
    Polymers.efjc.thermodynamics.isotensional.asymptotic.reduced.EFJC.relative_gibbs_free_energy,
    Polymers.efjc.thermodynamics.isotensional.asymptotic.reduced.EFJC.relative_gibbs_free_energy_per_link,
    Polymers.efjc.thermodynamics.isotensional.asymptotic.reduced.EFJC.nondimensional_gibbs_free_energy,
    Polymers.efjc.thermodynamics.isotensional.asymptotic.reduced.EFJC.nondimensional_gibbs_free_energy_per_link,
    Polymers.efjc.thermodynamics.isotensional.asymptotic.reduced.EFJC.nondimensional_relative_gibbs_free_energy,
    Polymers.efjc.thermodynamics.isotensional.asymptotic.reduced.EFJC.nondimensional_relative_gibbs_free_energy_per_link,
    Polymers.efjc.thermodynamics.isotensional.asymptotic.reduced.gibbs_free_energy,
    Polymers.efjc.thermodynamics.isotensional.asymptotic.reduced.gibbs_free_energy_per_link,
    Polymers.efjc.thermodynamics.isotensional.asymptotic.reduced.relative_gibbs_free_energy,
    Polymers.efjc.thermodynamics.isotensional.asymptotic.reduced.relative_gibbs_free_energy_per_link,
    Polymers.efjc.thermodynamics.isotensional.asymptotic.reduced.nondimensional_gibbs_free_energy,
    Polymers.efjc.thermodynamics.isotensional.asymptotic.reduced.nondimensional_relative_gibbs_free_energy,
    Polymers.efjc.thermodynamics.isotensional.asymptotic.reduced.nondimensional_relative_gibbs_free_energy_per_link]
    [Polymers.efjc.thermodynamics.isotensional.asymptotic.reduced.nondimensional_gibbs_free_energy_per_link]

example : (efjc_isotensional_asymptotic_reduced_gibbs 8 1 1 500).RelativeTo (ndForce 1) 1e-6 :=
  C16_reference_efjc_isotensional_asymptotic_reduced_gibbs 8 1 1 500 (by norm_num) (by norm_num)

/-- C16: the hinge mass does not enter the relative gibbs energies of `src/physics/single_chain/efjc/thermodynamics/isotensional/asymptotic/reduced/mod.rs`. -/
theorem C16_mass_efjc_isotensional_asymptotic_reduced_gibbs (N : ℕ) (ℓ : ℝ) (m : ℝ) (k : ℝ) (m' : ℝ) :
    (efjc_isotensional_asymptotic_reduced_gibbs N ℓ m k).SameRelative (efjc_isotensional_asymptotic_reduced_gibbs N ℓ m' k) :=
  ⟨rfl, rfl, rfl, rfl⟩

/-- C15 for the lengths methods of `src/physics/single_chain/efjc/thermodynamics/isotensional/asymptotic/reduced/mod.rs`. -/
theorem C15_efjc_isotensional_asymptotic_reduced_lengths (N : ℕ) (ℓ : ℝ) (m : ℝ) (k : ℝ) (hN : 0 < N) (hℓ : 0 < ℓ) :
    (efjc_isotensional_asymptotic_reduced_lengths N ℓ m k).Scales N ℓ (ndForce ℓ) := by
  scaling_tac hN hℓ [efjc_isotensional_asymptotic_reduced_lengths,
    Polymers.efjc.EFJC.init, Polymers.efjc.thermodynamics.EFJC.init,
    Polymers.efjc.thermodynamics.isotensional.EFJC.init,
    Polymers.efjc.thermodynamics.isotensional.asymptotic.EFJC.init,
    Polymers.efjc.thermodynamics.isotensional.asymptotic.reduced.EFJC.init,
    Polymers.efjc.thermodynamics.isotensional.asymptotic.reduced.EFJC.end_to_end_length,
    Polymers.efjc.thermodynamics.isotensional.asymptotic.reduced.EFJC.end_to_end_length_per_link,
    Polymers.efjc.thermodynamics.isotensional.asymptotic.reduced.EFJC.nondimensional_end_to_end_length,
    Polymers.efjc.thermodynamics.isotensional.asymptotic.reduced.EFJC.nondimensional_end_to_end_length_per_link,
    Polymers.efjc.thermodynamics.isotensional.asymptotic.reduced.end_to_end_length,
    Polymers.efjc.thermodynamics.isotensional.asymptotic.reduced.end_to_end_length_per_link,
    Polymers.efjc.thermodynamics.isotensional.asymptotic.reduced.nondimensional_end_to_end_length]
    [Polymers.efjc.thermodynamics.isotensional.asymptotic.reduced.nondimensional_end_to_end_length_per_link]

example : (efjc_isotensional_asymptotic_reduced_lengths 8 1 1 500).Scales 8 1 (ndForce 1) :=
  C15_efjc_isotensional_asymptotic_reduced_lengths 8 1 1 500 (by norm_num) (by norm_num)

/-- C15 for the gibbs methods of `src/physics/single_chain/efjc/thermodynamics/isotensional/asymptotic/mod.rs`. -/
theorem C15_efjc_isotensional_asymptotic_gibbs (N : ℕ) (ℓ : ℝ) (m : ℝ) (k : ℝ) (hN : 0 < N) (hℓ : 0 < ℓ) :
    (efjc_isotensional_asymptotic_gibbs N ℓ m k).Scales N (ndForce ℓ) := by
  scaling_tac hN hℓ [efjc_isotensional_asymptotic_gibbs,
    Polymers.efjc.EFJC.init, Polymers.efjc.thermodynamics.EFJC.init,
    Polymers.efjc.thermodynamics.isotensional.EFJC.init,
    Polymers.efjc.thermodynamics.isotensional.asymptotic.EFJC.init,
    Polymers.efjc.thermodynamics.isotensional.asymptotic.EFJC.gibbs_free_energy,
    Polymers.efjc.thermodynamics.isotensional.asymptotic.EFJC.gibbs_free_energy_per_link,
    Polymers.efjc.thermodynamics.isotensional.asymptotic.EFJC.relative_gibbs_free_energy,
    Polymers.efjc.thermodynamics.isotensional.asymptotic.EFJC.relative_gibbs_free_energy_per_link,
    Polymers.efjc.thermodynamics.isotensional.asymptotic.EFJC.nondimensional_gibbs_free_energy,
    Polymers.efjc.thermodynamics.isotensional.asymptotic.EFJC.nondimensional_gibbs_free_energy_per_link,
    Polymers.efjc.thermodynamics.isotensional.asymptotic.EFJC.nondimensional_relative_gibbs_free_energy,
    Polymers.efjc.thermodynamics.isotensional.asymptotic.EFJC.nondimensional_relative_gibbs_free_energy_per_link,
    Polymers.efjc.thermodynamics.isotensional.asymptotic.gibbs_free_energy,
    Polymers.efjc.thermodynamics.isotensional.asymptotic.gibbs_free_energy_per_link,
    Polymers.efjc.thermodynamics.isotensional.asymptotic.relative_gibbs_free_energy,
    Polymers.efjc.thermodynamics.isotensional.asymptotic.relative_gibbs_free_energy_per_link,
    Polymers.efjc.thermodynamics.isotensional.asymptotic.nondimensional_gibbs_free_energy,
    Polymers.efjc.thermodynamics.isotensional.asymptotic.nondimensional_relative_gibbs_free_energy,
    Polymers.efjc.thermodynamics.isotensional.asymptotic.nondimensional_relative_gibbs_free_energy_per_link]
    [Polymers.efjc.thermodynamics.isotensional.asymptotic.nondimensional_gibbs_free_energy_per_link]

example : (efjc_isotensional_asymptotic_gibbs 8 1 1 500).Scales 8 (ndForce 1) :=
  C15_efjc_isotensional_asymptotic_gibbs 8 1 1 500 (by norm_num) (by norm_num)

/-- C16 for the gibbs methods of `src/physics/single_chain/efjc/thermodynamics/isotensional/asymptotic/mod.rs`. -/
theorem C16_reference_efjc_isotensional_asymptotic_gibbs (N : ℕ) (ℓ : ℝ) (m : ℝ) (k : ℝ) (hN : 0 < N) (hℓ : 0 < ℓ) :
    (efjc_isotensional_asymptotic_gibbs N ℓ m k).RelativeTo (ndForce ℓ) 1e-6 := by
  refine EnergyMethods.RelativeTo.of_nd hN (C15_efjc_isotensional_asymptotic_gibbs N ℓ m k hN hℓ) ?_
  relative_tac hN [efjc_isotensional_asymptotic_gibbs,
    Polymers.efjc.EFJC.init, Polymers.efjc.thermodynamics.EFJC.init,
    Polymers.efjc.thermodynamics.isotensional.EFJC.init,
    Polymers.efjc.thermodynamics.isotensional.asymptotic.EFJC.init,
    Polymers.efjc.thermodynamics.isotensional.asymptotic.EFJC.gibbs_free_energy,
    Polymers.efjc.thermodynamics.isotensional.asymptotic.EFJC.gibbs_free_energy_per_link,
    Polymers.efjc.thermodynamics.isotensional.asymptotic.EFJC.relative_gibbs_free_energy,
    Polymers.efjc.thermodynamics.isotensional.asymptotic.EFJC.relative_gibbs_free_energy_per_link,
    Polymers.efjc.thermodynamics.isotensional.asymptotic.EFJC.nondimensional_gibbs_free_energy,
    Polymers.efjc.thermodynamics.isotensional.asymptotic.EFJC.nondimensional_gibbs_free_energy_per_link,
    Polymers.efjc.thermodynamics.isotensional.asymptotic.EFJC.nondimensional_relative_gibbs_free_energy,
    Polymers.efjc.thermodynamics.isotensional.asymptotic.EFJC.nondimensional_relative_gibbs_free_energy_per_link,
    Polymers.efjc.thermodynamics.isotensional.asymptotic.gibbs_free_energy,
    Polymers.efjc.thermodynamics.isotensional.asymptotic.gibbs_free_energy_per_link,
    Polymers.efjc.thermodynamics.isotensional.asymptotic.relative_gibbs_free_energy,
    Polymers.efjc.thermodynamics.isotensional.asymptotic.relative_gibbs_free_energy_per_link,
    Polymers.efjc.thermodynamics.isotensional.asymptotic.nondimensional_gibbs_free_energy,
    Polymers.efjc.thermodynamics.isotensional.asymptotic.nondimensional_relative_gibbs_free_energy,
    Polymers.efjc.thermodynamics.isotensional.asymptotic.nondimensional_relative_gibbs_free_energy_per_link]
    [Polymers.efjc.thermodynamics.isotensional.asymptotic.nondimensional_gibbs_free_energy_per_link]

example : (efjc_isotensional_asymptotic_gibbs 8 1 1 500).RelativeTo (ndForce 1) 1e-6 :=
  C16_reference_efjc_isotensional_asymptotic_gibbs 8 1 1 500 (by norm_num) (by norm_num)

/-- C16: the hinge mass does not enter the relative gibbs energies of `src/physics/single_chain/efjc/thermodynamics/isotensional/asymptotic/mod.rs`. -/
theorem C16_mass_efjc_isotensional_asymptotic_gibbs (N : ℕ) (ℓ : ℝ) (m : ℝ) (k : ℝ) (m' : ℝ) :
    (efjc_isotensional_asymptotic_gibbs N ℓ m k).SameRelative (efjc_isotensional_asymptotic_gibbs N ℓ m' k) :=
  ⟨rfl, rfl, rfl, rfl⟩

/-- C15 for the lengths methods of `src/physics/single_chain/efjc/thermodynamics/isotensional/asymptotic/mod.rs`. -/
theorem C15_efjc_isotensional_asymptotic_lengths (N : ℕ) (ℓ : ℝ) (m : ℝ) (k : ℝ) (hN : 0 < N) (hℓ : 0 < ℓ) :
    (efjc_isotensional_asymptotic_lengths N ℓ m k).Scales N ℓ (ndForce ℓ) := by
  scaling_tac hN hℓ [efjc_isotensional_asymptotic_lengths,
    Polymers.efjc.EFJC.init, Polymers.efjc.thermodynamics.EFJC.init,
    Polymers.efjc.thermodynamics.isotensional.EFJC.init,
    Polymers.efjc.thermodynamics.isotensional.asymptotic.EFJC.init,
    Polymers.efjc.thermodynamics.isotensional.asymptotic.EFJC.end_to_end_length,
    Polymers.efjc.thermodynamics.isotensional.asymptotic.EFJC.end_to_end_length_per_link,
    Polymers.efjc.thermodynamics.isotensional.asymptotic.EFJC.nondimensional_end_to_end_length,
    Polymers.efjc.thermodynamics.isotensional.asymptotic.EFJC.nondimensional_end_to_end_length_per_link,
    Polymers.efjc.thermodynamics.isotensional.asymptotic.nondimensional_end_to_end_length,
    Polymers.efjc.thermodynamics.isotensional.asymptotic.end_to_end_length,
    Polymers.efjc.thermodynamics.isotensional.asymptotic.end_to_end_length_per_link]
    [Polymers.efjc.thermodynamics.isotensional.asymptotic.nondimensional_end_to_end_length_per_link]

example : (efjc_isotensional_asymptotic_lengths 8 1 1 500).Scales 8 1 (ndForce 1) :=
  C15_efjc_isotensional_asymptotic_lengths 8 1 1 500 (by norm_num) (by norm_num)

/-- C15 for the helmholtz methods of `src/physics/single_chain/efjc/thermodynamics/isotensional/legendre/mod.rs`. -/
theorem C15_efjc_isotensional_legendre_helmholtz (N : ℕ) (ℓ : ℝ) (m : ℝ) (k : ℝ) (hN : 0 < N) (hℓ : 0 < ℓ) :
    (efjc_isotensional_legendre_helmholtz N ℓ m k).Scales N (ndForce ℓ) := by
  scaling_tac hN hℓ [efjc_isotensional_legendre_helmholtz,
    Polymers.efjc.EFJC.init, Polymers.efjc.thermodynamics.EFJC.init,
    Polymers.efjc.thermodynamics.isotensional.EFJC.init,
    Polymers.efjc.thermodynamics.isotensional.legendre.EFJC.init,
    Polymers.efjc.thermodynamics.isotensional.legendre.EFJC.helmholtz_free_energy,
    Polymers.efjc.thermodynamics.isotensional.legendre.EFJC.helmholtz_free_energy_per_link,
    Polymers.efjc.thermodynamics.isotensional.legendre.EFJC.relative_helmholtz_free_energy,
    Polymers.efjc.thermodynamics.isotensional.legendre.EFJC.relative_helmholtz_free_energy_per_link,
    Polymers.efjc.thermodynamics.isotensional.legendre.EFJC.nondimensional_helmholtz_free_energy,
    Polymers.efjc.thermodynamics.isotensional.legendre.EFJC.nondimensional_helmholtz_free_energy_per_link,
    Polymers.efjc.thermodynamics.isotensional.legendre.EFJC.nondimensional_relative_helmholtz_free_energy,
    Polymers.efjc.thermodynamics.isotensional.legendre.EFJC.nondimensional_relative_helmholtz_free_energy_per_link,
    Polymers.efjc.thermodynamics.isotensional.legendre.nondimensional_helmholtz_free_energy,
    Polymers.efjc.thermodynamics.isotensional.legendre.helmholtz_free_energy,
    Polymers.efjc.thermodynamics.isotensional.legendre.helmholtz_free_energy_per_link,
    Polymers.efjc.thermodynamics.isotensional.legendre.relative_helmholtz_free_energy,
    Polymers.efjc.thermodynamics.isotensional.legendre.relative_helmholtz_free_energy_per_link,
    Polymers.efjc.thermodynamics.isotensional.legendre.nondimensional_relative_helmholtz_free_energy,
    Polymers.efjc.thermodynamics.isotensional.legendre.nondimensional_relative_helmholtz_free_energy_per_link]
    [Polymers.efjc.thermodynamics.isotensional.legendre.nondimensional_helmholtz_free_energy_per_link]

example : (efjc_isotensional_legendre_helmholtz 8 1 1 500).Scales 8 (ndForce 1) :=
  C15_efjc_isotensional_legendre_helmholtz 8 1 1 500 (by norm_num) (by norm_num)

/-- C16 for the helmholtz methods of `src/physics/single_chain/efjc/thermodynamics/isotensional/legendre/mod.rs`. -/
theorem C16_reference_efjc_isotensional_legendre_helmholtz (N : ℕ) (ℓ : ℝ) (m : ℝ) (k : ℝ) (hN : 0 < N) (hℓ : 0 < ℓ) :
    (efjc_isotensional_legendre_helmholtz N ℓ m k).RelativeTo (ndForce ℓ) 1e-6 := by
  refine EnergyMethods.RelativeTo.of_nd hN (C15_efjc_isotensional_legendre_helmholtz N ℓ m k hN hℓ) ?_
  relative_tac hN [efjc_isotensional_legendre_helmholtz,
    Polymers.efjc.EFJC.init, Polymers.efjc.thermodynamics.EFJC.init,
    Polymers.efjc.thermodynamics.isotensional.EFJC.init,
    Polymers.efjc.thermodynamics.isotensional.legendre.EFJC.init,
    Polymers.efjc.thermodynamics.isotensional.legendre.EFJC.helmholtz_free_energy,
    Polymers.efjc.thermodynamics.isotensional.legendre.EFJC.helmholtz_free_energy_per_link,
    Polymers.efjc.thermodynamics.isotensional.legendre.EFJC.relative_helmholtz_free_energy,
    Polymers.efjc.thermodynamics.isotensional.legendre.EFJC.relative_helmholtz_free_energy_per_link,
    Polymers.efjc.thermodynamics.isotensional.legendre.EFJC.nondimensional_helmholtz_free_energy,
    Polymers.efjc.thermodynamics.isotensional.legendre.EFJC.nondimensional_helmholtz_free_energy_per_link,
    Polymers.efjc.thermodynamics.isotensional.legendre.EFJC.nondimensional_relative_helmholtz_free_energy,
    Polymers.efjc.thermodynamics.isotensional.legendre.EFJC.nondimensional_relative_helmholtz_free_energy_per_link,
    Polymers.efjc.thermodynamics.isotensional.legendre.nondimensional_helmholtz_free_energy,
    Polymers.efjc.thermodynamics.isotensional.legendre.helmholtz_free_energy,
    Polymers.efjc.thermodynamics.isotensional.legendre.helmholtz_free_energy_per_link,
    Polymers.efjc.thermodynamics.isotensional.legendre.relative_helmholtz_free_energy,
    Polymers.efjc.thermodynamics.isotensional.legendre.relative_helmholtz_free_energy_per_link,
    Polymers.efjc.thermodynamics.isotensional.legendre.nondimensional_relative_helmholtz_free_energy,
    Polymers.efjc.thermodynamics.isotensional.legendre.nondimensional_relative_helmholtz_free_energy_per_link]
    [Polymers.efjc.thermodynamics.isotensional.legendre.nondimensional_helmholtz_free_energy_per_link]

example : (efjc_isotensional_legendre_helmholtz 8 1 1 500).RelativeTo (ndForce 1) 1e-6 :=
  C16_reference_efjc_isotensional_legendre_helmholtz 8 1 1 500 (by norm_num) (by norm_num)

/-- C16: the hinge mass does not enter the relative helmholtz energies of `src/physics/single_chain/efjc/thermodynamics/isotensional/legendre/mod.rs`. -/
theorem C16_mass_efjc_isotensional_legendre_helmholtz (N : ℕ) (ℓ : ℝ) (m : ℝ) (k : ℝ) (m' : ℝ) :
    (efjc_isotensional_legendre_helmholtz N ℓ m k).SameRelative (efjc_isotensional_legendre_helmholtz N ℓ m' k) :=
  ⟨rfl, rfl, rfl, rfl⟩

/-- C15 for the gibbs methods of `src/physics/single_chain/efjc/thermodynamics/isotensional/mod.rs`. -/
theorem C15_efjc_isotensional_gibbs (N : ℕ) (ℓ : ℝ) (m : ℝ) (k : ℝ) (hN : 0 < N) (hℓ : 0 < ℓ) :
    (efjc_isotensional_gibbs N ℓ m k).Scales N (ndForce ℓ) := by
  scaling_tac hN hℓ [efjc_isotensional_gibbs,
    Polymers.efjc.EFJC.init, Polymers.efjc.thermodynamics.EFJC.init,
    Polymers.efjc.thermodynamics.isotensional.EFJC.init,
    Polymers.efjc.thermodynamics.isotensional.EFJC.gibbs_free_energy,
    Polymers.efjc.thermodynamics.isotensional.EFJC.gibbs_free_energy_per_link,
    Polymers.efjc.thermodynamics.isotensional.EFJC.relative_gibbs_free_energy,
    Polymers.efjc.thermodynamics.isotensional.EFJC.relative_gibbs_free_energy_per_link,
    Polymers.efjc.thermodynamics.isotensional.EFJC.nondimensional_gibbs_free_energy,
    Polymers.efjc.thermodynamics.isotensional.EFJC.nondimensional_gibbs_free_energy_per_link,
    Polymers.efjc.thermodynamics.isotensional.EFJC.nondimensional_relative_gibbs_free_energy,
    Polymers.efjc.thermodynamics.isotensional.EFJC.nondimensional_relative_gibbs_free_energy_per_link,
    Polymers.efjc.thermodynamics.isotensional.gibbs_free_energy,
    Polymers.efjc.thermodynamics.isotensional.gibbs_free_energy_per_link,
    Polymers.efjc.thermodynamics.isotensional.relative_gibbs_free_energy,
    Polymers.efjc.thermodynamics.isotensional.relative_gibbs_free_energy_per_link,
    Polymers.efjc.thermodynamics.isotensional.nondimensional_gibbs_free_energy,
    Polymers.efjc.thermodynamics.isotensional.nondimensional_relative_gibbs_free_energy,
    Polymers.efjc.thermodynamics.isotensional.nondimensional_relative_gibbs_free_energy_per_link]
    [Polymers.efjc.thermodynamics.isotensional.nondimensional_gibbs_free_energy_per_link]

example : (efjc_isotensional_gibbs 8 1 1 500).Scales 8 (ndForce 1) :=
  C15_efjc_isotensional_gibbs 8 1 1 500 (by norm_num) (by norm_num)

/-- C16 for the gibbs methods of `src/physics/single_chain/efjc/thermodynamics/isotensional/mod.rs`. -/
theorem C16_reference_efjc_isotensional_gibbs (N : ℕ) (ℓ : ℝ) (m : ℝ) (k : ℝ) (hN : 0 < N) (hℓ : 0 < ℓ) :
    (efjc_isotensional_gibbs N ℓ m k).RelativeTo (ndForce ℓ) 1e-6 := by
  refine EnergyMethods.RelativeTo.of_nd hN (C15_efjc_isotensional_gibbs N ℓ m k hN hℓ) ?_
  relative_tac hN [efjc_isotensional_gibbs,
    Polymers.efjc.EFJC.init, Polymers.efjc.thermodynamics.EFJC.init,
    Polymers.efjc.thermodynamics.isotensional.EFJC.init,
    Polymers.efjc.thermodynamics.isotensional.EFJC.gibbs_free_energy,
    Polymers.efjc.thermodynamics.isotensional.EFJC.gibbs_free_energy_per_link,
    Polymers.efjc.thermodynamics.isotensional.EFJC.relative_gibbs_free_energy,
    Polymers.efjc.thermodynamics.isotensional.EFJC.relative_gibbs_free_energy_per_link,
    Polymers.efjc.thermodynamics.isotensional.EFJC.nondimensional_gibbs_free_energy,
    Polymers.efjc.thermodynamics.isotensional.EFJC.nondimensional_gibbs_free_energy_per_link,
    Polymers.efjc.thermodynamics.isotensional.EFJC.nondimensional_relative_gibbs_free_energy,
    Polymers.efjc.thermodynamics.isotensional.EFJC.nondimensional_relative_gibbs_free_energy_per_link,
    Polymers.efjc.thermodynamics.isotensional.gibbs_free_energy,
    Polymers.efjc.thermodynamics.isotensional.gibbs_free_energy_per_link,
    Polymers.efjc.thermodynamics.isotensional.relative_gibbs_free_energy,
    Polymers.efjc.thermodynamics.isotensional.relative_gibbs_free_energy_per_link,
    Polymers.efjc.thermodynamics.isotensional.nondimensional_gibbs_free_energy,
    Polymers.efjc.thermodynamics.isotensional.nondimensional_relative_gibbs_free_energy,
    Polymers.efjc.thermodynamics.isotensional.nondimensional_relative_gibbs_free_energy_per_link]
    [Polymers.efjc.thermodynamics.isotensional.nondimensional_gibbs_free_energy_per_link]

example : (efjc_isotensional_gibbs 8 1 1 500).RelativeTo (ndForce 1) 1e-6 :=
  C16_reference_efjc_isotensional_gibbs 8 1 1 500 (by norm_num) (by norm_num)

/-- C16: the hinge mass does not enter the relative gibbs energies of `src/physics/single_chain/efjc/thermodynamics/isotensional/mod.rs`. -/
theorem C16_mass_efjc_isotensional_gibbs (N : ℕ) (ℓ : ℝ) (m : ℝ) (k : ℝ) (m' : ℝ) :
    (efjc_isotensional_gibbs N ℓ m k).SameRelative (efjc_isotensional_gibbs N ℓ m' k) :=
  ⟨rfl, rfl, rfl, rfl⟩

/-- C15 for the lengths methods of `src/physics/single_chain/efjc/thermodynamics/isotensional/mod.rs`. -/
theorem C15_efjc_isotensional_lengths (N : ℕ) (ℓ : ℝ) (m : ℝ) (k : ℝ) (hN : 0 < N) (hℓ : 0 < ℓ) :
    (efjc_isotensional_lengths N ℓ m k).Scales N ℓ (ndForce ℓ) := by
  scaling_tac hN hℓ [efjc_isotensional_lengths,
    Polymers.efjc.EFJC.init, Polymers.efjc.thermodynamics.EFJC.init,
    Polymers.efjc.thermodynamics.isotensional.EFJC.init,
    Polymers.efjc.thermodynamics.isotensional.EFJC.end_to_end_length,
    Polymers.efjc.thermodynamics.isotensional.EFJC.end_to_end_length_per_link,
    Polymers.efjc.thermodynamics.isotensional.EFJC.nondimensional_end_to_end_length,
    Polymers.efjc.thermodynamics.isotensional.EFJC.nondimensional_end_to_end_length_per_link,
    Polymers.efjc.thermodynamics.isotensional.nondimensional_end_to_end_length,
    Polymers.efjc.thermodynamics.isotensional.end_to_end_length,
    Polymers.efjc.thermodynamics.isotensional.end_to_end_length_per_link]
    [Polymers.efjc.thermodynamics.isotensional.nondimensional_end_to_end_length_per_link]

example : (efjc_isotensional_lengths 8 1 1 500).Scales 8 1 (ndForce 1) :=
  C15_efjc_isotensional_lengths 8 1 1 500 (by norm_num) (by norm_num)

end Polymers.Props
