/- Generated by tools/gen_scaling.py ; do not edit by hand. -/
import Verif.Spec.Api
import Verif.Lemmas.Scaling

set_option maxRecDepth 4000
set_option maxHeartbeats 1000000

namespace Polymers.Props

open Polymers.Spec Polymers.Api

/-- C15 for the helmholtz methods of `src/physics/single_chain/ufjc/log_squared/thermodynamics/isometric/asymptotic/reduced/legendre/mod.rs`. -/
theorem C15_log_squared_isometric_asymptotic_reduced_legendre_helmholtz (N : ℕ) (ℓ : ℝ) (m : ℝ) (k : ℝ) (hN : 0 < N) (hℓ : 0 < ℓ) :
    (log_squared_isometric_asymptotic_reduced_legendre_helmholtz N ℓ m k).Scales N (ndLength N ℓ) := by
  scaling_tac hN hℓ [log_squared_isometric_asymptotic_reduced_legendre_helmholtz,
    Polymers.ufjc.log_squared.LOGSQUAREDFJC.init, Polymers.ufjc.log_squared.thermodynamics.LOGSQUAREDFJC.init,
    Polymers.ufjc.log_squared.thermodynamics.isometric.LOGSQUAREDFJC.init,
    Polymers.ufjc.log_squared.thermodynamics.isometric.asymptotic.LOGSQUAREDFJC.init,
    Polymers.ufjc.log_squared.thermodynamics.isometric.asymptotic.reduced.LOGSQUAREDFJC.init,
    Polymers.ufjc.log_squared.thermodynamics.isometric.asymptotic.reduced.legendre.LOGSQUAREDFJC.init,
    Polymers.ufjc.log_squared.thermodynamics.isometric.asymptotic.reduced.legendre.LOGSQUAREDFJC.helmholtz_free_energy,
    Polymers.ufjc.log_squared.thermodynamics.isometric.asymptotic.reduced.legendre.LOGSQUAREDFJC.helmholtz_free_energy_per_link,
    Polymers.ufjc.log_squared.thermodynamics.isometric.asymptotic.reduced.legendre.LOGSQUAREDFJC.relative_helmholtz_free_energy,
    Polymers.ufjc.log_squared.thermodynamics.isometric.asymptotic.reduced.legendre.LOGSQUAREDFJC.relative_helmholtz_free_energy_per_link,
    Polymers.ufjc.log_squared.thermodynamics.isometric.asymptotic.reduced.legendre.LOGSQUAREDFJC.nondimensional_helmholtz_free_energy,
    Polymers.ufjc.log_squared.thermodynamics.isometric.asymptotic.reduced.legendre.LOGSQUAREDFJC.nondimensional_helmholtz_free_energy_per_link,
    Polymers.ufjc.log_squared.thermodynamics.isometric.asymptotic.reduced.legendre.LOGSQUAREDFJC.nondimensional_relative_helmholtz_free_energy,
    Polymers.ufjc.log_squared.thermodynamics.isometric.asymptotic.reduced.legendre.LOGSQUAREDFJC.nondimensional_relative_helmholtz_free_energy_per_link,
    Polymers.ufjc.log_squared.thermodynamics.isometric.asymptotic.reduced.legendre.nondimensional_helmholtz_free_energy,
    Polymers.ufjc.log_squared.thermodynamics.isometric.asymptotic.reduced.legendre.helmholtz_free_energy,
    Polymers.ufjc.log_squared.thermodynamics.isometric.asymptotic.reduced.legendre.helmholtz_free_energy_per_link,
    Polymers.ufjc.log_squared.thermodynamics.isometric.asymptotic.reduced.legendre.relative_helmholtz_free_energy,
    Polymers.ufjc.log_squared.thermodynamics.isometric.asymptotic.reduced.legendre.relative_helmholtz_free_energy_per_link,
    Polymers.ufjc.log_squared.thermodynamics.isometric.asymptotic.reduced.legendre.nondimensional_relative_helmholtz_free_energy,
    Polymers.ufjc.log_squared.thermodynamics.isometric.asymptotic.reduced.legendre.nondimensional_relative_helmholtz_free_energy_per_link]
    [Polymers.ufjc.log_squared.thermodynamics.isometric.asymptotic.reduced.legendre.nondimensional_helmholtz_free_energy_per_link]

example : (log_squared_isometric_asymptotic_reduced_legendre_helmholtz 8 1 1 500).Scales 8 (ndLength 8 1) :=
  C15_log_squared_isometric_asymptotic_reduced_legendre_helmholtz 8 1 1 500 (by norm_num) (by norm_num)

/-- C16 for the helmholtz methods of `src/physics/single_chain/ufjc/log_squared/thermodynamics/isometric/asymptotic/reduced/legendre/mod.rs`. -/
theorem C16_reference_log_squared_isometric_asymptotic_reduced_legendre_helmholtz (N : ℕ) (ℓ : ℝ) (m : ℝ) (k : ℝ) (hN : 0 < N) (hℓ : 0 < ℓ) :
    (log_squared_isometric_asymptotic_reduced_legendre_helmholtz N ℓ m k).RelativeTo (ndLength N ℓ) 1e-6 := by
  refine EnergyMethods.RelativeTo.of_nd hN (C15_log_squared_isometric_asymptotic_reduced_legendre_helmholtz N ℓ m k hN hℓ) ?_
  relative_tac hN [log_squared_isometric_asymptotic_reduced_legendre_helmholtz,
    Polymers.ufjc.log_squared.LOGSQUAREDFJC.init, Polymers.ufjc.log_squared.thermodynamics.LOGSQUAREDFJC.init,
    Polymers.ufjc.log_squared.thermodynamics.isometric.LOGSQUAREDFJC.init,
    Polymers.ufjc.log_squared.thermodynamics.isometric.asymptotic.LOGSQUAREDFJC.init,
    Polymers.ufjc.log_squared.thermodynamics.isometric.asymptotic.reduced.LOGSQUAREDFJC.init,
    Polymers.ufjc.log_squared.thermodynamics.isometric.asymptotic.reduced.legendre.LOGSQUAREDFJC.init,
    Polymers.ufjc.log_squared.thermodynamics.isometric.asymptotic.reduced.legendre.LOGSQUAREDFJC.helmholtz_free_energy,
    Polymers.ufjc.log_squared.thermodynamics.isometric.asymptotic.reduced.legendre.LOGSQUAREDFJC.helmholtz_free_energy_per_link,
    Polymers.ufjc.log_squared.thermodynamics.isometric.asymptotic.reduced.legendre.LOGSQUAREDFJC.relative_helmholtz_free_energy,
    Polymers.ufjc.log_squared.thermodynamics.isometric.asymptotic.reduced.legendre.LOGSQUAREDFJC.relative_helmholtz_free_energy_per_link,
    Polymers.ufjc.log_squared.thermodynamics.isometric.asymptotic.reduced.legendre.LOGSQUAREDFJC.nondimensional_helmholtz_free_energy,
    Polymers.ufjc.log_squared.thermodynamics.isometric.asymptotic.reduced.legendre.LOGSQUAREDFJC.nondimensional_helmholtz_free_energy_per_link,
    Polymers.ufjc.log_squared.thermodynamics.isometric.asymptotic.reduced.legendre.LOGSQUAREDFJC.nondimensional_relative_helmholtz_free_energy,
    Polymers.ufjc.log_squared.thermodynamics.isometric.asymptotic.reduced.legendre.LOGSQUAREDFJC.nondimensional_relative_helmholtz_free_energy_per_link,
    Polymers.ufjc.log_squared.thermodynamics.isometric.asymptotic.reduced.legendre.nondimensional_helmholtz_free_energy,
    Polymers.ufjc.log_squared.thermodynamics.isometric.asymptotic.reduced.legendre.helmholtz_free_energy,
    Polymers.ufjc.log_squared.thermodynamics.isometric.asymptotic.reduced.legendre.helmholtz_free_energy_per_link,
    Polymers.ufjc.log_squared.thermodynamics.isometric.asymptotic.reduced.legendre.relative_helmholtz_free_energy,
    Polymers.ufjc.log_squared.thermodynamics.isometric.asymptotic.reduced.legendre.relative_helmholtz_free_energy_per_link,
    Polymers.ufjc.log_squared.thermodynamics.isometric.asymptotic.reduced.legendre.nondimensional_relative_helmholtz_free_energy,
    Polymers.ufjc.log_squared.thermodynamics.isometric.asymptotic.reduced.legendre.nondimensional_relative_helmholtz_free_energy_per_link]
    [Polymers.ufjc.log_squared.thermodynamics.isometric.asymptotic.reduced.legendre.nondimensional_helmholtz_free_energy_per_link]

example : (log_squared_isometric_asymptotic_reduced_legendre_helmholtz 8 1 1 500).RelativeTo (ndLength 8 1) 1e-6 :=
  C16_reference_log_squared_isometric_asymptotic_reduced_legendre_helmholtz 8 1 1 500 (by norm_num) (by norm_num)

/-- C16: the hinge mass does not enter the relative helmholtz energies of `src/physics/single_chain/ufjc/log_squared/thermodynamics/isometric/asymptotic/reduced/legendre/mod.rs`. -/
theorem C16_mass_log_squared_isometric_asymptotic_reduced_legendre_helmholtz (N : ℕ) (ℓ : ℝ) (m : ℝ) (k : ℝ) (m' : ℝ) :
    (log_squared_isometric_asymptotic_reduced_legendre_helmholtz N ℓ m k).SameRelative (log_squared_isometric_asymptotic_reduced_legendre_helmholtz N ℓ m' k) :=
  ⟨rfl, rfl, rfl, rfl⟩

/-- C15 for the forces methods of `src/physics/single_chain/ufjc/log_squared/thermodynamics/isometric/asymptotic/reduced/legendre/mod.rs`. -/
theorem C15_log_squared_isometric_asymptotic_reduced_legendre_forces (N : ℕ) (ℓ : ℝ) (m : ℝ) (k : ℝ) (hN : 0 < N) (hℓ : 0 < ℓ) :
    (log_squared_isometric_asymptotic_reduced_legendre_forces N ℓ m k).Scales ℓ (ndLength N ℓ) := by
  scaling_tac hN hℓ [log_squared_isometric_asymptotic_reduced_legendre_forces,
    Polymers.ufjc.log_squared.LOGSQUAREDFJC.init, Polymers.ufjc.log_squared.thermodynamics.LOGSQUAREDFJC.init,
    Polymers.ufjc.log_squared.thermodynamics.isometric.LOGSQUAREDFJC.init,
    Polymers.ufjc.log_squared.thermodynamics.isometric.asymptotic.LOGSQUAREDFJC.init,
    Polymers.ufjc.log_squared.thermodynamics.isometric.asymptotic.reduced.LOGSQUAREDFJC.init,
    Polymers.ufjc.log_squared.thermodynamics.isometric.asymptotic.reduced.legendre.LOGSQUAREDFJC.init,
    Polymers.ufjc.log_squared.thermodynamics.isometric.asymptotic.reduced.legendre.LOGSQUAREDFJC.force,
    Polymers.ufjc.log_squared.thermodynamics.isometric.asymptotic.reduced.legendre.LOGSQUAREDFJC.nondimensional_force,
    Polymers.ufjc.log_squared.thermodynamics.isometric.asymptotic.reduced.legendre.force]
    [Polymers.ufjc.log_squared.thermodynamics.isometric.asymptotic.reduced.legendre.nondimensional_force]

example : (log_squared_isometric_asymptotic_reduced_legendre_forces 8 1 1 500).Scales 1 (ndLength 8 1) :=
  C15_log_squared_isometric_asymptotic_reduced_legendre_forces 8 1 1 500 (by norm_num) (by norm_num)

/-- C15 for the helmholtz methods of `src/physics/single_chain/ufjc/log_squared/thermodynamics/isotensional/asymptotic/reduced/legendre/mod.rs`. -/
theorem C15_log_squared_isotensional_asymptotic_reduced_legendre_helmholtz (N : ℕ) (ℓ : ℝ) (m : ℝ) (k : ℝ) (hN : 0 < N) (hℓ : 0 < ℓ) :
    (log_squared_isotensional_asymptotic_reduced_legendre_helmholtz N ℓ m k).Scales N (ndForce ℓ) := by
  scaling_tac hN hℓ [log_squared_isotensional_asymptotic_reduced_legendre_helmholtz,
    Polymers.ufjc.log_squared.LOGSQUAREDFJC.init, Polymers.ufjc.log_squared.thermodynamics.LOGSQUAREDFJC.init,
    Polymers.ufjc.log_squared.thermodynamics.isotensional.LOGSQUAREDFJC.init,
    Polymers.ufjc.log_squared.thermodynamics.isotensional.asymptotic.LOGSQUAREDFJC.init,
    Polymers.ufjc.log_squared.thermodynamics.isotensional.asymptotic.reduced.LOGSQUAREDFJC.init,
    Polymers.ufjc.log_squared.thermodynamics.isotensional.asymptotic.reduced.legendre.LOGSQUAREDFJC.init,
    Polymers.ufjc.log_squared.thermodynamics.isotensional.asymptotic.reduced.legendre.LOGSQUAREDFJC.helmholtz_free_energy,
    Polymers.ufjc.log_squared.thermodynamics.isotensional.asymptotic.reduced.legendre.LOGSQUAREDFJC.helmholtz_free_energy_per_link,
    Polymers.ufjc.log_squared.thermodynamics.isotensional.asymptotic.reduced.legendre.LOGSQUAREDFJC.relative_helmholtz_free_energy,
    Polymers.ufjc.log_squared.thermodynamics.isotensional.asymptotic.reduced.legendre.LOGSQUAREDFJC.relative_helmholtz_free_energy_per_link,
    Polymers.ufjc.log_squared.thermodynamics.isotensional.asymptotic.reduced.legendre.LOGSQUAREDFJC.nondimensional_helmholtz_free_energy,
    Polymers.ufjc.log_squared.thermodynamics.isotensional.asymptotic.reduced.legendre.LOGSQUAREDFJC.nondimensional_helmholtz_free_energy_per_link,
    Polymers.ufjc.log_squared.thermodynamics.isotensional.asymptotic.reduced.legendre.LOGSQUAREDFJC.nondimensional_relative_helmholtz_free_energy,
    Polymers.ufjc.log_squared.thermodynamics.isotensional.asymptotic.reduced.legendre.LOGSQUAREDFJC.nondimensional_relative_helmholtz_free_energy_per_link,
    Polymers.ufjc.log_squared.thermodynamics.isotensional.asymptotic.reduced.legendre.nondimensional_helmholtz_free_energy,
    Polymers.ufjc.log_squared.thermodynamics.isotensional.asymptotic.reduced.legendre.helmholtz_free_energy,
    Polymers.ufjc.log_squared.thermodynamics.isotensional.asymptotic.reduced.legendre.helmholtz_free_energy_per_link,
    Polymers.ufjc.log_squared.thermodynamics.isotensional.asymptotic.reduced.legendre.relative_helmholtz_free_energy,
    Polymers.ufjc.log_squared.thermodynamics.isotensional.asymptotic.reduced.legendre.relative_helmholtz_free_energy_per_link,
    Polymers.ufjc.log_squared.thermodynamics.isotensional.asymptotic.reduced.legendre.nondimensional_relative_helmholtz_free_energy,
    Polymers.ufjc.log_squared.thermodynamics.isotensional.asymptotic.reduced.legendre.nondimensional_relative_helmholtz_free_energy_per_link]
    [Polymers.ufjc.log_squared.thermodynamics.isotensional.asymptotic.reduced.legendre.nondimensional_helmholtz_free_energy_per_link]

example : (log_squared_isotensional_asymptotic_reduced_legendre_helmholtz 8 1 1 500).Scales 8 (ndForce 1) :=
  C15_log_squared_isotensional_asymptotic_reduced_legendre_helmholtz 8 1 1 500 (by norm_num) (by norm_num)

/-- C16 for the helmholtz methods of `src/physics/single_chain/ufjc/log_squared/thermodynamics/isotensional/asymptotic/reduced/legendre/mod.rs`. -/
theorem C16_reference_log_squared_isotensional_asymptotic_reduced_legendre_helmholtz (N : ℕ) (ℓ : ℝ) (m : ℝ) (k : ℝ) (hN : 0 < N) (hℓ : 0 < ℓ) :
    (log_squared_isotensional_asymptotic_reduced_legendre_helmholtz N ℓ m k).RelativeTo (ndForce ℓ) 1e-6 := by
  refine EnergyMethods.RelativeTo.of_nd hN (C15_log_squared_isotensional_asymptotic_reduced_legendre_helmholtz N ℓ m k hN hℓ) ?_
  relative_tac hN [log_squared_isotensional_asymptotic_reduced_legendre_helmholtz,
    Polymers.ufjc.log_squared.LOGSQUAREDFJC.init, Polymers.ufjc.log_squared.thermodynamics.LOGSQUAREDFJC.init,
    Polymers.ufjc.log_squared.thermodynamics.isotensional.LOGSQUAREDFJC.init,
    Polymers.ufjc.log_squared.thermodynamics.isotensional.asymptotic.LOGSQUAREDFJC.init,
    Polymers.ufjc.log_squared.thermodynamics.isotensional.asymptotic.reduced.LOGSQUAREDFJC.init,
    Polymers.ufjc.log_squared.thermodynamics.isotensional.asymptotic.reduced.legendre.LOGSQUAREDFJC.init,
    Polymers.ufjc.log_squared.thermodynamics.isotensional.asymptotic.reduced.legendre.LOGSQUAREDFJC.helmholtz_free_energy,
    Polymers.ufjc.log_squared.thermodynamics.isotensional.asymptotic.reduced.legendre.LOGSQUAREDFJC.helmholtz_free_energy_per_link,
    Polymers.ufjc.log_squared.thermodynamics.isotensional.asymptotic.reduced.legendre.LOGSQUAREDFJC.relative_helmholtz_free_energy,
    Polymers.ufjc.log_squared.thermodynamics.isotensional.asymptotic.reduced.legendre.LOGSQUAREDFJC.relative_helmholtz_free_energy_per_link,
    Polymers.ufjc.log_squared.thermodynamics.isotensional.asymptotic.reduced.legendre.LOGSQUAREDFJC.nondimensional_helmholtz_free_energy,
    Polymers.ufjc.log_squared.thermodynamics.isotensional.asymptotic.reduced.legendre.LOGSQUAREDFJC.nondimensional_helmholtz_free_energy_per_link,
    Polymers.ufjc.log_squared.thermodynamics.isotensional.asymptotic.reduced.legendre.LOGSQUAREDFJC.nondimensional_relative_helmholtz_free_energy,
    Polymers.ufjc.log_squared.thermodynamics.isotensional.asymptotic.reduced.legendre.LOGSQUAREDFJC.nondimensional_relative_helmholtz_free_energy_per_link,
    Polymers.ufjc.log_squared.thermodynamics.isotensional.asymptotic.reduced.legendre.nondimensional_helmholtz_free_energy,
    Polymers.ufjc.log_squared.thermodynamics.isotensional.asymptotic.reduced.legendre.helmholtz_free_energy,
    Polymers.ufjc.log_squared.thermodynamics.isotensional.asymptotic.reduced.legendre.helmholtz_free_energy_per_link,
    Polymers.ufjc.log_squared.thermodynamics.isotensional.asymptotic.reduced.legendre.relative_helmholtz_free_energy,
    Polymers.ufjc.log_squared.thermodynamics.isotensional.asymptotic.reduced.legendre.relative_helmholtz_free_energy_per_link,
    Polymers.ufjc.log_squared.thermodynamics.isotensional.asymptotic.reduced.legendre.nondimensional_relative_helmholtz_free_energy,
    Polymers.ufjc.log_squared.thermodynamics.isotensional.asymptotic.reduced.legendre.nondimensional_relative_helmholtz_free_energy_per_link]
    [Polymers.ufjc.log_squared.thermodynamics.isotensional.asymptotic.reduced.legendre.nondimensional_helmholtz_free_energy_per_link]

example : (log_squared_isotensional_asymptotic_reduced_legendre_helmholtz 8 1 1 500).RelativeTo (ndForce 1) 1e-6 :=
  C16_reference_log_squared_isotensional_asymptotic_reduced_legendre_helmholtz 8 1 1 500 (by norm_num) (by norm_num)

/-- C16: the hinge mass does not enter the relative helmholtz energies of `src/physics/single_chain/ufjc/log_squared/thermodynamics/isotensional/asymptotic/reduced/legendre/mod.rs`. -/
theorem C16_mass_log_squared_isotensional_asymptotic_reduced_legendre_helmholtz (N : ℕ) (ℓ : ℝ) (m : ℝ) (k : ℝ) (m' : ℝ) :
    (log_squared_isotensional_asymptotic_reduced_legendre_helmholtz N ℓ m k).SameRelative (log_squared_isotensional_asymptotic_reduced_legendre_helmholtz N ℓ m' k) :=
  ⟨rfl, rfl, rfl, rfl⟩

/-- C15 for the helmholtz methods of `src/physics/single_chain/ufjc/log_squared/thermodynamics/isometric/asymptotic/legendre/mod.rs`. -/
theorem C15_log_squared_isometric_asymptotic_legendre_helmholtz (N : ℕ) (ℓ : ℝ) (m : ℝ) (k : ℝ) (hN : 0 < N) (hℓ : 0 < ℓ) :
    (log_squared_isometric_asymptotic_legendre_helmholtz N ℓ m k).Scales N (ndLength N ℓ) := by
  scaling_tac hN hℓ [log_squared_isometric_asymptotic_legendre_helmholtz,
    Polymers.ufjc.log_squared.LOGSQUAREDFJC.init, Polymers.ufjc.log_squared.thermodynamics.LOGSQUAREDFJC.init,
    Polymers.ufjc.log_squared.thermodynamics.isometric.LOGSQUAREDFJC.init,
    Polymers.ufjc.log_squared.thermodynamics.isometric.asymptotic.LOGSQUAREDFJC.init,
    Polymers.ufjc.log_squared.thermodynamics.isometric.asymptotic.legendre.LOGSQUAREDFJC.init,
    Polymers.ufjc.log_squared.thermodynamics.isometric.asymptotic.legendre.LOGSQUAREDFJC.helmholtz_free_energy,
    Polymers.ufjc.log_squared.thermodynamics.isometric.asymptotic.legendre.LOGSQUAREDFJC.helmholtz_free_energy_per_link,
    Polymers.ufjc.log_squared.thermodynamics.isometric.asymptotic.legendre.LOGSQUAREDFJC.relative_helmholtz_free_energy,
    Polymers.ufjc.log_squared.thermodynamics.isometric.asymptotic.legendre.LOGSQUAREDFJC.relative_helmholtz_free_energy_per_link,
    Polymers.ufjc.log_squared.thermodynamics.isometric.asymptotic.legendre.LOGSQUAREDFJC.nondimensional_helmholtz_free_energy,
    Polymers.ufjc.log_squared.thermodynamics.isometric.asymptotic.legendre.LOGSQUAREDFJC.nondimensional_helmholtz_free_energy_per_link,
    Polymers.ufjc.log_squared.thermodynamics.isometric.asymptotic.legendre.LOGSQUAREDFJC.nondimensional_relative_helmholtz_free_energy,
    Polymers.ufjc.log_squared.thermodynamics.isometric.asymptotic.legendre.LOGSQUAREDFJC.nondimensional_relative_helmholtz_free_energy_per_link,
    Polymers.ufjc.log_squared.thermodynamics.isometric.asymptotic.legendre.nondimensional_helmholtz_free_energy,
    Polymers.ufjc.log_squared.thermodynamics.isometric.asymptotic.legendre.helmholtz_free_energy,
    Polymers.ufjc.log_squared.thermodynamics.isometric.asymptotic.legendre.helmholtz_free_energy_per_link,
    Polymers.ufjc.log_squared.thermodynamics.isometric.asymptotic.legendre.relative_helmholtz_free_energy,
    Polymers.ufjc.log_squared.thermodynamics.isometric.asymptotic.legendre.relative_helmholtz_free_energy_per_link,
    Polymers.ufjc.log_squared.thermodynamics.isometric.asymptotic.legendre.nondimensional_relative_helmholtz_free_energy,
    Polymers.ufjc.log_squared.thermodynamics.isometric.asymptotic.legendre.nondimensional_relative_helmholtz_free_energy_per_link]
    [Polymers.ufjc.log_squared.thermodynamics.isometric.asymptotic.legendre.nondimensional_helmholtz_free_energy_per_link]

example : (log_squared_isometric_asymptotic_legendre_helmholtz 8 1 1 500).Scales 8 (ndLength 8 1) :=
  C15_log_squared_isometric_asymptotic_legendre_helmholtz 8 1 1 500 (by norm_num) (by norm_num)

/-- C16 for the helmholtz methods of `src/physics/single_chain/ufjc/log_squared/thermodynamics/isometric/asymptotic/legendre/mod.rs`. -/
theorem C16_reference_log_squared_isometric_asymptotic_legendre_helmholtz (N : ℕ) (ℓ : ℝ) (m : ℝ) (k : ℝ) (hN : 0 < N) (hℓ : 0 < ℓ) :
    (log_squared_isometric_asymptotic_legendre_helmholtz N ℓ m k).RelativeTo (ndLength N ℓ) 1e-6 := by
  refine EnergyMethods.RelativeTo.of_nd hN (C15_log_squared_isometric_asymptotic_legendre_helmholtz N ℓ m k hN hℓ) ?_
  relative_tac hN [log_squared_isometric_asymptotic_legendre_helmholtz,
    Polymers.ufjc.log_squared.LOGSQUAREDFJC.init, Polymers.ufjc.log_squared.thermodynamics.LOGSQUAREDFJC.init,
    Polymers.ufjc.log_squared.thermodynamics.isometric.LOGSQUAREDFJC.init,
    Polymers.ufjc.log_squared.thermodynamics.isometric.asymptotic.LOGSQUAREDFJC.init,
    Polymers.ufjc.log_squared.thermodynamics.isometric.asymptotic.legendre.LOGSQUAREDFJC.init,
    Polymers.ufjc.log_squared.thermodynamics.isometric.asymptotic.legendre.LOGSQUAREDFJC.helmholtz_free_energy,
    Polymers.ufjc.log_squared.thermodynamics.isometric.asymptotic.legendre.LOGSQUAREDFJC.helmholtz_free_energy_per_link,
    Polymers.ufjc.log_squared.thermodynamics.isometric.asymptotic.legendre.LOGSQUAREDFJC.relative_helmholtz_free_energy,
    Polymers.ufjc.log_squared.thermodynamics.isometric.asymptotic.legendre.LOGSQUAREDFJC.relative_helmholtz_free_energy_per_link,
    Polymers.ufjc.log_squared.thermodynamics.isometric.asymptotic.legendre.LOGSQUAREDFJC.nondimensional_helmholtz_free_energy,
    Polymers.ufjc.log_squared.thermodynamics.isometric.asymptotic.legendre.LOGSQUAREDFJC.nondimensional_helmholtz_free_energy_per_link,
    Polymers.ufjc.log_squared.thermodynamics.isometric.asymptotic.legendre.LOGSQUAREDFJC.nondimensional_relative_helmholtz_free_energy,
    Polymers.ufjc.log_squared.thermodynamics.isometric.asymptotic.legendre.LOGSQUAREDFJC.nondimensional_relative_helmholtz_free_energy_per_link,
    Polymers.ufjc.log_squared.thermodynamics.isometric.asymptotic.legendre.nondimensional_helmholtz_free_energy,
    Polymers.ufjc.log_squared.thermodynamics.isometric.asymptotic.legendre.helmholtz_free_energy,
    Polymers.ufjc.log_squared.thermodynamics.isometric.asymptotic.legendre.helmholtz_free_energy_per_link,
    Polymers.ufjc.log_squared.thermodynamics.isometric.asymptotic.legendre.relative_helmholtz_free_energy,
    Polymers.ufjc.log_squared.thermodynamics.isometric.asymptotic.legendre.relative_helmholtz_free_energy_per_link,
    Polymers.ufjc.log_squared.thermodynamics.isometric.asymptotic.legendre.nondimensional_relative_helmholtz_free_energy,
    Polymers.ufjc.log_squared.thermodynamics.isometric.asymptotic.legendre.nondimensional_relative_helmholtz_free_energy_per_link]
    [Polymers.ufjc.log_squared.thermodynamics.isometric.asymptotic.legendre.nondimensional_helmholtz_free_energy_per_link]

example : (log_squared_isometric_asymptotic_legendre_helmholtz 8 1 1 500).RelativeTo (ndLength 8 1) 1e-6 :=
  C16_reference_log_squared_isometric_asymptotic_legendre_helmholtz 8 1 1 500 (by norm_num) (by norm_num)

/-- C16: the hinge mass does not enter the relative helmholtz energies of `src/physics/single_chain/ufjc/log_squared/thermodynamics/isometric/asymptotic/legendre/mod.rs`. -/
theorem C16_mass_log_squared_isometric_asymptotic_legendre_helmholtz (N : ℕ) (ℓ : ℝ) (m : ℝ) (k : ℝ) (m' : ℝ) :
    (log_squared_isometric_asymptotic_legendre_helmholtz N ℓ m k).SameRelative (log_squared_isometric_asymptotic_legendre_helmholtz N ℓ m' k) :=
  ⟨rfl, rfl, rfl, rfl⟩

/-- C15 for the forces methods of `src/physics/single_chain/ufjc/log_squared/thermodynamics/isometric/asymptotic/legendre/mod.rs`. -/
theorem C15_log_squared_isometric_asymptotic_legendre_forces (N : ℕ) (ℓ : ℝ) (m : ℝ) (k : ℝ) (hN : 0 < N) (hℓ : 0 < ℓ) :
    (log_squared_isometric_asymptotic_legendre_forces N ℓ m k).Scales ℓ (ndLength N ℓ) := by
  scaling_tac hN hℓ [log_squared_isometric_asymptotic_legendre_forces,
    Polymers.ufjc.log_squared.LOGSQUAREDFJC.init, Polymers.ufjc.log_squared.thermodynamics.LOGSQUAREDFJC.init,
    Polymers.ufjc.log_squared.thermodynamics.isometric.LOGSQUAREDFJC.init,
    Polymers.ufjc.log_squared.thermodynamics.isometric.asymptotic.LOGSQUAREDFJC.init,
    Polymers.ufjc.log_squared.thermodynamics.isometric.asymptotic.legendre.LOGSQUAREDFJC.init,
    Polymers.ufjc.log_squared.thermodynamics.isometric.asymptotic.legendre.LOGSQUAREDFJC.force,
    Polymers.ufjc.log_squared.thermodynamics.isometric.asymptotic.legendre.LOGSQUAREDFJC.nondimensional_force,
    Polymers.ufjc.log_squared.thermodynamics.isometric.asymptotic.legendre.force]
    [Polymers.ufjc.log_squared.thermodynamics.isometric.asymptotic.legendre.nondimensional_force]

example : (log_squared_isometric_asymptotic_legendre_forces 8 1 1 500).Scales 1 (ndLength 8 1) :=
  C15_log_squared_isometric_asymptotic_legendre_forces 8 1 1 500 (by norm_num) (by norm_num)

/-- C15 for the helmholtz methods of `src/physics/single_chain/ufjc/log_squared/thermodynamics/isotensional/asymptotic/legendre/mod.rs`. -/
theorem C15_log_squared_isotensional_asymptotic_legendre_helmholtz (N : ℕ) (ℓ : ℝ) (m : ℝ) (k : ℝ) (hN : 0 < N) (hℓ : 0 < ℓ) :
    (log_squared_isotensional_asymptotic_legendre_helmholtz N ℓ m k).Scales N (ndForce ℓ) := by
  scaling_tac hN hℓ [log_squared_isotensional_asymptotic_legendre_helmholtz,
    Polymers.ufjc.log_squared.LOGSQUAREDFJC.init, Polymers.ufjc.log_squared.thermodynamics.LOGSQUAREDFJC.init,
    Polymers.ufjc.log_squared.thermodynamics.isotensional.LOGSQUAREDFJC.init,
    Polymers.ufjc.log_squared.thermodynamics.isotensional.asymptotic.LOGSQUAREDFJC.init,
    Polymers.ufjc.log_squared.thermodynamics.isotensional.asymptotic.legendre.LOGSQUAREDFJC.init,
    Polymers.ufjc.log_squared.thermodynamics.isotensional.asymptotic.legendre.LOGSQUAREDFJC.helmholtz_free_energy,
    Polymers.ufjc.log_squared.thermodynamics.isotensional.asymptotic.legendre.LOGSQUAREDFJC.helmholtz_free_energy_per_link,
    Polymers.ufjc.log_squared.thermodynamics.isotensional.asymptotic.legendre.LOGSQUAREDFJC.relative_helmholtz_free_energy,
    Polymers.ufjc.log_squared.thermodynamics.isotensional.asymptotic.legendre.LOGSQUAREDFJC.relative_helmholtz_free_energy_per_link,
    Polymers.ufjc.log_squared.thermodynamics.isotensional.asymptotic.legendre.LOGSQUAREDFJC.nondimensional_helmholtz_free_energy,
    Polymers.ufjc.log_squared.thermodynamics.isotensional.asymptotic.legendre.LOGSQUAREDFJC.nondimensional_helmholtz_free_energy_per_link,
    Polymers.ufjc.log_squared.thermodynamics.isotensional.asymptotic.legendre.LOGSQUAREDFJC.nondimensional_relative_helmholtz_free_energy,
    Polymers.ufjc.log_squared.thermodynamics.isotensional.asymptotic.legendre.LOGSQUAREDFJC.nondimensional_relative_helmholtz_free_energy_per_link,
    Polymers.ufjc.log_squared.thermodynamics.isotensional.asymptotic.legendre.nondimensional_helmholtz_free_energy,
    Polymers.ufjc.log_squared.thermodynamics.isotensional.asymptotic.legendre.helmholtz_free_energy,
    Polymers.ufjc.log_squared.thermodynamics.isotensional.asymptotic.legendre.helmholtz_free_energy_per_link,
    Polymers.ufjc.log_squared.thermodynamics.isotensional.asymptotic.legendre.relative_helmholtz_free_energy,
    Polymers.ufjc.log_squared.thermodynamics.isotensional.asymptotic.legendre.relative_helmholtz_free_energy_per_link,
    Polymers.ufjc.log_squared.thermodynamics.isotensional.asymptotic.legendre.nondimensional_relative_helmholtz_free_energy,
    Polymers.ufjc.log_squared.thermodynamics.isotensional.asymptotic.legendre.nondimensional_relative_helmholtz_free_energy_per_link]
    [Polymers.ufjc.log_squared.thermodynamics.isotensional.asymptotic.legendre.nondimensional_helmholtz_free_energy_per_link]

example : (log_squared_isotensional_asymptotic_legendre_helmholtz 8 1 1 500).Scales 8 (ndForce 1) :=
  C15_log_squared_isotensional_asymptotic_legendre_helmholtz 8 1 1 500 (by norm_num) (by norm_num)

/-- C16 for the helmholtz methods of `src/physics/single_chain/ufjc/log_squared/thermodynamics/isotensional/asymptotic/legendre/mod.rs`. -/
theorem C16_reference_log_squared_isotensional_asymptotic_legendre_helmholtz (N : ℕ) (ℓ : ℝ) (m : ℝ) (k : ℝ) (hN : 0 < N) (hℓ : 0 < ℓ) :
    (log_squared_isotensional_asymptotic_legendre_helmholtz N ℓ m k).RelativeTo (ndForce ℓ) 1e-6 := by
  refine EnergyMethods.RelativeTo.of_nd hN (C15_log_squared_isotensional_asymptotic_legendre_helmholtz N ℓ m k hN hℓ) ?_
  relative_tac hN [log_squared_isotensional_asymptotic_legendre_helmholtz,
    Polymers.ufjc.log_squared.LOGSQUAREDFJC.init, Polymers.ufjc.log_squared.thermodynamics.LOGSQUAREDFJC.init,
    Polymers.ufjc.log_squared.thermodynamics.isotensional.LOGSQUAREDFJC.init,
    Polymers.ufjc.log_squared.thermodynamics.isotensional.asymptotic.LOGSQUAREDFJC.init,
    Polymers.ufjc.log_squared.thermodynamics.isotensional.asymptotic.legendre.LOGSQUAREDFJC.init,
    Polymers.ufjc.log_squared.thermodynamics.isotensional.asymptotic.legendre.LOGSQUAREDFJC.helmholtz_free_energy,
    Polymers.ufjc.log_squared.thermodynamics.isotensional.asymptotic.legendre.LOGSQUAREDFJC.helmholtz_free_energy_per_link,
    Polymers.ufjc.log_squared.thermodynamics.isotensional.asymptotic.legendre.LOGSQUAREDFJC.relative_helmholtz_free_energy,
    Polymers.ufjc.log_squared.thermodynamics.isotensional.asymptotic.legendre.LOGSQUAREDFJC.relative_helmholtz_free_energy_per_link,
    Polymers.ufjc.log_squared.thermodynamics.isotensional.asymptotic.legendre.LOGSQUAREDFJC.nondimensional_helmholtz_free_energy,
    Polymers.ufjc.log_squared.thermodynamics.isotensional.asymptotic.legendre.LOGSQUAREDFJC.nondimensional_helmholtz_free_energy_per_link,
    Polymers.ufjc.log_squared.thermodynamics.isotensional.asymptotic.legendre.LOGSQUAREDFJC.nondimensional_relative_helmholtz_free_energy,
    Polymers.ufjc.log_squared.thermodynamics.isotensional.asymptotic.legendre.LOGSQUAREDFJC.nondimensional_relative_helmholtz_free_energy_per_link,
    Polymers.ufjc.log_squared.thermodynamics.isotensional.asymptotic.legendre.nondimensional_helmholtz_free_energy,
    Polymers.ufjc.log_squared.thermodynamics.isotensional.asymptotic.legendre.helmholtz_free_energy,
    Polymers.ufjc.log_squared.thermodynamics.isotensional.asymptotic.legendre.helmholtz_free_energy_per_link,
    Polymers.ufjc.log_squared.thermodynamics.isotensional.asymptotic.legendre.relative_helmholtz_free_energy,
    Polymers.ufjc.log_squared.thermodynamics.isotensional.asymptotic.legendre.relative_helmholtz_free_energy_per_link,
    Polymers.ufjc.log_squared.thermodynamics.isotensional.asymptotic.legendre.nondimensional_relative_helmholtz_free_energy,
    Polymers.ufjc.log_squared.thermodynamics.isotensional.asymptotic.legendre.nondimensional_relative_helmholtz_free_energy_per_link]
    [Polymers.ufjc.log_squared.thermodynamics.isotensional.asymptotic.legendre.nondimensional_helmholtz_free_energy_per_link]

example : (log_squared_isotensional_asymptotic_legendre_helmholtz 8 1 1 500).RelativeTo (ndForce 1) 1e-6 :=
  C16_reference_log_squared_isotensional_asymptotic_legendre_helmholtz 8 1 1 500 (by norm_num) (by norm_num)

/-- C16: the hinge mass does not enter the relative helmholtz energies of `src/physics/single_chain/ufjc/log_squared/thermodynamics/isotensional/asymptotic/legendre/mod.rs`. -/
theorem C16_mass_log_squared_isotensional_asymptotic_legendre_helmholtz (N : ℕ) (ℓ : ℝ) (m : ℝ) (k : ℝ) (m' : ℝ) :
    (log_squared_isotensional_asymptotic_legendre_helmholtz N ℓ m k).SameRelative (log_squared_isotensional_asymptotic_legendre_helmholtz N ℓ m' k) :=
  ⟨rfl, rfl, rfl, rfl⟩

/-- C15 for the gibbs methods of `src/physics/single_chain/ufjc/log_squared/thermodynamics/isotensional/asymptotic/reduced/mod.rs`. -/
theorem C15_log_squared_isotensional_asymptotic_reduced_gibbs (N : ℕ) (ℓ : ℝ) (m : ℝ) (k : ℝ) (hN : 0 < N) (hℓ : 0 < ℓ) :
    (log_squared_isotensional_asymptotic_reduced_gibbs N ℓ m k).Scales N (ndForce ℓ) := by
  scaling_tac hN hℓ [log_squared_isotensional_asymptotic_reduced_gibbs,
    Polymers.ufjc.log_squared.LOGSQUAREDFJC.init, Polymers.ufjc.log_squared.thermodynamics.LOGSQUAREDFJC.init,
    Polymers.ufjc.log_squared.thermodynamics.isotensional.LOGSQUAREDFJC.init,
    Polymers.ufjc.log_squared.thermodynamics.isotensional.asymptotic.LOGSQUAREDFJC.init,
    Polymers.ufjc.log_squared.thermodynamics.isotensional.asymptotic.reduced.LOGSQUAREDFJC.init,
    Polymers.ufjc.log_squared.thermodynamics.isotensional.asymptotic.reduced.LOGSQUAREDFJC.gibbs_free_energy,
    Polymers.ufjc.log_squared.thermodynamics.isotensional.asymptotic.reduced.LOGSQUAREDFJC.gibbs_free_energy_per_link,
    Polymers.ufjc.log_squared.thermodynamics.isotensional.asymptotic.reduced.LOGSQUAREDFJC.relative_gibbs_free_energy,
    Polymers.ufjc.log_squared.thermodynamics.isotensional.asymptotic.reduced.LOGSQUAREDFJC.relative_gibbs_free_energy_per_link,
    Polymers.ufjc.log_squared.thermodynamics.isotensional.asymptotic.reduced.LOGSQUAREDFJC.nondimensional_gibbs_free_energy,
    Polymers.ufjc.log_squared.thermodynamics.isotensional.asymptotic.reduced.LOGSQUAREDFJC.nondimensional_gibbs_free_energy_per_link,
    Polymers.ufjc.log_squared.thermodynamics.isotensional.asymptotic.reduced.LOGSQUAREDFJC.nondimensional_relative_gibbs_free_energy,
    Polymers.ufjc.log_squared.thermodynamics.isotensional.asymptotic.reduced.LOGSQUAREDFJC.nondimensional_relative_gibbs_free_energy_per_link,
    Polymers.ufjc.log_squared.thermodynamics.isotensional.asymptotic.reduced.nondimensional_gibbs_free_energy,
    Polymers.ufjc.log_squared.thermodynamics.isotensional.asymptotic.reduced.gibbs_free_energy,
    Polymers.ufjc.log_squared.thermodynamics.isotensional.asymptotic.reduced.gibbs_free_energy_per_link,
    Polymers.ufjc.log_squared.thermodynamics.isotensional.asymptotic.reduced.relative_gibbs_free_energy,
    Polymers.ufjc.log_squared.thermodynamics.isotensional.asymptotic.reduced.relative_gibbs_free_energy_per_link,
    Polymers.ufjc.log_squared.thermodynamics.isotensional.asymptotic.reduced.nondimensional_relative_gibbs_free_energy,
    Polymers.ufjc.log_squared.thermodynamics.isotensional.asymptotic.reduced.nondimensional_relative_gibbs_free_energy_per_link]
    [Polymers.ufjc.log_squared.thermodynamics.isotensional.asymptotic.reduced.nondimensional_gibbs_free_energy_per_link]

example : (log_squared_isotensional_asymptotic_reduced_gibbs 8 1 1 500).Scales 8 (ndForce 1) :=
  C15_log_squared_isotensional_asymptotic_reduced_gibbs 8 1 1 500 (by norm_num) (by norm_num)

/-- C16 for the gibbs methods of `src/physics/single_chain/ufjc/log_squared/thermodynamics/isotensional/asymptotic/reduced/mod.rs`. -/
theorem C16_reference_log_squared_isotensional_asymptotic_reduced_gibbs (N : ℕ) (ℓ : ℝ) (m : ℝ) (k : ℝ) (hN : 0 < N) (hℓ : 0 < ℓ) :
    (log_squared_isotensional_asymptotic_reduced_gibbs N ℓ m k).RelativeTo (ndForce ℓ) 1e-6 := by
  refine EnergyMethods.RelativeTo.of_nd hN (C15_log_squared_isotensional_asymptotic_reduced_gibbs N ℓ m k hN hℓ) ?_
  relative_tac hN [log_squared_isotensional_asymptotic_reduced_gibbs,
    Polymers.ufjc.log_squared.LOGSQUAREDFJC.init, Polymers.ufjc.log_squared.thermodynamics.LOGSQUAREDFJC.init,
    Polymers.ufjc.log_squared.thermodynamics.isotensional.LOGSQUAREDFJC.init,
    Polymers.ufjc.log_squared.thermodynamics.isotensional.asymptotic.LOGSQUAREDFJC.init,
    Polymers.ufjc.log_squared.thermodynamics.isotensional.asymptotic.reduced.LOGSQUAREDFJC.init,
    Polymers.ufjc.log_squared.thermodynamics.isotensional.asymptotic.reduced.LOGSQUAREDFJC.gibbs_free_energy,
    Polymers.ufjc.log_squared.thermodynamics.isotensional.asymptotic.reduced.LOGSQUAREDFJC.gibbs_free_energy_per_link,
    Polymers.ufjc.log_squared.thermodynamics.isotensional.asymptotic.reduced.LOGSQUAREDFJC.relative_gibbs_free_energy,
    Polymers.ufjc.log_squared.thermodynamics.isotensional.asymptotic.reduced.LOGSQUAREDFJC.relative_gibbs_free_energy_per_link,
    Polymers.ufjc.log_squared.thermodynamics.isotensional.asymptotic.reduced.LOGSQUAREDFJC.nondimensional_gibbs_free_energy,
    Polymers.ufjc.log_squared.thermodynamics.isotensional.asymptotic.reduced.LOGSQUAREDFJC.nondimensional_gibbs_free_energy_per_link,
    Polymers.ufjc.log_squared.thermodynamics.isotensional.asymptotic.reduced.LOGSQUAREDFJC.nondimensional_relative_gibbs_free_energy,
    Polymers.ufjc.log_squared.thermodynamics.isotensional.asymptotic.reduced.LOGSQUAREDFJC.nondimensional_relative_gibbs_free_energy_per_link,
    Polymers.ufjc.log_squared.thermodynamics.isotensional.asymptotic.reduced.nondimensional_gibbs_free_energy,
    Polymers.ufjc.log_squared.thermodynamics.isotensional.asymptotic.reduced.gibbs_free_energy,
    Polymers.ufjc.log_squared.thermodynamics.isotensional.asymptotic.reduced.gibbs_free_energy_per_link,
    Polymers.ufjc.log_squared.thermodynamics.isotensional.asymptotic.reduced.relative_gibbs_free_energy,
    Polymers.ufjc.log_squared.thermodynamics.isotensional.asymptotic.reduced.relative_gibbs_free_energy_per_link,
    Polymers.ufjc.log_squared.thermodynamics.isotensional.asymptotic.reduced.nondimensional_relative_gibbs_free_energy,
    Polymers.ufjc.log_squared.thermodynamics.isotensional.asymptotic.reduced.nondimensional_relative_gibbs_free_energy_per_link]
    [Polymers.ufjc.log_squared.thermodynamics.isotensional.asymptotic.reduced.nondimensional_gibbs_free_energy_per_link]

example : (log_squared_isotensional_asymptotic_reduced_gibbs 8 1 1 500).RelativeTo (ndForce 1) 1e-6 :=
  C16_reference_log_squared_isotensional_asymptotic_reduced_gibbs 8 1 1 500 (by norm_num) (by norm_num)

/-- C16: the hinge mass does not enter the relative gibbs energies of `src/physics/single_chain/ufjc/log_squared/thermodynamics/isotensional/asymptotic/reduced/mod.rs`. -/
theorem C16_mass_log_squared_isotensional_asymptotic_reduced_gibbs (N : ℕ) (ℓ : ℝ) (m : ℝ) (k : ℝ) (m' : ℝ) :
    (log_squared_isotensional_asymptotic_reduced_gibbs N ℓ m k).SameRelative (log_squared_isotensional_asymptotic_reduced_gibbs N ℓ m' k) :=
  ⟨rfl, rfl, rfl, rfl⟩

/-- C15 for the lengths methods of `src/physics/single_chain/ufjc/log_squared/thermodynamics/isotensional/asymptotic/reduced/mod.rs`. -/
theorem C15_log_squared_isotensional_asymptotic_reduced_lengths (N : ℕ) (ℓ : ℝ) (m : ℝ) (k : ℝ) (hN : 0 < N) (hℓ : 0 < ℓ) :
    (log_squared_isotensional_asymptotic_reduced_lengths N ℓ m k).Scales N ℓ (ndForce ℓ) := by
  scaling_tac hN hℓ [log_squared_isotensional_asymptotic_reduced_lengths,
    Polymers.ufjc.log_squared.LOGSQUAREDFJC.init, Polymers.ufjc.log_squared.thermodynamics.LOGSQUAREDFJC.init,
    Polymers.ufjc.log_squared.thermodynamics.isotensional.LOGSQUAREDFJC.init,
    Polymers.ufjc.log_squared.thermodynamics.isotensional.asymptotic.LOGSQUAREDFJC.init,
    Polymers.ufjc.log_squared.thermodynamics.isotensional.asymptotic.reduced.LOGSQUAREDFJC.init,
    Polymers.ufjc.log_squared.thermodynamics.isotensional.asymptotic.reduced.LOGSQUAREDFJC.end_to_end_length,
    Polymers.ufjc.log_squared.thermodynamics.isotensional.asymptotic.reduced.LOGSQUAREDFJC.end_to_end_length_per_link,
    Polymers.ufjc.log_squared.thermodynamics.isotensional.asymptotic.reduced.LOGSQUAREDFJC.nondimensional_end_to_end_length,
    Polymers.ufjc.log_squared.thermodynamics.isotensional.asymptotic.reduced.LOGSQUAREDFJC.nondimensional_end_to_end_length_per_link,
    Polymers.ufjc.log_squared.thermodynamics.isotensional.asymptotic.reduced.nondimensional_end_to_end_length,
    Polymers.ufjc.log_squared.thermodynamics.isotensional.asymptotic.reduced.end_to_end_length,
    Polymers.ufjc.log_squared.thermodynamics.isotensional.asymptotic.reduced.end_to_end_length_per_link]
    [Polymers.ufjc.log_squared.thermodynamics.isotensional.asymptotic.reduced.nondimensional_end_to_end_length_per_link]

example : (log_squared_isotensional_asymptotic_reduced_lengths 8 1 1 500).Scales 8 1 (ndForce 1) :=
  C15_log_squared_isotensional_asymptotic_reduced_lengths 8 1 1 500 (by norm_num) (by norm_num)

/-- C15 for the gibbs methods of `src/physics/single_chain/ufjc/log_squared/thermodynamics/isotensional/asymptotic/mod.rs`. -/
theorem C15_log_squared_isotensional_asymptotic_gibbs (N : ℕ) (ℓ : ℝ) (m : ℝ) (k : ℝ) (hN : 0 < N) (hℓ : 0 < ℓ) :
    (log_squared_isotensional_asymptotic_gibbs N ℓ m k).Scales N (ndForce ℓ) := by
  scaling_tac hN hℓ [log_squared_isotensional_asymptotic_gibbs,
    Polymers.ufjc.log_squared.LOGSQUAREDFJC.init, Polymers.ufjc.log_squared.thermodynamics.LOGSQUAREDFJC.init,
    Polymers.ufjc.log_squared.thermodynamics.isotensional.LOGSQUAREDFJC.init,
    Polymers.ufjc.log_squared.thermodynamics.isotensional.asymptotic.LOGSQUAREDFJC.init,
    Polymers.ufjc.log_squared.thermodynamics.isotensional.asymptotic.LOGSQUAREDFJC.gibbs_free_energy,
    Polymers.ufjc.log_squared.thermodynamics.isotensional.asymptotic.LOGSQUAREDFJC.gibbs_free_energy_per_link,
    Polymers.ufjc.log_squared.thermodynamics.isotensional.asymptotic.LOGSQUAREDFJC.relative_gibbs_free_energy,
    Polymers.ufjc.log_squared.thermodynamics.isotensional.asymptotic.LOGSQUAREDFJC.relative_gibbs_free_energy_per_link,
    Polymers.ufjc.log_squared.thermodynamics.isotensional.asymptotic.LOGSQUAREDFJC.nondimensional_gibbs_free_energy,
    Polymers.ufjc.log_squared.thermodynamics.isotensional.asymptotic.LOGSQUAREDFJC.nondimensional_gibbs_free_energy_per_link,
    Polymers.ufjc.log_squared.thermodynamics.isotensional.asymptotic.LOGSQUAREDFJC.nondimensional_relative_gibbs_free_energy,
    Polymers.ufjc.log_squared.thermodynamics.isotensional.asymptotic.LOGSQUAREDFJC.nondimensional_relative_gibbs_free_energy_per_link,
    Polymers.ufjc.log_squared.thermodynamics.isotensional.asymptotic.nondimensional_gibbs_free_energy,
    Polymers.ufjc.log_squared.thermodynamics.isotensional.asymptotic.gibbs_free_energy,
    Polymers.ufjc.log_squared.thermodynamics.isotensional.asymptotic.gibbs_free_energy_per_link,
    Polymers.ufjc.log_squared.thermodynamics.isotensional.asymptotic.relative_gibbs_free_energy,
    Polymers.ufjc.log_squared.thermodynamics.isotensional.asymptotic.relative_gibbs_free_energy_per_link,
    Polymers.ufjc.log_squared.thermodynamics.isotensional.asymptotic.nondimensional_relative_gibbs_free_energy,
    Polymers.ufjc.log_squared.thermodynamics.isotensional.asymptotic.nondimensional_relative_gibbs_free_energy_per_link]
    [Polymers.ufjc.log_squared.thermodynamics.isotensional.asymptotic.nondimensional_gibbs_free_energy_per_link]

example : (log_squared_isotensional_asymptotic_gibbs 8 1 1 500).Scales 8 (ndForce 1) :=
  C15_log_squared_isotensional_asymptotic_gibbs 8 1 1 500 (by norm_num) (by norm_num)

/-- C16 for the gibbs methods of `src/physics/single_chain/ufjc/log_squared/thermodynamics/isotensional/asymptotic/mod.rs`. -/
theorem C16_reference_log_squared_isotensional_asymptotic_gibbs (N : ℕ) (ℓ : ℝ) (m : ℝ) (k : ℝ) (hN : 0 < N) (hℓ : 0 < ℓ) :
    (log_squared_isotensional_asymptotic_gibbs N ℓ m k).RelativeTo (ndForce ℓ) 1e-6 := by
  refine EnergyMethods.RelativeTo.of_nd hN (C15_log_squared_isotensional_asymptotic_gibbs N ℓ m k hN hℓ) ?_
  relative_tac hN [log_squared_isotensional_asymptotic_gibbs,
    Polymers.ufjc.log_squared.LOGSQUAREDFJC.init, Polymers.ufjc.log_squared.thermodynamics.LOGSQUAREDFJC.init,
    Polymers.ufjc.log_squared.thermodynamics.isotensional.LOGSQUAREDFJC.init,
    Polymers.ufjc.log_squared.thermodynamics.isotensional.asymptotic.LOGSQUAREDFJC.init,
    Polymers.ufjc.log_squared.thermodynamics.isotensional.asymptotic.LOGSQUAREDFJC.gibbs_free_energy,
    Polymers.ufjc.log_squared.thermodynamics.isotensional.asymptotic.LOGSQUAREDFJC.gibbs_free_energy_per_link,
    Polymers.ufjc.log_squared.thermodynamics.isotensional.asymptotic.LOGSQUAREDFJC.relative_gibbs_free_energy,
    Polymers.ufjc.log_squared.thermodynamics.isotensional.asymptotic.LOGSQUAREDFJC.relative_gibbs_free_energy_per_link,
    Polymers.ufjc.log_squared.thermodynamics.isotensional.asymptotic.LOGSQUAREDFJC.nondimensional_gibbs_free_energy,
    Polymers.ufjc.log_squared.thermodynamics.isotensional.asymptotic.LOGSQUAREDFJC.nondimensional_gibbs_free_energy_per_link,
    Polymers.ufjc.log_squared.thermodynamics.isotensional.asymptotic.LOGSQUAREDFJC.nondimensional_relative_gibbs_free_energy,
    Polymers.ufjc.log_squared.thermodynamics.isotensional.asymptotic.LOGSQUAREDFJC.nondimensional_relative_gibbs_free_energy_per_link,
    Polymers.ufjc.log_squared.thermodynamics.isotensional.asymptotic.nondimensional_gibbs_free_energy,
    Polymers.ufjc.log_squared.thermodynamics.isotensional.asymptotic.gibbs_free_energy,
    Polymers.ufjc.log_squared.thermodynamics.isotensional.asymptotic.gibbs_free_energy_per_link,
    Polymers.ufjc.log_squared.thermodynamics.isotensional.asymptotic.relative_gibbs_free_energy,
    Polymers.ufjc.log_squared.thermodynamics.isotensional.asymptotic.relative_gibbs_free_energy_per_link,
    Polymers.ufjc.log_squared.thermodynamics.isotensional.asymptotic.nondimensional_relative_gibbs_free_energy,
    Polymers.ufjc.log_squared.thermodynamics.isotensional.asymptotic.nondimensional_relative_gibbs_free_energy_per_link]
    [Polymers.ufjc.log_squared.thermodynamics.isotensional.asymptotic.nondimensional_gibbs_free_energy_per_link]

example : (log_squared_isotensional_asymptotic_gibbs 8 1 1 500).RelativeTo (ndForce 1) 1e-6 :=
  C16_reference_log_squared_isotensional_asymptotic_gibbs 8 1 1 500 (by norm_num) (by norm_num)

/-- C16: the hinge mass does not enter the relative gibbs energies of `src/physics/single_chain/ufjc/log_squared/thermodynamics/isotensional/asymptotic/mod.rs`. -/
theorem C16_mass_log_squared_isotensional_asymptotic_gibbs (N : ℕ) (ℓ : ℝ) (m : ℝ) (k : ℝ) (m' : ℝ) :
    (log_squared_isotensional_asymptotic_gibbs N ℓ m k).SameRelative (log_squared_isotensional_asymptotic_gibbs N ℓ m' k) :=
  ⟨rfl, rfl, rfl, rfl⟩

/-- C15 for the lengths methods of `src/physics/single_chain/ufjc/log_squared/thermodynamics/isotensional/asymptotic/mod.rs`. -/
theorem C15_log_squared_isotensional_asymptotic_lengths (N : ℕ) (ℓ : ℝ) (m : ℝ) (k : ℝ) (hN : 0 < N) (hℓ : 0 < ℓ) :
    (log_squared_isotensional_asymptotic_lengths N ℓ m k).Scales N ℓ (ndForce ℓ) := by
  scaling_tac hN hℓ [log_squared_isotensional_asymptotic_lengths,
    Polymers.ufjc.log_squared.LOGSQUAREDFJC.init, Polymers.ufjc.log_squared.thermodynamics.LOGSQUAREDFJC.init,
    Polymers.ufjc.log_squared.thermodynamics.isotensional.LOGSQUAREDFJC.init,
    Polymers.ufjc.log_squared.thermodynamics.isotensional.asymptotic.LOGSQUAREDFJC.init,
    Polymers.ufjc.log_squared.thermodynamics.isotensional.asymptotic.LOGSQUAREDFJC.end_to_end_length,
    Polymers.ufjc.log_squared.thermodynamics.isotensional.asymptotic.LOGSQUAREDFJC.end_to_end_length_per_link,
    Polymers.ufjc.log_squared.thermodynamics.isotensional.asymptotic.LOGSQUAREDFJC.nondimensional_end_to_end_length,
    Polymers.ufjc.log_squared.thermodynamics.isotensional.asymptotic.LOGSQUAREDFJC.nondimensional_end_to_end_length_per_link,
    Polymers.ufjc.log_squared.thermodynamics.isotensional.asymptotic.nondimensional_end_to_end_length,
    Polymers.ufjc.log_squared.thermodynamics.isotensional.asymptotic.end_to_end_length,
    Polymers.ufjc.log_squared.thermodynamics.isotensional.asymptotic.end_to_end_length_per_link]
    [Polymers.ufjc.log_squared.thermodynamics.isotensional.asymptotic.nondimensional_end_to_end_length_per_link]

example : (log_squared_isotensional_asymptotic_lengths 8 1 1 500).Scales 8 1 (ndForce 1) :=
  C15_log_squared_isotensional_asymptotic_lengths 8 1 1 500 (by norm_num) (by norm_num)

/-- C15 for the helmholtz methods of `src/physics/single_chain/ufjc/log_squared/thermodynamics/isotensional/legendre/mod.rs`. -/
theorem C15_log_squared_isotensional_legendre_helmholtz (N : ℕ) (ℓ : ℝ) (m : ℝ) (k : ℝ) (hN : 0 < N) (hℓ : 0 < ℓ) :
    (log_squared_isotensional_legendre_helmholtz N ℓ m k).Scales N (ndForce ℓ) := by
  scaling_tac hN hℓ [log_squared_isotensional_legendre_helmholtz,
    Polymers.ufjc.log_squared.LOGSQUAREDFJC.init, Polymers.ufjc.log_squared.thermodynamics.LOGSQUAREDFJC.init,
    Polymers.ufjc.log_squared.thermodynamics.isotensional.LOGSQUAREDFJC.init,
    Polymers.ufjc.log_squared.thermodynamics.isotensional.legendre.LOGSQUAREDFJC.init,
    Polymers.ufjc.log_squared.thermodynamics.isotensional.legendre.LOGSQUAREDFJC.helmholtz_free_energy,
    Polymers.ufjc.log_squared.thermodynamics.isotensional.legendre.LOGSQUAREDFJC.helmholtz_free_energy_per_link,
    Polymers.ufjc.log_squared.thermodynamics.isotensional.legendre.LOGSQUAREDFJC.relative_helmholtz_free_energy,
    Polymers.ufjc.log_squared.thermodynamics.isotensional.legendre.LOGSQUAREDFJC.relative_helmholtz_free_energy_per_link,
    Polymers.ufjc.log_squared.thermodynamics.isotensional.legendre.LOGSQUAREDFJC.nondimensional_helmholtz_free_energy,
    Polymers.ufjc.log_squared.thermodynamics.isotensional.legendre.LOGSQUAREDFJC.nondimensional_helmholtz_free_energy_per_link,
    Polymers.ufjc.log_squared.thermodynamics.isotensional.legendre.LOGSQUAREDFJC.nondimensional_relative_helmholtz_free_energy,
    Polymers.ufjc.log_squared.thermodynamics.isotensional.legendre.LOGSQUAREDFJC.nondimensional_relative_helmholtz_free_energy_per_link,
    Polymers.ufjc.log_squared.thermodynamics.isotensional.legendre.nondimensional_helmholtz_free_energy,
    Polymers.ufjc.log_squared.thermodynamics.isotensional.legendre.helmholtz_free_energy,
    Polymers.ufjc.log_squared.thermodynamics.isotensional.legendre.helmholtz_free_energy_per_link,
    Polymers.ufjc.log_squared.thermodynamics.isotensional.legendre.relative_helmholtz_free_energy,
    Polymers.ufjc.log_squared.thermodynamics.isotensional.legendre.relative_helmholtz_free_energy_per_link,
    Polymers.ufjc.log_squared.thermodynamics.isotensional.legendre.nondimensional_relative_helmholtz_free_energy,
    Polymers.ufjc.log_squared.thermodynamics.isotensional.legendre.nondimensional_relative_helmholtz_free_energy_per_link]
    [Polymers.ufjc.log_squared.thermodynamics.isotensional.legendre.nondimensional_helmholtz_free_energy_per_link]

example : (log_squared_isotensional_legendre_helmholtz 8 1 1 500).Scales 8 (ndForce 1) :=
  C15_log_squared_isotensional_legendre_helmholtz 8 1 1 500 (by norm_num) (by norm_num)

/-- C16 for the helmholtz methods of `src/physics/single_chain/ufjc/log_squared/thermodynamics/isotensional/legendre/mod.rs`. -/
theorem C16_reference_log_squared_isotensional_legendre_helmholtz (N : ℕ) (ℓ : ℝ) (m : ℝ) (k : ℝ) (hN : 0 < N) (hℓ : 0 < ℓ) :
    (log_squared_isotensional_legendre_helmholtz N ℓ m k).RelativeTo (ndForce ℓ) 1e-6 := by
  refine EnergyMethods.RelativeTo.of_nd hN (C15_log_squared_isotensional_legendre_helmholtz N ℓ m k hN hℓ) ?_
  relative_tac hN [log_squared_isotensional_legendre_helmholtz,
    Polymers.ufjc.log_squared.LOGSQUAREDFJC.init, Polymers.ufjc.log_squared.thermodynamics.LOGSQUAREDFJC.init,
    Polymers.ufjc.log_squared.thermodynamics.isotensional.LOGSQUAREDFJC.init,
    Polymers.ufjc.log_squared.thermodynamics.isotensional.legendre.LOGSQUAREDFJC.init,
    Polymers.ufjc.log_squared.thermodynamics.isotensional.legendre.LOGSQUAREDFJC.helmholtz_free_energy,
    Polymers.ufjc.log_squared.thermodynamics.isotensional.legendre.LOGSQUAREDFJC.helmholtz_free_energy_per_link,
    Polymers.ufjc.log_squared.thermodynamics.isotensional.legendre.LOGSQUAREDFJC.relative_helmholtz_free_energy,
    Polymers.ufjc.log_squared.thermodynamics.isotensional.legendre.LOGSQUAREDFJC.relative_helmholtz_free_energy_per_link,
    Polymers.ufjc.log_squared.thermodynamics.isotensional.legendre.LOGSQUAREDFJC.nondimensional_helmholtz_free_energy,
    Polymers.ufjc.log_squared.thermodynamics.isotensional.legendre.LOGSQUAREDFJC.nondimensional_helmholtz_free_energy_per_link,
    Polymers.ufjc.log_squared.thermodynamics.isotensional.legendre.LOGSQUAREDFJC.nondimensional_relative_helmholtz_free_energy,
    Polymers.ufjc.log_squared.thermodynamics.isotensional.legendre.LOGSQUAREDFJC.nondimensional_relative_helmholtz_free_energy_per_link,
    Polymers.ufjc.log_squared.thermodynamics.isotensional.legendre.nondimensional_helmholtz_free_energy,
    Polymers.ufjc.log_squared.thermodynamics.isotensional.legendre.helmholtz_free_energy,
    Polymers.ufjc.log_squared.thermodynamics.isotensional.legendre.helmholtz_free_energy_per_link,
    Polymers.ufjc.log_squared.thermodynamics.isotensional.legendre.relative_helmholtz_free_energy,
    Polymers.ufjc.log_squared.thermodynamics.isotensional.legendre.relative_helmholtz_free_energy_per_link,
    Polymers.ufjc.log_squared.thermodynamics.isotensional.legendre.nondimensional_relative_helmholtz_free_energy,
    Polymers.ufjc.log_squared.thermodynamics.isotensional.legendre.nondimensional_relative_helmholtz_free_energy_per_link]
    [Polymers.ufjc.log_squared.thermodynamics.isotensional.legendre.nondimensional_helmholtz_free_energy_per_link]

example : (log_squared_isotensional_legendre_helmholtz 8 1 1 500).RelativeTo (ndForce 1) 1e-6 :=
  C16_reference_log_squared_isotensional_legendre_helmholtz 8 1 1 500 (by norm_num) (by norm_num)

/-- C16: the hinge mass does not enter the relative helmholtz energies of `src/physics/single_chain/ufjc/log_squared/thermodynamics/isotensional/legendre/mod.rs`. -/
theorem C16_mass_log_squared_isotensional_legendre_helmholtz (N : ℕ) (ℓ : ℝ) (m : ℝ) (k : ℝ) (m' : ℝ) :
    (log_squared_isotensional_legendre_helmholtz N ℓ m k).SameRelative (log_squared_isotensional_legendre_helmholtz N ℓ m' k) :=
  ⟨rfl, rfl, rfl, rfl⟩

/-- C15 for the gibbs methods of `src/physics/single_chain/ufjc/log_squared/thermodynamics/isotensional/mod.rs`. -/
theorem C15_log_squared_isotensional_gibbs (N : ℕ) (ℓ : ℝ) (m : ℝ) (k : ℝ) (hN : 0 < N) (hℓ : 0 < ℓ) :
    (log_squared_isotensional_gibbs N ℓ m k).Scales N (ndForce ℓ) := by
  scaling_tac hN hℓ [log_squared_isotensional_gibbs,
    Polymers.ufjc.log_squared.LOGSQUAREDFJC.init, Polymers.ufjc.log_squared.thermodynamics.LOGSQUAREDFJC.init,
    Polymers.ufjc.log_squared.thermodynamics.isotensional.LOGSQUAREDFJC.init,
    Polymers.ufjc.log_squared.thermodynamics.isotensional.LOGSQUAREDFJC.gibbs_free_energy,
    Polymers.ufjc.log_squared.thermodynamics.isotensional.LOGSQUAREDFJC.gibbs_free_energy_per_link,
    Polymers.ufjc.log_squared.thermodynamics.isotensional.LOGSQUAREDFJC.relative_gibbs_free_energy,
    Polymers.ufjc.log_squared.thermodynamics.isotensional.LOGSQUAREDFJC.relative_gibbs_free_energy_per_link,
    Polymers.ufjc.log_squared.thermodynamics.isotensional.LOGSQUAREDFJC.nondimensional_gibbs_free_energy,
    Polymers.ufjc.log_squared.thermodynamics.isotensional.LOGSQUAREDFJC.nondimensional_gibbs_free_energy_per_link,
    Polymers.ufjc.log_squared.thermodynamics.isotensional.LOGSQUAREDFJC.nondimensional_relative_gibbs_free_energy,
    Polymers.ufjc.log_squared.thermodynamics.isotensional.LOGSQUAREDFJC.nondimensional_relative_gibbs_free_energy_per_link,
    Polymers.ufjc.log_squared.thermodynamics.isotensional.nondimensional_gibbs_free_energy,
    Polymers.ufjc.log_squared.thermodynamics.isotensional.gibbs_free_energy,
    Polymers.ufjc.log_squared.thermodynamics.isotensional.gibbs_free_energy_per_link,
    Polymers.ufjc.log_squared.thermodynamics.isotensional.relative_gibbs_free_energy,
    Polymers.ufjc.log_squared.thermodynamics.isotensional.relative_gibbs_free_energy_per_link,
    Polymers.ufjc.log_squared.thermodynamics.isotensional.nondimensional_relative_gibbs_free_energy,
    Polymers.ufjc.log_squared.thermodynamics.isotensional.nondimensional_relative_gibbs_free_energy_per_link]
    [Polymers.ufjc.log_squared.thermodynamics.isotensional.nondimensional_gibbs_free_energy_per_link]

example : (log_squared_isotensional_gibbs 8 1 1 500).Scales 8 (ndForce 1) :=
  C15_log_squared_isotensional_gibbs 8 1 1 500 (by norm_num) (by norm_num)

/-- C16 for the gibbs methods of `src/physics/single_chain/ufjc/log_squared/thermodynamics/isotensional/mod.rs`. -/
theorem C16_reference_log_squared_isotensional_gibbs (N : ℕ) (ℓ : ℝ) (m : ℝ) (k : ℝ) (hN : 0 < N) (hℓ : 0 < ℓ) :
    (log_squared_isotensional_gibbs N ℓ m k).RelativeTo (ndForce ℓ) 1e-6 := by
  refine EnergyMethods.RelativeTo.of_nd hN (C15_log_squared_isotensional_gibbs N ℓ m k hN hℓ) ?_
  relative_tac hN [log_squared_isotensional_gibbs,
    Polymers.ufjc.log_squared.LOGSQUAREDFJC.init, Polymers.ufjc.log_squared.thermodynamics.LOGSQUAREDFJC.init,
    Polymers.ufjc.log_squared.thermodynamics.isotensional.LOGSQUAREDFJC.init,
    Polymers.ufjc.log_squared.thermodynamics.isotensional.LOGSQUAREDFJC.gibbs_free_energy,
    Polymers.ufjc.log_squared.thermodynamics.isotensional.LOGSQUAREDFJC.gibbs_free_energy_per_link,
    Polymers.ufjc.log_squared.thermodynamics.isotensional.LOGSQUAREDFJC.relative_gibbs_free_energy,
    Polymers.ufjc.log_squared.thermodynamics.isotensional.LOGSQUAREDFJC.relative_gibbs_free_energy_per_link,
    Polymers.ufjc.log_squared.thermodynamics.isotensional.LOGSQUAREDFJC.nondimensional_gibbs_free_energy,
    Polymers.ufjc.log_squared.thermodynamics.isotensional.LOGSQUAREDFJC.nondimensional_gibbs_free_energy_per_link,
    Polymers.ufjc.log_squared.thermodynamics.isotensional.LOGSQUAREDFJC.nondimensional_relative_gibbs_free_energy,
    Polymers.ufjc.log_squared.thermodynamics.isotensional.LOGSQUAREDFJC.nondimensional_relative_gibbs_free_energy_per_link,
    Polymers.ufjc.log_squared.thermodynamics.isotensional.nondimensional_gibbs_free_energy,
    Polymers.ufjc.log_squared.thermodynamics.isotensional.gibbs_free_energy,
    Polymers.ufjc.log_squared.thermodynamics.isotensional.gibbs_free_energy_per_link,
    Polymers.ufjc.log_squared.thermodynamics.isotensional.relative_gibbs_free_energy,
    Polymers.ufjc.log_squared.thermodynamics.isotensional.relative_gibbs_free_energy_per_link,
    Polymers.ufjc.log_squared.thermodynamics.isotensional.nondimensional_relative_gibbs_free_energy,
    Polymers.ufjc.log_squared.thermodynamics.isotensional.nondimensional_relative_gibbs_free_energy_per_link]
    [Polymers.ufjc.log_squared.thermodynamics.isotensional.nondimensional_gibbs_free_energy_per_link]

example : (log_squared_isotensional_gibbs 8 1 1 500).RelativeTo (ndForce 1) 1e-6 :=
  C16_reference_log_squared_isotensional_gibbs 8 1 1 500 (by norm_num) (by norm_num)

/-- C16: the hinge mass does not enter the relative gibbs energies of `src/physics/single_chain/ufjc/log_squared/thermodynamics/isotensional/mod.rs`. -/
theorem C16_mass_log_squared_isotensional_gibbs (N : ℕ) (ℓ : ℝ) (m : ℝ) (k : ℝ) (m' : ℝ) :
    (log_squared_isotensional_gibbs N ℓ m k).SameRelative (log_squared_isotensional_gibbs N ℓ m' k) :=
  ⟨rfl, rfl, rfl, rfl⟩

/-- C15 for the lengths methods of `src/physics/single_chain/ufjc/log_squared/thermodynamics/isotensional/mod.rs`. -/
theorem C15_log_squared_isotensional_lengths (N : ℕ) (ℓ : ℝ) (m : ℝ) (k : ℝ) (hN : 0 < N) (hℓ : 0 < ℓ) :
    (log_squared_isotensional_lengths N ℓ m k).Scales N ℓ (ndForce ℓ) := by
  scaling_tac hN hℓ [log_squared_isotensional_lengths,
    Polymers.ufjc.log_squared.LOGSQUAREDFJC.init, Polymers.ufjc.log_squared.thermodynamics.LOGSQUAREDFJC.init,
    Polymers.ufjc.log_squared.thermodynamics.isotensional.LOGSQUAREDFJC.init,
    Polymers.ufjc.log_squared.thermodynamics.isotensional.LOGSQUAREDFJC.end_to_end_length,
    Polymers.ufjc.log_squared.thermodynamics.isotensional.LOGSQUAREDFJC.end_to_end_length_per_link,
    Polymers.ufjc.log_squared.thermodynamics.isotensional.LOGSQUAREDFJC.nondimensional_end_to_end_length,
    Polymers.ufjc.log_squared.thermodynamics.isotensional.LOGSQUAREDFJC.nondimensional_end_to_end_length_per_link,
    Polymers.ufjc.log_squared.thermodynamics.isotensional.nondimensional_end_to_end_length,
    Polymers.ufjc.log_squared.thermodynamics.isotensional.end_to_end_length,
    Polymers.ufjc.log_squared.thermodynamics.isotensional.end_to_end_length_per_link]
    [Polymers.ufjc.log_squared.thermodynamics.isotensional.nondimensional_end_to_end_length_per_link]

example : (log_squared_isotensional_lengths 8 1 1 500).Scales 8 1 (ndForce 1) :=
  C15_log_squared_isotensional_lengths 8 1 1 500 (by norm_num) (by norm_num)

end Polymers.Props
