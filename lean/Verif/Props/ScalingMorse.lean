/- Generated by tools/gen_scaling.py ; do not edit by hand. -/
import Verif.Spec.Api
import Verif.Lemmas.Scaling

set_option maxRecDepth 4000
set_option maxHeartbeats 1000000

namespace Polymers.Props

open Polymers.Spec Polymers.Api

/-- C15 for the helmholtz methods of `src/physics/single_chain/ufjc/morse/thermodynamics/isometric/asymptotic/reduced/legendre/mod.rs`. -/
theorem C15_morse_isometric_asymptotic_reduced_legendre_helmholtz (N : ℕ) (ℓ : ℝ) (m : ℝ) (k : ℝ) (ε : ℝ) (hN : 0 < N) (hℓ : 0 < ℓ) :
    (morse_isometric_asymptotic_reduced_legendre_helmholtz N ℓ m k ε).Scales N (ndLength N ℓ) := by
  scaling_tac hN hℓ [morse_isometric_asymptotic_reduced_legendre_helmholtz,
    Polymers.ufjc.morse.MORSEFJC.init, Polymers.ufjc.morse.thermodynamics.MORSEFJC.init,
    Polymers.ufjc.morse.thermodynamics.isometric.MORSEFJC.init,
    Polymers.ufjc.morse.thermodynamics.isometric.asymptotic.MORSEFJC.init,
    Polymers.ufjc.morse.thermodynamics.isometric.asymptotic.reduced.MORSEFJC.init,
    Polymers.ufjc.morse.thermodynamics.isometric.asymptotic.reduced.legendre.MORSEFJC.init,
    Polymers.ufjc.morse.thermodynamics.isometric.asymptotic.reduced.legendre.MORSEFJC.helmholtz_free_energy,
    Polymers.ufjc.morse.thermodynamics.isometric.asymptotic.reduced.legendre.MORSEFJC.helmholtz_free_energy_per_link,
    Polymers.ufjc.morse.thermodynamics.isometric.asymptotic.reduced.legendre.MORSEFJC.relative_helmholtz_free_energy,
    Polymers.ufjc.morse.thermodynamics.isometric.asymptotic.reduced.legendre.MORSEFJC.relative_helmholtz_free_energy_per_link,
    Polymers.ufjc.morse.thermodynamics.isometric.asymptotic.reduced.legendre.MORSEFJC.nondimensional_helmholtz_free_energy,
    Polymers.ufjc.morse.thermodynamics.isometric.asymptotic.reduced.legendre.MORSEFJC.nondimensional_helmholtz_free_energy_per_link,
    Polymers.ufjc.morse.thermodynamics.isometric.asymptotic.reduced.legendre.MORSEFJC.nondimensional_relative_helmholtz_free_energy,
    Polymers.ufjc.morse.thermodynamics.isometric.asymptotic.reduced.legendre.MORSEFJC.nondimensional_relative_helmholtz_free_energy_per_link,
    Polymers.ufjc.morse.thermodynamics.isometric.asymptotic.reduced.legendre.nondimensional_helmholtz_free_energy,
    Polymers.ufjc.morse.thermodynamics.isometric.asymptotic.reduced.legendre.helmholtz_free_energy,
    Polymers.ufjc.morse.thermodynamics.isometric.asymptotic.reduced.legendre.helmholtz_free_energy_per_link,
    Polymers.ufjc.morse.thermodynamics.isometric.asymptotic.reduced.legendre.relative_helmholtz_free_energy,
    Polymers.ufjc.morse.thermodynamics.isometric.asymptotic.reduced.legendre.relative_helmholtz_free_energy_per_link,
    Polymers.ufjc.morse.thermodynamics.isometric.asymptotic.reduced.legendre.nondimensional_relative_helmholtz_free_energy,
    Polymers.ufjc.morse.thermodynamics.isometric.asymptotic.reduced.legendre.nondimensional_relative_helmholtz_free_energy_per_link]
    [Polymers.ufjc.morse.thermodynamics.isometric.asymptotic.reduced.legendre.nondimensional_helmholtz_free_energy_per_link]

example : (morse_isometric_asymptotic_reduced_legendre_helmholtz 8 1 1 500 80).Scales 8 (ndLength 8 1) :=
  C15_morse_isometric_asymptotic_reduced_legendre_helmholtz 8 1 1 500 80 (by norm_num) (by norm_num)

/-- C16 for the helmholtz methods of `src/physics/single_chain/ufjc/morse/thermodynamics/isometric/asymptotic/reduced/legendre/mod.rs`. -/
theorem C16_reference_morse_isometric_asymptotic_reduced_legendre_helmholtz (N : ℕ) (ℓ : ℝ) (m : ℝ) (k : ℝ) (ε : ℝ) (hN : 0 < N) (hℓ : 0 < ℓ) :
    (morse_isometric_asymptotic_reduced_legendre_helmholtz N ℓ m k ε).RelativeTo (ndLength N ℓ) 1e-6 := by
  refine EnergyMethods.RelativeTo.of_nd hN (C15_morse_isometric_asymptotic_reduced_legendre_helmholtz N ℓ m k ε hN hℓ) ?_
  relative_tac hN [morse_isometric_asymptotic_reduced_legendre_helmholtz,
    Polymers.ufjc.morse.MORSEFJC.init, Polymers.ufjc.morse.thermodynamics.MORSEFJC.init,
    Polymers.ufjc.morse.thermodynamics.isometric.MORSEFJC.init,
    Polymers.ufjc.morse.thermodynamics.isometric.asymptotic.MORSEFJC.init,
    Polymers.ufjc.morse.thermodynamics.isometric.asymptotic.reduced.MORSEFJC.init,
    Polymers.ufjc.morse.thermodynamics.isometric.asymptotic.reduced.legendre.MORSEFJC.init,
    Polymers.ufjc.morse.thermodynamics.isometric.asymptotic.reduced.legendre.MORSEFJC.helmholtz_free_energy,
    Polymers.ufjc.morse.thermodynamics.isometric.asymptotic.reduced.legendre.MORSEFJC.helmholtz_free_energy_per_link,
    Polymers.ufjc.morse.thermodynamics.isometric.asymptotic.reduced.legendre.MORSEFJC.relative_helmholtz_free_energy,
    Polymers.ufjc.morse.thermodynamics.isometric.asymptotic.reduced.legendre.MORSEFJC.relative_helmholtz_free_energy_per_link,
    Polymers.ufjc.morse.thermodynamics.isometric.asymptotic.reduced.legendre.MORSEFJC.nondimensional_helmholtz_free_energy,
    Polymers.ufjc.morse.thermodynamics.isometric.asymptotic.reduced.legendre.MORSEFJC.nondimensional_helmholtz_free_energy_per_link,
    Polymers.ufjc.morse.thermodynamics.isometric.asymptotic.reduced.legendre.MORSEFJC.nondimensional_relative_helmholtz_free_energy,
    Polymers.ufjc.morse.thermodynamics.isometric.asymptotic.reduced.legendre.MORSEFJC.nondimensional_relative_helmholtz_free_energy_per_link,
    Polymers.ufjc.morse.thermodynamics.isometric.asymptotic.reduced.legendre.nondimensional_helmholtz_free_energy,
    Polymers.ufjc.morse.thermodynamics.isometric.asymptotic.reduced.legendre.helmholtz_free_energy,
    Polymers.ufjc.morse.thermodynamics.isometric.asymptotic.reduced.legendre.helmholtz_free_energy_per_link,
    Polymers.ufjc.morse.thermodynamics.isometric.asymptotic.reduced.legendre.relative_helmholtz_free_energy,
    Polymers.ufjc.morse.thermodynamics.isometric.asymptotic.reduced.legendre.relative_helmholtz_free_energy_per_link,
    Polymers.ufjc.morse.thermodynamics.isometric.asymptotic.reduced.legendre.nondimensional_relative_helmholtz_free_energy,
    Polymers.ufjc.morse.thermodynamics.isometric.asymptotic.reduced.legendre.nondimensional_relative_helmholtz_free_energy_per_link]
    [Polymers.ufjc.morse.thermodynamics.isometric.asymptotic.reduced.legendre.nondimensional_helmholtz_free_energy_per_link]

example : (morse_isometric_asymptotic_reduced_legendre_helmholtz 8 1 1 500 80).RelativeTo (ndLength 8 1) 1e-6 :=
  C16_reference_morse_isometric_asymptotic_reduced_legendre_helmholtz 8 1 1 500 80 (by norm_num) (by norm_num)

/-- C16: the hinge mass does not enter the relative helmholtz energies of `src/physics/single_chain/ufjc/morse/thermodynamics/isometric/asymptotic/reduced/legendre/mod.rs`. -/
theorem C16_mass_morse_isometric_asymptotic_reduced_legendre_helmholtz (N : ℕ) (ℓ : ℝ) (m : ℝ) (k : ℝ) (ε : ℝ) (m' : ℝ) :
    (morse_isometric_asymptotic_reduced_legendre_helmholtz N ℓ m k ε).SameRelative (morse_isometric_asymptotic_reduced_legendre_helmholtz N ℓ m' k ε) :=
  ⟨rfl, rfl, rfl, rfl⟩

/-- C15 for the forces methods of `src/physics/single_chain/ufjc/morse/thermodynamics/isometric/asymptotic/reduced/legendre/mod.rs`. -/
theorem C15_morse_isometric_asymptotic_reduced_legendre_forces (N : ℕ) (ℓ : ℝ) (m : ℝ) (k : ℝ) (ε : ℝ) (hN : 0 < N) (hℓ : 0 < ℓ) :
    (morse_isometric_asymptotic_reduced_legendre_forces N ℓ m k ε).Scales ℓ (ndLength N ℓ) := by
  scaling_tac hN hℓ [morse_isometric_asymptotic_reduced_legendre_forces,
    Polymers.ufjc.morse.MORSEFJC.init, Polymers.ufjc.morse.thermodynamics.MORSEFJC.init,
    Polymers.ufjc.morse.thermodynamics.isometric.MORSEFJC.init,
    Polymers.ufjc.morse.thermodynamics.isometric.asymptotic.MORSEFJC.init,
    Polymers.ufjc.morse.thermodynamics.isometric.asymptotic.reduced.MORSEFJC.init,
    Polymers.ufjc.morse.thermodynamics.isometric.asymptotic.reduced.legendre.MORSEFJC.init,
    Polymers.ufjc.morse.thermodynamics.isometric.asymptotic.reduced.legendre.MORSEFJC.force,
    Polymers.ufjc.morse.thermodynamics.isometric.asymptotic.reduced.legendre.MORSEFJC.nondimensional_force,
    Polymers.ufjc.morse.thermodynamics.isometric.asymptotic.reduced.legendre.force]
    [Polymers.ufjc.morse.thermodynamics.isometric.asymptotic.reduced.legendre.nondimensional_force]

example : (morse_isometric_asymptotic_reduced_legendre_forces 8 1 1 500 80).Scales 1 (ndLength 8 1) :=
  C15_morse_isometric_asymptotic_reduced_legendre_forces 8 1 1 500 80 (by norm_num) (by norm_num)

/-- C15 for the helmholtz methods of `src/physics/single_chain/ufjc/morse/thermodynamics/isotensional/asymptotic/reduced/legendre/mod.rs`. -/
theorem C15_morse_isotensional_asymptotic_reduced_legendre_helmholtz (N : ℕ) (ℓ : ℝ) (m : ℝ) (k : ℝ) (ε : ℝ) (hN : 0 < N) (hℓ : 0 < ℓ) :
    (morse_isotensional_asymptotic_reduced_legendre_helmholtz N ℓ m k ε).Scales N (ndForce ℓ) := by
  scaling_tac hN hℓ [morse_isotensional_asymptotic_reduced_legendre_helmholtz,
    Polymers.ufjc.morse.MORSEFJC.init, Polymers.ufjc.morse.thermodynamics.MORSEFJC.init,
    Polymers.ufjc.morse.thermodynamics.isotensional.MORSEFJC.init,
    Polymers.ufjc.morse.thermodynamics.isotensional.asymptotic.MORSEFJC.init,
    Polymers.ufjc.morse.thermodynamics.isotensional.asymptotic.reduced.MORSEFJC.init,
    Polymers.ufjc.morse.thermodynamics.isotensional.asymptotic.reduced.legendre.MORSEFJC.init,
    Polymers.ufjc.morse.thermodynamics.isotensional.asymptotic.reduced.legendre.MORSEFJC.helmholtz_free_energy,
    Polymers.ufjc.morse.thermodynamics.isotensional.asymptotic.reduced.legendre.MORSEFJC.helmholtz_free_energy_per_link,
    Polymers.ufjc.morse.thermodynamics.isotensional.asymptotic.reduced.legendre.MORSEFJC.relative_helmholtz_free_energy,
    Polymers.ufjc.morse.thermodynamics.isotensional.asymptotic.reduced.legendre.MORSEFJC.relative_helmholtz_free_energy_per_link,
    Polymers.ufjc.morse.thermodynamics.isotensional.asymptotic.reduced.legendre.MORSEFJC.nondimensional_helmholtz_free_energy,
    Polymers.ufjc.morse.thermodynamics.isotensional.asymptotic.reduced.legendre.MORSEFJC.nondimensional_helmholtz_free_energy_per_link,
    Polymers.ufjc.morse.thermodynamics.isotensional.asymptotic.reduced.legendre.MORSEFJC.nondimensional_relative_helmholtz_free_energy,
    Polymers.ufjc.morse.thermodynamics.isotensional.asymptotic.reduced.legendre.MORSEFJC.nondimensional_relative_helmholtz_free_energy_per_link,
    Polymers.ufjc.morse.thermodynamics.isotensional.asymptotic.reduced.legendre.nondimensional_helmholtz_free_energy,
    Polymers.ufjc.morse.thermodynamics.isotensional.asymptotic.reduced.legendre.helmholtz_free_energy,
    Polymers.ufjc.morse.thermodynamics.isotensional.asymptotic.reduced.legendre.helmholtz_free_energy_per_link,
    Polymers.ufjc.morse.thermodynamics.isotensional.asymptotic.reduced.legendre.relative_helmholtz_free_energy,
    Polymers.ufjc.morse.thermodynamics.isotensional.asymptotic.reduced.legendre.relative_helmholtz_free_energy_per_link,
    Polymers.ufjc.morse.thermodynamics.isotensional.asymptotic.reduced.legendre.nondimensional_relative_helmholtz_free_energy,
    Polymers.ufjc.morse.thermodynamics.isotensional.asymptotic.reduced.legendre.nondimensional_relative_helmholtz_free_energy_per_link]
    [Polymers.ufjc.morse.thermodynamics.isotensional.asymptotic.reduced.legendre.nondimensional_helmholtz_free_energy_per_link]

example : (morse_isotensional_asymptotic_reduced_legendre_helmholtz 8 1 1 500 80).Scales 8 (ndForce 1) :=
  C15_morse_isotensional_asymptotic_reduced_legendre_helmholtz 8 1 1 500 80 (by norm_num) (by norm_num)

/-- C16 for the helmholtz methods of `src/physics/single_chain/ufjc/morse/thermodynamics/isotensional/asymptotic/reduced/legendre/mod.rs`. -/
theorem C16_reference_morse_isotensional_asymptotic_reduced_legendre_helmholtz (N : ℕ) (ℓ : ℝ) (m : ℝ) (k : ℝ) (ε : ℝ) (hN : 0 < N) (hℓ : 0 < ℓ) :
    (morse_isotensional_asymptotic_reduced_legendre_helmholtz N ℓ m k ε).RelativeTo (ndForce ℓ) 1e-6 := by
  refine EnergyMethods.RelativeTo.of_nd hN (C15_morse_isotensional_asymptotic_reduced_legendre_helmholtz N ℓ m k ε hN hℓ) ?_
  relative_tac hN [morse_isotensional_asymptotic_reduced_legendre_helmholtz,
    Polymers.ufjc.morse.MORSEFJC.init, Polymers.ufjc.morse.thermodynamics.MORSEFJC.init,
    Polymers.ufjc.morse.thermodynamics.isotensional.MORSEFJC.init,
    Polymers.ufjc.morse.thermodynamics.isotensional.asymptotic.MORSEFJC.init,
    Polymers.ufjc.morse.thermodynamics.isotensional.asymptotic.reduced.MORSEFJC.init,
    Polymers.ufjc.morse.thermodynamics.isotensional.asymptotic.reduced.legendre.MORSEFJC.init,
    Polymers.ufjc.morse.thermodynamics.isotensional.asymptotic.reduced.legendre.MORSEFJC.helmholtz_free_energy,
    Polymers.ufjc.morse.thermodynamics.isotensional.asymptotic.reduced.legendre.MORSEFJC.helmholtz_free_energy_per_link,
    Polymers.ufjc.morse.thermodynamics.isotensional.asymptotic.reduced.legendre.MORSEFJC.relative_helmholtz_free_energy,
    Polymers.ufjc.morse.thermodynamics.isotensional.asymptotic.reduced.legendre.MORSEFJC.relative_helmholtz_free_energy_per_link,
    Polymers.ufjc.morse.thermodynamics.isotensional.asymptotic.reduced.legendre.MORSEFJC.nondimensional_helmholtz_free_energy,
    Polymers.ufjc.morse.thermodynamics.isotensional.asymptotic.reduced.legendre.MORSEFJC.nondimensional_helmholtz_free_energy_per_link,
    Polymers.ufjc.morse.thermodynamics.isotensional.asymptotic.reduced.legendre.MORSEFJC.nondimensional_relative_helmholtz_free_energy,
    Polymers.ufjc.morse.thermodynamics.isotensional.asymptotic.reduced.legendre.MORSEFJC.nondimensional_relative_helmholtz_free_energy_per_link,
    Polymers.ufjc.morse.thermodynamics.isotensional.asymptotic.reduced.legendre.nondimensional_helmholtz_free_energy,
    Polymers.ufjc.morse.thermodynamics.isotensional.asymptotic.reduced.legendre.helmholtz_free_energy,
    Polymers.ufjc.morse.thermodynamics.isotensional.asymptotic.reduced.legendre.helmholtz_free_energy_per_link,
    Polymers.ufjc.morse.thermodynamics.isotensional.asymptotic.reduced.legendre.relative_helmholtz_free_energy,
    Polymers.ufjc.morse.thermodynamics.isotensional.asymptotic.reduced.legendre.relative_helmholtz_free_energy_per_link,
    Polymers.ufjc.morse.thermodynamics.isotensional.asymptotic.reduced.legendre.nondimensional_relative_helmholtz_free_energy,
    Polymers.ufjc.morse.thermodynamics.isotensional.asymptotic.reduced.legendre.nondimensional_relative_helmholtz_free_energy_per_link]
    [Polymers.ufjc.morse.thermodynamics.isotensional.asymptotic.reduced.legendre.nondimensional_helmholtz_free_energy_per_link]

example : (morse_isotensional_asymptotic_reduced_legendre_helmholtz 8 1 1 500 80).RelativeTo (ndForce 1) 1e-6 :=
  C16_reference_morse_isotensional_asymptotic_reduced_legendre_helmholtz 8 1 1 500 80 (by norm_num) (by norm_num)

/-- C16: the hinge mass does not enter the relative helmholtz energies of `src/physics/single_chain/ufjc/morse/thermodynamics/isotensional/asymptotic/reduced/legendre/mod.rs`. -/
theorem C16_mass_morse_isotensional_asymptotic_reduced_legendre_helmholtz (N : ℕ) (ℓ : ℝ) (m : ℝ) (k : ℝ) (ε : ℝ) (m' : ℝ) :
    (morse_isotensional_asymptotic_reduced_legendre_helmholtz N ℓ m k ε).SameRelative (morse_isotensional_asymptotic_reduced_legendre_helmholtz N ℓ m' k ε) :=
  ⟨rfl, rfl, rfl, rfl⟩

/-- C15 for the helmholtz methods of `src/physics/single_chain/ufjc/morse/thermodynamics/isometric/asymptotic/legendre/mod.rs`. -/
theorem C15_morse_isometric_asymptotic_legendre_helmholtz (N : ℕ) (ℓ : ℝ) (m : ℝ) (k : ℝ) (ε : ℝ) (hN : 0 < N) (hℓ : 0 < ℓ) :
    (morse_isometric_asymptotic_legendre_helmholtz N ℓ m k ε).Scales N (ndLength N ℓ) := by
  scaling_tac hN hℓ [morse_isometric_asymptotic_legendre_helmholtz,
    Polymers.ufjc.morse.MORSEFJC.init, Polymers.ufjc.morse.thermodynamics.MORSEFJC.init,
    Polymers.ufjc.morse.thermodynamics.isometric.MORSEFJC.init,
    Polymers.ufjc.morse.thermodynamics.isometric.asymptotic.MORSEFJC.init,
    Polymers.ufjc.morse.thermodynamics.isometric.asymptotic.legendre.MORSEFJC.init,
    Polymers.ufjc.morse.thermodynamics.isometric.asymptotic.legendre.MORSEFJC.helmholtz_free_energy,
    Polymers.ufjc.morse.thermodynamics.isometric.asymptotic.legendre.MORSEFJC.helmholtz_free_energy_per_link,
    Polymers.ufjc.morse.thermodynamics.isometric.asymptotic.legendre.MORSEFJC.relative_helmholtz_free_energy,
    Polymers.ufjc.morse.thermodynamics.isometric.asymptotic.legendre.MORSEFJC.relative_helmholtz_free_energy_per_link,
    Polymers.ufjc.morse.thermodynamics.isometric.asymptotic.legendre.MORSEFJC.nondimensional_helmholtz_free_energy,
    Polymers.ufjc.morse.thermodynamics.isometric.asymptotic.legendre.MORSEFJC.nondimensional_helmholtz_free_energy_per_link,
    Polymers.ufjc.morse.thermodynamics.isometric.asymptotic.legendre.MORSEFJC.nondimensional_relative_helmholtz_free_energy,
    Polymers.ufjc.morse.thermodynamics.isometric.asymptotic.legendre.MORSEFJC.nondimensional_relative_helmholtz_free_energy_per_link,
    Polymers.ufjc.morse.thermodynamics.isometric.asymptotic.legendre.nondimensional_helmholtz_free_energy,
    Polymers.ufjc.morse.thermodynamics.isometric.asymptotic.legendre.helmholtz_free_energy,
    Polymers.ufjc.morse.thermodynamics.isometric.asymptotic.legendre.helmholtz_free_energy_per_link,
    Polymers.ufjc.morse.thermodynamics.isometric.asymptotic.legendre.relative_helmholtz_free_energy,
    Polymers.ufjc.morse.thermodynamics.isometric.asymptotic.legendre.relative_helmholtz_free_energy_per_link,
    Polymers.ufjc.morse.thermodynamics.isometric.asymptotic.legendre.nondimensional_relative_helmholtz_free_energy,
    Polymers.ufjc.morse.thermodynamics.isometric.asymptotic.legendre.nondimensional_relative_helmholtz_free_energy_per_link]
    [Polymers.ufjc.morse.thermodynamics.isometric.asymptotic.legendre.nondimensional_helmholtz_free_energy_per_link]

example : (morse_isometric_asymptotic_legendre_helmholtz 8 1 1 500 80).Scales 8 (ndLength 8 1) :=
  C15_morse_isometric_asymptotic_legendre_helmholtz 8 1 1 500 80 (by norm_num) (by norm_num)

/-- C16 for the helmholtz methods of `src/physics/single_chain/ufjc/morse/thermodynamics/isometric/asymptotic/legendre/mod.rs`. -/
theorem C16_reference_morse_isometric_asymptotic_legendre_helmholtz (N : ℕ) (ℓ : ℝ) (m : ℝ) (k : ℝ) (ε : ℝ) (hN : 0 < N) (hℓ : 0 < ℓ) :
    (morse_isometric_asymptotic_legendre_helmholtz N ℓ m k ε).RelativeTo (ndLength N ℓ) 1e-6 := by
  refine EnergyMethods.RelativeTo.of_nd hN (C15_morse_isometric_asymptotic_legendre_helmholtz N ℓ m k ε hN hℓ) ?_
  relative_tac hN [morse_isometric_asymptotic_legendre_helmholtz,
    Polymers.ufjc.morse.MORSEFJC.init, Polymers.ufjc.morse.thermodynamics.MORSEFJC.init,
    Polymers.ufjc.morse.thermodynamics.isometric.MORSEFJC.init,
    Polymers.ufjc.morse.thermodynamics.isometric.asymptotic.MORSEFJC.init,
    Polymers.ufjc.morse.thermodynamics.isometric.asymptotic.legendre.MORSEFJC.init,
    Polymers.ufjc.morse.thermodynamics.isometric.asymptotic.legendre.MORSEFJC.helmholtz_free_energy,
    Polymers.ufjc.morse.thermodynamics.isometric.asymptotic.legendre.MORSEFJC.helmholtz_free_energy_per_link,
    Polymers.ufjc.morse.thermodynamics.isometric.asymptotic.legendre.MORSEFJC.relative_helmholtz_free_energy,
    Polymers.ufjc.morse.thermodynamics.isometric.asymptotic.legendre.MORSEFJC.relative_helmholtz_free_energy_per_link,
    Polymers.ufjc.morse.thermodynamics.isometric.asymptotic.legendre.MORSEFJC.nondimensional_helmholtz_free_energy,
    Polymers.ufjc.morse.thermodynamics.isometric.asymptotic.legendre.MORSEFJC.nondimensional_helmholtz_free_energy_per_link,
    Polymers.ufjc.morse.thermodynamics.isometric.asymptotic.legendre.MORSEFJC.nondimensional_relative_helmholtz_free_energy,
    Polymers.ufjc.morse.thermodynamics.isometric.asymptotic.legendre.MORSEFJC.nondimensional_relative_helmholtz_free_energy_per_link,
    Polymers.ufjc.morse.thermodynamics.isometric.asymptotic.legendre.nondimensional_helmholtz_free_energy,
    Polymers.ufjc.morse.thermodynamics.isometric.asymptotic.legendre.helmholtz_free_energy,
    Polymers.ufjc.morse.thermodynamics.isometric.asymptotic.legendre.helmholtz_free_energy_per_link,
    Polymers.ufjc.morse.thermodynamics.isometric.asymptotic.legendre.relative_helmholtz_free_energy,
    Polymers.ufjc.morse.thermodynamics.isometric.asymptotic.legendre.relative_helmholtz_free_energy_per_link,
    Polymers.ufjc.morse.thermodynamics.isometric.asymptotic.legendre.nondimensional_relative_helmholtz_free_energy,
    Polymers.ufjc.morse.thermodynamics.isometric.asymptotic.legendre.nondimensional_relative_helmholtz_free_energy_per_link]
    [Polymers.ufjc.morse.thermodynamics.isometric.asymptotic.legendre.nondimensional_helmholtz_free_energy_per_link]

example : (morse_isometric_asymptotic_legendre_helmholtz 8 1 1 500 80).RelativeTo (ndLength 8 1) 1e-6 :=
  C16_reference_morse_isometric_asymptotic_legendre_helmholtz 8 1 1 500 80 (by norm_num) (by norm_num)

/-- C16: the hinge mass does not enter the relative helmholtz energies of `src/physics/single_chain/ufjc/morse/thermodynamics/isometric/asymptotic/legendre/mod.rs`. -/
theorem C16_mass_morse_isometric_asymptotic_legendre_helmholtz (N : ℕ) (ℓ : ℝ) (m : ℝ) (k : ℝ) (ε : ℝ) (m' : ℝ) :
    (morse_isometric_asymptotic_legendre_helmholtz N ℓ m k ε).SameRelative (morse_isometric_asymptotic_legendre_helmholtz N ℓ m' k ε) :=
  ⟨rfl, rfl, rfl, rfl⟩

/-- C15 for the forces methods of `src/physics/single_chain/ufjc/morse/thermodynamics/isometric/asymptotic/legendre/mod.rs`. -/
theorem C15_morse_isometric_asymptotic_legendre_forces (N : ℕ) (ℓ : ℝ) (m : ℝ) (k : ℝ) (ε : ℝ) (hN : 0 < N) (hℓ : 0 < ℓ) :
    (morse_isometric_asymptotic_legendre_forces N ℓ m k ε).Scales ℓ (ndLength N ℓ) := by
  scaling_tac hN hℓ [morse_isometric_asymptotic_legendre_forces,
    Polymers.ufjc.morse.MORSEFJC.init, Polymers.ufjc.morse.thermodynamics.MORSEFJC.init,
    Polymers.ufjc.morse.thermodynamics.isometric.MORSEFJC.init,
    Polymers.ufjc.morse.thermodynamics.isometric.asymptotic.MORSEFJC.init,
    Polymers.ufjc.morse.thermodynamics.isometric.asymptotic.legendre.MORSEFJC.init,
    Polymers.ufjc.morse.thermodynamics.isometric.asymptotic.legendre.MORSEFJC.force,
    Polymers.ufjc.morse.thermodynamics.isometric.asymptotic.legendre.MORSEFJC.nondimensional_force,
    Polymers.ufjc.morse.thermodynamics.isometric.asymptotic.legendre.force]
    [Polymers.ufjc.morse.thermodynamics.isometric.asymptotic.legendre.nondimensional_force]

example : (morse_isometric_asymptotic_legendre_forces 8 1 1 500 80).Scales 1 (ndLength 8 1) :=
  C15_morse_isometric_asymptotic_legendre_forces 8 1 1 500 80 (by norm_num) (by norm_num)

/-- C15 for the helmholtz methods of `src/physics/single_chain/ufjc/morse/thermodynamics/isotensional/asymptotic/legendre/mod.rs`. -/
theorem C15_morse_isotensional_asymptotic_legendre_helmholtz (N : ℕ) (ℓ : ℝ) (m : ℝ) (k : ℝ) (ε : ℝ) (hN : 0 < N) (hℓ : 0 < ℓ) :
    (morse_isotensional_asymptotic_legendre_helmholtz N ℓ m k ε).Scales N (ndForce ℓ) := by
  scaling_tac hN hℓ [morse_isotensional_asymptotic_legendre_helmholtz,
    Polymers.ufjc.morse.MORSEFJC.init, Polymers.ufjc.morse.thermodynamics.MORSEFJC.init,
    Polymers.ufjc.morse.thermodynamics.isotensional.MORSEFJC.init,
    Polymers.ufjc.morse.thermodynamics.isotensional.asymptotic.MORSEFJC.init,
    Polymers.ufjc.morse.thermodynamics.isotensional.asymptotic.legendre.MORSEFJC.init,
    Polymers.ufjc.morse.thermodynamics.isotensional.asymptotic.legendre.MORSEFJC.helmholtz_free_energy,
    Polymers.ufjc.morse.thermodynamics.isotensional.asymptotic.legendre.MORSEFJC.helmholtz_free_energy_per_link,
    Polymers.ufjc.morse.thermodynamics.isotensional.asymptotic.legendre.MORSEFJC.relative_helmholtz_free_energy,
    Polymers.ufjc.morse.thermodynamics.isotensional.asymptotic.legendre.MORSEFJC.relative_helmholtz_free_energy_per_link,
    Polymers.ufjc.morse.thermodynamics.isotensional.asymptotic.legendre.MORSEFJC.nondimensional_helmholtz_free_energy,
    Polymers.ufjc.morse.thermodynamics.isotensional.asymptotic.legendre.MORSEFJC.nondimensional_helmholtz_free_energy_per_link,
    Polymers.ufjc.morse.thermodynamics.isotensional.asymptotic.legendre.MORSEFJC.nondimensional_relative_helmholtz_free_energy,
    Polymers.ufjc.morse.thermodynamics.isotensional.asymptotic.legendre.MORSEFJC.nondimensional_relative_helmholtz_free_energy_per_link,
    Polymers.ufjc.morse.thermodynamics.isotensional.asymptotic.legendre.nondimensional_helmholtz_free_energy,
    Polymers.ufjc.morse.thermodynamics.isotensional.asymptotic.legendre.helmholtz_free_energy,
    Polymers.ufjc.morse.thermodynamics.isotensional.asymptotic.legendre.helmholtz_free_energy_per_link,
    Polymers.ufjc.morse.thermodynamics.isotensional.asymptotic.legendre.relative_helmholtz_free_energy,
    Polymers.ufjc.morse.thermodynamics.isotensional.asymptotic.legendre.relative_helmholtz_free_energy_per_link,
    Polymers.ufjc.morse.thermodynamics.isotensional.asymptotic.legendre.nondimensional_relative_helmholtz_free_energy,
    Polymers.ufjc.morse.thermodynamics.isotensional.asymptotic.legendre.nondimensional_relative_helmholtz_free_energy_per_link]
    [Polymers.ufjc.morse.thermodynamics.isotensional.asymptotic.legendre.nondimensional_helmholtz_free_energy_per_link]

example : (morse_isotensional_asymptotic_legendre_helmholtz 8 1 1 500 80).Scales 8 (ndForce 1) :=
  C15_morse_isotensional_asymptotic_legendre_helmholtz 8 1 1 500 80 (by norm_num) (by norm_num)

/-- C16 for the helmholtz methods of `src/physics/single_chain/ufjc/morse/thermodynamics/isotensional/asymptotic/legendre/mod.rs`. -/
theorem C16_reference_morse_isotensional_asymptotic_legendre_helmholtz (N : ℕ) (ℓ : ℝ) (m : ℝ) (k : ℝ) (ε : ℝ) (hN : 0 < N) (hℓ : 0 < ℓ) :
    (morse_isotensional_asymptotic_legendre_helmholtz N ℓ m k ε).RelativeTo (ndForce ℓ) 1e-6 := by
  refine EnergyMethods.RelativeTo.of_nd hN (C15_morse_isotensional_asymptotic_legendre_helmholtz N ℓ m k ε hN hℓ) ?_
  relative_tac hN [morse_isotensional_asymptotic_legendre_helmholtz,
    Polymers.ufjc.morse.MORSEFJC.init, Polymers.ufjc.morse.thermodynamics.MORSEFJC.init,
    Polymers.ufjc.morse.thermodynamics.isotensional.MORSEFJC.init,
    Polymers.ufjc.morse.thermodynamics.isotensional.asymptotic.MORSEFJC.init,
    Polymers.ufjc.morse.thermodynamics.isotensional.asymptotic.legendre.MORSEFJC.init,
    Polymers.ufjc.morse.thermodynamics.isotensional.asymptotic.legendre.MORSEFJC.helmholtz_free_energy,
    Polymers.ufjc.morse.thermodynamics.isotensional.asymptotic.legendre.MORSEFJC.helmholtz_free_energy_per_link,
    Polymers.ufjc.morse.thermodynamics.isotensional.asymptotic.legendre.MORSEFJC.relative_helmholtz_free_energy,
    Polymers.ufjc.morse.thermodynamics.isotensional.asymptotic.legendre.MORSEFJC.relative_helmholtz_free_energy_per_link,
    Polymers.ufjc.morse.thermodynamics.isotensional.asymptotic.legendre.MORSEFJC.nondimensional_helmholtz_free_energy,
    Polymers.ufjc.morse.thermodynamics.isotensional.asymptotic.legendre.MORSEFJC.nondimensional_helmholtz_free_energy_per_link,
    Polymers.ufjc.morse.thermodynamics.isotensional.asymptotic.legendre.MORSEFJC.nondimensional_relative_helmholtz_free_energy,
    Polymers.ufjc.morse.thermodynamics.isotensional.asymptotic.legendre.MORSEFJC.nondimensional_relative_helmholtz_free_energy_per_link,
    Polymers.ufjc.morse.thermodynamics.isotensional.asymptotic.legendre.nondimensional_helmholtz_free_energy,
    Polymers.ufjc.morse.thermodynamics.isotensional.asymptotic.legendre.helmholtz_free_energy,
    Polymers.ufjc.morse.thermodynamics.isotensional.asymptotic.legendre.helmholtz_free_energy_per_link,
    Polymers.ufjc.morse.thermodynamics.isotensional.asymptotic.legendre.relative_helmholtz_free_energy,
    Polymers.ufjc.morse.thermodynamics.isotensional.asymptotic.legendre.relative_helmholtz_free_energy_per_link,
    Polymers.ufjc.morse.thermodynamics.isotensional.asymptotic.legendre.nondimensional_relative_helmholtz_free_energy,
    Polymers.ufjc.morse.thermodynamics.isotensional.asymptotic.legendre.nondimensional_relative_helmholtz_free_energy_per_link]
    [Polymers.ufjc.morse.thermodynamics.isotensional.asymptotic.legendre.nondimensional_helmholtz_free_energy_per_link]

example : (morse_isotensional_asymptotic_legendre_helmholtz 8 1 1 500 80).RelativeTo (ndForce 1) 1e-6 :=
  C16_reference_morse_isotensional_asymptotic_legendre_helmholtz 8 1 1 500 80 (by norm_num) (by norm_num)

/-- C16: the hinge mass does not enter the relative helmholtz energies of `src/physics/single_chain/ufjc/morse/thermodynamics/isotensional/asymptotic/legendre/mod.rs`. -/
theorem C16_mass_morse_isotensional_asymptotic_legendre_helmholtz (N : ℕ) (ℓ : ℝ) (m : ℝ) (k : ℝ) (ε : ℝ) (m' : ℝ) :
    (morse_isotensional_asymptotic_legendre_helmholtz N ℓ m k ε).SameRelative (morse_isotensional_asymptotic_legendre_helmholtz N ℓ m' k ε) :=
  ⟨rfl, rfl, rfl, rfl⟩

/-- C15 for the gibbs methods of `src/physics/single_chain/ufjc/morse/thermodynamics/isotensional/asymptotic/reduced/mod.rs`. -/
theorem C15_morse_isotensional_asymptotic_reduced_gibbs (N : ℕ) (ℓ : ℝ) (m : ℝ) (k : ℝ) (ε : ℝ) (hN : 0 < N) (hℓ : 0 < ℓ) :
    (morse_isotensional_asymptotic_reduced_gibbs N ℓ m k ε).Scales N (ndForce ℓ) := by
  scaling_tac hN hℓ [morse_isotensional_asymptotic_reduced_gibbs,
    Polymers.ufjc.morse.MORSEFJC.init, Polymers.ufjc.morse.thermodynamics.MORSEFJC.init,
    Polymers.ufjc.morse.thermodynamics.isotensional.MORSEFJC.init,
    Polymers.ufjc.morse.thermodynamics.isotensional.asymptotic.MORSEFJC.init,
    Polymers.ufjc.morse.thermodynamics.isotensional.asymptotic.reduced.MORSEFJC.init,
    Polymers.ufjc.morse.thermodynamics.isotensional.asymptotic.reduced.MORSEFJC.gibbs_free_energy,
    Polymers.ufjc.morse.thermodynamics.isotensional.asymptotic.reduced.MORSEFJC.gibbs_free_energy_per_link,
    Polymers.ufjc.morse.thermodynamics.isotensional.asymptotic.reduced.MORSEFJC.relative_gibbs_free_energy,
    Polymers.ufjc.morse.thermodynamics.isotensional.asymptotic.reduced.MORSEFJC.relative_gibbs_free_energy_per_link,
    Polymers.ufjc.morse.thermodynamics.isotensional.asymptotic.reduced.MORSEFJC.nondimensional_gibbs_free_energy,
    Polymers.ufjc.morse.thermodynamics.isotensional.asymptotic.reduced.MORSEFJC.nondimensional_gibbs_free_energy_per_link,
    Polymers.ufjc.morse.thermodynamics.isotensional.asymptotic.reduced.MORSEFJC.nondimensional_relative_gibbs_free_energy,
    Polymers.ufjc.morse.thermodynamics.isotensional.asymptotic.reduced.MORSEFJC.nondimensional_relative_gibbs_free_energy_per_link,
    Polymers.ufjc.morse.thermodynamics.isotensional.asymptotic.reduced.nondimensional_gibbs_free_energy,
    Polymers.ufjc.morse.thermodynamics.isotensional.asymptotic.reduced.gibbs_free_energy,
    Polymers.ufjc.morse.thermodynamics.isotensional.asymptotic.reduced.gibbs_free_energy_per_link,
    Polymers.ufjc.morse.thermodynamics.isotensional.asymptotic.reduced.relative_gibbs_free_energy,
    Polymers.ufjc.morse.thermodynamics.isotensional.asymptotic.reduced.relative_gibbs_free_energy_per_link,
    Polymers.ufjc.morse.thermodynamics.isotensional.asymptotic.reduced.nondimensional_relative_gibbs_free_energy,
    Polymers.ufjc.morse.thermodynamics.isotensional.asymptotic.reduced.nondimensional_relative_gibbs_free_energy_per_link]
    [Polymers.ufjc.morse.thermodynamics.isotensional.asymptotic.reduced.nondimensional_gibbs_free_energy_per_link]

example : (morse_isotensional_asymptotic_reduced_gibbs 8 1 1 500 80).Scales 8 (ndForce 1) :=
  C15_morse_isotensional_asymptotic_reduced_gibbs 8 1 1 500 80 (by norm_num) (by norm_num)

/-- C16 for the gibbs methods of `src/physics/single_chain/ufjc/morse/thermodynamics/isotensional/asymptotic/reduced/mod.rs`. -/
theorem C16_reference_morse_isotensional_asymptotic_reduced_gibbs (N : ℕ) (ℓ : ℝ) (m : ℝ) (k : ℝ) (ε : ℝ) (hN : 0 < N) (hℓ : 0 < ℓ) :
    (morse_isotensional_asymptotic_reduced_gibbs N ℓ m k ε).RelativeTo (ndForce ℓ) 1e-6 := by
  refine EnergyMethods.RelativeTo.of_nd hN (C15_morse_isotensional_asymptotic_reduced_gibbs N ℓ m k ε hN hℓ) ?_
  relative_tac hN [morse_isotensional_asymptotic_reduced_gibbs,
    Polymers.ufjc.morse.MORSEFJC.init, Polymers.ufjc.morse.thermodynamics.MORSEFJC.init,
    Polymers.ufjc.morse.thermodynamics.isotensional.MORSEFJC.init,
    Polymers.ufjc.morse.thermodynamics.isotensional.asymptotic.MORSEFJC.init,
    Polymers.ufjc.morse.thermodynamics.isotensional.asymptotic.reduced.MORSEFJC.init,
    Polymers.ufjc.morse.thermodynamics.isotensional.asymptotic.reduced.MORSEFJC.gibbs_free_energy,
    Polymers.ufjc.morse.thermodynamics.isotensional.asymptotic.reduced.MORSEFJC.gibbs_free_energy_per_link,
    Polymers.ufjc.morse.thermodynamics.isotensional.asymptotic.reduced.MORSEFJC.relative_gibbs_free_energy,
    Polymers.ufjc.morse.thermodynamics.isotensional.asymptotic.reduced.MORSEFJC.relative_gibbs_free_energy_per_link,
    Polymers.ufjc.morse.thermodynamics.isotensional.asymptotic.reduced.MORSEFJC.nondimensional_gibbs_free_energy,
    Polymers.ufjc.morse.thermodynamics.isotensional.asymptotic.reduced.MORSEFJC.nondimensional_gibbs_free_energy_per_link,
    Polymers.ufjc.morse.thermodynamics.isotensional.asymptotic.reduced.MORSEFJC.nondimensional_relative_gibbs_free_energy,
    Polymers.ufjc.morse.thermodynamics.isotensional.asymptotic.reduced.MORSEFJC.nondimensional_relative_gibbs_free_energy_per_link,
    Polymers.ufjc.morse.thermodynamics.isotensional.asymptotic.reduced.nondimensional_gibbs_free_energy,
    Polymers.ufjc.morse.thermodynamics.isotensional.asymptotic.reduced.gibbs_free_energy,
    Polymers.ufjc.morse.thermodynamics.isotensional.asymptotic.reduced.gibbs_free_energy_per_link,
    Polymers.ufjc.morse.thermodynamics.isotensional.asymptotic.reduced.relative_gibbs_free_energy,
    Polymers.ufjc.morse.thermodynamics.isotensional.asymptotic.reduced.relative_gibbs_free_energy_per_link,
    Polymers.ufjc.morse.thermodynamics.isotensional.asymptotic.reduced.nondimensional_relative_gibbs_free_energy,
    Polymers.ufjc.morse.thermodynamics.isotensional.asymptotic.reduced.nondimensional_relative_gibbs_free_energy_per_link]
    [Polymers.ufjc.morse.thermodynamics.isotensional.asymptotic.reduced.nondimensional_gibbs_free_energy_per_link]

example : (morse_isotensional_asymptotic_reduced_gibbs 8 1 1 500 80).RelativeTo (ndForce 1) 1e-6 :=
  C16_reference_morse_isotensional_asymptotic_reduced_gibbs 8 1 1 500 80 (by norm_num) (by norm_num)

/-- C16: the hinge mass does not enter the relative gibbs energies of `src/physics/single_chain/ufjc/morse/thermodynamics/isotensional/asymptotic/reduced/mod.rs`. -/
theorem C16_mass_morse_isotensional_asymptotic_reduced_gibbs (N : ℕ) (ℓ : ℝ) (m : ℝ) (k : ℝ) (ε : ℝ) (m' : ℝ) :
    (morse_isotensional_asymptotic_reduced_gibbs N ℓ m k ε).SameRelative (morse_isotensional_asymptotic_reduced_gibbs N ℓ m' k ε) :=
  ⟨rfl, rfl, rfl, rfl⟩

/-- C15 for the lengths methods of `src/physics/single_chain/ufjc/morse/thermodynamics/isotensional/asymptotic/reduced/mod.rs`. -/
theorem C15_morse_isotensional_asymptotic_reduced_lengths (N : ℕ) (ℓ : ℝ) (m : ℝ) (k : ℝ) (ε : ℝ) (hN : 0 < N) (hℓ : 0 < ℓ) :
    (morse_isotensional_asymptotic_reduced_lengths N ℓ m k ε).Scales N ℓ (ndForce ℓ) := by
  scaling_tac hN hℓ [morse_isotensional_asymptotic_reduced_lengths,
    Polymers.ufjc.morse.MORSEFJC.init, Polymers.ufjc.morse.thermodynamics.MORSEFJC.init,
    Polymers.ufjc.morse.thermodynamics.isotensional.MORSEFJC.init,
    Polymers.ufjc.morse.thermodynamics.isotensional.asymptotic.MORSEFJC.init,
    Polymers.ufjc.morse.thermodynamics.isotensional.asymptotic.reduced.MORSEFJC.init,
    Polymers.ufjc.morse.thermodynamics.isotensional.asymptotic.reduced.MORSEFJC.end_to_end_length,
    Polymers.ufjc.morse.thermodynamics.isotensional.asymptotic.reduced.MORSEFJC.end_to_end_length_per_link,
    Polymers.ufjc.morse.thermodynamics.isotensional.asymptotic.reduced.MORSEFJC.nondimensional_end_to_end_length,
    Polymers.ufjc.morse.thermodynamics.isotensional.asymptotic.reduced.MORSEFJC.nondimensional_end_to_end_length_per_link,
    Polymers.ufjc.morse.thermodynamics.isotensional.asymptotic.reduced.nondimensional_end_to_end_length,
    Polymers.ufjc.morse.thermodynamics.isotensional.asymptotic.reduced.end_to_end_length,
    Polymers.ufjc.morse.thermodynamics.isotensional.asymptotic.reduced.end_to_end_length_per_link]
    [Polymers.ufjc.morse.thermodynamics.isotensional.asymptotic.reduced.nondimensional_end_to_end_length_per_link]

example : (morse_isotensional_asymptotic_reduced_lengths 8 1 1 500 80).Scales 8 1 (ndForce 1) :=
  C15_morse_isotensional_asymptotic_reduced_lengths 8 1 1 500 80 (by norm_num) (by norm_num)

/-- C15 for the gibbs methods of `src/physics/single_chain/ufjc/morse/thermodynamics/isotensional/asymptotic/mod.rs`. -/
theorem C15_morse_isotensional_asymptotic_gibbs (N : ℕ) (ℓ : ℝ) (m : ℝ) (k : ℝ) (ε : ℝ) (hN : 0 < N) (hℓ : 0 < ℓ) :
    (morse_isotensional_asymptotic_gibbs N ℓ m k ε).Scales N (ndForce ℓ) := by
  scaling_tac hN hℓ [morse_isotensional_asymptotic_gibbs,
    Polymers.ufjc.morse.MORSEFJC.init, Polymers.ufjc.morse.thermodynamics.MORSEFJC.init,
    Polymers.ufjc.morse.thermodynamics.isotensional.MORSEFJC.init,
    Polymers.ufjc.morse.thermodynamics.isotensional.asymptotic.MORSEFJC.init,
    Polymers.ufjc.morse.thermodynamics.isotensional.asymptotic.MORSEFJC.gibbs_free_energy,
    Polymers.ufjc.morse.thermodynamics.isotensional.asymptotic.MORSEFJC.gibbs_free_energy_per_link,
    Polymers.ufjc.morse.thermodynamics.isotensional.asymptotic.MORSEFJC.relative_gibbs_free_energy,
    Polymers.ufjc.morse.thermodynamics.isotensional.asymptotic.MORSEFJC.relative_gibbs_free_energy_per_link,
    Polymers.ufjc.morse.thermodynamics.isotensional.asymptotic.MORSEFJC.nondimensional_gibbs_free_energy,
    Polymers.ufjc.morse.thermodynamics.isotensional.asymptotic.MORSEFJC.nondimensional_gibbs_free_energy_per_link,
    Polymers.ufjc.morse.thermodynamics.isotensional.asymptotic.MORSEFJC.nondimensional_relative_gibbs_free_energy,
    Polymers.ufjc.morse.thermodynamics.isotensional.asymptotic.MORSEFJC.nondimensional_relative_gibbs_free_energy_per_link,
    Polymers.ufjc.morse.thermodynamics.isotensional.asymptotic.nondimensional_gibbs_free_energy,
    Polymers.ufjc.morse.thermodynamics.isotensional.asymptotic.gibbs_free_energy,
    Polymers.ufjc.morse.thermodynamics.isotensional.asymptotic.gibbs_free_energy_per_link,
    Polymers.ufjc.morse.thermodynamics.isotensional.asymptotic.relative_gibbs_free_energy,
    Polymers.ufjc.morse.thermodynamics.isotensional.asymptotic.relative_gibbs_free_energy_per_link,
    Polymers.ufjc.morse.thermodynamics.isotensional.asymptotic.nondimensional_relative_gibbs_free_energy,
    Polymers.ufjc.morse.thermodynamics.isotensional.asymptotic.nondimensional_relative_gibbs_free_energy_per_link]
    [Polymers.ufjc.morse.thermodynamics.isotensional.asymptotic.nondimensional_gibbs_free_energy_per_link]

example : (morse_isotensional_asymptotic_gibbs 8 1 1 500 80).Scales 8 (ndForce 1) :=
  C15_morse_isotensional_asymptotic_gibbs 8 1 1 500 80 (by norm_num) (by norm_num)

/-- C16 for the gibbs methods of `src/physics/single_chain/ufjc/morse/thermodynamics/isotensional/asymptotic/mod.rs`. -/
theorem C16_reference_morse_isotensional_asymptotic_gibbs (N : ℕ) (ℓ : ℝ) (m : ℝ) (k : ℝ) (ε : ℝ) (hN : 0 < N) (hℓ : 0 < ℓ) :
    (morse_isotensional_asymptotic_gibbs N ℓ m k ε).RelativeTo (ndForce ℓ) 1e-6 := by
  refine EnergyMethods.RelativeTo.of_nd hN (C15_morse_isotensional_asymptotic_gibbs N ℓ m k ε hN hℓ) ?_
  relative_tac hN [morse_isotensional_asymptotic_gibbs,
    Polymers.ufjc.morse.MORSEFJC.init, Polymers.ufjc.morse.thermodynamics.MORSEFJC.init,
    Polymers.ufjc.morse.thermodynamics.isotensional.MORSEFJC.init,
    Polymers.ufjc.morse.thermodynamics.isotensional.asymptotic.MORSEFJC.init,
    Polymers.ufjc.morse.thermodynamics.isotensional.asymptotic.MORSEFJC.gibbs_free_energy,
    Polymers.ufjc.morse.thermodynamics.isotensional.asymptotic.MORSEFJC.gibbs_free_energy_per_link,
    Polymers.ufjc.morse.thermodynamics.isotensional.asymptotic.MORSEFJC.relative_gibbs_free_energy,
    Polymers.ufjc.morse.thermodynamics.isotensional.asymptotic.MORSEFJC.relative_gibbs_free_energy_per_link,
    Polymers.ufjc.morse.thermodynamics.isotensional.asymptotic.MORSEFJC.nondimensional_gibbs_free_energy,
    Polymers.ufjc.morse.thermodynamics.isotensional.asymptotic.MORSEFJC.nondimensional_gibbs_free_energy_per_link,
    Polymers.ufjc.morse.thermodynamics.isotensional.asymptotic.MORSEFJC.nondimensional_relative_gibbs_free_energy,
    Polymers.ufjc.morse.thermodynamics.isotensional.asymptotic.MORSEFJC.nondimensional_relative_gibbs_free_energy_per_link,
    Polymers.ufjc.morse.thermodynamics.isotensional.asymptotic.nondimensional_gibbs_free_energy,
    Polymers.ufjc.morse.thermodynamics.isotensional.asymptotic.gibbs_free_energy,
    Polymers.ufjc.morse.thermodynamics.isotensional.asymptotic.gibbs_free_energy_per_link,
    Polymers.ufjc.morse.thermodynamics.isotensional.asymptotic.relative_gibbs_free_energy,
    Polymers.ufjc.morse.thermodynamics.isotensional.asymptotic.relative_gibbs_free_energy_per_link,
    Polymers.ufjc.morse.thermodynamics.isotensional.asymptotic.nondimensional_relative_gibbs_free_energy,
    Polymers.ufjc.morse.thermodynamics.isotensional.asymptotic.nondimensional_relative_gibbs_free_energy_per_link]
    [Polymers.ufjc.morse.thermodynamics.isotensional.asymptotic.nondimensional_gibbs_free_energy_per_link]

example : (morse_isotensional_asymptotic_gibbs 8 1 1 500 80).RelativeTo (ndForce 1) 1e-6 :=
  C16_reference_morse_isotensional_asymptotic_gibbs 8 1 1 500 80 (by norm_num) (by norm_num)

/-- C16: the hinge mass does not enter the relative gibbs energies of `src/physics/single_chain/ufjc/morse/thermodynamics/isotensional/asymptotic/mod.rs`. -/
theorem C16_mass_morse_isotensional_asymptotic_gibbs (N : ℕ) (ℓ : ℝ) (m : ℝ) (k : ℝ) (ε : ℝ) (m' : ℝ) :
    (morse_isotensional_asymptotic_gibbs N ℓ m k ε).SameRelative (morse_isotensional_asymptotic_gibbs N ℓ m' k ε) :=
  ⟨rfl, rfl, rfl, rfl⟩

/-- C15 for the lengths methods of `src/physics/single_chain/ufjc/morse/thermodynamics/isotensional/asymptotic/mod.rs`. -/
theorem C15_morse_isotensional_asymptotic_lengths (N : ℕ) (ℓ : ℝ) (m : ℝ) (k : ℝ) (ε : ℝ) (hN : 0 < N) (hℓ : 0 < ℓ) :
    (morse_isotensional_asymptotic_lengths N ℓ m k ε).Scales N ℓ (ndForce ℓ) := by
  scaling_tac hN hℓ [morse_isotensional_asymptotic_lengths,
    Polymers.ufjc.morse.MORSEFJC.init, Polymers.ufjc.morse.thermodynamics.MORSEFJC.init,
    Polymers.ufjc.morse.thermodynamics.isotensional.MORSEFJC.init,
    Polymers.ufjc.morse.thermodynamics.isotensional.asymptotic.MORSEFJC.init,
    Polymers.ufjc.morse.thermodynamics.isotensional.asymptotic.MORSEFJC.end_to_end_length,
    Polymers.ufjc.morse.thermodynamics.isotensional.asymptotic.MORSEFJC.end_to_end_length_per_link,
    Polymers.ufjc.morse.thermodynamics.isotensional.asymptotic.MORSEFJC.nondimensional_end_to_end_length,
    Polymers.ufjc.morse.thermodynamics.isotensional.asymptotic.MORSEFJC.nondimensional_end_to_end_length_per_link,
    Polymers.ufjc.morse.thermodynamics.isotensional.asymptotic.nondimensional_end_to_end_length,
    Polymers.ufjc.morse.thermodynamics.isotensional.asymptotic.end_to_end_length,
    Polymers.ufjc.morse.thermodynamics.isotensional.asymptotic.end_to_end_length_per_link]
    [Polymers.ufjc.morse.thermodynamics.isotensional.asymptotic.nondimensional_end_to_end_length_per_link]

example : (morse_isotensional_asymptotic_lengths 8 1 1 500 80).Scales 8 1 (ndForce 1) :=
  C15_morse_isotensional_asymptotic_lengths 8 1 1 500 80 (by norm_num) (by norm_num)

/-- C15 for the helmholtz methods of `src/physics/single_chain/ufjc/morse/thermodynamics/isotensional/legendre/mod.rs`. -/
theorem C15_morse_isotensional_legendre_helmholtz (N : ℕ) (ℓ : ℝ) (m : ℝ) (k : ℝ) (ε : ℝ) (hN : 0 < N) (hℓ : 0 < ℓ) :
    (morse_isotensional_legendre_helmholtz N ℓ m k ε).Scales N (ndForce ℓ) := by
  scaling_tac hN hℓ [morse_isotensional_legendre_helmholtz,
    Polymers.ufjc.morse.MORSEFJC.init, Polymers.ufjc.morse.thermodynamics.MORSEFJC.init,
    Polymers.ufjc.morse.thermodynamics.isotensional.MORSEFJC.init,
    Polymers.ufjc.morse.thermodynamics.isotensional.legendre.MORSEFJC.init,
    Polymers.ufjc.morse.thermodynamics.isotensional.legendre.MORSEFJC.helmholtz_free_energy,
    Polymers.ufjc.morse.thermodynamics.isotensional.legendre.MORSEFJC.helmholtz_free_energy_per_link,
    Polymers.ufjc.morse.thermodynamics.isotensional.legendre.MORSEFJC.relative_helmholtz_free_energy,
    Polymers.ufjc.morse.thermodynamics.isotensional.legendre.MORSEFJC.relative_helmholtz_free_energy_per_link,
    Polymers.ufjc.morse.thermodynamics.isotensional.legendre.MORSEFJC.nondimensional_helmholtz_free_energy,
    Polymers.ufjc.morse.thermodynamics.isotensional.legendre.MORSEFJC.nondimensional_helmholtz_free_energy_per_link,
    Polymers.ufjc.morse.thermodynamics.isotensional.legendre.MORSEFJC.nondimensional_relative_helmholtz_free_energy,
    Polymers.ufjc.morse.thermodynamics.isotensional.legendre.MORSEFJC.nondimensional_relative_helmholtz_free_energy_per_link,
    Polymers.ufjc.morse.thermodynamics.isotensional.legendre.nondimensional_helmholtz_free_energy,
    Polymers.ufjc.morse.thermodynamics.isotensional.legendre.helmholtz_free_energy,
    Polymers.ufjc.morse.thermodynamics.isotensional.legendre.helmholtz_free_energy_per_link,
    Polymers.ufjc.morse.thermodynamics.isotensional.legendre.relative_helmholtz_free_energy,
    Polymers.ufjc.morse.thermodynamics.isotensional.legendre.relative_helmholtz_free_energy_per_link,
    Polymers.ufjc.morse.thermodynamics.isotensional.legendre.nondimensional_relative_helmholtz_free_energy,
    Polymers.ufjc.morse.thermodynamics.isotensional.legendre.nondimensional_relative_helmholtz_free_energy_per_link]
    [Polymers.ufjc.morse.thermodynamics.isotensional.legendre.nondimensional_helmholtz_free_energy_per_link]

example : (morse_isotensional_legendre_helmholtz 8 1 1 500 80).Scales 8 (ndForce 1) :=
  C15_morse_isotensional_legendre_helmholtz 8 1 1 500 80 (by norm_num) (by norm_num)

/-- C16 for the helmholtz methods of `src/physics/single_chain/ufjc/morse/thermodynamics/isotensional/legendre/mod.rs`. -/
theorem C16_reference_morse_isotensional_legendre_helmholtz (N : ℕ) (ℓ : ℝ) (m : ℝ) (k : ℝ) (ε : ℝ) (hN : 0 < N) (hℓ : 0 < ℓ) :
    (morse_isotensional_legendre_helmholtz N ℓ m k ε).RelativeTo (ndForce ℓ) 1e-6 := by
  refine EnergyMethods.RelativeTo.of_nd hN (C15_morse_isotensional_legendre_helmholtz N ℓ m k ε hN hℓ) ?_
  relative_tac hN [morse_isotensional_legendre_helmholtz,
    Polymers.ufjc.morse.MORSEFJC.init, Polymers.ufjc.morse.thermodynamics.MORSEFJC.init,
    Polymers.ufjc.morse.thermodynamics.isotensional.MORSEFJC.init,
    Polymers.ufjc.morse.thermodynamics.isotensional.legendre.MORSEFJC.init,
    Polymers.ufjc.morse.thermodynamics.isotensional.legendre.MORSEFJC.helmholtz_free_energy,
    Polymers.ufjc.morse.thermodynamics.isotensional.legendre.MORSEFJC.helmholtz_free_energy_per_link,
    Polymers.ufjc.morse.thermodynamics.isotensional.legendre.MORSEFJC.relative_helmholtz_free_energy,
    Polymers.ufjc.morse.thermodynamics.isotensional.legendre.MORSEFJC.relative_helmholtz_free_energy_per_link,
    Polymers.ufjc.morse.thermodynamics.isotensional.legendre.MORSEFJC.nondimensional_helmholtz_free_energy,
    Polymers.ufjc.morse.thermodynamics.isotensional.legendre.MORSEFJC.nondimensional_helmholtz_free_energy_per_link,
    Polymers.ufjc.morse.thermodynamics.isotensional.legendre.MORSEFJC.nondimensional_relative_helmholtz_free_energy,
    Polymers.ufjc.morse.thermodynamics.isotensional.legendre.MORSEFJC.nondimensional_relative_helmholtz_free_energy_per_link,
    Polymers.ufjc.morse.thermodynamics.isotensional.legendre.nondimensional_helmholtz_free_energy,
    Polymers.ufjc.morse.thermodynamics.isotensional.legendre.helmholtz_free_energy,
    Polymers.ufjc.morse.thermodynamics.isotensional.legendre.helmholtz_free_energy_per_link,
    Polymers.ufjc.morse.thermodynamics.isotensional.legendre.relative_helmholtz_free_energy,
    Polymers.ufjc.morse.thermodynamics.isotensional.legendre.relative_helmholtz_free_energy_per_link,
    Polymers.ufjc.morse.thermodynamics.isotensional.legendre.nondimensional_relative_helmholtz_free_energy,
    Polymers.ufjc.morse.thermodynamics.isotensional.legendre.nondimensional_relative_helmholtz_free_energy_per_link]
    [Polymers.ufjc.morse.thermodynamics.isotensional.legendre.nondimensional_helmholtz_free_energy_per_link]

example : (morse_isotensional_legendre_helmholtz 8 1 1 500 80).RelativeTo (ndForce 1) 1e-6 :=
  C16_reference_morse_isotensional_legendre_helmholtz 8 1 1 500 80 (by norm_num) (by norm_num)

/-- C16: the hinge mass does not enter the relative helmholtz energies of `src/physics/single_chain/ufjc/morse/thermodynamics/isotensional/legendre/mod.rs`. -/
theorem C16_mass_morse_isotensional_legendre_helmholtz (N : ℕ) (ℓ : ℝ) (m : ℝ) (k : ℝ) (ε : ℝ) (m' : ℝ) :
    (morse_isotensional_legendre_helmholtz N ℓ m k ε).SameRelative (morse_isotensional_legendre_helmholtz N ℓ m' k ε) :=
  ⟨rfl, rfl, rfl, rfl⟩

/-- C15 for the gibbs methods of `src/physics/single_chain/ufjc/morse/thermodynamics/isotensional/mod.rs`. -/
theorem C15_morse_isotensional_gibbs (N : ℕ) (ℓ : ℝ) (m : ℝ) (k : ℝ) (ε : ℝ) (hN : 0 < N) (hℓ : 0 < ℓ) :
    (morse_isotensional_gibbs N ℓ m k ε).Scales N (ndForce ℓ) := by
  scaling_tac hN hℓ [morse_isotensional_gibbs,
    Polymers.ufjc.morse.MORSEFJC.init, Polymers.ufjc.morse.thermodynamics.MORSEFJC.init,
    Polymers.ufjc.morse.thermodynamics.isotensional.MORSEFJC.init,
    Polymers.ufjc.morse.thermodynamics.isotensional.MORSEFJC.gibbs_free_energy,
    Polymers.ufjc.morse.thermodynamics.isotensional.MORSEFJC.gibbs_free_energy_per_link,
    Polymers.ufjc.morse.thermodynamics.isotensional.MORSEFJC.relative_gibbs_free_energy,
    Polymers.ufjc.morse.thermodynamics.isotensional.MORSEFJC.relative_gibbs_free_energy_per_link,
    Polymers.ufjc.morse.thermodynamics.isotensional.MORSEFJC.nondimensional_gibbs_free_energy,
    Polymers.ufjc.morse.thermodynamics.isotensional.MORSEFJC.nondimensional_gibbs_free_energy_per_link,
    Polymers.ufjc.morse.thermodynamics.isotensional.MORSEFJC.nondimensional_relative_gibbs_free_energy,
    Polymers.ufjc.morse.thermodynamics.isotensional.MORSEFJC.nondimensional_relative_gibbs_free_energy_per_link,
    Polymers.ufjc.morse.thermodynamics.isotensional.nondimensional_gibbs_free_energy,
    Polymers.ufjc.morse.thermodynamics.isotensional.gibbs_free_energy,
    Polymers.ufjc.morse.thermodynamics.isotensional.gibbs_free_energy_per_link,
    Polymers.ufjc.morse.thermodynamics.isotensional.relative_gibbs_free_energy,
    Polymers.ufjc.morse.thermodynamics.isotensional.relative_gibbs_free_energy_per_link,
    Polymers.ufjc.morse.thermodynamics.isotensional.nondimensional_relative_gibbs_free_energy,
    Polymers.ufjc.morse.thermodynamics.isotensional.nondimensional_relative_gibbs_free_energy_per_link]
    [Polymers.ufjc.morse.thermodynamics.isotensional.nondimensional_gibbs_free_energy_per_link]

example : (morse_isotensional_gibbs 8 1 1 500 80).Scales 8 (ndForce 1) :=
  C15_morse_isotensional_gibbs 8 1 1 500 80 (by norm_num) (by norm_num)

/-- C16 for the gibbs methods of `src/physics/single_chain/ufjc/morse/thermodynamics/isotensional/mod.rs`. -/
theorem C16_reference_morse_isotensional_gibbs (N : ℕ) (ℓ : ℝ) (m : ℝ) (k : ℝ) (ε : ℝ) (hN : 0 < N) (hℓ : 0 < ℓ) :
    (morse_isotensional_gibbs N ℓ m k ε).RelativeTo (ndForce ℓ) 1e-6 := by
  refine EnergyMethods.RelativeTo.of_nd hN (C15_morse_isotensional_gibbs N ℓ m k ε hN hℓ) ?_
  relative_tac hN [morse_isotensional_gibbs,
    Polymers.ufjc.morse.MORSEFJC.init, Polymers.ufjc.morse.thermodynamics.MORSEFJC.init,
    Polymers.ufjc.morse.thermodynamics.isotensional.MORSEFJC.init,
    Polymers.ufjc.morse.thermodynamics.isotensional.MORSEFJC.gibbs_free_energy,
    Polymers.ufjc.morse.thermodynamics.isotensional.MORSEFJC.gibbs_free_energy_per_link,
    Polymers.ufjc.morse.thermodynamics.isotensional.MORSEFJC.relative_gibbs_free_energy,
    Polymers.ufjc.morse.thermodynamics.isotensional.MORSEFJC.relative_gibbs_free_energy_per_link,
    Polymers.ufjc.morse.thermodynamics.isotensional.MORSEFJC.nondimensional_gibbs_free_energy,
    Polymers.ufjc.morse.thermodynamics.isotensional.MORSEFJC.nondimensional_gibbs_free_energy_per_link,
    Polymers.ufjc.morse.thermodynamics.isotensional.MORSEFJC.nondimensional_relative_gibbs_free_energy,
    Polymers.ufjc.morse.thermodynamics.isotensional.MORSEFJC.nondimensional_relative_gibbs_free_energy_per_link,
    Polymers.ufjc.morse.thermodynamics.isotensional.nondimensional_gibbs_free_energy,
    Polymers.ufjc.morse.thermodynamics.isotensional.gibbs_free_energy,
    Polymers.ufjc.morse.thermodynamics.isotensional.gibbs_free_energy_per_link,
    Polymers.ufjc.morse.thermodynamics.isotensional.relative_gibbs_free_energy,
    Polymers.ufjc.morse.thermodynamics.isotensional.relative_gibbs_free_energy_per_link,
    Polymers.ufjc.morse.thermodynamics.isotensional.nondimensional_relative_gibbs_free_energy,
    Polymers.ufjc.morse.thermodynamics.isotensional.nondimensional_relative_gibbs_free_energy_per_link]
    [Polymers.ufjc.morse.thermodynamics.isotensional.nondimensional_gibbs_free_energy_per_link]

example : (morse_isotensional_gibbs 8 1 1 500 80).RelativeTo (ndForce 1) 1e-6 :=
  C16_reference_morse_isotensional_gibbs 8 1 1 500 80 (by norm_num) (by norm_num)

/-- C16: the hinge mass does not enter the relative gibbs energies of `src/physics/single_chain/ufjc/morse/thermodynamics/isotensional/mod.rs`. -/
theorem C16_mass_morse_isotensional_gibbs (N : ℕ) (ℓ : ℝ) (m : ℝ) (k : ℝ) (ε : ℝ) (m' : ℝ) :
    (morse_isotensional_gibbs N ℓ m k ε).SameRelative (morse_isotensional_gibbs N ℓ m' k ε) :=
  ⟨rfl, rfl, rfl, rfl⟩

/-- C15 for the lengths methods of `src/physics/single_chain/ufjc/morse/thermodynamics/isotensional/mod.rs`. -/
theorem C15_morse_isotensional_lengths (N : ℕ) (ℓ : ℝ) (m : ℝ) (k : ℝ) (ε : ℝ) (hN : 0 < N) (hℓ : 0 < ℓ) :
    (morse_isotensional_lengths N ℓ m k ε).Scales N ℓ (ndForce ℓ) := by
  scaling_tac hN hℓ [morse_isotensional_lengths,
    Polymers.ufjc.morse.MORSEFJC.init, Polymers.ufjc.morse.thermodynamics.MORSEFJC.init,
    Polymers.ufjc.morse.thermodynamics.isotensional.MORSEFJC.init,
    Polymers.ufjc.morse.thermodynamics.isotensional.MORSEFJC.end_to_end_length,
    Polymers.ufjc.morse.thermodynamics.isotensional.MORSEFJC.end_to_end_length_per_link,
    Polymers.ufjc.morse.thermodynamics.isotensional.MORSEFJC.nondimensional_end_to_end_length,
    Polymers.ufjc.morse.thermodynamics.isotensional.MORSEFJC.nondimensional_end_to_end_length_per_link,
    Polymers.ufjc.morse.thermodynamics.isotensional.nondimensional_end_to_end_length,
    Polymers.ufjc.morse.thermodynamics.isotensional.end_to_end_length,
    Polymers.ufjc.morse.thermodynamics.isotensional.end_to_end_length_per_link]
    [Polymers.ufjc.morse.thermodynamics.isotensional.nondimensional_end_to_end_length_per_link]

example : (morse_isotensional_lengths 8 1 1 500 80).Scales 8 1 (ndForce 1) :=
  C15_morse_isotensional_lengths 8 1 1 500 80 (by norm_num) (by norm_num)

end Polymers.Props
