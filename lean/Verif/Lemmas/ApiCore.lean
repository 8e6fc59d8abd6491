/- Generated by tools/gen_core.py ; do not edit by hand. -/
import Verif.Spec.Api
import Verif.Lemmas.Scaling

namespace Polymers

open Polymers.Spec Polymers.Api

@[api_core] theorem core_ideal_isometric_helmholtz (N : ℕ) (ℓ : ℝ) (m : ℝ) (y T : ℝ) :
    (ideal_isometric_helmholtz N ℓ m).nd_energy_per_link y T =
      Polymers.ideal.thermodynamics.isometric.nondimensional_helmholtz_free_energy_per_link ℓ m y T := by
  have h : (ideal_isometric_helmholtz N ℓ m).nd_energy_per_link y T =
      Polymers.ideal.thermodynamics.isometric.nondimensional_helmholtz_free_energy_per_link ℓ m y T := rfl
  exact h

@[api_core] theorem core_ideal_isometric_forces (N : ℕ) (ℓ : ℝ) (m : ℝ) (y T : ℝ) :
    (ideal_isometric_forces N ℓ m).nd_force y T =
      Polymers.ideal.thermodynamics.isometric.nondimensional_force y := by
  have h : (ideal_isometric_forces N ℓ m).nd_force y T =
      Polymers.ideal.thermodynamics.isometric.nondimensional_force y := rfl
  exact h

@[api_core] theorem core_ideal_isotensional_gibbs (N : ℕ) (ℓ : ℝ) (m : ℝ) (y T : ℝ) :
    (ideal_isotensional_gibbs N ℓ m).nd_energy_per_link y T =
      Polymers.ideal.thermodynamics.isotensional.nondimensional_gibbs_free_energy_per_link ℓ m y T := by
  have h : (ideal_isotensional_gibbs N ℓ m).nd_energy_per_link y T =
      Polymers.ideal.thermodynamics.isotensional.nondimensional_gibbs_free_energy_per_link ℓ m y T := rfl
  exact h

@[api_core] theorem core_ideal_isotensional_lengths (N : ℕ) (ℓ : ℝ) (m : ℝ) (y T : ℝ) :
    (ideal_isotensional_lengths N ℓ m).nd_length_per_link y T =
      Polymers.ideal.thermodynamics.isotensional.nondimensional_end_to_end_length_per_link y := by
  have h : (ideal_isotensional_lengths N ℓ m).nd_length_per_link y T =
      Polymers.ideal.thermodynamics.isotensional.nondimensional_end_to_end_length_per_link y := rfl
  exact h

@[api_core] theorem core_fjc_isometric_legendre_gibbs (N : ℕ) (ℓ : ℝ) (m : ℝ) (y T : ℝ) :
    (fjc_isometric_legendre_gibbs N ℓ m).nd_energy_per_link y T =
      Polymers.fjc.thermodynamics.isometric.legendre.nondimensional_gibbs_free_energy_per_link N ℓ m y T := by
  have h : (fjc_isometric_legendre_gibbs N ℓ m).nd_energy_per_link y T =
      Polymers.fjc.thermodynamics.isometric.legendre.nondimensional_gibbs_free_energy_per_link N ℓ m y T := rfl
  exact h

@[api_core] theorem core_fjc_isometric_legendre_helmholtz (N : ℕ) (ℓ : ℝ) (m : ℝ) (y T : ℝ) :
    (fjc_isometric_legendre_helmholtz N ℓ m).nd_energy_per_link y T =
      Polymers.fjc.thermodynamics.isometric.legendre.nondimensional_helmholtz_free_energy_per_link N ℓ m y T := by
  have h : (fjc_isometric_legendre_helmholtz N ℓ m).nd_energy_per_link y T =
      Polymers.fjc.thermodynamics.isometric.legendre.nondimensional_helmholtz_free_energy_per_link N ℓ m y T := rfl
  exact h

@[api_core] theorem core_fjc_isometric_legendre_forces (N : ℕ) (ℓ : ℝ) (m : ℝ) (y T : ℝ) :
    (fjc_isometric_legendre_forces N ℓ m).nd_force y T =
      Polymers.fjc.thermodynamics.isometric.legendre.nondimensional_force y := by
  have h : (fjc_isometric_legendre_forces N ℓ m).nd_force y T =
      Polymers.fjc.thermodynamics.isometric.legendre.nondimensional_force y := rfl
  exact h

@[api_core] theorem core_fjc_isotensional_legendre_helmholtz (N : ℕ) (ℓ : ℝ) (m : ℝ) (y T : ℝ) :
    (fjc_isotensional_legendre_helmholtz N ℓ m).nd_energy_per_link y T =
      Polymers.fjc.thermodynamics.isotensional.legendre.nondimensional_helmholtz_free_energy_per_link ℓ m y T := by
  have h : (fjc_isotensional_legendre_helmholtz N ℓ m).nd_energy_per_link y T =
      Polymers.fjc.thermodynamics.isotensional.legendre.nondimensional_helmholtz_free_energy_per_link ℓ m y T := rfl
  exact h

@[api_core] theorem core_fjc_isometric_helmholtz (N : ℕ) (ℓ : ℝ) (m : ℝ) (y T : ℝ) :
    (fjc_isometric_helmholtz N ℓ m).nd_energy_per_link y T =
      Polymers.fjc.thermodynamics.isometric.nondimensional_helmholtz_free_energy_per_link N ℓ m y T := by
  have h : (fjc_isometric_helmholtz N ℓ m).nd_energy_per_link y T =
      Polymers.fjc.thermodynamics.isometric.nondimensional_helmholtz_free_energy_per_link N ℓ m y T := rfl
  exact h

@[api_core] theorem core_fjc_isometric_forces (N : ℕ) (ℓ : ℝ) (m : ℝ) (y T : ℝ) :
    (fjc_isometric_forces N ℓ m).nd_force y T =
      Polymers.fjc.thermodynamics.isometric.nondimensional_force N y := by
  have h : (fjc_isometric_forces N ℓ m).nd_force y T =
      Polymers.fjc.thermodynamics.isometric.nondimensional_force N y := rfl
  exact h

@[api_core] theorem core_fjc_isotensional_gibbs (N : ℕ) (ℓ : ℝ) (m : ℝ) (y T : ℝ) :
    (fjc_isotensional_gibbs N ℓ m).nd_energy_per_link y T =
      Polymers.fjc.thermodynamics.isotensional.nondimensional_gibbs_free_energy_per_link ℓ m y T := by
  have h : (fjc_isotensional_gibbs N ℓ m).nd_energy_per_link y T =
      Polymers.fjc.thermodynamics.isotensional.nondimensional_gibbs_free_energy_per_link ℓ m y T := rfl
  exact h

@[api_core] theorem core_fjc_isotensional_lengths (N : ℕ) (ℓ : ℝ) (m : ℝ) (y T : ℝ) :
    (fjc_isotensional_lengths N ℓ m).nd_length_per_link y T =
      Polymers.fjc.thermodynamics.isotensional.nondimensional_end_to_end_length_per_link y := by
  have h : (fjc_isotensional_lengths N ℓ m).nd_length_per_link y T =
      Polymers.fjc.thermodynamics.isotensional.nondimensional_end_to_end_length_per_link y := rfl
  exact h

@[api_core] theorem core_efjc_isometric_asymptotic_alternative_legendre_helmholtz (N : ℕ) (ℓ : ℝ) (m : ℝ) (k : ℝ) (y T : ℝ) :
    (efjc_isometric_asymptotic_alternative_legendre_helmholtz N ℓ m k).nd_energy_per_link y T =
      Polymers.efjc.thermodynamics.isometric.asymptotic.alternative.legendre.nondimensional_helmholtz_free_energy_per_link N ℓ m (ndStiffness k ℓ T) y T := by
  have h : (efjc_isometric_asymptotic_alternative_legendre_helmholtz N ℓ m k).nd_energy_per_link y T =
      Polymers.efjc.thermodynamics.isometric.asymptotic.alternative.legendre.nondimensional_helmholtz_free_energy_per_link N ℓ m (k * Elem.powi ℓ 2 / BOLTZMANN_CONSTANT / T) y T := rfl
  rw [h, ndStiffness_code]

@[api_core] theorem core_efjc_isometric_asymptotic_alternative_legendre_forces (N : ℕ) (ℓ : ℝ) (m : ℝ) (k : ℝ) (y T : ℝ) :
    (efjc_isometric_asymptotic_alternative_legendre_forces N ℓ m k).nd_force y T =
      Polymers.efjc.thermodynamics.isometric.asymptotic.alternative.legendre.nondimensional_force (ndStiffness k ℓ T) y := by
  have h : (efjc_isometric_asymptotic_alternative_legendre_forces N ℓ m k).nd_force y T =
      Polymers.efjc.thermodynamics.isometric.asymptotic.alternative.legendre.nondimensional_force (k * Elem.powi ℓ 2 / BOLTZMANN_CONSTANT / T) y := rfl
  rw [h, ndStiffness_code]

@[api_core] theorem core_efjc_isometric_asymptotic_reduced_legendre_helmholtz (N : ℕ) (ℓ : ℝ) (m : ℝ) (k : ℝ) (y T : ℝ) :
    (efjc_isometric_asymptotic_reduced_legendre_helmholtz N ℓ m k).nd_energy_per_link y T =
      Polymers.efjc.thermodynamics.isometric.asymptotic.reduced.legendre.nondimensional_helmholtz_free_energy_per_link N ℓ m (ndStiffness k ℓ T) y T := by
  have h : (efjc_isometric_asymptotic_reduced_legendre_helmholtz N ℓ m k).nd_energy_per_link y T =
      Polymers.efjc.thermodynamics.isometric.asymptotic.reduced.legendre.nondimensional_helmholtz_free_energy_per_link N ℓ m (k * Elem.powi ℓ 2 / BOLTZMANN_CONSTANT / T) y T := rfl
  rw [h, ndStiffness_code]

@[api_core] theorem core_efjc_isometric_asymptotic_reduced_legendre_forces (N : ℕ) (ℓ : ℝ) (m : ℝ) (k : ℝ) (y T : ℝ) :
    (efjc_isometric_asymptotic_reduced_legendre_forces N ℓ m k).nd_force y T =
      Polymers.efjc.thermodynamics.isometric.asymptotic.reduced.legendre.nondimensional_force (ndStiffness k ℓ T) y := by
  have h : (efjc_isometric_asymptotic_reduced_legendre_forces N ℓ m k).nd_force y T =
      Polymers.efjc.thermodynamics.isometric.asymptotic.reduced.legendre.nondimensional_force (k * Elem.powi ℓ 2 / BOLTZMANN_CONSTANT / T) y := rfl
  rw [h, ndStiffness_code]

@[api_core] theorem core_efjc_isotensional_asymptotic_alternative_legendre_helmholtz (N : ℕ) (ℓ : ℝ) (m : ℝ) (k : ℝ) (y T : ℝ) :
    (efjc_isotensional_asymptotic_alternative_legendre_helmholtz N ℓ m k).nd_energy_per_link y T =
      Polymers.efjc.thermodynamics.isotensional.asymptotic.alternative.legendre.nondimensional_helmholtz_free_energy_per_link ℓ m (ndStiffness k ℓ T) y T := by
  have h : (efjc_isotensional_asymptotic_alternative_legendre_helmholtz N ℓ m k).nd_energy_per_link y T =
      Polymers.efjc.thermodynamics.isotensional.asymptotic.alternative.legendre.nondimensional_helmholtz_free_energy_per_link ℓ m (k * Elem.powi ℓ 2 / BOLTZMANN_CONSTANT / T) y T := rfl
  rw [h, ndStiffness_code]

@[api_core] theorem core_efjc_isotensional_asymptotic_reduced_legendre_helmholtz (N : ℕ) (ℓ : ℝ) (m : ℝ) (k : ℝ) (y T : ℝ) :
    (efjc_isotensional_asymptotic_reduced_legendre_helmholtz N ℓ m k).nd_energy_per_link y T =
      Polymers.efjc.thermodynamics.isotensional.asymptotic.reduced.legendre.nondimensional_helmholtz_free_energy_per_link ℓ m (ndStiffness k ℓ T) y T := by
  have h : (efjc_isotensional_asymptotic_reduced_legendre_helmholtz N ℓ m k).nd_energy_per_link y T =
      Polymers.efjc.thermodynamics.isotensional.asymptotic.reduced.legendre.nondimensional_helmholtz_free_energy_per_link ℓ m (k * Elem.powi ℓ 2 / BOLTZMANN_CONSTANT / T) y T := rfl
  rw [h, ndStiffness_code]

@[api_core] theorem core_efjc_isometric_asymptotic_legendre_helmholtz (N : ℕ) (ℓ : ℝ) (m : ℝ) (k : ℝ) (y T : ℝ) :
    (efjc_isometric_asymptotic_legendre_helmholtz N ℓ m k).nd_energy_per_link y T =
      Polymers.efjc.thermodynamics.isometric.asymptotic.legendre.nondimensional_helmholtz_free_energy_per_link N ℓ m (ndStiffness k ℓ T) y T := by
  have h : (efjc_isometric_asymptotic_legendre_helmholtz N ℓ m k).nd_energy_per_link y T =
      Polymers.efjc.thermodynamics.isometric.asymptotic.legendre.nondimensional_helmholtz_free_energy_per_link N ℓ m (k * Elem.powi ℓ 2 / BOLTZMANN_CONSTANT / T) y T := rfl
  rw [h, ndStiffness_code]

@[api_core] theorem core_efjc_isometric_asymptotic_legendre_forces (N : ℕ) (ℓ : ℝ) (m : ℝ) (k : ℝ) (y T : ℝ) :
    (efjc_isometric_asymptotic_legendre_forces N ℓ m k).nd_force y T =
      Polymers.efjc.thermodynamics.isometric.asymptotic.legendre.nondimensional_force (ndStiffness k ℓ T) y := by
  have h : (efjc_isometric_asymptotic_legendre_forces N ℓ m k).nd_force y T =
      Polymers.efjc.thermodynamics.isometric.asymptotic.legendre.nondimensional_force (k * Elem.powi ℓ 2 / BOLTZMANN_CONSTANT / T) y := rfl
  rw [h, ndStiffness_code]

@[api_core] theorem core_efjc_isotensional_asymptotic_alternative_gibbs (N : ℕ) (ℓ : ℝ) (m : ℝ) (k : ℝ) (y T : ℝ) :
    (efjc_isotensional_asymptotic_alternative_gibbs N ℓ m k).nd_energy_per_link y T =
      Polymers.efjc.thermodynamics.isotensional.asymptotic.alternative.nondimensional_gibbs_free_energy_per_link ℓ m (ndStiffness k ℓ T) y T := by
  have h : (efjc_isotensional_asymptotic_alternative_gibbs N ℓ m k).nd_energy_per_link y T =
      Polymers.efjc.thermodynamics.isotensional.asymptotic.alternative.nondimensional_gibbs_free_energy_per_link ℓ m (k * Elem.powi ℓ 2 / BOLTZMANN_CONSTANT / T) y T := rfl
  rw [h, ndStiffness_code]

@[api_core] theorem core_efjc_isotensional_asymptotic_alternative_lengths (N : ℕ) (ℓ : ℝ) (m : ℝ) (k : ℝ) (y T : ℝ) :
    (efjc_isotensional_asymptotic_alternative_lengths N ℓ m k).nd_length_per_link y T =
      Polymers.efjc.thermodynamics.isotensional.asymptotic.alternative.nondimensional_end_to_end_length_per_link (ndStiffness k ℓ T) y := by
  have h : (efjc_isotensional_asymptotic_alternative_lengths N ℓ m k).nd_length_per_link y T =
      Polymers.efjc.thermodynamics.isotensional.asymptotic.alternative.nondimensional_end_to_end_length_per_link (k * Elem.powi ℓ 2 / BOLTZMANN_CONSTANT / T) y := rfl
  rw [h, ndStiffness_code]

@[api_core] theorem core_efjc_isotensional_asymptotic_reduced_gibbs (N : ℕ) (ℓ : ℝ) (m : ℝ) (k : ℝ) (y T : ℝ) :
    (efjc_isotensional_asymptotic_reduced_gibbs N ℓ m k).nd_energy_per_link y T =
      Polymers.efjc.thermodynamics.isotensional.asymptotic.reduced.nondimensional_gibbs_free_energy_per_link ℓ m (ndStiffness k ℓ T) y T := by
  have h : (efjc_isotensional_asymptotic_reduced_gibbs N ℓ m k).nd_energy_per_link y T =
      Polymers.efjc.thermodynamics.isotensional.asymptotic.reduced.nondimensional_gibbs_free_energy_per_link ℓ m (k * Elem.powi ℓ 2 / BOLTZMANN_CONSTANT / T) y T := rfl
  rw [h, ndStiffness_code]

@[api_core] theorem core_efjc_isotensional_asymptotic_reduced_lengths (N : ℕ) (ℓ : ℝ) (m : ℝ) (k : ℝ) (y T : ℝ) :
    (efjc_isotensional_asymptotic_reduced_lengths N ℓ m k).nd_length_per_link y T =
      Polymers.efjc.thermodynamics.isotensional.asymptotic.reduced.nondimensional_end_to_end_length_per_link (ndStiffness k ℓ T) y := by
  have h : (efjc_isotensional_asymptotic_reduced_lengths N ℓ m k).nd_length_per_link y T =
      Polymers.efjc.thermodynamics.isotensional.asymptotic.reduced.nondimensional_end_to_end_length_per_link (k * Elem.powi ℓ 2 / BOLTZMANN_CONSTANT / T) y := rfl
  rw [h, ndStiffness_code]

@[api_core] theorem core_efjc_isotensional_asymptotic_gibbs (N : ℕ) (ℓ : ℝ) (m : ℝ) (k : ℝ) (y T : ℝ) :
    (efjc_isotensional_asymptotic_gibbs N ℓ m k).nd_energy_per_link y T =
      Polymers.efjc.thermodynamics.isotensional.asymptotic.nondimensional_gibbs_free_energy_per_link ℓ m (ndStiffness k ℓ T) y T := by
  have h : (efjc_isotensional_asymptotic_gibbs N ℓ m k).nd_energy_per_link y T =
      Polymers.efjc.thermodynamics.isotensional.asymptotic.nondimensional_gibbs_free_energy_per_link ℓ m (k * Elem.powi ℓ 2 / BOLTZMANN_CONSTANT / T) y T := rfl
  rw [h, ndStiffness_code]

@[api_core] theorem core_efjc_isotensional_asymptotic_lengths (N : ℕ) (ℓ : ℝ) (m : ℝ) (k : ℝ) (y T : ℝ) :
    (efjc_isotensional_asymptotic_lengths N ℓ m k).nd_length_per_link y T =
      Polymers.efjc.thermodynamics.isotensional.asymptotic.nondimensional_end_to_end_length_per_link (ndStiffness k ℓ T) y := by
  have h : (efjc_isotensional_asymptotic_lengths N ℓ m k).nd_length_per_link y T =
      Polymers.efjc.thermodynamics.isotensional.asymptotic.nondimensional_end_to_end_length_per_link (k * Elem.powi ℓ 2 / BOLTZMANN_CONSTANT / T) y := rfl
  rw [h, ndStiffness_code]

@[api_core] theorem core_efjc_isotensional_legendre_helmholtz (N : ℕ) (ℓ : ℝ) (m : ℝ) (k : ℝ) (y T : ℝ) :
    (efjc_isotensional_legendre_helmholtz N ℓ m k).nd_energy_per_link y T =
      Polymers.efjc.thermodynamics.isotensional.legendre.nondimensional_helmholtz_free_energy_per_link ℓ m (ndStiffness k ℓ T) y T := by
  have h : (efjc_isotensional_legendre_helmholtz N ℓ m k).nd_energy_per_link y T =
      Polymers.efjc.thermodynamics.isotensional.legendre.nondimensional_helmholtz_free_energy_per_link ℓ m (k * Elem.powi ℓ 2 / BOLTZMANN_CONSTANT / T) y T := rfl
  rw [h, ndStiffness_code]

@[api_core] theorem core_efjc_isotensional_gibbs (N : ℕ) (ℓ : ℝ) (m : ℝ) (k : ℝ) (y T : ℝ) :
    (efjc_isotensional_gibbs N ℓ m k).nd_energy_per_link y T =
      Polymers.efjc.thermodynamics.isotensional.nondimensional_gibbs_free_energy_per_link ℓ m (ndStiffness k ℓ T) y T := by
  have h : (efjc_isotensional_gibbs N ℓ m k).nd_energy_per_link y T =
      Polymers.efjc.thermodynamics.isotensional.nondimensional_gibbs_free_energy_per_link ℓ m (k * Elem.powi ℓ 2 / BOLTZMANN_CONSTANT / T) y T := rfl
  rw [h, ndStiffness_code]

@[api_core] theorem core_efjc_isotensional_lengths (N : ℕ) (ℓ : ℝ) (m : ℝ) (k : ℝ) (y T : ℝ) :
    (efjc_isotensional_lengths N ℓ m k).nd_length_per_link y T =
      Polymers.efjc.thermodynamics.isotensional.nondimensional_end_to_end_length_per_link (ndStiffness k ℓ T) y := by
  have h : (efjc_isotensional_lengths N ℓ m k).nd_length_per_link y T =
      Polymers.efjc.thermodynamics.isotensional.nondimensional_end_to_end_length_per_link (k * Elem.powi ℓ 2 / BOLTZMANN_CONSTANT / T) y := rfl
  rw [h, ndStiffness_code]

@[api_core] theorem core_swfjc_isometric_legendre_helmholtz (N : ℕ) (ℓ : ℝ) (m : ℝ) (w : ℝ) (y T : ℝ) :
    (swfjc_isometric_legendre_helmholtz N ℓ m w).nd_energy_per_link y T =
      Polymers.swfjc.thermodynamics.isometric.legendre.nondimensional_helmholtz_free_energy_per_link N ℓ m w y T := by
  have h : (swfjc_isometric_legendre_helmholtz N ℓ m w).nd_energy_per_link y T =
      Polymers.swfjc.thermodynamics.isometric.legendre.nondimensional_helmholtz_free_energy_per_link N ℓ m w y T := rfl
  exact h

@[api_core] theorem core_swfjc_isometric_legendre_forces (N : ℕ) (ℓ : ℝ) (m : ℝ) (w : ℝ) (y T : ℝ) :
    (swfjc_isometric_legendre_forces N ℓ m w).nd_force y T =
      Polymers.swfjc.thermodynamics.isometric.legendre.nondimensional_force ℓ w y := by
  have h : (swfjc_isometric_legendre_forces N ℓ m w).nd_force y T =
      Polymers.swfjc.thermodynamics.isometric.legendre.nondimensional_force ℓ w y := rfl
  exact h

@[api_core] theorem core_swfjc_isotensional_legendre_helmholtz (N : ℕ) (ℓ : ℝ) (m : ℝ) (w : ℝ) (y T : ℝ) :
    (swfjc_isotensional_legendre_helmholtz N ℓ m w).nd_energy_per_link y T =
      Polymers.swfjc.thermodynamics.isotensional.legendre.nondimensional_helmholtz_free_energy_per_link ℓ m w y T := by
  have h : (swfjc_isotensional_legendre_helmholtz N ℓ m w).nd_energy_per_link y T =
      Polymers.swfjc.thermodynamics.isotensional.legendre.nondimensional_helmholtz_free_energy_per_link ℓ m w y T := rfl
  exact h

@[api_core] theorem core_swfjc_isotensional_gibbs (N : ℕ) (ℓ : ℝ) (m : ℝ) (w : ℝ) (y T : ℝ) :
    (swfjc_isotensional_gibbs N ℓ m w).nd_energy_per_link y T =
      Polymers.swfjc.thermodynamics.isotensional.nondimensional_gibbs_free_energy_per_link ℓ m w y T := by
  have h : (swfjc_isotensional_gibbs N ℓ m w).nd_energy_per_link y T =
      Polymers.swfjc.thermodynamics.isotensional.nondimensional_gibbs_free_energy_per_link ℓ m w y T := rfl
  exact h

@[api_core] theorem core_swfjc_isotensional_lengths (N : ℕ) (ℓ : ℝ) (m : ℝ) (w : ℝ) (y T : ℝ) :
    (swfjc_isotensional_lengths N ℓ m w).nd_length_per_link y T =
      Polymers.swfjc.thermodynamics.isotensional.nondimensional_end_to_end_length_per_link ℓ w y := by
  have h : (swfjc_isotensional_lengths N ℓ m w).nd_length_per_link y T =
      Polymers.swfjc.thermodynamics.isotensional.nondimensional_end_to_end_length_per_link ℓ w y := rfl
  exact h

@[api_core] theorem core_lennard_jones_isometric_asymptotic_reduced_legendre_helmholtz (N : ℕ) (ℓ : ℝ) (m : ℝ) (k : ℝ) (y T : ℝ) :
    (lennard_jones_isometric_asymptotic_reduced_legendre_helmholtz N ℓ m k).nd_energy_per_link y T =
      Polymers.ufjc.lennard_jones.thermodynamics.isometric.asymptotic.reduced.legendre.nondimensional_helmholtz_free_energy_per_link N ℓ m (ndStiffness k ℓ T) y T := by
  have h : (lennard_jones_isometric_asymptotic_reduced_legendre_helmholtz N ℓ m k).nd_energy_per_link y T =
      Polymers.ufjc.lennard_jones.thermodynamics.isometric.asymptotic.reduced.legendre.nondimensional_helmholtz_free_energy_per_link N ℓ m (k * Elem.powi ℓ 2 / BOLTZMANN_CONSTANT / T) y T := rfl
  rw [h, ndStiffness_code]

@[api_core] theorem core_lennard_jones_isometric_asymptotic_reduced_legendre_forces (N : ℕ) (ℓ : ℝ) (m : ℝ) (k : ℝ) (y T : ℝ) :
    (lennard_jones_isometric_asymptotic_reduced_legendre_forces N ℓ m k).nd_force y T =
      Polymers.ufjc.lennard_jones.thermodynamics.isometric.asymptotic.reduced.legendre.nondimensional_force (ndStiffness k ℓ T) y := by
  have h : (lennard_jones_isometric_asymptotic_reduced_legendre_forces N ℓ m k).nd_force y T =
      Polymers.ufjc.lennard_jones.thermodynamics.isometric.asymptotic.reduced.legendre.nondimensional_force (k * Elem.powi ℓ 2 / BOLTZMANN_CONSTANT / T) y := rfl
  rw [h, ndStiffness_code]

@[api_core] theorem core_lennard_jones_isotensional_asymptotic_reduced_legendre_helmholtz (N : ℕ) (ℓ : ℝ) (m : ℝ) (k : ℝ) (y T : ℝ) :
    (lennard_jones_isotensional_asymptotic_reduced_legendre_helmholtz N ℓ m k).nd_energy_per_link y T =
      Polymers.ufjc.lennard_jones.thermodynamics.isotensional.asymptotic.reduced.legendre.nondimensional_helmholtz_free_energy_per_link ℓ m (ndStiffness k ℓ T) y T := by
  have h : (lennard_jones_isotensional_asymptotic_reduced_legendre_helmholtz N ℓ m k).nd_energy_per_link y T =
      Polymers.ufjc.lennard_jones.thermodynamics.isotensional.asymptotic.reduced.legendre.nondimensional_helmholtz_free_energy_per_link ℓ m (k * Elem.powi ℓ 2 / BOLTZMANN_CONSTANT / T) y T := rfl
  rw [h, ndStiffness_code]

@[api_core] theorem core_lennard_jones_isometric_asymptotic_legendre_helmholtz (N : ℕ) (ℓ : ℝ) (m : ℝ) (k : ℝ) (y T : ℝ) :
    (lennard_jones_isometric_asymptotic_legendre_helmholtz N ℓ m k).nd_energy_per_link y T =
      Polymers.ufjc.lennard_jones.thermodynamics.isometric.asymptotic.legendre.nondimensional_helmholtz_free_energy_per_link N ℓ m (ndStiffness k ℓ T) y T := by
  have h : (lennard_jones_isometric_asymptotic_legendre_helmholtz N ℓ m k).nd_energy_per_link y T =
      Polymers.ufjc.lennard_jones.thermodynamics.isometric.asymptotic.legendre.nondimensional_helmholtz_free_energy_per_link N ℓ m (k * Elem.powi ℓ 2 / BOLTZMANN_CONSTANT / T) y T := rfl
  rw [h, ndStiffness_code]

@[api_core] theorem core_lennard_jones_isometric_asymptotic_legendre_forces (N : ℕ) (ℓ : ℝ) (m : ℝ) (k : ℝ) (y T : ℝ) :
    (lennard_jones_isometric_asymptotic_legendre_forces N ℓ m k).nd_force y T =
      Polymers.ufjc.lennard_jones.thermodynamics.isometric.asymptotic.legendre.nondimensional_force (ndStiffness k ℓ T) y := by
  have h : (lennard_jones_isometric_asymptotic_legendre_forces N ℓ m k).nd_force y T =
      Polymers.ufjc.lennard_jones.thermodynamics.isometric.asymptotic.legendre.nondimensional_force (k * Elem.powi ℓ 2 / BOLTZMANN_CONSTANT / T) y := rfl
  rw [h, ndStiffness_code]

@[api_core] theorem core_lennard_jones_isotensional_asymptotic_legendre_helmholtz (N : ℕ) (ℓ : ℝ) (m : ℝ) (k : ℝ) (y T : ℝ) :
    (lennard_jones_isotensional_asymptotic_legendre_helmholtz N ℓ m k).nd_energy_per_link y T =
      Polymers.ufjc.lennard_jones.thermodynamics.isotensional.asymptotic.legendre.nondimensional_helmholtz_free_energy_per_link ℓ m (ndStiffness k ℓ T) y T := by
  have h : (lennard_jones_isotensional_asymptotic_legendre_helmholtz N ℓ m k).nd_energy_per_link y T =
      Polymers.ufjc.lennard_jones.thermodynamics.isotensional.asymptotic.legendre.nondimensional_helmholtz_free_energy_per_link ℓ m (k * Elem.powi ℓ 2 / BOLTZMANN_CONSTANT / T) y T := rfl
  rw [h, ndStiffness_code]

@[api_core] theorem core_lennard_jones_isotensional_asymptotic_reduced_gibbs (N : ℕ) (ℓ : ℝ) (m : ℝ) (k : ℝ) (y T : ℝ) :
    (lennard_jones_isotensional_asymptotic_reduced_gibbs N ℓ m k).nd_energy_per_link y T =
      Polymers.ufjc.lennard_jones.thermodynamics.isotensional.asymptotic.reduced.nondimensional_gibbs_free_energy_per_link ℓ m (ndStiffness k ℓ T) y T := by
  have h : (lennard_jones_isotensional_asymptotic_reduced_gibbs N ℓ m k).nd_energy_per_link y T =
      Polymers.ufjc.lennard_jones.thermodynamics.isotensional.asymptotic.reduced.nondimensional_gibbs_free_energy_per_link ℓ m (k * Elem.powi ℓ 2 / BOLTZMANN_CONSTANT / T) y T := rfl
  rw [h, ndStiffness_code]

@[api_core] theorem core_lennard_jones_isotensional_asymptotic_reduced_lengths (N : ℕ) (ℓ : ℝ) (m : ℝ) (k : ℝ) (y T : ℝ) :
    (lennard_jones_isotensional_asymptotic_reduced_lengths N ℓ m k).nd_length_per_link y T =
      Polymers.ufjc.lennard_jones.thermodynamics.isotensional.asymptotic.reduced.nondimensional_end_to_end_length_per_link (ndStiffness k ℓ T) y := by
  have h : (lennard_jones_isotensional_asymptotic_reduced_lengths N ℓ m k).nd_length_per_link y T =
      Polymers.ufjc.lennard_jones.thermodynamics.isotensional.asymptotic.reduced.nondimensional_end_to_end_length_per_link (k * Elem.powi ℓ 2 / BOLTZMANN_CONSTANT / T) y := rfl
  rw [h, ndStiffness_code]

@[api_core] theorem core_lennard_jones_isotensional_asymptotic_gibbs (N : ℕ) (ℓ : ℝ) (m : ℝ) (k : ℝ) (y T : ℝ) :
    (lennard_jones_isotensional_asymptotic_gibbs N ℓ m k).nd_energy_per_link y T =
      Polymers.ufjc.lennard_jones.thermodynamics.isotensional.asymptotic.nondimensional_gibbs_free_energy_per_link ℓ m (ndStiffness k ℓ T) y T := by
  have h : (lennard_jones_isotensional_asymptotic_gibbs N ℓ m k).nd_energy_per_link y T =
      Polymers.ufjc.lennard_jones.thermodynamics.isotensional.asymptotic.nondimensional_gibbs_free_energy_per_link ℓ m (k * Elem.powi ℓ 2 / BOLTZMANN_CONSTANT / T) y T := rfl
  rw [h, ndStiffness_code]

@[api_core] theorem core_lennard_jones_isotensional_asymptotic_lengths (N : ℕ) (ℓ : ℝ) (m : ℝ) (k : ℝ) (y T : ℝ) :
    (lennard_jones_isotensional_asymptotic_lengths N ℓ m k).nd_length_per_link y T =
      Polymers.ufjc.lennard_jones.thermodynamics.isotensional.asymptotic.nondimensional_end_to_end_length_per_link (ndStiffness k ℓ T) y := by
  have h : (lennard_jones_isotensional_asymptotic_lengths N ℓ m k).nd_length_per_link y T =
      Polymers.ufjc.lennard_jones.thermodynamics.isotensional.asymptotic.nondimensional_end_to_end_length_per_link (k * Elem.powi ℓ 2 / BOLTZMANN_CONSTANT / T) y := rfl
  rw [h, ndStiffness_code]

@[api_core] theorem core_lennard_jones_isotensional_legendre_helmholtz (N : ℕ) (ℓ : ℝ) (m : ℝ) (k : ℝ) (y T : ℝ) :
    (lennard_jones_isotensional_legendre_helmholtz N ℓ m k).nd_energy_per_link y T =
      Polymers.ufjc.lennard_jones.thermodynamics.isotensional.legendre.nondimensional_helmholtz_free_energy_per_link ℓ m (ndStiffness k ℓ T) y T := by
  have h : (lennard_jones_isotensional_legendre_helmholtz N ℓ m k).nd_energy_per_link y T =
      Polymers.ufjc.lennard_jones.thermodynamics.isotensional.legendre.nondimensional_helmholtz_free_energy_per_link ℓ m (k * Elem.powi ℓ 2 / BOLTZMANN_CONSTANT / T) y T := rfl
  rw [h, ndStiffness_code]

@[api_core] theorem core_lennard_jones_isotensional_gibbs (N : ℕ) (ℓ : ℝ) (m : ℝ) (k : ℝ) (y T : ℝ) :
    (lennard_jones_isotensional_gibbs N ℓ m k).nd_energy_per_link y T =
      Polymers.ufjc.lennard_jones.thermodynamics.isotensional.nondimensional_gibbs_free_energy_per_link ℓ m (ndStiffness k ℓ T) y T := by
  have h : (lennard_jones_isotensional_gibbs N ℓ m k).nd_energy_per_link y T =
      Polymers.ufjc.lennard_jones.thermodynamics.isotensional.nondimensional_gibbs_free_energy_per_link ℓ m (k * Elem.powi ℓ 2 / BOLTZMANN_CONSTANT / T) y T := rfl
  rw [h, ndStiffness_code]

@[api_core] theorem core_lennard_jones_isotensional_lengths (N : ℕ) (ℓ : ℝ) (m : ℝ) (k : ℝ) (y T : ℝ) :
    (lennard_jones_isotensional_lengths N ℓ m k).nd_length_per_link y T =
      Polymers.ufjc.lennard_jones.thermodynamics.isotensional.nondimensional_end_to_end_length_per_link (ndStiffness k ℓ T) y := by
  have h : (lennard_jones_isotensional_lengths N ℓ m k).nd_length_per_link y T =
      Polymers.ufjc.lennard_jones.thermodynamics.isotensional.nondimensional_end_to_end_length_per_link (k * Elem.powi ℓ 2 / BOLTZMANN_CONSTANT / T) y := rfl
  rw [h, ndStiffness_code]

@[api_core] theorem core_log_squared_isometric_asymptotic_reduced_legendre_helmholtz (N : ℕ) (ℓ : ℝ) (m : ℝ) (k : ℝ) (y T : ℝ) :
    (log_squared_isometric_asymptotic_reduced_legendre_helmholtz N ℓ m k).nd_energy_per_link y T =
      Polymers.ufjc.log_squared.thermodynamics.isometric.asymptotic.reduced.legendre.nondimensional_helmholtz_free_energy_per_link N ℓ m (ndStiffness k ℓ T) y T := by
  have h : (log_squared_isometric_asymptotic_reduced_legendre_helmholtz N ℓ m k).nd_energy_per_link y T =
      Polymers.ufjc.log_squared.thermodynamics.isometric.asymptotic.reduced.legendre.nondimensional_helmholtz_free_energy_per_link N ℓ m (k * Elem.powi ℓ 2 / BOLTZMANN_CONSTANT / T) y T := rfl
  rw [h, ndStiffness_code]

@[api_core] theorem core_log_squared_isometric_asymptotic_reduced_legendre_forces (N : ℕ) (ℓ : ℝ) (m : ℝ) (k : ℝ) (y T : ℝ) :
    (log_squared_isometric_asymptotic_reduced_legendre_forces N ℓ m k).nd_force y T =
      Polymers.ufjc.log_squared.thermodynamics.isometric.asymptotic.reduced.legendre.nondimensional_force (ndStiffness k ℓ T) y := by
  have h : (log_squared_isometric_asymptotic_reduced_legendre_forces N ℓ m k).nd_force y T =
      Polymers.ufjc.log_squared.thermodynamics.isometric.asymptotic.reduced.legendre.nondimensional_force (k * Elem.powi ℓ 2 / BOLTZMANN_CONSTANT / T) y := rfl
  rw [h, ndStiffness_code]

@[api_core] theorem core_log_squared_isotensional_asymptotic_reduced_legendre_helmholtz (N : ℕ) (ℓ : ℝ) (m : ℝ) (k : ℝ) (y T : ℝ) :
    (log_squared_isotensional_asymptotic_reduced_legendre_helmholtz N ℓ m k).nd_energy_per_link y T =
      Polymers.ufjc.log_squared.thermodynamics.isotensional.asymptotic.reduced.legendre.nondimensional_helmholtz_free_energy_per_link ℓ m (ndStiffness k ℓ T) y T := by
  have h : (log_squared_isotensional_asymptotic_reduced_legendre_helmholtz N ℓ m k).nd_energy_per_link y T =
      Polymers.ufjc.log_squared.thermodynamics.isotensional.asymptotic.reduced.legendre.nondimensional_helmholtz_free_energy_per_link ℓ m (k * Elem.powi ℓ 2 / BOLTZMANN_CONSTANT / T) y T := rfl
  rw [h, ndStiffness_code]

@[api_core] theorem core_log_squared_isometric_asymptotic_legendre_helmholtz (N : ℕ) (ℓ : ℝ) (m : ℝ) (k : ℝ) (y T : ℝ) :
    (log_squared_isometric_asymptotic_legendre_helmholtz N ℓ m k).nd_energy_per_link y T =
      Polymers.ufjc.log_squared.thermodynamics.isometric.asymptotic.legendre.nondimensional_helmholtz_free_energy_per_link N ℓ m (ndStiffness k ℓ T) y T := by
  have h : (log_squared_isometric_asymptotic_legendre_helmholtz N ℓ m k).nd_energy_per_link y T =
      Polymers.ufjc.log_squared.thermodynamics.isometric.asymptotic.legendre.nondimensional_helmholtz_free_energy_per_link N ℓ m (k * Elem.powi ℓ 2 / BOLTZMANN_CONSTANT / T) y T := rfl
  rw [h, ndStiffness_code]

@[api_core] theorem core_log_squared_isometric_asymptotic_legendre_forces (N : ℕ) (ℓ : ℝ) (m : ℝ) (k : ℝ) (y T : ℝ) :
    (log_squared_isometric_asymptotic_legendre_forces N ℓ m k).nd_force y T =
      Polymers.ufjc.log_squared.thermodynamics.isometric.asymptotic.legendre.nondimensional_force (ndStiffness k ℓ T) y := by
  have h : (log_squared_isometric_asymptotic_legendre_forces N ℓ m k).nd_force y T =
      Polymers.ufjc.log_squared.thermodynamics.isometric.asymptotic.legendre.nondimensional_force (k * Elem.powi ℓ 2 / BOLTZMANN_CONSTANT / T) y := rfl
  rw [h, ndStiffness_code]

@[api_core] theorem core_log_squared_isotensional_asymptotic_legendre_helmholtz (N : ℕ) (ℓ : ℝ) (m : ℝ) (k : ℝ) (y T : ℝ) :
    (log_squared_isotensional_asymptotic_legendre_helmholtz N ℓ m k).nd_energy_per_link y T =
      Polymers.ufjc.log_squared.thermodynamics.isotensional.asymptotic.legendre.nondimensional_helmholtz_free_energy_per_link ℓ m (ndStiffness k ℓ T) y T := by
  have h : (log_squared_isotensional_asymptotic_legendre_helmholtz N ℓ m k).nd_energy_per_link y T =
      Polymers.ufjc.log_squared.thermodynamics.isotensional.asymptotic.legendre.nondimensional_helmholtz_free_energy_per_link ℓ m (k * Elem.powi ℓ 2 / BOLTZMANN_CONSTANT / T) y T := rfl
  rw [h, ndStiffness_code]

@[api_core] theorem core_log_squared_isotensional_asymptotic_reduced_gibbs (N : ℕ) (ℓ : ℝ) (m : ℝ) (k : ℝ) (y T : ℝ) :
    (log_squared_isotensional_asymptotic_reduced_gibbs N ℓ m k).nd_energy_per_link y T =
      Polymers.ufjc.log_squared.thermodynamics.isotensional.asymptotic.reduced.nondimensional_gibbs_free_energy_per_link ℓ m (ndStiffness k ℓ T) y T := by
  have h : (log_squared_isotensional_asymptotic_reduced_gibbs N ℓ m k).nd_energy_per_link y T =
      Polymers.ufjc.log_squared.thermodynamics.isotensional.asymptotic.reduced.nondimensional_gibbs_free_energy_per_link ℓ m (k * Elem.powi ℓ 2 / BOLTZMANN_CONSTANT / T) y T := rfl
  rw [h, ndStiffness_code]

@[api_core] theorem core_log_squared_isotensional_asymptotic_reduced_lengths (N : ℕ) (ℓ : ℝ) (m : ℝ) (k : ℝ) (y T : ℝ) :
    (log_squared_isotensional_asymptotic_reduced_lengths N ℓ m k).nd_length_per_link y T =
      Polymers.ufjc.log_squared.thermodynamics.isotensional.asymptotic.reduced.nondimensional_end_to_end_length_per_link (ndStiffness k ℓ T) y := by
  have h : (log_squared_isotensional_asymptotic_reduced_lengths N ℓ m k).nd_length_per_link y T =
      Polymers.ufjc.log_squared.thermodynamics.isotensional.asymptotic.reduced.nondimensional_end_to_end_length_per_link (k * Elem.powi ℓ 2 / BOLTZMANN_CONSTANT / T) y := rfl
  rw [h, ndStiffness_code]

@[api_core] theorem core_log_squared_isotensional_asymptotic_gibbs (N : ℕ) (ℓ : ℝ) (m : ℝ) (k : ℝ) (y T : ℝ) :
    (log_squared_isotensional_asymptotic_gibbs N ℓ m k).nd_energy_per_link y T =
      Polymers.ufjc.log_squared.thermodynamics.isotensional.asymptotic.nondimensional_gibbs_free_energy_per_link ℓ m (ndStiffness k ℓ T) y T := by
  have h : (log_squared_isotensional_asymptotic_gibbs N ℓ m k).nd_energy_per_link y T =
      Polymers.ufjc.log_squared.thermodynamics.isotensional.asymptotic.nondimensional_gibbs_free_energy_per_link ℓ m (k * Elem.powi ℓ 2 / BOLTZMANN_CONSTANT / T) y T := rfl
  rw [h, ndStiffness_code]

@[api_core] theorem core_log_squared_isotensional_asymptotic_lengths (N : ℕ) (ℓ : ℝ) (m : ℝ) (k : ℝ) (y T : ℝ) :
    (log_squared_isotensional_asymptotic_lengths N ℓ m k).nd_length_per_link y T =
      Polymers.ufjc.log_squared.thermodynamics.isotensional.asymptotic.nondimensional_end_to_end_length_per_link (ndStiffness k ℓ T) y := by
  have h : (log_squared_isotensional_asymptotic_lengths N ℓ m k).nd_length_per_link y T =
      Polymers.ufjc.log_squared.thermodynamics.isotensional.asymptotic.nondimensional_end_to_end_length_per_link (k * Elem.powi ℓ 2 / BOLTZMANN_CONSTANT / T) y := rfl
  rw [h, ndStiffness_code]

@[api_core] theorem core_log_squared_isotensional_legendre_helmholtz (N : ℕ) (ℓ : ℝ) (m : ℝ) (k : ℝ) (y T : ℝ) :
    (log_squared_isotensional_legendre_helmholtz N ℓ m k).nd_energy_per_link y T =
      Polymers.ufjc.log_squared.thermodynamics.isotensional.legendre.nondimensional_helmholtz_free_energy_per_link ℓ m (ndStiffness k ℓ T) y T := by
  have h : (log_squared_isotensional_legendre_helmholtz N ℓ m k).nd_energy_per_link y T =
      Polymers.ufjc.log_squared.thermodynamics.isotensional.legendre.nondimensional_helmholtz_free_energy_per_link ℓ m (k * Elem.powi ℓ 2 / BOLTZMANN_CONSTANT / T) y T := rfl
  rw [h, ndStiffness_code]

@[api_core] theorem core_log_squared_isotensional_gibbs (N : ℕ) (ℓ : ℝ) (m : ℝ) (k : ℝ) (y T : ℝ) :
    (log_squared_isotensional_gibbs N ℓ m k).nd_energy_per_link y T =
      Polymers.ufjc.log_squared.thermodynamics.isotensional.nondimensional_gibbs_free_energy_per_link ℓ m (ndStiffness k ℓ T) y T := by
  have h : (log_squared_isotensional_gibbs N ℓ m k).nd_energy_per_link y T =
      Polymers.ufjc.log_squared.thermodynamics.isotensional.nondimensional_gibbs_free_energy_per_link ℓ m (k * Elem.powi ℓ 2 / BOLTZMANN_CONSTANT / T) y T := rfl
  rw [h, ndStiffness_code]

@[api_core] theorem core_log_squared_isotensional_lengths (N : ℕ) (ℓ : ℝ) (m : ℝ) (k : ℝ) (y T : ℝ) :
    (log_squared_isotensional_lengths N ℓ m k).nd_length_per_link y T =
      Polymers.ufjc.log_squared.thermodynamics.isotensional.nondimensional_end_to_end_length_per_link (ndStiffness k ℓ T) y := by
  have h : (log_squared_isotensional_lengths N ℓ m k).nd_length_per_link y T =
      Polymers.ufjc.log_squared.thermodynamics.isotensional.nondimensional_end_to_end_length_per_link (k * Elem.powi ℓ 2 / BOLTZMANN_CONSTANT / T) y := rfl
  rw [h, ndStiffness_code]

@[api_core] theorem core_morse_isometric_asymptotic_reduced_legendre_helmholtz (N : ℕ) (ℓ : ℝ) (m : ℝ) (k : ℝ) (ε : ℝ) (y T : ℝ) :
    (morse_isometric_asymptotic_reduced_legendre_helmholtz N ℓ m k ε).nd_energy_per_link y T =
      Polymers.ufjc.morse.thermodynamics.isometric.asymptotic.reduced.legendre.nondimensional_helmholtz_free_energy_per_link N ℓ m (ndStiffness k ℓ T) (ndEnergy ε T) y T := by
  have h : (morse_isometric_asymptotic_reduced_legendre_helmholtz N ℓ m k ε).nd_energy_per_link y T =
      Polymers.ufjc.morse.thermodynamics.isometric.asymptotic.reduced.legendre.nondimensional_helmholtz_free_energy_per_link N ℓ m (k * Elem.powi ℓ 2 / BOLTZMANN_CONSTANT / T) (ε / BOLTZMANN_CONSTANT / T) y T := rfl
  rw [h, ndStiffness_code, ndEnergy_code]

@[api_core] theorem core_morse_isometric_asymptotic_reduced_legendre_forces (N : ℕ) (ℓ : ℝ) (m : ℝ) (k : ℝ) (ε : ℝ) (y T : ℝ) :
    (morse_isometric_asymptotic_reduced_legendre_forces N ℓ m k ε).nd_force y T =
      Polymers.ufjc.morse.thermodynamics.isometric.asymptotic.reduced.legendre.nondimensional_force (ndStiffness k ℓ T) (ndEnergy ε T) y := by
  have h : (morse_isometric_asymptotic_reduced_legendre_forces N ℓ m k ε).nd_force y T =
      Polymers.ufjc.morse.thermodynamics.isometric.asymptotic.reduced.legendre.nondimensional_force (k * Elem.powi ℓ 2 / BOLTZMANN_CONSTANT / T) (ε / BOLTZMANN_CONSTANT / T) y := rfl
  rw [h, ndStiffness_code, ndEnergy_code]

@[api_core] theorem core_morse_isotensional_asymptotic_reduced_legendre_helmholtz (N : ℕ) (ℓ : ℝ) (m : ℝ) (k : ℝ) (ε : ℝ) (y T : ℝ) :
    (morse_isotensional_asymptotic_reduced_legendre_helmholtz N ℓ m k ε).nd_energy_per_link y T =
      Polymers.ufjc.morse.thermodynamics.isotensional.asymptotic.reduced.legendre.nondimensional_helmholtz_free_energy_per_link ℓ m (ndStiffness k ℓ T) (ndEnergy ε T) y T := by
  have h : (morse_isotensional_asymptotic_reduced_legendre_helmholtz N ℓ m k ε).nd_energy_per_link y T =
      Polymers.ufjc.morse.thermodynamics.isotensional.asymptotic.reduced.legendre.nondimensional_helmholtz_free_energy_per_link ℓ m (k * Elem.powi ℓ 2 / BOLTZMANN_CONSTANT / T) (ε / BOLTZMANN_CONSTANT / T) y T := rfl
  rw [h, ndStiffness_code, ndEnergy_code]

@[api_core] theorem core_morse_isometric_asymptotic_legendre_helmholtz (N : ℕ) (ℓ : ℝ) (m : ℝ) (k : ℝ) (ε : ℝ) (y T : ℝ) :
    (morse_isometric_asymptotic_legendre_helmholtz N ℓ m k ε).nd_energy_per_link y T =
      Polymers.ufjc.morse.thermodynamics.isometric.asymptotic.legendre.nondimensional_helmholtz_free_energy_per_link N ℓ m (ndStiffness k ℓ T) (ndEnergy ε T) y T := by
  have h : (morse_isometric_asymptotic_legendre_helmholtz N ℓ m k ε).nd_energy_per_link y T =
      Polymers.ufjc.morse.thermodynamics.isometric.asymptotic.legendre.nondimensional_helmholtz_free_energy_per_link N ℓ m (k * Elem.powi ℓ 2 / BOLTZMANN_CONSTANT / T) (ε / BOLTZMANN_CONSTANT / T) y T := rfl
  rw [h, ndStiffness_code, ndEnergy_code]

@[api_core] theorem core_morse_isometric_asymptotic_legendre_forces (N : ℕ) (ℓ : ℝ) (m : ℝ) (k : ℝ) (ε : ℝ) (y T : ℝ) :
    (morse_isometric_asymptotic_legendre_forces N ℓ m k ε).nd_force y T =
      Polymers.ufjc.morse.thermodynamics.isometric.asymptotic.legendre.nondimensional_force (ndStiffness k ℓ T) (ndEnergy ε T) y := by
  have h : (morse_isometric_asymptotic_legendre_forces N ℓ m k ε).nd_force y T =
      Polymers.ufjc.morse.thermodynamics.isometric.asymptotic.legendre.nondimensional_force (k * Elem.powi ℓ 2 / BOLTZMANN_CONSTANT / T) (ε / BOLTZMANN_CONSTANT / T) y := rfl
  rw [h, ndStiffness_code, ndEnergy_code]

@[api_core] theorem core_morse_isotensional_asymptotic_legendre_helmholtz (N : ℕ) (ℓ : ℝ) (m : ℝ) (k : ℝ) (ε : ℝ) (y T : ℝ) :
    (morse_isotensional_asymptotic_legendre_helmholtz N ℓ m k ε).nd_energy_per_link y T =
      Polymers.ufjc.morse.thermodynamics.isotensional.asymptotic.legendre.nondimensional_helmholtz_free_energy_per_link ℓ m (ndStiffness k ℓ T) (ndEnergy ε T) y T := by
  have h : (morse_isotensional_asymptotic_legendre_helmholtz N ℓ m k ε).nd_energy_per_link y T =
      Polymers.ufjc.morse.thermodynamics.isotensional.asymptotic.legendre.nondimensional_helmholtz_free_energy_per_link ℓ m (k * Elem.powi ℓ 2 / BOLTZMANN_CONSTANT / T) (ε / BOLTZMANN_CONSTANT / T) y T := rfl
  rw [h, ndStiffness_code, ndEnergy_code]

@[api_core] theorem core_morse_isotensional_asymptotic_reduced_gibbs (N : ℕ) (ℓ : ℝ) (m : ℝ) (k : ℝ) (ε : ℝ) (y T : ℝ) :
    (morse_isotensional_asymptotic_reduced_gibbs N ℓ m k ε).nd_energy_per_link y T =
      Polymers.ufjc.morse.thermodynamics.isotensional.asymptotic.reduced.nondimensional_gibbs_free_energy_per_link ℓ m (ndStiffness k ℓ T) (ndEnergy ε T) y T := by
  have h : (morse_isotensional_asymptotic_reduced_gibbs N ℓ m k ε).nd_energy_per_link y T =
      Polymers.ufjc.morse.thermodynamics.isotensional.asymptotic.reduced.nondimensional_gibbs_free_energy_per_link ℓ m (k * Elem.powi ℓ 2 / BOLTZMANN_CONSTANT / T) (ε / BOLTZMANN_CONSTANT / T) y T := rfl
  rw [h, ndStiffness_code, ndEnergy_code]

@[api_core] theorem core_morse_isotensional_asymptotic_reduced_lengths (N : ℕ) (ℓ : ℝ) (m : ℝ) (k : ℝ) (ε : ℝ) (y T : ℝ) :
    (morse_isotensional_asymptotic_reduced_lengths N ℓ m k ε).nd_length_per_link y T =
      Polymers.ufjc.morse.thermodynamics.isotensional.asymptotic.reduced.nondimensional_end_to_end_length_per_link (ndStiffness k ℓ T) (ndEnergy ε T) y := by
  have h : (morse_isotensional_asymptotic_reduced_lengths N ℓ m k ε).nd_length_per_link y T =
      Polymers.ufjc.morse.thermodynamics.isotensional.asymptotic.reduced.nondimensional_end_to_end_length_per_link (k * Elem.powi ℓ 2 / BOLTZMANN_CONSTANT / T) (ε / BOLTZMANN_CONSTANT / T) y := rfl
  rw [h, ndStiffness_code, ndEnergy_code]

@[api_core] theorem core_morse_isotensional_asymptotic_gibbs (N : ℕ) (ℓ : ℝ) (m : ℝ) (k : ℝ) (ε : ℝ) (y T : ℝ) :
    (morse_isotensional_asymptotic_gibbs N ℓ m k ε).nd_energy_per_link y T =
      Polymers.ufjc.morse.thermodynamics.isotensional.asymptotic.nondimensional_gibbs_free_energy_per_link ℓ m (ndStiffness k ℓ T) (ndEnergy ε T) y T := by
  have h : (morse_isotensional_asymptotic_gibbs N ℓ m k ε).nd_energy_per_link y T =
      Polymers.ufjc.morse.thermodynamics.isotensional.asymptotic.nondimensional_gibbs_free_energy_per_link ℓ m (k * Elem.powi ℓ 2 / BOLTZMANN_CONSTANT / T) (ε / BOLTZMANN_CONSTANT / T) y T := rfl
  rw [h, ndStiffness_code, ndEnergy_code]

@[api_core] theorem core_morse_isotensional_asymptotic_lengths (N : ℕ) (ℓ : ℝ) (m : ℝ) (k : ℝ) (ε : ℝ) (y T : ℝ) :
    (morse_isotensional_asymptotic_lengths N ℓ m k ε).nd_length_per_link y T =
      Polymers.ufjc.morse.thermodynamics.isotensional.asymptotic.nondimensional_end_to_end_length_per_link (ndStiffness k ℓ T) (ndEnergy ε T) y := by
  have h : (morse_isotensional_asymptotic_lengths N ℓ m k ε).nd_length_per_link y T =
      Polymers.ufjc.morse.thermodynamics.isotensional.asymptotic.nondimensional_end_to_end_length_per_link (k * Elem.powi ℓ 2 / BOLTZMANN_CONSTANT / T) (ε / BOLTZMANN_CONSTANT / T) y := rfl
  rw [h, ndStiffness_code, ndEnergy_code]

@[api_core] theorem core_morse_isotensional_legendre_helmholtz (N : ℕ) (ℓ : ℝ) (m : ℝ) (k : ℝ) (ε : ℝ) (y T : ℝ) :
    (morse_isotensional_legendre_helmholtz N ℓ m k ε).nd_energy_per_link y T =
      Polymers.ufjc.morse.thermodynamics.isotensional.legendre.nondimensional_helmholtz_free_energy_per_link ℓ m (ndStiffness k ℓ T) (ndEnergy ε T) y T := by
  have h : (morse_isotensional_legendre_helmholtz N ℓ m k ε).nd_energy_per_link y T =
      Polymers.ufjc.morse.thermodynamics.isotensional.legendre.nondimensional_helmholtz_free_energy_per_link ℓ m (k * Elem.powi ℓ 2 / BOLTZMANN_CONSTANT / T) (ε / BOLTZMANN_CONSTANT / T) y T := rfl
  rw [h, ndStiffness_code, ndEnergy_code]

@[api_core] theorem core_morse_isotensional_gibbs (N : ℕ) (ℓ : ℝ) (m : ℝ) (k : ℝ) (ε : ℝ) (y T : ℝ) :
    (morse_isotensional_gibbs N ℓ m k ε).nd_energy_per_link y T =
      Polymers.ufjc.morse.thermodynamics.isotensional.nondimensional_gibbs_free_energy_per_link ℓ m (ndStiffness k ℓ T) (ndEnergy ε T) y T := by
  have h : (morse_isotensional_gibbs N ℓ m k ε).nd_energy_per_link y T =
      Polymers.ufjc.morse.thermodynamics.isotensional.nondimensional_gibbs_free_energy_per_link ℓ m (k * Elem.powi ℓ 2 / BOLTZMANN_CONSTANT / T) (ε / BOLTZMANN_CONSTANT / T) y T := rfl
  rw [h, ndStiffness_code, ndEnergy_code]

@[api_core] theorem core_morse_isotensional_lengths (N : ℕ) (ℓ : ℝ) (m : ℝ) (k : ℝ) (ε : ℝ) (y T : ℝ) :
    (morse_isotensional_lengths N ℓ m k ε).nd_length_per_link y T =
      Polymers.ufjc.morse.thermodynamics.isotensional.nondimensional_end_to_end_length_per_link (ndStiffness k ℓ T) (ndEnergy ε T) y := by
  have h : (morse_isotensional_lengths N ℓ m k ε).nd_length_per_link y T =
      Polymers.ufjc.morse.thermodynamics.isotensional.nondimensional_end_to_end_length_per_link (k * Elem.powi ℓ 2 / BOLTZMANN_CONSTANT / T) (ε / BOLTZMANN_CONSTANT / T) y := rfl
  rw [h, ndStiffness_code, ndEnergy_code]

@[api_core] theorem core_wlc_isometric_legendre_gibbs (N : ℕ) (ℓ : ℝ) (m : ℝ) (p : ℝ) (y T : ℝ) :
    (wlc_isometric_legendre_gibbs N ℓ m p).nd_energy_per_link y T =
      Polymers.wlc.thermodynamics.isometric.legendre.nondimensional_gibbs_free_energy_per_link N ℓ m (p / N / ℓ) y T := by
  have h : (wlc_isometric_legendre_gibbs N ℓ m p).nd_energy_per_link y T =
      Polymers.wlc.thermodynamics.isometric.legendre.nondimensional_gibbs_free_energy_per_link N ℓ m (p / (N : ℝ) / ℓ) y T := rfl
  exact h

@[api_core] theorem core_wlc_isotensional_legendre_helmholtz (N : ℕ) (ℓ : ℝ) (m : ℝ) (p : ℝ) (y T : ℝ) :
    (wlc_isotensional_legendre_helmholtz N ℓ m p).nd_energy_per_link y T =
      Polymers.wlc.thermodynamics.isotensional.legendre.nondimensional_helmholtz_free_energy_per_link N ℓ m (p / N / ℓ) y T := by
  have h : (wlc_isotensional_legendre_helmholtz N ℓ m p).nd_energy_per_link y T =
      Polymers.wlc.thermodynamics.isotensional.legendre.nondimensional_helmholtz_free_energy_per_link N ℓ m (p / (N : ℝ) / ℓ) y T := rfl
  exact h

@[api_core] theorem core_wlc_isometric_helmholtz (N : ℕ) (ℓ : ℝ) (m : ℝ) (p : ℝ) (y T : ℝ) :
    (wlc_isometric_helmholtz N ℓ m p).nd_energy_per_link y T =
      Polymers.wlc.thermodynamics.isometric.nondimensional_helmholtz_free_energy_per_link N ℓ m (p / N / ℓ) y T := by
  have h : (wlc_isometric_helmholtz N ℓ m p).nd_energy_per_link y T =
      Polymers.wlc.thermodynamics.isometric.nondimensional_helmholtz_free_energy_per_link N ℓ m (p / (N : ℝ) / ℓ) y T := rfl
  exact h

@[api_core] theorem core_wlc_isometric_forces (N : ℕ) (ℓ : ℝ) (m : ℝ) (p : ℝ) (y T : ℝ) :
    (wlc_isometric_forces N ℓ m p).nd_force y T =
      Polymers.wlc.thermodynamics.isometric.nondimensional_force N (p / N / ℓ) y := by
  have h : (wlc_isometric_forces N ℓ m p).nd_force y T =
      Polymers.wlc.thermodynamics.isometric.nondimensional_force N (p / (N : ℝ) / ℓ) y := rfl
  exact h

@[api_core] theorem core_wlc_isotensional_gibbs (N : ℕ) (ℓ : ℝ) (m : ℝ) (p : ℝ) (y T : ℝ) :
    (wlc_isotensional_gibbs N ℓ m p).nd_energy_per_link y T =
      Polymers.wlc.thermodynamics.isotensional.nondimensional_gibbs_free_energy_per_link N ℓ m (p / N / ℓ) y T := by
  have h : (wlc_isotensional_gibbs N ℓ m p).nd_energy_per_link y T =
      Polymers.wlc.thermodynamics.isotensional.nondimensional_gibbs_free_energy_per_link N ℓ m (p / (N : ℝ) / ℓ) y T := rfl
  exact h

@[api_core] theorem core_wlc_isotensional_lengths (N : ℕ) (ℓ : ℝ) (m : ℝ) (p : ℝ) (y T : ℝ) :
    (wlc_isotensional_lengths N ℓ m p).nd_length_per_link y T =
      Polymers.wlc.thermodynamics.isotensional.nondimensional_end_to_end_length_per_link N (p / N / ℓ) y := by
  have h : (wlc_isotensional_lengths N ℓ m p).nd_length_per_link y T =
      Polymers.wlc.thermodynamics.isotensional.nondimensional_end_to_end_length_per_link N (p / (N : ℝ) / ℓ) y := rfl
  exact h

end Polymers
