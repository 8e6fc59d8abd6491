import Verif.Props.ScalingFjc
import Verif.Props.ScalingEfjc
import Verif.Props.ScalingSwfjc
import Verif.Props.ScalingMorse
import Verif.Props.ScalingLogSquared
import Verif.Props.ScalingLennardJones
import Verif.Props.ScalingWlc
import Verif.Props.Methods
import Verif.Lemmas.ApiCore
import Verif.Lemmas.Gradient

/-! Properties C19, C28 and C47: the Helmholtz free energies of the isotensional Legendre approximations are the
Legendre transforms of the Gibbs free energies of the same model. -/

namespace Polymers.Props

open Polymers.Spec Polymers.Api

/-- C19: freely jointed chain. -/
theorem C19_fjc_isotensional_legendre (N : ℕ) (ℓ m : ℝ) (hN : 0 < N) (hℓ : 0 < ℓ) :
    (fjc_isotensional_legendre_helmholtz N ℓ m).IsLegendre (fjc_isotensional_gibbs N ℓ m)
      (fjc_isotensional_lengths N ℓ m) ℓ (fun η _ => η ≠ 0) := by
  refine .of_nd (C15_fjc_isotensional_legendre_helmholtz N ℓ m hN hℓ) (C15_fjc_isotensional_gibbs N ℓ m hN hℓ)
    (C15_fjc_isotensional_lengths N ℓ m hN hℓ) ?_
  intro η T hT hη
  simp only [api_core, fjc.thermodynamics.isotensional.legendre.nondimensional_helmholtz_free_energy_per_link,
    fjc.thermodynamics.isotensional.nondimensional_gibbs_free_energy_per_link,
    fjc.thermodynamics.isotensional.nondimensional_end_to_end_length_per_link, model_real]
  linear_combination mul_one_div_cancel hη

example : (fjc_isotensional_legendre_helmholtz 8 1 1).IsLegendre (fjc_isotensional_gibbs 8 1 1)
    (fjc_isotensional_lengths 8 1 1) 1 (fun η _ => η ≠ 0) :=
  C19_fjc_isotensional_legendre 8 1 1 (by norm_num) (by norm_num)

/-- C47: EFJC, alternative asymptotic approach. -/
theorem C47_efjc_isotensional_asymptotic_alternative_legendre (N : ℕ) (ℓ m k : ℝ) (hN : 0 < N) (hℓ : 0 < ℓ) :
    (efjc_isotensional_asymptotic_alternative_legendre_helmholtz N ℓ m k).IsLegendre (efjc_isotensional_asymptotic_alternative_gibbs N ℓ m k)
      (efjc_isotensional_asymptotic_alternative_lengths N ℓ m k) ℓ (fun η _ => η ≠ 0) := by
  refine .of_nd (C15_efjc_isotensional_asymptotic_alternative_legendre_helmholtz N ℓ m k hN hℓ) (C15_efjc_isotensional_asymptotic_alternative_gibbs N ℓ m k hN hℓ)
    (C15_efjc_isotensional_asymptotic_alternative_lengths N ℓ m k hN hℓ) ?_
  intro η T hT hη
  simp only [api_core, efjc.thermodynamics.isotensional.asymptotic.alternative.legendre.nondimensional_helmholtz_free_energy_per_link,
    efjc.thermodynamics.isotensional.asymptotic.alternative.nondimensional_gibbs_free_energy_per_link,
    efjc.thermodynamics.isotensional.asymptotic.alternative.nondimensional_end_to_end_length_per_link, model_real]
  linear_combination mul_one_div_cancel hη

example : (efjc_isotensional_asymptotic_alternative_legendre_helmholtz 8 1 1 500).IsLegendre (efjc_isotensional_asymptotic_alternative_gibbs 8 1 1 500)
    (efjc_isotensional_asymptotic_alternative_lengths 8 1 1 500) 1 (fun η _ => η ≠ 0) :=
  C47_efjc_isotensional_asymptotic_alternative_legendre 8 1 1 500 (by norm_num) (by norm_num)

/-- C47: EFJC, reduced asymptotic approach. -/
theorem C47_efjc_isotensional_asymptotic_reduced_legendre (N : ℕ) (ℓ m k : ℝ) (hN : 0 < N) (hℓ : 0 < ℓ) :
    (efjc_isotensional_asymptotic_reduced_legendre_helmholtz N ℓ m k).IsLegendre (efjc_isotensional_asymptotic_reduced_gibbs N ℓ m k)
      (efjc_isotensional_asymptotic_reduced_lengths N ℓ m k) ℓ (fun η _ => η ≠ 0) := by
  refine .of_nd (C15_efjc_isotensional_asymptotic_reduced_legendre_helmholtz N ℓ m k hN hℓ) (C15_efjc_isotensional_asymptotic_reduced_gibbs N ℓ m k hN hℓ)
    (C15_efjc_isotensional_asymptotic_reduced_lengths N ℓ m k hN hℓ) ?_
  intro η T hT hη
  simp only [api_core, efjc.thermodynamics.isotensional.asymptotic.reduced.legendre.nondimensional_helmholtz_free_energy_per_link,
    efjc.thermodynamics.isotensional.asymptotic.reduced.nondimensional_gibbs_free_energy_per_link,
    efjc.thermodynamics.isotensional.asymptotic.reduced.nondimensional_end_to_end_length_per_link, model_real]
  linear_combination mul_one_div_cancel hη

example : (efjc_isotensional_asymptotic_reduced_legendre_helmholtz 8 1 1 500).IsLegendre (efjc_isotensional_asymptotic_reduced_gibbs 8 1 1 500)
    (efjc_isotensional_asymptotic_reduced_lengths 8 1 1 500) 1 (fun η _ => η ≠ 0) :=
  C47_efjc_isotensional_asymptotic_reduced_legendre 8 1 1 500 (by norm_num) (by norm_num)

/-- C47: EFJC, asymptotic approach. -/
theorem C47_efjc_isotensional_asymptotic_legendre (N : ℕ) (ℓ m k : ℝ) (hN : 0 < N) (hℓ : 0 < ℓ) :
    (efjc_isotensional_asymptotic_legendre_helmholtz N ℓ m k).IsLegendre (efjc_isotensional_asymptotic_gibbs N ℓ m k)
      (efjc_isotensional_asymptotic_lengths N ℓ m k) ℓ (fun η _ => η ≠ 0) := by
  refine .of_nd (C15_efjc_isotensional_asymptotic_legendre_helmholtz N ℓ m k hN hℓ) (C15_efjc_isotensional_asymptotic_gibbs N ℓ m k hN hℓ)
    (C15_efjc_isotensional_asymptotic_lengths N ℓ m k hN hℓ) ?_
  intro η T hT hη
  have h : (efjc_isotensional_asymptotic_legendre_helmholtz N ℓ m k).nd_energy_per_link η T =
      efjc.thermodynamics.isotensional.asymptotic.legendre.nondimensional_helmholtz_free_energy_per_link ℓ m
        (ndStiffness k ℓ T) η T := by
    have h0 := C38_efjc_isotensional_asymptotic_legendre_nd_per_link N ℓ m k η T hℓ.ne'
    have h1 := ndStiffness_code k ℓ T
    rw [elem_powi, zpow_ofNat] at h1
    rw [h1] at h0
    exact h0
  rw [h]
  simp only [api_core, efjc.thermodynamics.isotensional.asymptotic.legendre.nondimensional_helmholtz_free_energy_per_link,
    efjc.thermodynamics.isotensional.asymptotic.nondimensional_gibbs_free_energy_per_link,
    efjc.thermodynamics.isotensional.asymptotic.nondimensional_end_to_end_length_per_link, model_real]
  rw [div_right_comm η (ndStiffness k ℓ T) (Real.tanh η)]
  linear_combination mul_one_div_cancel hη

example : (efjc_isotensional_asymptotic_legendre_helmholtz 8 1 1 500).IsLegendre (efjc_isotensional_asymptotic_gibbs 8 1 1 500)
    (efjc_isotensional_asymptotic_lengths 8 1 1 500) 1 (fun η _ => η ≠ 0) :=
  C47_efjc_isotensional_asymptotic_legendre 8 1 1 500 (by norm_num) (by norm_num)

/-- C47: EFJC, exact approach. -/
theorem C47_efjc_isotensional_legendre (N : ℕ) (ℓ m k : ℝ) (hN : 0 < N) (hℓ : 0 < ℓ) :
    (efjc_isotensional_legendre_helmholtz N ℓ m k).IsLegendre (efjc_isotensional_gibbs N ℓ m k)
      (efjc_isotensional_lengths N ℓ m k) ℓ (fun _ _ => True) := by
  refine .of_nd (C15_efjc_isotensional_legendre_helmholtz N ℓ m k hN hℓ) (C15_efjc_isotensional_gibbs N ℓ m k hN hℓ)
    (C15_efjc_isotensional_lengths N ℓ m k hN hℓ) ?_
  intro η T hT _
  simp only [api_core, efjc.thermodynamics.isotensional.legendre.nondimensional_helmholtz_free_energy_per_link,
    efjc.thermodynamics.isotensional.nondimensional_gibbs_free_energy_per_link,
    efjc.thermodynamics.isotensional.nondimensional_end_to_end_length_per_link, model_real]

example : (efjc_isotensional_legendre_helmholtz 8 1 1 500).IsLegendre (efjc_isotensional_gibbs 8 1 1 500)
    (efjc_isotensional_lengths 8 1 1 500) 1 (fun _ _ => True) :=
  C47_efjc_isotensional_legendre 8 1 1 500 (by norm_num) (by norm_num)

/-- C28: square-well freely jointed chain. -/
theorem C28_swfjc_isotensional_legendre (N : ℕ) (ℓ m w : ℝ) (hN : 0 < N) (hℓ : 0 < ℓ) :
    (swfjc_isotensional_legendre_helmholtz N ℓ m w).IsLegendre (swfjc_isotensional_gibbs N ℓ m w)
      (swfjc_isotensional_lengths N ℓ m w) ℓ (fun η _ => η ≠ 0) := by
  refine .of_nd (C15_swfjc_isotensional_legendre_helmholtz N ℓ m w hN hℓ) (C15_swfjc_isotensional_gibbs N ℓ m w hN hℓ)
    (C15_swfjc_isotensional_lengths N ℓ m w hN hℓ) ?_
  intro η T hT hη
  simp only [api_core, swfjc.thermodynamics.isotensional.legendre.nondimensional_helmholtz_free_energy_per_link,
    swfjc.thermodynamics.isotensional.nondimensional_gibbs_free_energy_per_link,
    swfjc.thermodynamics.isotensional.nondimensional_end_to_end_length_per_link, model_real]
  linear_combination 3 * mul_one_div_cancel hη

example : (swfjc_isotensional_legendre_helmholtz 8 1 1 (1 / 2)).IsLegendre (swfjc_isotensional_gibbs 8 1 1 (1 / 2))
    (swfjc_isotensional_lengths 8 1 1 (1 / 2)) 1 (fun η _ => η ≠ 0) :=
  C28_swfjc_isotensional_legendre 8 1 1 (1 / 2) (by norm_num) (by norm_num)

/-- C47: Morse freely jointed chain, reduced asymptotic approach. -/
theorem C47_morse_isotensional_asymptotic_reduced_legendre (N : ℕ) (ℓ m k ε : ℝ) (hN : 0 < N) (hℓ : 0 < ℓ) :
    (morse_isotensional_asymptotic_reduced_legendre_helmholtz N ℓ m k ε).IsLegendre (morse_isotensional_asymptotic_reduced_gibbs N ℓ m k ε)
      (morse_isotensional_asymptotic_reduced_lengths N ℓ m k ε) ℓ (fun η _ => η ≠ 0) := by
  refine .of_nd (C15_morse_isotensional_asymptotic_reduced_legendre_helmholtz N ℓ m k ε hN hℓ) (C15_morse_isotensional_asymptotic_reduced_gibbs N ℓ m k ε hN hℓ)
    (C15_morse_isotensional_asymptotic_reduced_lengths N ℓ m k ε hN hℓ) ?_
  intro η T hT hη
  simp only [api_core, ufjc.morse.thermodynamics.isotensional.asymptotic.reduced.legendre.nondimensional_helmholtz_free_energy_per_link,
    ufjc.morse.thermodynamics.isotensional.asymptotic.reduced.nondimensional_gibbs_free_energy_per_link,
    ufjc.morse.thermodynamics.isotensional.asymptotic.reduced.nondimensional_end_to_end_length_per_link, model_real]
  linear_combination mul_one_div_cancel hη

example : (morse_isotensional_asymptotic_reduced_legendre_helmholtz 8 1 1 500 80).IsLegendre (morse_isotensional_asymptotic_reduced_gibbs 8 1 1 500 80)
    (morse_isotensional_asymptotic_reduced_lengths 8 1 1 500 80) 1 (fun η _ => η ≠ 0) :=
  C47_morse_isotensional_asymptotic_reduced_legendre 8 1 1 500 80 (by norm_num) (by norm_num)

/-- C47: Morse freely jointed chain, asymptotic approach. -/
theorem C47_morse_isotensional_asymptotic_legendre (N : ℕ) (ℓ m k ε : ℝ) (hN : 0 < N) (hℓ : 0 < ℓ) :
    (morse_isotensional_asymptotic_legendre_helmholtz N ℓ m k ε).IsLegendre (morse_isotensional_asymptotic_gibbs N ℓ m k ε)
      (morse_isotensional_asymptotic_lengths N ℓ m k ε) ℓ (fun η _ => η ≠ 0) := by
  refine .of_nd (C15_morse_isotensional_asymptotic_legendre_helmholtz N ℓ m k ε hN hℓ) (C15_morse_isotensional_asymptotic_gibbs N ℓ m k ε hN hℓ)
    (C15_morse_isotensional_asymptotic_lengths N ℓ m k ε hN hℓ) ?_
  intro η T hT hη
  simp only [api_core, ufjc.morse.thermodynamics.isotensional.asymptotic.legendre.nondimensional_helmholtz_free_energy_per_link,
    ufjc.morse.thermodynamics.isotensional.asymptotic.nondimensional_gibbs_free_energy_per_link,
    ufjc.morse.thermodynamics.isotensional.asymptotic.nondimensional_end_to_end_length_per_link, model_real]
  linear_combination mul_one_div_cancel hη

example : (morse_isotensional_asymptotic_legendre_helmholtz 8 1 1 500 80).IsLegendre (morse_isotensional_asymptotic_gibbs 8 1 1 500 80)
    (morse_isotensional_asymptotic_lengths 8 1 1 500 80) 1 (fun η _ => η ≠ 0) :=
  C47_morse_isotensional_asymptotic_legendre 8 1 1 500 80 (by norm_num) (by norm_num)

/-- C47: Morse freely jointed chain, numerical quadrature. -/
theorem C47_morse_isotensional_legendre (N : ℕ) (ℓ m k ε : ℝ) (hN : 0 < N) (hℓ : 0 < ℓ) :
    (morse_isotensional_legendre_helmholtz N ℓ m k ε).IsLegendre (morse_isotensional_gibbs N ℓ m k ε)
      (morse_isotensional_lengths N ℓ m k ε) ℓ (fun _ _ => True) := by
  refine .of_nd (C15_morse_isotensional_legendre_helmholtz N ℓ m k ε hN hℓ) (C15_morse_isotensional_gibbs N ℓ m k ε hN hℓ)
    (C15_morse_isotensional_lengths N ℓ m k ε hN hℓ) ?_
  intro η T hT _
  simp only [api_core, ufjc.morse.thermodynamics.isotensional.legendre.nondimensional_helmholtz_free_energy_per_link,
    ufjc.morse.thermodynamics.isotensional.nondimensional_gibbs_free_energy_per_link,
    ufjc.morse.thermodynamics.isotensional.nondimensional_end_to_end_length_per_link, model_real]

example : (morse_isotensional_legendre_helmholtz 8 1 1 500 80).IsLegendre (morse_isotensional_gibbs 8 1 1 500 80)
    (morse_isotensional_lengths 8 1 1 500 80) 1 (fun _ _ => True) :=
  C47_morse_isotensional_legendre 8 1 1 500 80 (by norm_num) (by norm_num)

/-- C47: log-squared freely jointed chain, reduced asymptotic approach. -/
theorem C47_log_squared_isotensional_asymptotic_reduced_legendre (N : ℕ) (ℓ m k : ℝ) (hN : 0 < N) (hℓ : 0 < ℓ) :
    (log_squared_isotensional_asymptotic_reduced_legendre_helmholtz N ℓ m k).IsLegendre (log_squared_isotensional_asymptotic_reduced_gibbs N ℓ m k)
      (log_squared_isotensional_asymptotic_reduced_lengths N ℓ m k) ℓ (fun η _ => η ≠ 0) := by
  refine .of_nd (C15_log_squared_isotensional_asymptotic_reduced_legendre_helmholtz N ℓ m k hN hℓ) (C15_log_squared_isotensional_asymptotic_reduced_gibbs N ℓ m k hN hℓ)
    (C15_log_squared_isotensional_asymptotic_reduced_lengths N ℓ m k hN hℓ) ?_
  intro η T hT hη
  simp only [api_core, ufjc.log_squared.thermodynamics.isotensional.asymptotic.reduced.legendre.nondimensional_helmholtz_free_energy_per_link,
    ufjc.log_squared.thermodynamics.isotensional.asymptotic.reduced.nondimensional_gibbs_free_energy_per_link,
    ufjc.log_squared.thermodynamics.isotensional.asymptotic.reduced.nondimensional_end_to_end_length_per_link, model_real]
  linear_combination mul_one_div_cancel hη

example : (log_squared_isotensional_asymptotic_reduced_legendre_helmholtz 8 1 1 500).IsLegendre (log_squared_isotensional_asymptotic_reduced_gibbs 8 1 1 500)
    (log_squared_isotensional_asymptotic_reduced_lengths 8 1 1 500) 1 (fun η _ => η ≠ 0) :=
  C47_log_squared_isotensional_asymptotic_reduced_legendre 8 1 1 500 (by norm_num) (by norm_num)

/-- C47: log-squared freely jointed chain, asymptotic approach. -/
theorem C47_log_squared_isotensional_asymptotic_legendre (N : ℕ) (ℓ m k : ℝ) (hN : 0 < N) (hℓ : 0 < ℓ) :
    (log_squared_isotensional_asymptotic_legendre_helmholtz N ℓ m k).IsLegendre (log_squared_isotensional_asymptotic_gibbs N ℓ m k)
      (log_squared_isotensional_asymptotic_lengths N ℓ m k) ℓ (fun η _ => η ≠ 0) := by
  refine .of_nd (C15_log_squared_isotensional_asymptotic_legendre_helmholtz N ℓ m k hN hℓ) (C15_log_squared_isotensional_asymptotic_gibbs N ℓ m k hN hℓ)
    (C15_log_squared_isotensional_asymptotic_lengths N ℓ m k hN hℓ) ?_
  intro η T hT hη
  simp only [api_core, ufjc.log_squared.thermodynamics.isotensional.asymptotic.legendre.nondimensional_helmholtz_free_energy_per_link,
    ufjc.log_squared.thermodynamics.isotensional.asymptotic.nondimensional_gibbs_free_energy_per_link,
    ufjc.log_squared.thermodynamics.isotensional.asymptotic.nondimensional_end_to_end_length_per_link, model_real]
  linear_combination mul_one_div_cancel hη

example : (log_squared_isotensional_asymptotic_legendre_helmholtz 8 1 1 500).IsLegendre (log_squared_isotensional_asymptotic_gibbs 8 1 1 500)
    (log_squared_isotensional_asymptotic_lengths 8 1 1 500) 1 (fun η _ => η ≠ 0) :=
  C47_log_squared_isotensional_asymptotic_legendre 8 1 1 500 (by norm_num) (by norm_num)

/-- C47: log-squared freely jointed chain, numerical quadrature. -/
theorem C47_log_squared_isotensional_legendre (N : ℕ) (ℓ m k : ℝ) (hN : 0 < N) (hℓ : 0 < ℓ) :
    (log_squared_isotensional_legendre_helmholtz N ℓ m k).IsLegendre (log_squared_isotensional_gibbs N ℓ m k)
      (log_squared_isotensional_lengths N ℓ m k) ℓ (fun _ _ => True) := by
  refine .of_nd (C15_log_squared_isotensional_legendre_helmholtz N ℓ m k hN hℓ) (C15_log_squared_isotensional_gibbs N ℓ m k hN hℓ)
    (C15_log_squared_isotensional_lengths N ℓ m k hN hℓ) ?_
  intro η T hT _
  simp only [api_core, ufjc.log_squared.thermodynamics.isotensional.legendre.nondimensional_helmholtz_free_energy_per_link,
    ufjc.log_squared.thermodynamics.isotensional.nondimensional_gibbs_free_energy_per_link,
    ufjc.log_squared.thermodynamics.isotensional.nondimensional_end_to_end_length_per_link, model_real]

example : (log_squared_isotensional_legendre_helmholtz 8 1 1 500).IsLegendre (log_squared_isotensional_gibbs 8 1 1 500)
    (log_squared_isotensional_lengths 8 1 1 500) 1 (fun _ _ => True) :=
  C47_log_squared_isotensional_legendre 8 1 1 500 (by norm_num) (by norm_num)

/-- C47: Lennard-Jones freely jointed chain, reduced asymptotic approach. -/
theorem C47_lennard_jones_isotensional_asymptotic_reduced_legendre (N : ℕ) (ℓ m k : ℝ) (hN : 0 < N) (hℓ : 0 < ℓ) :
    (lennard_jones_isotensional_asymptotic_reduced_legendre_helmholtz N ℓ m k).IsLegendre (lennard_jones_isotensional_asymptotic_reduced_gibbs N ℓ m k)
      (lennard_jones_isotensional_asymptotic_reduced_lengths N ℓ m k) ℓ (fun η _ => η ≠ 0) := by
  refine .of_nd (C15_lennard_jones_isotensional_asymptotic_reduced_legendre_helmholtz N ℓ m k hN hℓ) (C15_lennard_jones_isotensional_asymptotic_reduced_gibbs N ℓ m k hN hℓ)
    (C15_lennard_jones_isotensional_asymptotic_reduced_lengths N ℓ m k hN hℓ) ?_
  intro η T hT hη
  simp only [api_core, ufjc.lennard_jones.thermodynamics.isotensional.asymptotic.reduced.legendre.nondimensional_helmholtz_free_energy_per_link,
    ufjc.lennard_jones.thermodynamics.isotensional.asymptotic.reduced.nondimensional_gibbs_free_energy_per_link,
    ufjc.lennard_jones.thermodynamics.isotensional.asymptotic.reduced.nondimensional_end_to_end_length_per_link, model_real]
  linear_combination mul_one_div_cancel hη

example : (lennard_jones_isotensional_asymptotic_reduced_legendre_helmholtz 8 1 1 500).IsLegendre (lennard_jones_isotensional_asymptotic_reduced_gibbs 8 1 1 500)
    (lennard_jones_isotensional_asymptotic_reduced_lengths 8 1 1 500) 1 (fun η _ => η ≠ 0) :=
  C47_lennard_jones_isotensional_asymptotic_reduced_legendre 8 1 1 500 (by norm_num) (by norm_num)

/-- C47: Lennard-Jones freely jointed chain, asymptotic approach. -/
theorem C47_lennard_jones_isotensional_asymptotic_legendre (N : ℕ) (ℓ m k : ℝ) (hN : 0 < N) (hℓ : 0 < ℓ) :
    (lennard_jones_isotensional_asymptotic_legendre_helmholtz N ℓ m k).IsLegendre (lennard_jones_isotensional_asymptotic_gibbs N ℓ m k)
      (lennard_jones_isotensional_asymptotic_lengths N ℓ m k) ℓ (fun η _ => η ≠ 0) := by
  refine .of_nd (C15_lennard_jones_isotensional_asymptotic_legendre_helmholtz N ℓ m k hN hℓ) (C15_lennard_jones_isotensional_asymptotic_gibbs N ℓ m k hN hℓ)
    (C15_lennard_jones_isotensional_asymptotic_lengths N ℓ m k hN hℓ) ?_
  intro η T hT hη
  simp only [api_core, ufjc.lennard_jones.thermodynamics.isotensional.asymptotic.legendre.nondimensional_helmholtz_free_energy_per_link,
    ufjc.lennard_jones.thermodynamics.isotensional.asymptotic.nondimensional_gibbs_free_energy_per_link,
    ufjc.lennard_jones.thermodynamics.isotensional.asymptotic.nondimensional_end_to_end_length_per_link, model_real]
  linear_combination mul_one_div_cancel hη

example : (lennard_jones_isotensional_asymptotic_legendre_helmholtz 8 1 1 500).IsLegendre (lennard_jones_isotensional_asymptotic_gibbs 8 1 1 500)
    (lennard_jones_isotensional_asymptotic_lengths 8 1 1 500) 1 (fun η _ => η ≠ 0) :=
  C47_lennard_jones_isotensional_asymptotic_legendre 8 1 1 500 (by norm_num) (by norm_num)

/-- C47: Lennard-Jones freely jointed chain, numerical quadrature. -/
theorem C47_lennard_jones_isotensional_legendre (N : ℕ) (ℓ m k : ℝ) (hN : 0 < N) (hℓ : 0 < ℓ) :
    (lennard_jones_isotensional_legendre_helmholtz N ℓ m k).IsLegendre (lennard_jones_isotensional_gibbs N ℓ m k)
      (lennard_jones_isotensional_lengths N ℓ m k) ℓ (fun _ _ => True) := by
  refine .of_nd (C15_lennard_jones_isotensional_legendre_helmholtz N ℓ m k hN hℓ) (C15_lennard_jones_isotensional_gibbs N ℓ m k hN hℓ)
    (C15_lennard_jones_isotensional_lengths N ℓ m k hN hℓ) ?_
  intro η T hT _
  simp only [api_core, ufjc.lennard_jones.thermodynamics.isotensional.legendre.nondimensional_helmholtz_free_energy_per_link,
    ufjc.lennard_jones.thermodynamics.isotensional.nondimensional_gibbs_free_energy_per_link,
    ufjc.lennard_jones.thermodynamics.isotensional.nondimensional_end_to_end_length_per_link, model_real]

example : (lennard_jones_isotensional_legendre_helmholtz 8 1 1 500).IsLegendre (lennard_jones_isotensional_gibbs 8 1 1 500)
    (lennard_jones_isotensional_lengths 8 1 1 500) 1 (fun _ _ => True) :=
  C47_lennard_jones_isotensional_legendre 8 1 1 500 (by norm_num) (by norm_num)

/-- C47: worm-like chain. -/
theorem C47_wlc_isotensional_legendre (N : ℕ) (ℓ m p : ℝ) (hN : 0 < N) (hℓ : 0 < ℓ) :
    (wlc_isotensional_legendre_helmholtz N ℓ m p).IsLegendre (wlc_isotensional_gibbs N ℓ m p)
      (wlc_isotensional_lengths N ℓ m p) ℓ (fun _ _ => True) := by
  refine .of_nd (C15_wlc_isotensional_legendre_helmholtz N ℓ m p hN hℓ) (C15_wlc_isotensional_gibbs N ℓ m p hN hℓ)
    (C15_wlc_isotensional_lengths N ℓ m p hN hℓ) ?_
  intro η T hT _
  simp only [api_core, wlc.thermodynamics.isotensional.legendre.nondimensional_helmholtz_free_energy_per_link,
    wlc.thermodynamics.isotensional.nondimensional_gibbs_free_energy_per_link,
    wlc.thermodynamics.isotensional.nondimensional_end_to_end_length_per_link,
    wlc.thermodynamics.isotensional.legendre.nondimensional_helmholtz_free_energy, model_real]
  ring

example : (wlc_isotensional_legendre_helmholtz 8 1 1 2).IsLegendre (wlc_isotensional_gibbs 8 1 1 2)
    (wlc_isotensional_lengths 8 1 1 2) 1 (fun _ _ => True) :=
  C47_wlc_isotensional_legendre 8 1 1 2 (by norm_num) (by norm_num)

end Polymers.Props
