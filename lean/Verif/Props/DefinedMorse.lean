import Verif.Lemmas.Defined
import Verif.Spec.ApiDefined
import Verif.Spec.Api
import Verif.Spec.ApiPotential
import Verif.Props.UfjcIsotensional

/-! Definedness (C46) of the Morse-FJC model at fixed force. -/

namespace Polymers.Props

open Polymers.Spec Polymers.SReal

set_option maxHeartbeats 2000000

theorem ndForce_code (ℓ f T : ℝ) : ndForce ℓ f T = f * ℓ / (BOLTZMANN_CONSTANT : ℝ) / T := by
  rw [ndForce, kT, BOLTZMANN_CONSTANT, div_div]
theorem ndStiffness_code (k ℓ T : ℝ) : ndStiffness k ℓ T = k * Elem.powi ℓ 2 / (BOLTZMANN_CONSTANT : ℝ) / T := by
  rw [ndStiffness, kT, BOLTZMANN_CONSTANT, div_div, elem_powi]; norm_cast
theorem ndEnergy_code (ε T : ℝ) : ndEnergy ε T = ε / (BOLTZMANN_CONSTANT : ℝ) / T := by
  rw [ndEnergy, kT, BOLTZMANN_CONSTANT, div_div]
theorem zero_code {ℓ T : ℝ} (hℓ : 0 < ℓ) (hT : 0 < T) :
    (ZERO : ℝ) * BOLTZMANN_CONSTANT * T / ℓ * ℓ / BOLTZMANN_CONSTANT / T = ZERO := by
  have := Pos.boltzmann
  field_simp

theorem force_code (x ℓ T : ℝ) : x / (BOLTZMANN_CONSTANT : ℝ) / T * ℓ = x * ℓ / BOLTZMANN_CONSTANT / T := by ring

theorem morseMax_code (κ ε : ℝ) : √(ε * κ / 8) = Elem.sqrt (ε * κ / 8.0) := by
  simp only [model_real]

/-- The argument of the square root of the asymptotic relations is positive below the maximum force. -/
theorem morse_arg_pos {κ ε η : ℝ} (hκ : 0 < κ) (hε : 0 < ε) (h : η < Elem.sqrt (ε * κ / 8.0)) :
    0 < 1.0 - η / Elem.sqrt (ε * κ / 8.0) := by
  have hM : 0 < Elem.sqrt (ε * κ / 8.0) := by side
  have := (div_lt_one hM).2 h
  simp only [model_real] at *; linarith

/-- The nondimensional function of the model is defined below the maximum force. -/
theorem is_morse_isotensional_asymptotic_reduced_gibbs {ℓ' m' κ' ε' η' T' : SReal} {ℓ m κ ε η T : ℝ} (eℓ : Is ℓ' ℓ) (em : Is m' m) (eκ : Is κ' κ) (eε : Is ε' ε) (eη : Is η' η) (eT : Is T' T)
    (hℓ : 0 < ℓ) (hm : 0 < m) (hκ : 0 < κ) (hε : 0 < ε) (hη : 0 < η) (hT : 0 < T) (hM : η < Elem.sqrt (ε * κ / 8.0)) :
    Is (Polymers.ufjc.morse.thermodynamics.isotensional.asymptotic.reduced.nondimensional_gibbs_free_energy_per_link ℓ' m' κ' ε' η' T')
      (Polymers.ufjc.morse.thermodynamics.isotensional.asymptotic.reduced.nondimensional_gibbs_free_energy_per_link ℓ m κ ε η T) := by
  have hs := morse_arg_pos hκ hε hM
  defined

/-- The nondimensional function of the model is defined below the maximum force. -/
theorem is_morse_isotensional_asymptotic_reduced_lengths {κ' ε' η' : SReal} {κ ε η : ℝ} (eκ : Is κ' κ) (eε : Is ε' ε) (eη : Is η' η)
    (hκ : 0 < κ) (hε : 0 < ε) (hη : 0 < η) (hM : η < Elem.sqrt (ε * κ / 8.0)) :
    Is (Polymers.ufjc.morse.thermodynamics.isotensional.asymptotic.reduced.nondimensional_end_to_end_length_per_link κ' ε' η')
      (Polymers.ufjc.morse.thermodynamics.isotensional.asymptotic.reduced.nondimensional_end_to_end_length_per_link κ ε η) := by
  have hs := morse_arg_pos hκ hε hM
  defined

/-- The nondimensional function of the model is defined below the maximum force. -/
theorem is_morse_isotensional_asymptotic_reduced_legendre_helmholtz {ℓ' m' κ' ε' η' T' : SReal} {ℓ m κ ε η T : ℝ} (eℓ : Is ℓ' ℓ) (em : Is m' m) (eκ : Is κ' κ) (eε : Is ε' ε) (eη : Is η' η) (eT : Is T' T)
    (hℓ : 0 < ℓ) (hm : 0 < m) (hκ : 0 < κ) (hε : 0 < ε) (hη : 0 < η) (hT : 0 < T) (hM : η < Elem.sqrt (ε * κ / 8.0)) :
    Is (Polymers.ufjc.morse.thermodynamics.isotensional.asymptotic.reduced.legendre.nondimensional_helmholtz_free_energy_per_link ℓ' m' κ' ε' η' T')
      (Polymers.ufjc.morse.thermodynamics.isotensional.asymptotic.reduced.legendre.nondimensional_helmholtz_free_energy_per_link ℓ m κ ε η T) := by
  have hs := morse_arg_pos hκ hε hM
  defined

/-- The nondimensional function of the model is defined below the maximum force. -/
theorem is_morse_isotensional_asymptotic_gibbs {ℓ' m' κ' ε' η' T' : SReal} {ℓ m κ ε η T : ℝ} (eℓ : Is ℓ' ℓ) (em : Is m' m) (eκ : Is κ' κ) (eε : Is ε' ε) (eη : Is η' η) (eT : Is T' T)
    (hℓ : 0 < ℓ) (hm : 0 < m) (hκ : 0 < κ) (hε : 0 < ε) (hη : 0 < η) (hT : 0 < T) (hM : η < Elem.sqrt (ε * κ / 8.0)) :
    Is (Polymers.ufjc.morse.thermodynamics.isotensional.asymptotic.nondimensional_gibbs_free_energy_per_link ℓ' m' κ' ε' η' T')
      (Polymers.ufjc.morse.thermodynamics.isotensional.asymptotic.nondimensional_gibbs_free_energy_per_link ℓ m κ ε η T) := by
  have hs := morse_arg_pos hκ hε hM
  defined

/-- The nondimensional function of the model is defined below the maximum force. -/
theorem is_morse_isotensional_asymptotic_lengths {κ' ε' η' : SReal} {κ ε η : ℝ} (eκ : Is κ' κ) (eε : Is ε' ε) (eη : Is η' η)
    (hκ : 0 < κ) (hε : 0 < ε) (hη : 0 < η) (hM : η < Elem.sqrt (ε * κ / 8.0)) :
    Is (Polymers.ufjc.morse.thermodynamics.isotensional.asymptotic.nondimensional_end_to_end_length_per_link κ' ε' η')
      (Polymers.ufjc.morse.thermodynamics.isotensional.asymptotic.nondimensional_end_to_end_length_per_link κ ε η) := by
  have hs := morse_arg_pos hκ hε hM
  defined

/-- The nondimensional function of the model is defined below the maximum force. -/
theorem is_morse_isotensional_asymptotic_legendre_helmholtz {ℓ' m' κ' ε' η' T' : SReal} {ℓ m κ ε η T : ℝ} (eℓ : Is ℓ' ℓ) (em : Is m' m) (eκ : Is κ' κ) (eε : Is ε' ε) (eη : Is η' η) (eT : Is T' T)
    (hℓ : 0 < ℓ) (hm : 0 < m) (hκ : 0 < κ) (hε : 0 < ε) (hη : 0 < η) (hT : 0 < T) (hM : η < Elem.sqrt (ε * κ / 8.0)) :
    Is (Polymers.ufjc.morse.thermodynamics.isotensional.asymptotic.legendre.nondimensional_helmholtz_free_energy_per_link ℓ' m' κ' ε' η' T')
      (Polymers.ufjc.morse.thermodynamics.isotensional.asymptotic.legendre.nondimensional_helmholtz_free_energy_per_link ℓ m κ ε η T) := by
  have hs := morse_arg_pos hκ hε hM
  defined

/-- C46: every method of the family is defined for every positive force below the maximum force of the link, when that is above `1e-6`. -/
theorem C46_morse_isotensional_asymptotic_reduced_gibbs {N : ℕ} (hN : 0 < N) {ℓ m k ε : ℝ} (hℓ : 0 < ℓ) (hm : 0 < m) (hk : 0 < k) (hε : 0 < ε) :
    (ApiS.morse_isotensional_asymptotic_reduced_gibbs N ℓ m k ε).DefinedAs (Api.morse_isotensional_asymptotic_reduced_gibbs N ℓ m k ε) (fun f T => ndForce ℓ f T)
      (fun y T => 0 < y ∧ y < √(ndEnergy ε T * ndStiffness k ℓ T / 8) ∧ 1e-6 < √(ndEnergy ε T * ndStiffness k ℓ T / 8)) := by
  have hN' : (0 : ℝ) < N := Nat.cast_pos.2 (by omega)
  constructor <;> intro x T hT hD <;> refine (?_ : Is _ _)
  all_goals
    have hx : 0 < x := by first | exact hD.1 | exact pos_of_ndForce hℓ hT hD.1
    simp only [ndForce_code, ndStiffness_code, ndEnergy_code, morseMax_code] at hD
    obtain ⟨h1, h2, h3⟩ := hD
    have h4 := h3
    replace h3 : (ZERO : ℝ) < _ := h3
    rw [show (1e-6 : ℝ) = ZERO from rfl, ← zero_code hℓ hT] at h4
  all_goals defined [is_morse_isotensional_asymptotic_reduced_gibbs ?_ ?_ ?_ ?_ ?_ ?_ ?_ ?_ ?_ ?_ ?_ ?_ ?_]

example : (ApiS.morse_isotensional_asymptotic_reduced_gibbs 8 1 1 500 80).DefinedAs (Api.morse_isotensional_asymptotic_reduced_gibbs 8 1 1 500 80) (fun f T => ndForce 1 f T)
    (fun y T => 0 < y ∧ y < √(ndEnergy 80 T * ndStiffness 500 1 T / 8) ∧ 1e-6 < √(ndEnergy 80 T * ndStiffness 500 1 T / 8)) :=
  C46_morse_isotensional_asymptotic_reduced_gibbs (N := 8) (m := 1) (by norm_num) (by norm_num) (by norm_num) (by norm_num) (by norm_num)

/-- C46: every method of the family is defined for every positive force below the maximum force of the link, when that is above `1e-6`. -/
theorem C46_morse_isotensional_asymptotic_reduced_lengths {N : ℕ} (hN : 0 < N) {ℓ m k ε : ℝ} (hℓ : 0 < ℓ) (hk : 0 < k) (hε : 0 < ε) :
    (ApiS.morse_isotensional_asymptotic_reduced_lengths N ℓ m k ε).DefinedAs (Api.morse_isotensional_asymptotic_reduced_lengths N ℓ m k ε) (fun f T => ndForce ℓ f T)
      (fun y T => 0 < y ∧ y < √(ndEnergy ε T * ndStiffness k ℓ T / 8) ∧ 1e-6 < √(ndEnergy ε T * ndStiffness k ℓ T / 8)) := by
  have hN' : (0 : ℝ) < N := Nat.cast_pos.2 (by omega)
  constructor <;> intro x T hT hD <;> refine (?_ : Is _ _)
  all_goals
    have hx : 0 < x := by first | exact hD.1 | exact pos_of_ndForce hℓ hT hD.1
    simp only [ndForce_code, ndStiffness_code, ndEnergy_code, morseMax_code] at hD
    obtain ⟨h1, h2, h3⟩ := hD
    have h4 := h3
    replace h3 : (ZERO : ℝ) < _ := h3
    rw [show (1e-6 : ℝ) = ZERO from rfl, ← zero_code hℓ hT] at h4
  all_goals defined [is_morse_isotensional_asymptotic_reduced_lengths ?_ ?_ ?_ ?_ ?_ ?_ ?_]

example : (ApiS.morse_isotensional_asymptotic_reduced_lengths 8 1 1 500 80).DefinedAs (Api.morse_isotensional_asymptotic_reduced_lengths 8 1 1 500 80) (fun f T => ndForce 1 f T)
    (fun y T => 0 < y ∧ y < √(ndEnergy 80 T * ndStiffness 500 1 T / 8) ∧ 1e-6 < √(ndEnergy 80 T * ndStiffness 500 1 T / 8)) :=
  C46_morse_isotensional_asymptotic_reduced_lengths (N := 8) (m := 1) (by norm_num) (by norm_num) (by norm_num) (by norm_num)

/-- C46: every method of the family is defined for every positive force below the maximum force of the link, when that is above `1e-6`. -/
theorem C46_morse_isotensional_asymptotic_reduced_legendre_helmholtz {N : ℕ} (hN : 0 < N) {ℓ m k ε : ℝ} (hℓ : 0 < ℓ) (hm : 0 < m) (hk : 0 < k) (hε : 0 < ε) :
    (ApiS.morse_isotensional_asymptotic_reduced_legendre_helmholtz N ℓ m k ε).DefinedAs (Api.morse_isotensional_asymptotic_reduced_legendre_helmholtz N ℓ m k ε) (fun f T => ndForce ℓ f T)
      (fun y T => 0 < y ∧ y < √(ndEnergy ε T * ndStiffness k ℓ T / 8) ∧ 1e-6 < √(ndEnergy ε T * ndStiffness k ℓ T / 8)) := by
  have hN' : (0 : ℝ) < N := Nat.cast_pos.2 (by omega)
  constructor <;> intro x T hT hD <;> refine (?_ : Is _ _)
  all_goals
    have hx : 0 < x := by first | exact hD.1 | exact pos_of_ndForce hℓ hT hD.1
    simp only [ndForce_code, ndStiffness_code, ndEnergy_code, morseMax_code] at hD
    obtain ⟨h1, h2, h3⟩ := hD
    have h4 := h3
    replace h3 : (ZERO : ℝ) < _ := h3
    rw [show (1e-6 : ℝ) = ZERO from rfl, ← zero_code hℓ hT] at h4
  all_goals defined [is_morse_isotensional_asymptotic_reduced_legendre_helmholtz ?_ ?_ ?_ ?_ ?_ ?_ ?_ ?_ ?_ ?_ ?_ ?_ ?_] <;> (rw [force_code]; assumption)

example : (ApiS.morse_isotensional_asymptotic_reduced_legendre_helmholtz 8 1 1 500 80).DefinedAs (Api.morse_isotensional_asymptotic_reduced_legendre_helmholtz 8 1 1 500 80) (fun f T => ndForce 1 f T)
    (fun y T => 0 < y ∧ y < √(ndEnergy 80 T * ndStiffness 500 1 T / 8) ∧ 1e-6 < √(ndEnergy 80 T * ndStiffness 500 1 T / 8)) :=
  C46_morse_isotensional_asymptotic_reduced_legendre_helmholtz (N := 8) (m := 1) (by norm_num) (by norm_num) (by norm_num) (by norm_num) (by norm_num)

/-- C46: every method of the family is defined for every positive force below the maximum force of the link, when that is above `1e-6`. -/
theorem C46_morse_isotensional_asymptotic_gibbs {N : ℕ} (hN : 0 < N) {ℓ m k ε : ℝ} (hℓ : 0 < ℓ) (hm : 0 < m) (hk : 0 < k) (hε : 0 < ε) :
    (ApiS.morse_isotensional_asymptotic_gibbs N ℓ m k ε).DefinedAs (Api.morse_isotensional_asymptotic_gibbs N ℓ m k ε) (fun f T => ndForce ℓ f T)
      (fun y T => 0 < y ∧ y < √(ndEnergy ε T * ndStiffness k ℓ T / 8) ∧ 1e-6 < √(ndEnergy ε T * ndStiffness k ℓ T / 8)) := by
  have hN' : (0 : ℝ) < N := Nat.cast_pos.2 (by omega)
  constructor <;> intro x T hT hD <;> refine (?_ : Is _ _)
  all_goals
    have hx : 0 < x := by first | exact hD.1 | exact pos_of_ndForce hℓ hT hD.1
    simp only [ndForce_code, ndStiffness_code, ndEnergy_code, morseMax_code] at hD
    obtain ⟨h1, h2, h3⟩ := hD
    have h4 := h3
    replace h3 : (ZERO : ℝ) < _ := h3
    rw [show (1e-6 : ℝ) = ZERO from rfl, ← zero_code hℓ hT] at h4
  all_goals defined [is_morse_isotensional_asymptotic_gibbs ?_ ?_ ?_ ?_ ?_ ?_ ?_ ?_ ?_ ?_ ?_ ?_ ?_]

example : (ApiS.morse_isotensional_asymptotic_gibbs 8 1 1 500 80).DefinedAs (Api.morse_isotensional_asymptotic_gibbs 8 1 1 500 80) (fun f T => ndForce 1 f T)
    (fun y T => 0 < y ∧ y < √(ndEnergy 80 T * ndStiffness 500 1 T / 8) ∧ 1e-6 < √(ndEnergy 80 T * ndStiffness 500 1 T / 8)) :=
  C46_morse_isotensional_asymptotic_gibbs (N := 8) (m := 1) (by norm_num) (by norm_num) (by norm_num) (by norm_num) (by norm_num)

/-- C46: every method of the family is defined for every positive force below the maximum force of the link, when that is above `1e-6`. -/
theorem C46_morse_isotensional_asymptotic_lengths {N : ℕ} (hN : 0 < N) {ℓ m k ε : ℝ} (hℓ : 0 < ℓ) (hk : 0 < k) (hε : 0 < ε) :
    (ApiS.morse_isotensional_asymptotic_lengths N ℓ m k ε).DefinedAs (Api.morse_isotensional_asymptotic_lengths N ℓ m k ε) (fun f T => ndForce ℓ f T)
      (fun y T => 0 < y ∧ y < √(ndEnergy ε T * ndStiffness k ℓ T / 8) ∧ 1e-6 < √(ndEnergy ε T * ndStiffness k ℓ T / 8)) := by
  have hN' : (0 : ℝ) < N := Nat.cast_pos.2 (by omega)
  constructor <;> intro x T hT hD <;> refine (?_ : Is _ _)
  all_goals
    have hx : 0 < x := by first | exact hD.1 | exact pos_of_ndForce hℓ hT hD.1
    simp only [ndForce_code, ndStiffness_code, ndEnergy_code, morseMax_code] at hD
    obtain ⟨h1, h2, h3⟩ := hD
    have h4 := h3
    replace h3 : (ZERO : ℝ) < _ := h3
    rw [show (1e-6 : ℝ) = ZERO from rfl, ← zero_code hℓ hT] at h4
  all_goals defined [is_morse_isotensional_asymptotic_lengths ?_ ?_ ?_ ?_ ?_ ?_ ?_]

example : (ApiS.morse_isotensional_asymptotic_lengths 8 1 1 500 80).DefinedAs (Api.morse_isotensional_asymptotic_lengths 8 1 1 500 80) (fun f T => ndForce 1 f T)
    (fun y T => 0 < y ∧ y < √(ndEnergy 80 T * ndStiffness 500 1 T / 8) ∧ 1e-6 < √(ndEnergy 80 T * ndStiffness 500 1 T / 8)) :=
  C46_morse_isotensional_asymptotic_lengths (N := 8) (m := 1) (by norm_num) (by norm_num) (by norm_num) (by norm_num)

/-- C46: every method of the family is defined for every positive force below the maximum force of the link, when that is above `1e-6`. -/
theorem C46_morse_isotensional_asymptotic_legendre_helmholtz {N : ℕ} (hN : 0 < N) {ℓ m k ε : ℝ} (hℓ : 0 < ℓ) (hm : 0 < m) (hk : 0 < k) (hε : 0 < ε) :
    (ApiS.morse_isotensional_asymptotic_legendre_helmholtz N ℓ m k ε).DefinedAs (Api.morse_isotensional_asymptotic_legendre_helmholtz N ℓ m k ε) (fun f T => ndForce ℓ f T)
      (fun y T => 0 < y ∧ y < √(ndEnergy ε T * ndStiffness k ℓ T / 8) ∧ 1e-6 < √(ndEnergy ε T * ndStiffness k ℓ T / 8)) := by
  have hN' : (0 : ℝ) < N := Nat.cast_pos.2 (by omega)
  constructor <;> intro x T hT hD <;> refine (?_ : Is _ _)
  all_goals
    have hx : 0 < x := by first | exact hD.1 | exact pos_of_ndForce hℓ hT hD.1
    simp only [ndForce_code, ndStiffness_code, ndEnergy_code, morseMax_code] at hD
    obtain ⟨h1, h2, h3⟩ := hD
    have h4 := h3
    replace h3 : (ZERO : ℝ) < _ := h3
    rw [show (1e-6 : ℝ) = ZERO from rfl, ← zero_code hℓ hT] at h4
  all_goals defined [is_morse_isotensional_asymptotic_legendre_helmholtz ?_ ?_ ?_ ?_ ?_ ?_ ?_ ?_ ?_ ?_ ?_ ?_ ?_] <;> (rw [force_code]; assumption)

example : (ApiS.morse_isotensional_asymptotic_legendre_helmholtz 8 1 1 500 80).DefinedAs (Api.morse_isotensional_asymptotic_legendre_helmholtz 8 1 1 500 80) (fun f T => ndForce 1 f T)
    (fun y T => 0 < y ∧ y < √(ndEnergy 80 T * ndStiffness 500 1 T / 8) ∧ 1e-6 < √(ndEnergy 80 T * ndStiffness 500 1 T / 8)) :=
  C46_morse_isotensional_asymptotic_legendre_helmholtz (N := 8) (m := 1) (by norm_num) (by norm_num) (by norm_num) (by norm_num) (by norm_num)

end Polymers.Props
