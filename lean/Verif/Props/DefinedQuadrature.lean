import Verif.Lemmas.Defined
import Verif.Spec.ApiDefined
import Verif.Spec.Api
import Verif.Spec.ApiPotential
import Verif.Props.UfjcIsotensional
import Verif.Props.DefinedMorse

/-! Definedness (C46) of the quadratures of the Morse, Lennard-Jones and log-squared models at fixed force. -/

namespace Polymers.Props

open Polymers.Spec Polymers.SReal

set_option maxHeartbeats 2000000

/-- The rescaled partition function as the code writes it is positive. -/
theorem quad_pos {u : ℝ → ℝ} {η s : ℝ} (hη : 0 < η) (hs : (ZERO : ℝ) < s) :
    0 < math.integrate_1d (fun t => Elem.exp (u t) - Elem.exp (u t - 2.0 * η * t)) (ZERO : ℝ) s POINTS := by
  refine math.integrate_1d_pos hs points_pos fun t h0 => ?_
  have ht := zero_pos'.trans h0.1
  have : 0 < 2.0 * η * t := by positivity
  exact sub_pos.2 (Real.exp_lt_exp.2 (by linarith))

theorem morse_stretch_code (κ ε : ℝ) : (ZERO : ℝ) < 1.0 + Elem.ln 2.0 / Elem.sqrt (κ / ε / 2.0) := by
  have h := @morseStretchMax_gt κ ε
  rw [morseStretchMax] at h
  simp only [model_real]; linarith

theorem lj_stretch_code : (ZERO : ℝ) < Elem.powf (13.0 / 7.0) (1.0 / 6.0) := by
  have h := ljStretchMax_gt
  simp only [model_real]; exact h

theorem log_squared_stretch_code : (ZERO : ℝ) < Elem.exp 1.0 := by
  have h := logSquaredStretchMax_gt
  simp only [model_real]; exact h

/-- The nondimensional function of the model is defined for positive force. -/
theorem is_morse_isotensional_gibbs {ℓ' m' κ' ε' η' T' : SReal} {ℓ m κ ε η T : ℝ} (eℓ : Is ℓ' ℓ) (em : Is m' m) (eκ : Is κ' κ) (eε : Is ε' ε) (eη : Is η' η) (eT : Is T' T)
    (hℓ : 0 < ℓ) (hm : 0 < m) (hκ : 0 < κ) (hε : 0 < ε) (hη : 0 < η) (hT : 0 < T) :
    Is (Polymers.ufjc.morse.thermodynamics.isotensional.nondimensional_gibbs_free_energy_per_link ℓ' m' κ' ε' η' T')
      (Polymers.ufjc.morse.thermodynamics.isotensional.nondimensional_gibbs_free_energy_per_link ℓ m κ ε η T) := by
  have hs := morse_stretch_code κ ε
  defined [Is.integrate_Ioo rfl ?_ ?_ (by norm_num [POINTS]) hs fun t h0 h1 => ?_]
  all_goals first
    | exact quad_pos hη hs
    | exact (quad_pos hη hs).ne'
    | (have ht := zero_pos'.trans ‹(ZERO : ℝ) < _›; side)

/-- The nondimensional function of the model is defined for positive force. -/
theorem is_morse_isotensional_lengths {κ' ε' η' : SReal} {κ ε η : ℝ} (eκ : Is κ' κ) (eε : Is ε' ε) (eη : Is η' η)
    (hκ : 0 < κ) (hε : 0 < ε) (hη : 0 < η) :
    Is (Polymers.ufjc.morse.thermodynamics.isotensional.nondimensional_end_to_end_length_per_link κ' ε' η')
      (Polymers.ufjc.morse.thermodynamics.isotensional.nondimensional_end_to_end_length_per_link κ ε η) := by
  have hs := morse_stretch_code κ ε
  defined [Is.integrate_Ioo rfl ?_ ?_ (by norm_num [POINTS]) hs fun t h0 h1 => ?_]
  all_goals first
    | exact quad_pos hη hs
    | exact (quad_pos hη hs).ne'
    | (have ht := zero_pos'.trans ‹(ZERO : ℝ) < _›; side)

/-- The nondimensional function of the model is defined for positive force. -/
theorem is_morse_isotensional_legendre_helmholtz {ℓ' m' κ' ε' η' T' : SReal} {ℓ m κ ε η T : ℝ} (eℓ : Is ℓ' ℓ) (em : Is m' m) (eκ : Is κ' κ) (eε : Is ε' ε) (eη : Is η' η) (eT : Is T' T)
    (hℓ : 0 < ℓ) (hm : 0 < m) (hκ : 0 < κ) (hε : 0 < ε) (hη : 0 < η) (hT : 0 < T) :
    Is (Polymers.ufjc.morse.thermodynamics.isotensional.legendre.nondimensional_helmholtz_free_energy_per_link ℓ' m' κ' ε' η' T')
      (Polymers.ufjc.morse.thermodynamics.isotensional.legendre.nondimensional_helmholtz_free_energy_per_link ℓ m κ ε η T) := by
  have hs := morse_stretch_code κ ε
  defined [Is.integrate_Ioo rfl ?_ ?_ (by norm_num [POINTS]) hs fun t h0 h1 => ?_]
  all_goals first
    | exact quad_pos hη hs
    | exact (quad_pos hη hs).ne'
    | (have ht := zero_pos'.trans ‹(ZERO : ℝ) < _›; side)

/-- C46: every method of the family is defined for every positive force. -/
theorem C46_morse_isotensional_gibbs {N : ℕ} (hN : 0 < N) {ℓ m k ε : ℝ} (hℓ : 0 < ℓ) (hm : 0 < m) (hk : 0 < k) (hε : 0 < ε) :
    (ApiS.morse_isotensional_gibbs N ℓ m k ε).DefinedAs (Api.morse_isotensional_gibbs N ℓ m k ε) (fun f T => ndForce ℓ f T)
      (fun y _ => 0 < y) := by
  have hN' : (0 : ℝ) < N := Nat.cast_pos.2 (by omega)
  constructor <;> intro x T hT hD <;> refine (?_ : Is _ _)
  all_goals
    have hx : 0 < x := by first | exact hD | exact pos_of_ndForce hℓ hT hD
  all_goals defined [is_morse_isotensional_gibbs ?_ ?_ ?_ ?_ ?_ ?_ ?_ ?_ ?_ ?_ ?_ ?_]

example : (ApiS.morse_isotensional_gibbs 8 1 1 500 80).DefinedAs (Api.morse_isotensional_gibbs 8 1 1 500 80) (fun f T => ndForce 1 f T)
    (fun y _ => 0 < y) :=
  C46_morse_isotensional_gibbs (N := 8) (m := 1) (by norm_num) (by norm_num) (by norm_num) (by norm_num) (by norm_num)

/-- C46: every method of the family is defined for every positive force. -/
theorem C46_morse_isotensional_lengths {N : ℕ} (hN : 0 < N) {ℓ m k ε : ℝ} (hℓ : 0 < ℓ) (hk : 0 < k) (hε : 0 < ε) :
    (ApiS.morse_isotensional_lengths N ℓ m k ε).DefinedAs (Api.morse_isotensional_lengths N ℓ m k ε) (fun f T => ndForce ℓ f T)
      (fun y _ => 0 < y) := by
  have hN' : (0 : ℝ) < N := Nat.cast_pos.2 (by omega)
  constructor <;> intro x T hT hD <;> refine (?_ : Is _ _)
  all_goals
    have hx : 0 < x := by first | exact hD | exact pos_of_ndForce hℓ hT hD
  all_goals defined [is_morse_isotensional_lengths ?_ ?_ ?_ ?_ ?_ ?_]

example : (ApiS.morse_isotensional_lengths 8 1 1 500 80).DefinedAs (Api.morse_isotensional_lengths 8 1 1 500 80) (fun f T => ndForce 1 f T)
    (fun y _ => 0 < y) :=
  C46_morse_isotensional_lengths (N := 8) (m := 1) (by norm_num) (by norm_num) (by norm_num) (by norm_num)

/-- C46: every method of the family is defined for every positive force. -/
theorem C46_morse_isotensional_legendre_helmholtz {N : ℕ} (hN : 0 < N) {ℓ m k ε : ℝ} (hℓ : 0 < ℓ) (hm : 0 < m) (hk : 0 < k) (hε : 0 < ε) :
    (ApiS.morse_isotensional_legendre_helmholtz N ℓ m k ε).DefinedAs (Api.morse_isotensional_legendre_helmholtz N ℓ m k ε) (fun f T => ndForce ℓ f T)
      (fun y _ => 0 < y) := by
  have hN' : (0 : ℝ) < N := Nat.cast_pos.2 (by omega)
  constructor <;> intro x T hT hD <;> refine (?_ : Is _ _)
  all_goals
    have hx : 0 < x := by first | exact hD | exact pos_of_ndForce hℓ hT hD
  all_goals defined [is_morse_isotensional_legendre_helmholtz ?_ ?_ ?_ ?_ ?_ ?_ ?_ ?_ ?_ ?_ ?_ ?_]

example : (ApiS.morse_isotensional_legendre_helmholtz 8 1 1 500 80).DefinedAs (Api.morse_isotensional_legendre_helmholtz 8 1 1 500 80) (fun f T => ndForce 1 f T)
    (fun y _ => 0 < y) :=
  C46_morse_isotensional_legendre_helmholtz (N := 8) (m := 1) (by norm_num) (by norm_num) (by norm_num) (by norm_num) (by norm_num)

/-- The nondimensional function of the model is defined for positive force. -/
theorem is_lennard_jones_isotensional_gibbs {ℓ' m' κ' η' T' : SReal} {ℓ m κ η T : ℝ} (eℓ : Is ℓ' ℓ) (em : Is m' m) (eκ : Is κ' κ) (eη : Is η' η) (eT : Is T' T)
    (hℓ : 0 < ℓ) (hm : 0 < m) (hη : 0 < η) (hT : 0 < T) :
    Is (Polymers.ufjc.lennard_jones.thermodynamics.isotensional.nondimensional_gibbs_free_energy_per_link ℓ' m' κ' η' T')
      (Polymers.ufjc.lennard_jones.thermodynamics.isotensional.nondimensional_gibbs_free_energy_per_link ℓ m κ η T) := by
  have hs := lj_stretch_code
  defined [Is.integrate_Ioo rfl ?_ ?_ (by norm_num [POINTS]) hs fun t h0 h1 => ?_]
  all_goals first
    | exact quad_pos hη hs
    | exact (quad_pos hη hs).ne'
    | (have ht := zero_pos'.trans ‹(ZERO : ℝ) < _›; side)

/-- The nondimensional function of the model is defined for positive force. -/
theorem is_lennard_jones_isotensional_lengths {κ' η' : SReal} {κ η : ℝ} (eκ : Is κ' κ) (eη : Is η' η)
    (hη : 0 < η) :
    Is (Polymers.ufjc.lennard_jones.thermodynamics.isotensional.nondimensional_end_to_end_length_per_link κ' η')
      (Polymers.ufjc.lennard_jones.thermodynamics.isotensional.nondimensional_end_to_end_length_per_link κ η) := by
  have hs := lj_stretch_code
  defined [Is.integrate_Ioo rfl ?_ ?_ (by norm_num [POINTS]) hs fun t h0 h1 => ?_]
  all_goals first
    | exact quad_pos hη hs
    | exact (quad_pos hη hs).ne'
    | (have ht := zero_pos'.trans ‹(ZERO : ℝ) < _›; side)

/-- The nondimensional function of the model is defined for positive force. -/
theorem is_lennard_jones_isotensional_legendre_helmholtz {ℓ' m' κ' η' T' : SReal} {ℓ m κ η T : ℝ} (eℓ : Is ℓ' ℓ) (em : Is m' m) (eκ : Is κ' κ) (eη : Is η' η) (eT : Is T' T)
    (hℓ : 0 < ℓ) (hm : 0 < m) (hη : 0 < η) (hT : 0 < T) :
    Is (Polymers.ufjc.lennard_jones.thermodynamics.isotensional.legendre.nondimensional_helmholtz_free_energy_per_link ℓ' m' κ' η' T')
      (Polymers.ufjc.lennard_jones.thermodynamics.isotensional.legendre.nondimensional_helmholtz_free_energy_per_link ℓ m κ η T) := by
  have hs := lj_stretch_code
  defined [Is.integrate_Ioo rfl ?_ ?_ (by norm_num [POINTS]) hs fun t h0 h1 => ?_]
  all_goals first
    | exact quad_pos hη hs
    | exact (quad_pos hη hs).ne'
    | (have ht := zero_pos'.trans ‹(ZERO : ℝ) < _›; side)

/-- C46: every method of the family is defined for every positive force. -/
theorem C46_lennard_jones_isotensional_gibbs {N : ℕ} (hN : 0 < N) {ℓ m k : ℝ} (hℓ : 0 < ℓ) (hm : 0 < m) :
    (ApiS.lennard_jones_isotensional_gibbs N ℓ m k).DefinedAs (Api.lennard_jones_isotensional_gibbs N ℓ m k) (fun f T => ndForce ℓ f T)
      (fun y _ => 0 < y) := by
  have hN' : (0 : ℝ) < N := Nat.cast_pos.2 (by omega)
  constructor <;> intro x T hT hD <;> refine (?_ : Is _ _)
  all_goals
    have hx : 0 < x := by first | exact hD | exact pos_of_ndForce hℓ hT hD
  all_goals defined [is_lennard_jones_isotensional_gibbs ?_ ?_ ?_ ?_ ?_ ?_ ?_ ?_ ?_]

example : (ApiS.lennard_jones_isotensional_gibbs 8 1 1 500).DefinedAs (Api.lennard_jones_isotensional_gibbs 8 1 1 500) (fun f T => ndForce 1 f T)
    (fun y _ => 0 < y) :=
  C46_lennard_jones_isotensional_gibbs (N := 8) (m := 1) (by norm_num) (by norm_num) (by norm_num)

/-- C46: every method of the family is defined for every positive force. -/
theorem C46_lennard_jones_isotensional_lengths {N : ℕ} (hN : 0 < N) {ℓ m k : ℝ} (hℓ : 0 < ℓ) :
    (ApiS.lennard_jones_isotensional_lengths N ℓ m k).DefinedAs (Api.lennard_jones_isotensional_lengths N ℓ m k) (fun f T => ndForce ℓ f T)
      (fun y _ => 0 < y) := by
  have hN' : (0 : ℝ) < N := Nat.cast_pos.2 (by omega)
  constructor <;> intro x T hT hD <;> refine (?_ : Is _ _)
  all_goals
    have hx : 0 < x := by first | exact hD | exact pos_of_ndForce hℓ hT hD
  all_goals defined [is_lennard_jones_isotensional_lengths ?_ ?_ ?_]

example : (ApiS.lennard_jones_isotensional_lengths 8 1 1 500).DefinedAs (Api.lennard_jones_isotensional_lengths 8 1 1 500) (fun f T => ndForce 1 f T)
    (fun y _ => 0 < y) :=
  C46_lennard_jones_isotensional_lengths (N := 8) (m := 1) (by norm_num) (by norm_num)

/-- C46: every method of the family is defined for every positive force. -/
theorem C46_lennard_jones_isotensional_legendre_helmholtz {N : ℕ} (hN : 0 < N) {ℓ m k : ℝ} (hℓ : 0 < ℓ) (hm : 0 < m) :
    (ApiS.lennard_jones_isotensional_legendre_helmholtz N ℓ m k).DefinedAs (Api.lennard_jones_isotensional_legendre_helmholtz N ℓ m k) (fun f T => ndForce ℓ f T)
      (fun y _ => 0 < y) := by
  have hN' : (0 : ℝ) < N := Nat.cast_pos.2 (by omega)
  constructor <;> intro x T hT hD <;> refine (?_ : Is _ _)
  all_goals
    have hx : 0 < x := by first | exact hD | exact pos_of_ndForce hℓ hT hD
  all_goals defined [is_lennard_jones_isotensional_legendre_helmholtz ?_ ?_ ?_ ?_ ?_ ?_ ?_ ?_ ?_]

example : (ApiS.lennard_jones_isotensional_legendre_helmholtz 8 1 1 500).DefinedAs (Api.lennard_jones_isotensional_legendre_helmholtz 8 1 1 500) (fun f T => ndForce 1 f T)
    (fun y _ => 0 < y) :=
  C46_lennard_jones_isotensional_legendre_helmholtz (N := 8) (m := 1) (by norm_num) (by norm_num) (by norm_num)

/-- The nondimensional function of the model is defined for positive force. -/
theorem is_log_squared_isotensional_gibbs {ℓ' m' κ' η' T' : SReal} {ℓ m κ η T : ℝ} (eℓ : Is ℓ' ℓ) (em : Is m' m) (eκ : Is κ' κ) (eη : Is η' η) (eT : Is T' T)
    (hℓ : 0 < ℓ) (hm : 0 < m) (hη : 0 < η) (hT : 0 < T) :
    Is (Polymers.ufjc.log_squared.thermodynamics.isotensional.nondimensional_gibbs_free_energy_per_link ℓ' m' κ' η' T')
      (Polymers.ufjc.log_squared.thermodynamics.isotensional.nondimensional_gibbs_free_energy_per_link ℓ m κ η T) := by
  have hs := log_squared_stretch_code
  defined [Is.integrate_Ioo rfl ?_ ?_ (by norm_num [POINTS]) hs fun t h0 h1 => ?_]
  all_goals first
    | exact quad_pos hη hs
    | exact (quad_pos hη hs).ne'
    | (have ht := zero_pos'.trans ‹(ZERO : ℝ) < _›; side)

/-- The nondimensional function of the model is defined for positive force. -/
theorem is_log_squared_isotensional_lengths {κ' η' : SReal} {κ η : ℝ} (eκ : Is κ' κ) (eη : Is η' η)
    (hη : 0 < η) :
    Is (Polymers.ufjc.log_squared.thermodynamics.isotensional.nondimensional_end_to_end_length_per_link κ' η')
      (Polymers.ufjc.log_squared.thermodynamics.isotensional.nondimensional_end_to_end_length_per_link κ η) := by
  have hs := log_squared_stretch_code
  defined [Is.integrate_Ioo rfl ?_ ?_ (by norm_num [POINTS]) hs fun t h0 h1 => ?_]
  all_goals first
    | exact quad_pos hη hs
    | exact (quad_pos hη hs).ne'
    | (have ht := zero_pos'.trans ‹(ZERO : ℝ) < _›; side)

/-- The nondimensional function of the model is defined for positive force. -/
theorem is_log_squared_isotensional_legendre_helmholtz {ℓ' m' κ' η' T' : SReal} {ℓ m κ η T : ℝ} (eℓ : Is ℓ' ℓ) (em : Is m' m) (eκ : Is κ' κ) (eη : Is η' η) (eT : Is T' T)
    (hℓ : 0 < ℓ) (hm : 0 < m) (hη : 0 < η) (hT : 0 < T) :
    Is (Polymers.ufjc.log_squared.thermodynamics.isotensional.legendre.nondimensional_helmholtz_free_energy_per_link ℓ' m' κ' η' T')
      (Polymers.ufjc.log_squared.thermodynamics.isotensional.legendre.nondimensional_helmholtz_free_energy_per_link ℓ m κ η T) := by
  have hs := log_squared_stretch_code
  defined [Is.integrate_Ioo rfl ?_ ?_ (by norm_num [POINTS]) hs fun t h0 h1 => ?_]
  all_goals first
    | exact quad_pos hη hs
    | exact (quad_pos hη hs).ne'
    | (have ht := zero_pos'.trans ‹(ZERO : ℝ) < _›; side)

/-- C46: every method of the family is defined for every positive force. -/
theorem C46_log_squared_isotensional_gibbs {N : ℕ} (hN : 0 < N) {ℓ m k : ℝ} (hℓ : 0 < ℓ) (hm : 0 < m) :
    (ApiS.log_squared_isotensional_gibbs N ℓ m k).DefinedAs (Api.log_squared_isotensional_gibbs N ℓ m k) (fun f T => ndForce ℓ f T)
      (fun y _ => 0 < y) := by
  have hN' : (0 : ℝ) < N := Nat.cast_pos.2 (by omega)
  constructor <;> intro x T hT hD <;> refine (?_ : Is _ _)
  all_goals
    have hx : 0 < x := by first | exact hD | exact pos_of_ndForce hℓ hT hD
  all_goals defined [is_log_squared_isotensional_gibbs ?_ ?_ ?_ ?_ ?_ ?_ ?_ ?_ ?_]

example : (ApiS.log_squared_isotensional_gibbs 8 1 1 500).DefinedAs (Api.log_squared_isotensional_gibbs 8 1 1 500) (fun f T => ndForce 1 f T)
    (fun y _ => 0 < y) :=
  C46_log_squared_isotensional_gibbs (N := 8) (m := 1) (by norm_num) (by norm_num) (by norm_num)

/-- C46: every method of the family is defined for every positive force. -/
theorem C46_log_squared_isotensional_lengths {N : ℕ} (hN : 0 < N) {ℓ m k : ℝ} (hℓ : 0 < ℓ) :
    (ApiS.log_squared_isotensional_lengths N ℓ m k).DefinedAs (Api.log_squared_isotensional_lengths N ℓ m k) (fun f T => ndForce ℓ f T)
      (fun y _ => 0 < y) := by
  have hN' : (0 : ℝ) < N := Nat.cast_pos.2 (by omega)
  constructor <;> intro x T hT hD <;> refine (?_ : Is _ _)
  all_goals
    have hx : 0 < x := by first | exact hD | exact pos_of_ndForce hℓ hT hD
  all_goals defined [is_log_squared_isotensional_lengths ?_ ?_ ?_]

example : (ApiS.log_squared_isotensional_lengths 8 1 1 500).DefinedAs (Api.log_squared_isotensional_lengths 8 1 1 500) (fun f T => ndForce 1 f T)
    (fun y _ => 0 < y) :=
  C46_log_squared_isotensional_lengths (N := 8) (m := 1) (by norm_num) (by norm_num)

/-- C46: every method of the family is defined for every positive force. -/
theorem C46_log_squared_isotensional_legendre_helmholtz {N : ℕ} (hN : 0 < N) {ℓ m k : ℝ} (hℓ : 0 < ℓ) (hm : 0 < m) :
    (ApiS.log_squared_isotensional_legendre_helmholtz N ℓ m k).DefinedAs (Api.log_squared_isotensional_legendre_helmholtz N ℓ m k) (fun f T => ndForce ℓ f T)
      (fun y _ => 0 < y) := by
  have hN' : (0 : ℝ) < N := Nat.cast_pos.2 (by omega)
  constructor <;> intro x T hT hD <;> refine (?_ : Is _ _)
  all_goals
    have hx : 0 < x := by first | exact hD | exact pos_of_ndForce hℓ hT hD
  all_goals defined [is_log_squared_isotensional_legendre_helmholtz ?_ ?_ ?_ ?_ ?_ ?_ ?_ ?_ ?_]

example : (ApiS.log_squared_isotensional_legendre_helmholtz 8 1 1 500).DefinedAs (Api.log_squared_isotensional_legendre_helmholtz 8 1 1 500) (fun f T => ndForce 1 f T)
    (fun y _ => 0 < y) :=
  C46_log_squared_isotensional_legendre_helmholtz (N := 8) (m := 1) (by norm_num) (by norm_num) (by norm_num)

end Polymers.Props
