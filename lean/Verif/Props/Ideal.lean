import Verif.Props.ScalingIdeal
import Verif.Lemmas.Gradient
import Mathlib.Analysis.SpecialFunctions.Gaussian.FourierTransform
import Mathlib.MeasureTheory.Integral.Gamma
import Mathlib.MeasureTheory.Measure.Haar.InnerProductSpace
import Mathlib.Analysis.Calculus.Deriv.Pow

/-! Properties C11, C12, C13: the ideal chain. -/

namespace Polymers.Props

open Polymers.Spec Polymers.Api MeasureTheory Set

/-- C11: the force of the isometric ensemble is the derivative of the Helmholtz free energy, at every end-to-end
length. -/
theorem C11_ideal_force_is_gradient (N : ℕ) (ℓ m : ℝ) (hN : 0 < N) (hℓ : 0 < ℓ) :
    (ideal_isometric_forces N ℓ m).IsGradient (ideal_isometric_helmholtz N ℓ m) N ℓ (fun _ _ => True) := by
  refine .of_nd hN (C15_ideal_isometric_helmholtz N ℓ m hN hℓ) (C15_ideal_isometric_forces N ℓ m hN hℓ) ?_
  intro γ T _ _
  simp only [ideal_isometric_forces, ideal_isometric_helmholtz, ideal.Ideal.init, ideal.thermodynamics.Ideal.init,
    ideal.thermodynamics.isometric.Ideal.init, ideal.thermodynamics.isometric.Ideal.nondimensional_force,
    ideal.thermodynamics.isometric.Ideal.nondimensional_helmholtz_free_energy_per_link,
    ideal.thermodynamics.isometric.nondimensional_force,
    ideal.thermodynamics.isometric.nondimensional_helmholtz_free_energy_per_link, model_real]
  refine ((((hasDerivAt_id γ).pow 2).const_mul _).sub_const _).congr_deriv ?_
  simp; ring

/-- C11: the relative Helmholtz free energy is the energy relative to zero end-to-end length. -/
theorem C11_ideal_relative (N : ℕ) (ℓ m : ℝ) (hN : 0 < N) (hℓ : 0 < ℓ) :
    (ideal_isometric_helmholtz N ℓ m).RelativeTo (ndLength N ℓ) 0 := by
  refine .of_nd hN (C15_ideal_isometric_helmholtz N ℓ m hN hℓ) ?_
  intro γ T _
  simp only [ideal_isometric_helmholtz, ideal.Ideal.init, ideal.thermodynamics.Ideal.init,
    ideal.thermodynamics.isometric.Ideal.init,
    ideal.thermodynamics.isometric.Ideal.nondimensional_helmholtz_free_energy_per_link,
    ideal.thermodynamics.isometric.Ideal.nondimensional_relative_helmholtz_free_energy_per_link,
    ideal.thermodynamics.isometric.nondimensional_relative_helmholtz_free_energy_per_link,
    ideal.thermodynamics.isometric.nondimensional_helmholtz_free_energy_per_link, model_real]
  ring

example : (ideal_isometric_forces 8 1 1).IsGradient (ideal_isometric_helmholtz 8 1 1) 8 1 (fun _ _ => True) :=
  C11_ideal_force_is_gradient 8 1 1 (by norm_num) (by norm_num)

/-- The force is linear in the end-to-end length with the spring constant `3 k T / (N ℓ²)`. -/
theorem C11_ideal_force_eq (N : ℕ) (ℓ m ξ T : ℝ) :
    (ideal_isometric_forces N ℓ m).force ξ T = 3 * kT T / (N * ℓ ^ 2) * ξ := by
  simp only [ideal_isometric_forces, ideal.Ideal.init, ideal.thermodynamics.Ideal.init,
    ideal.thermodynamics.isometric.Ideal.init, ideal.thermodynamics.isometric.Ideal.force,
    ideal.thermodynamics.isometric.force, kT_eq, model_real]
  rw [div_mul_eq_mul_div, div_div]
  ring

/-- C13: the end-to-end length is minus the derivative of the Gibbs free energy, at every force. -/
theorem C13_ideal_length_is_gradient (N : ℕ) (ℓ m : ℝ) (hN : 0 < N) (hℓ : 0 < ℓ) :
    (ideal_isotensional_lengths N ℓ m).IsMinusGradient (ideal_isotensional_gibbs N ℓ m) ℓ (fun _ _ => True) := by
  refine .of_nd (C15_ideal_isotensional_gibbs N ℓ m hN hℓ) (C15_ideal_isotensional_lengths N ℓ m hN hℓ) ?_
  intro η T _ _
  simp only [ideal_isotensional_lengths, ideal_isotensional_gibbs, ideal.Ideal.init, ideal.thermodynamics.Ideal.init,
    ideal.thermodynamics.isotensional.Ideal.init,
    ideal.thermodynamics.isotensional.Ideal.nondimensional_end_to_end_length_per_link,
    ideal.thermodynamics.isotensional.Ideal.nondimensional_gibbs_free_energy_per_link,
    ideal.thermodynamics.isotensional.nondimensional_end_to_end_length_per_link,
    ideal.thermodynamics.isotensional.nondimensional_gibbs_free_energy_per_link, model_real]
  refine (((((hasDerivAt_id η).pow 2).neg).div_const _).sub_const _).congr_deriv ?_
  simp; ring

/-- C13: the relative Gibbs free energy is the energy relative to zero force. -/
theorem C13_ideal_relative (N : ℕ) (ℓ m : ℝ) (hN : 0 < N) (hℓ : 0 < ℓ) :
    (ideal_isotensional_gibbs N ℓ m).RelativeTo (ndForce ℓ) 0 := by
  refine .of_nd hN (C15_ideal_isotensional_gibbs N ℓ m hN hℓ) ?_
  intro η T _
  simp only [ideal_isotensional_gibbs, ideal.Ideal.init, ideal.thermodynamics.Ideal.init,
    ideal.thermodynamics.isotensional.Ideal.init,
    ideal.thermodynamics.isotensional.Ideal.nondimensional_gibbs_free_energy_per_link,
    ideal.thermodynamics.isotensional.Ideal.nondimensional_relative_gibbs_free_energy_per_link,
    ideal.thermodynamics.isotensional.nondimensional_relative_gibbs_free_energy_per_link,
    ideal.thermodynamics.isotensional.nondimensional_gibbs_free_energy_per_link, model_real]
  ring

theorem C13_ideal_length_eq (N : ℕ) (ℓ m f T : ℝ) :
    (ideal_isotensional_lengths N ℓ m).length f T = N * ℓ ^ 2 / (3 * kT T) * f := by
  simp only [ideal_isotensional_lengths, ideal.Ideal.init, ideal.thermodynamics.Ideal.init,
    ideal.thermodynamics.isotensional.Ideal.init, ideal.thermodynamics.isotensional.Ideal.end_to_end_length,
    ideal.thermodynamics.isotensional.end_to_end_length, kT_eq, model_real]
  ring

/-- C13: force and end-to-end length of the two ensembles are inverse functions of each other. -/
theorem C13_ideal_inverse (N : ℕ) (ℓ m T : ℝ) (hN : 0 < N) (hℓ : 0 < ℓ) (hT : 0 < T) :
    (∀ f, (ideal_isometric_forces N ℓ m).force ((ideal_isotensional_lengths N ℓ m).length f T) T = f) ∧
      ∀ ξ, (ideal_isotensional_lengths N ℓ m).length ((ideal_isometric_forces N ℓ m).force ξ T) T = ξ := by
  have hk := (kT_pos hT).ne'
  have hN' := ((Nat.cast_pos (α := ℝ)).2 hN).ne'
  constructor <;> intro x <;> rw [C13_ideal_length_eq, C11_ideal_force_eq] <;> field_simp

example : (ideal_isometric_forces 8 1 1).force ((ideal_isotensional_lengths 8 1 1).length 5 300) 300 = 5 :=
  (C13_ideal_inverse 8 1 1 300 (by norm_num) (by norm_num) (by norm_num)).1 5

theorem ideal_density_eq {N : ℕ} (hN : 0 < N) {ℓ : ℝ} (hℓ : 0 < ℓ) (m r : ℝ) :
    (ideal_isometric_distribution N ℓ m).density r =
      (Real.pi / (3 / (2 * N * ℓ ^ 2))) ^ (-(3 / 2 : ℝ)) * Real.exp (-(3 / (2 * N * ℓ ^ 2)) * r ^ 2) := by
  have hN' := (Nat.cast_pos (α := ℝ)).2 hN
  have hpi := Real.pi_pos
  simp only [ideal_isometric_distribution, ideal.Ideal.init, ideal.thermodynamics.Ideal.init,
    ideal.thermodynamics.isometric.Ideal.init, ideal.thermodynamics.isometric.Ideal.equilibrium_distribution,
    ideal.thermodynamics.isometric.equilibrium_distribution, model_real]
  rw [Real.rpow_neg (by positivity), ← Real.inv_rpow (by positivity)]
  congr 2
  · field_simp
  · field_simp

/-- C12: the density is positive. -/
theorem C12_ideal_density_pos (N : ℕ) (ℓ m r : ℝ) (hN : 0 < N) (hℓ : 0 < ℓ) :
    0 < (ideal_isometric_distribution N ℓ m).density r := by
  have hN' := (Nat.cast_pos (α := ℝ)).2 hN
  rw [ideal_density_eq hN hℓ]
  have hpi := Real.pi_pos
  positivity

/-- C12: the density integrates to one over three-dimensional space. -/
theorem C12_ideal_density_integral (N : ℕ) (ℓ m : ℝ) (hN : 0 < N) (hℓ : 0 < ℓ) :
    ∫ x : EuclideanSpace ℝ (Fin 3), (ideal_isometric_distribution N ℓ m).density ‖x‖ = 1 := by
  have hN' := (Nat.cast_pos (α := ℝ)).2 hN
  have hpi := Real.pi_pos
  have hb : 0 < (3 / (2 * N * ℓ ^ 2) : ℝ) := by positivity
  simp only [ideal_density_eq hN hℓ]
  rw [integral_const_mul, GaussianFourier.integral_rexp_neg_mul_sq_norm hb]
  simp only [finrank_euclideanSpace, Fintype.card_fin]
  rw [← Real.rpow_add (by positivity)]
  norm_num

/-- C12: radial, dimensional and nondimensional versions. -/
theorem C12_ideal_distribution_scales (N : ℕ) (ℓ m : ℝ) (hN : 0 < N) (hℓ : 0 < ℓ) :
    (ideal_isometric_distribution N ℓ m).Scales Real.pi N ℓ := by
  have hN' := (Nat.cast_pos (α := ℝ)).2 hN
  have hpi := Real.pi_pos
  have key : ∀ r, (ideal_isometric_distribution N ℓ m).density r =
      (ideal_isometric_distribution N ℓ m).nd_density (r / (N * ℓ)) / (N * ℓ) ^ 3 := by
    intro r
    simp only [ideal_isometric_distribution, ideal.Ideal.init, ideal.thermodynamics.Ideal.init,
      ideal.thermodynamics.isometric.Ideal.init, ideal.thermodynamics.isometric.Ideal.equilibrium_distribution,
      ideal.thermodynamics.isometric.Ideal.nondimensional_equilibrium_distribution,
      ideal.thermodynamics.isometric.nondimensional_equilibrium_distribution,
      ideal.thermodynamics.isometric.equilibrium_distribution, model_real]
    have h1 : (3 / 2 / Real.pi * N : ℝ) = (3 / 2 / Real.pi / N / ℓ ^ 2) * (N * ℓ) ^ 2 := by field_simp
    have h2 : (((N * ℓ) ^ 2 : ℝ)) ^ (3 / 2 : ℝ) = (N * ℓ) ^ 3 := by
      rw [← Real.rpow_natCast, ← Real.rpow_mul (by positivity), ← Real.rpow_natCast]; norm_num
    rw [h1, Real.mul_rpow (by positivity) (by positivity), h2]
    have h3 : -(3 / 2) * (r / ℓ) ^ 2 / (N : ℝ) = -(3 / 2) * (r / (N * ℓ)) ^ 2 * N := by field_simp
    rw [h3]
    field_simp
  have nd : ∀ γ, (ideal_isometric_distribution N ℓ m).nd_radial γ =
      4 * Real.pi * γ ^ 2 * (ideal_isometric_distribution N ℓ m).nd_density γ := by
    intro γ
    simp only [ideal_isometric_distribution, ideal.Ideal.init, ideal.thermodynamics.Ideal.init,
      ideal.thermodynamics.isometric.Ideal.init,
      ideal.thermodynamics.isometric.Ideal.nondimensional_equilibrium_distribution,
      ideal.thermodynamics.isometric.Ideal.nondimensional_equilibrium_radial_distribution,
      ideal.thermodynamics.isometric.nondimensional_equilibrium_radial_distribution,
      ideal.thermodynamics.isometric.nondimensional_equilibrium_distribution, model_real]
    ring
  have rs : ∀ r, (ideal_isometric_distribution N ℓ m).radial r =
      (ideal_isometric_distribution N ℓ m).nd_radial (r / (N * ℓ)) / (N * ℓ) := by
    intro r
    simp only [ideal_isometric_distribution, ideal.Ideal.init, ideal.thermodynamics.Ideal.init,
      ideal.thermodynamics.isometric.Ideal.init,
      ideal.thermodynamics.isometric.Ideal.equilibrium_radial_distribution,
      ideal.thermodynamics.isometric.Ideal.nondimensional_equilibrium_radial_distribution,
      ideal.thermodynamics.isometric.nondimensional_equilibrium_radial_distribution,
      ideal.thermodynamics.isometric.equilibrium_radial_distribution, model_real]
  refine ⟨?_, nd, key, rs⟩
  intro r
  rw [rs, nd, key]
  field_simp

/-- C12: the radial distribution integrates to one over all end-to-end lengths. -/
theorem C12_ideal_radial_integral (N : ℕ) (ℓ m : ℝ) (hN : 0 < N) (hℓ : 0 < ℓ) :
    ∫ r in Ioi (0 : ℝ), (ideal_isometric_distribution N ℓ m).radial r = 1 := by
  have hN' := (Nat.cast_pos (α := ℝ)).2 hN
  have hpi := Real.pi_pos
  have hb : 0 < (3 / (2 * N * ℓ ^ 2) : ℝ) := by positivity
  set b : ℝ := 3 / (2 * N * ℓ ^ 2) with hbdef
  have e : ∀ r, (ideal_isometric_distribution N ℓ m).radial r =
      (4 * Real.pi * (Real.pi / b) ^ (-(3 / 2 : ℝ))) * (r ^ (2 : ℝ) * Real.exp (-b * r ^ (2 : ℝ))) := by
    intro r
    rw [(C12_ideal_distribution_scales N ℓ m hN hℓ).radial r, ideal_density_eq hN hℓ]
    norm_num [Real.rpow_two]
    ring
  simp only [e]
  rw [integral_const_mul, integral_rpow_mul_exp_neg_mul_rpow (by norm_num) (by norm_num) hb]
  have hG : Real.Gamma ((2 + 1) / 2) = Real.sqrt Real.pi / 2 := by
    have := Real.Gamma_add_one (s := 1 / 2) (by norm_num)
    rw [Real.Gamma_one_half_eq] at this
    rw [show ((2 : ℝ) + 1) / 2 = 1 / 2 + 1 by norm_num, this]; ring
  rw [hG, Real.div_rpow hpi.le hb.le]
  have h1 : b ^ (-(3 / 2 : ℝ)) ≠ 0 := (Real.rpow_pos_of_pos hb _).ne'
  rw [show (-(2 + 1) / 2 : ℝ) = -(3 / 2) by norm_num]
  have h2 : Real.pi ^ (-(3 / 2 : ℝ)) * (Real.pi * Real.sqrt Real.pi) = 1 := by
    rw [Real.sqrt_eq_rpow, show Real.pi * Real.pi ^ (1 / 2 : ℝ) = Real.pi ^ (1 + 1 / 2 : ℝ) by
      rw [Real.rpow_add hpi, Real.rpow_one], ← Real.rpow_add hpi]
    norm_num
  field_simp
  nlinarith [h2]

example : ∫ x : EuclideanSpace ℝ (Fin 3), (ideal_isometric_distribution 8 1 1).density ‖x‖ = 1 :=
  C12_ideal_density_integral 8 1 1 (by norm_num) (by norm_num)

example : ∫ r in Ioi (0 : ℝ), (ideal_isometric_distribution 8 1 1).radial r = 1 :=
  C12_ideal_radial_integral 8 1 1 (by norm_num) (by norm_num)

end Polymers.Props
