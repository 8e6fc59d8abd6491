import Verif.Lemmas.IrwinHallNorm
import Verif.Props.FjcIsometric
import Verif.Props.Ideal
import Mathlib.MeasureTheory.Integral.Gamma

/-! C50: the exact distributions of the end-to-end length are normalised. -/

namespace Polymers.Props

open Polymers.Spec Polymers.Api Polymers.Lemmas Set Filter Topology MeasureTheory

theorem fjc_nd_radial {N : ℕ} (hN2 : 2 ≤ N) (hN : N ≤ 26) (ℓ m : ℝ) {γ : ℝ} (h0 : 0 < γ) :
    (fjc_isometric_distribution N ℓ m).nd_radial γ =
      4 * Real.pi * treloarFactor N * (γ * fjc.thermodynamics.treloar_sum N γ ((N : ℤ) - 2)) := by
  simp only [fjc_isometric_distribution, fjc.FJC.init, fjc.thermodynamics.FJC.init,
    fjc.thermodynamics.isometric.FJC.init,
    fjc.thermodynamics.isometric.FJC.nondimensional_equilibrium_radial_distribution,
    fjc.thermodynamics.isometric.nondimensional_equilibrium_radial_distribution,
    fjc.thermodynamics.isometric.nondimensional_equilibrium_distribution, treloar_density_eq hN2 hN]
  simp only [model_real]
  field_simp

theorem treloar_moment {N : ℕ} (hN2 : 2 ≤ N) (hN : N ≤ 34) :
    ∫ γ in (0 : ℝ)..1, γ * fjc.thermodynamics.treloar_sum N γ ((N : ℤ) - 2) =
      2 * (N.factorial : ℝ) / (N ^ 3 * (N - 1)) / N ^ (N - 2) := by
  rcases Nat.lt_or_ge N 3 with h | h
  · obtain rfl : N = 2 := by omega
    have e : EqOn (fun γ : ℝ => γ * fjc.thermodynamics.treloar_sum 2 γ (((2 : ℕ) : ℤ) - 2)) (fun γ => γ) (Ioo 0 1) := by
      intro γ hγ
      simp only
      rw [treloar_sum_eq (by norm_num) (by norm_num) (by linarith [hγ.1]) hγ.2]
      have : ⌈treloarX 2 γ⌉₊ = 1 := by
        rw [Nat.ceil_eq_iff (by norm_num)]
        unfold treloarX
        push_cast
        have := hγ.1
        have := hγ.2
        constructor <;> norm_num <;> linarith
      rw [this]
      norm_num
    rw [intervalIntegral.integral_congr_Ioo_of_le zero_le_one e, integral_id]
    norm_num [Nat.factorial]
  · obtain ⟨n, rfl⟩ : ∃ n, N = n + 3 := ⟨N - 3, by omega⟩
    have e1 : ((n + 3 : ℕ) : ℤ) - 2 = ((n + 1 : ℕ) : ℤ) := by push_cast; ring
    have e : EqOn (fun γ : ℝ => γ * fjc.thermodynamics.treloar_sum (n + 3) γ (((n + 3 : ℕ) : ℤ) - 2))
        (fun γ => γ * spline (n + 3) (n + 1) (((n + 3 : ℕ) : ℝ) * ((1 - γ) / 2)) * (1 / ((n + 3 : ℕ) : ℝ) ^ (n + 1))) (Ioo 0 1) := by
      intro γ hγ
      simp only
      rw [e1, treloar_sum_spline (by omega) hN (by linarith [hγ.1]) hγ.2 (by omega), treloarX]
      ring
    rw [intervalIntegral.integral_congr_Ioo_of_le zero_le_one e, intervalIntegral.integral_mul_const, spline_moment]
    rw [show n + 3 - 2 = n + 1 from rfl]
    push_cast
    ring

/-- C50: the exact radial distribution of the freely jointed chain integrates to one over the extensions. -/
theorem C50_fjc_nd (N : ℕ) (ℓ m : ℝ) (hN2 : 2 ≤ N) (hN : N ≤ 26) :
    ∫ γ in (0 : ℝ)..1, (fjc_isometric_distribution N ℓ m).nd_radial γ = 1 := by
  have e : EqOn (fun γ : ℝ => (fjc_isometric_distribution N ℓ m).nd_radial γ)
      (fun γ => 4 * Real.pi * treloarFactor N * (γ * fjc.thermodynamics.treloar_sum N γ ((N : ℤ) - 2))) (Ioo 0 1) :=
    fun γ hγ => fjc_nd_radial hN2 hN ℓ m hγ.1
  rw [intervalIntegral.integral_congr_Ioo_of_le zero_le_one e, intervalIntegral.integral_const_mul,
    treloar_moment hN2 (by omega)]
  obtain ⟨n, rfl⟩ : ∃ n, N = n + 2 := ⟨N - 2, by omega⟩
  unfold treloarFactor
  have hpi := Real.pi_ne_zero
  rw [show n + 2 - 2 = n from rfl, Nat.factorial_succ, Nat.factorial_succ]
  have hf : (n.factorial : ℝ) ≠ 0 := by exact_mod_cast n.factorial_ne_zero
  have h2 : ((n + 2 : ℕ) : ℝ) ≠ 0 := by positivity
  have h1 : ((n + 2 : ℕ) : ℝ) - 1 ≠ 0 := by push_cast; have : (0 : ℝ) ≤ n := Nat.cast_nonneg n; linarith
  have h2' : (n : ℝ) + 2 ≠ 0 := by positivity
  have h1' : (n : ℝ) + 1 ≠ 0 := by positivity
  push_cast at *
  rw [show (n : ℝ) + 2 - 1 = n + 1 by ring, pow_add]
  field_simp
  ring

/-- C50: the dimensional radial distribution integrates to one over the lengths from 0 to the contour length. -/
theorem C50_fjc (N : ℕ) (ℓ m : ℝ) (hN2 : 2 ≤ N) (hN : N ≤ 26) (hℓ : 0 < ℓ) :
    ∫ r in (0 : ℝ)..N * ℓ, (fjc_isometric_distribution N ℓ m).radial r = 1 := by
  have hs := (C36_scales_fjc_isometric_distribution N ℓ m (by omega) hℓ).radial_scale
  have hc : (N : ℝ) * ℓ ≠ 0 := by positivity
  simp only [hs]
  rw [intervalIntegral.integral_div, intervalIntegral.integral_comp_div _ hc, zero_div, div_self hc,
    C50_fjc_nd N ℓ m hN2 hN]
  simp only [smul_eq_mul, mul_one]
  exact div_self hc

example : ∫ γ in (0 : ℝ)..1, (fjc_isometric_distribution 8 1 1).nd_radial γ = 1 :=
  C50_fjc_nd 8 1 1 (by norm_num) (by norm_num)

example : ∫ r in (0 : ℝ)..(8 : ℕ) * 1, (fjc_isometric_distribution 8 1 1).radial r = 1 :=
  C50_fjc 8 1 1 (by norm_num) (by norm_num) (by norm_num)

theorem integral_sq_mul_exp {b : ℝ} (hb : 0 < b) :
    ∫ x in Ioi (0 : ℝ), x ^ 2 * Real.exp (-b * x ^ 2) = b ^ (-(3 / 2 : ℝ)) * Real.sqrt Real.pi / 4 := by
  have h := integral_rpow_mul_exp_neg_mul_rpow (p := 2) (q := 2) (by norm_num) (by norm_num) hb
  simp only [Real.rpow_two] at h
  rw [h]
  have : Real.Gamma ((2 + 1) / 2) = Real.sqrt Real.pi / 2 := by
    rw [show ((2 : ℝ) + 1) / 2 = 1 / 2 + 1 by norm_num, Real.Gamma_add_one (by norm_num), Real.Gamma_one_half_eq]
    ring
  rw [this, show -(2 + 1 : ℝ) / 2 = -(3 / 2 : ℝ) by norm_num]
  ring

/-- C50: the radial distribution of the ideal chain integrates to one over all extensions. -/
theorem C50_ideal_nd (N : ℕ) (ℓ m : ℝ) (hN : 0 < N) :
    ∫ γ in Ioi (0 : ℝ), (ideal_isometric_distribution N ℓ m).nd_radial γ = 1 := by
  have hN' : (0 : ℝ) < N := by exact_mod_cast hN
  have hb : (0 : ℝ) < 3 / 2 * N := by positivity
  have e : ∀ γ, (ideal_isometric_distribution N ℓ m).nd_radial γ =
      4 * Real.pi * (3 / 2 / Real.pi * N) ^ (3 / 2 : ℝ) * (γ ^ 2 * Real.exp (-(3 / 2 * N) * γ ^ 2)) := by
    intro γ
    simp only [ideal_isometric_distribution, ideal.Ideal.init, ideal.thermodynamics.Ideal.init,
      ideal.thermodynamics.isometric.Ideal.init,
      ideal.thermodynamics.isometric.Ideal.nondimensional_equilibrium_radial_distribution,
      ideal.thermodynamics.isometric.nondimensional_equilibrium_radial_distribution, model_real]
    rw [show (-(3 / 2) * γ ^ 2 * (N : ℝ)) = -(3 / 2 * N) * γ ^ 2 by ring]
    ring
  simp only [e]
  rw [MeasureTheory.integral_const_mul, integral_sq_mul_exp hb]
  have hpi := Real.pi_pos
  rw [show 3 / 2 / Real.pi * (N : ℝ) = (3 / 2 * N) / Real.pi by ring, Real.div_rpow hb.le hpi.le,
    Real.rpow_neg hb.le]
  have h1 : ((3 / 2 * N : ℝ)) ^ (3 / 2 : ℝ) ≠ 0 := (Real.rpow_pos_of_pos hb _).ne'
  have h2 : Real.pi ^ (3 / 2 : ℝ) = Real.pi * Real.sqrt Real.pi := by
    rw [show (3 / 2 : ℝ) = 1 + 1 / 2 by norm_num, Real.rpow_add hpi, Real.rpow_one, Real.sqrt_eq_rpow]
  have h3 : Real.sqrt Real.pi ≠ 0 := (Real.sqrt_pos.2 hpi).ne'
  rw [h2]
  field_simp

example : ∫ γ in Ioi (0 : ℝ), (ideal_isometric_distribution 8 1 1).nd_radial γ = 1 :=
  C50_ideal_nd 8 1 1 (by norm_num)

end Polymers.Props
