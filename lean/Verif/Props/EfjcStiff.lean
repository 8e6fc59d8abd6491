import Verif.Props.EfjcExact
import Verif.Props.ErrorFunction

/-! C55: the exact extensible chain at fixed force breaks down for stiff links, where the error function is evaluated below
-26.7. -/

namespace Polymers.Props

open Polymers.Spec Polymers.Api Polymers.Lemmas Real Set Filter Topology

theorem efjcDen_tendsto {κ : ℝ} (hκ : 0 < κ) : Tendsto (efjcDen κ) (𝓝[>] 0) (𝓝[>] 0) := by
  refine tendsto_nhdsWithin_iff.2 ⟨?_, ?_⟩
  · have h : efjcDen κ = fun η => 4 * sinh η + 4 * (η * cosh η) / κ := funext fun η => efjcDen_eq κ η
    have hc : Continuous (efjcDen κ) := by rw [h]; fun_prop
    have := hc.tendsto 0
    rw [efjcDen_eq] at this
    simp only [sinh_zero, zero_mul, mul_zero, zero_div, add_zero] at this
    exact this.mono_left nhdsWithin_le_nhds
  · filter_upwards [self_mem_nhdsWithin] with η hη
    have hη : 0 < η := hη
    have := sinh_pos_iff.2 hη
    have := cosh_pos η
    show 0 < efjcDen κ η
    rw [efjcDen_eq]
    positivity

theorem efjcNum_stiff {κ η : ℝ} (hκ : 1425.78 < κ) (hη : 0 < η) (h : (η - κ) / √(2 * κ) < -26.7) : 1 / 2 ≤ efjcNum κ η := by
  have hκ0 : 0 < κ := by norm_num at hκ; linarith
  have hs : 0 < √(2 * κ) := sqrt_pos.2 (by positivity)
  have hb := (C10_erf_negative_failure h).1
  have hlt : η < κ := by
    by_contra hc
    have : 0 ≤ (η - κ) / √(2 * κ) := div_nonneg (by linarith) hs.le
    exact absurd (this.trans_lt h) (by norm_num)
  have ha : 1 ≤ (η + κ) / √(2 * κ) := by
    rw [le_div_iff₀ hs, one_mul, sqrt_le_left (by linarith)]
    norm_num at hκ
    nlinarith
  have h1 := (C10_erfc_bound (show 0 ≤ (η + κ) / √(2 * κ) by linarith)).2
  have h2 := C10_erf_add_erfc ((η + κ) / √(2 * κ))
  have h3 : exp (-((η + κ) / √(2 * κ)) ^ 2) ≤ exp (-1) := exp_le_exp.2 (by nlinarith)
  have h4 : exp (-1 : ℝ) < 1 / 2 := by
    have := exp_one_gt_d9
    rw [exp_neg, ← one_div]
    exact one_div_lt_one_div_of_lt (by norm_num) (by linarith)
  have h5 : 1 / 2 ≤ math.erf ((η + κ) / √(2 * κ)) := by linarith
  have hq : 0 < η / κ := by positivity
  have hq1 : η / κ < 1 := by rwa [div_lt_one hκ0]
  have he : 1 ≤ exp η := one_le_exp hη.le
  have h6 : (η / κ - 1) / exp η * math.erf ((η - κ) / √(2 * κ)) ≤ 0 :=
    mul_nonpos_of_nonpos_of_nonneg (div_nonpos_of_nonpos_of_nonneg (by linarith) (by linarith)) (le_trans (by norm_num) hb.le)
  have h7 : 1 ≤ (η / κ + 1) * exp η := by nlinarith
  unfold efjcNum
  nlinarith

theorem efjc_stiff_energy (ℓ m T : ℝ) {κ : ℝ} (hκ : 1425.78 < κ) :
    Tendsto (fun η => efjc.thermodynamics.isotensional.nondimensional_gibbs_free_energy_per_link ℓ m κ η T) (𝓝[>] 0) atBot := by
  have hκ0 : 0 < κ := by norm_num at hκ; linarith
  have hs : 0 < √(2 * κ) := sqrt_pos.2 (by positivity)
  have hid : Tendsto (fun η : ℝ => η) (𝓝[>] 0) (𝓝 0) := tendsto_id.mono_left nhdsWithin_le_nhds
  have hsn : Tendsto (fun η : ℝ => sinh η / η) (𝓝[>] 0) (𝓝 1) := by
    have := tendsto_sinh_div.inv₀ one_ne_zero
    rw [inv_one] at this
    exact this.congr fun η => inv_div _ _
  have t1 := (continuousAt_log (one_ne_zero)).tendsto.comp hsn
  have t2 := ((hid.pow 2).const_mul (1 / 2)).div_const κ
  have t3 := (continuousAt_log (show 1 + 1 / κ ≠ 0 by positivity)).tendsto.comp ((tendsto_div_tanh.div_const κ).const_add 1)
  have hev : ∀ᶠ η in 𝓝[>] (0 : ℝ), (η - κ) / √(2 * κ) < -26.7 := by
    have hc : Continuous fun η : ℝ => (η - κ) / √(2 * κ) := by fun_prop
    have h0 : (0 - κ) / √(2 * κ) < -26.7 := by
      rw [zero_sub, neg_div, neg_lt_neg_iff, half_sqrt hκ0]
      exact lt_sqrt_of_sq_lt (by norm_num at hκ ⊢; linarith)
    exact ((hc.tendsto 0).mono_left nhdsWithin_le_nhds).eventually_lt_const h0
  have hinv : Tendsto (fun η => 1 / 2 * (efjcDen κ η)⁻¹) (𝓝[>] 0) atTop :=
    (tendsto_inv_nhdsGT_zero.comp (efjcDen_tendsto hκ0)).const_mul_atTop (by norm_num)
  have hfr : Tendsto (fun η => 1 / 2 + efjcNum κ η / efjcDen κ η) (𝓝[>] 0) atTop := by
    refine tendsto_atTop_mono' _ ?_ hinv
    filter_upwards [hev, self_mem_nhdsWithin, (tendsto_nhdsWithin_iff.1 (efjcDen_tendsto hκ0)).2] with η h1 h2 h3
    have h4 := efjcNum_stiff hκ h2 h1
    have h3 : 0 < efjcDen κ η := h3
    have : 1 / 2 * (efjcDen κ η)⁻¹ ≤ efjcNum κ η / efjcDen κ η := by
      rw [div_eq_mul_inv]
      exact mul_le_mul_of_nonneg_right h4 (inv_pos.2 h3).le
    linarith
  have t4 := tendsto_neg_atTop_atBot.comp (tendsto_log_atTop.comp hfr)
  simp only [efjc_exact_gibbs]
  have t := (((t1.neg.sub t2).sub t3).sub_const (1 / 2 * log (2 * π * ℓ ^ 2 / κ))).sub_const
    (log (8 * π ^ 2 * m * ℓ ^ 2 * (BOLTZMANN_CONSTANT : ℝ) * T / (PLANCK_CONSTANT : ℝ) ^ 2))
  refine (t.add_atBot t4).congr fun η => ?_
  simp only [Function.comp]
  ring

theorem ndForce_tendsto {ℓ T : ℝ} (hℓ : 0 < ℓ) (hT : 0 < T) : Tendsto (fun f => ndForce ℓ f T) (𝓝[>] 0) (𝓝[>] 0) := by
  have hkT : 0 < kT T := mul_pos Polymers.boltzmann_pos hT
  refine tendsto_nhdsWithin_iff.2 ⟨?_, ?_⟩
  · have : Continuous fun f => ndForce ℓ f T := by unfold ndForce; fun_prop
    have h := this.tendsto 0
    simp only [ndForce, zero_mul, zero_div] at h
    exact h.mono_left nhdsWithin_le_nhds
  · filter_upwards [self_mem_nhdsWithin] with f hf
    exact div_pos (mul_pos hf hℓ) hkT

/-- C55: whenever the nondimensional link stiffness is above 1425.78, the Gibbs free energy returned by the isotensional
extensible chain falls without bound as the force tends to zero. -/
theorem C55_efjc_gibbs_diverges (N : ℕ) (ℓ m k T : ℝ) (hN : 0 < N) (hℓ : 0 < ℓ) (hT : 0 < T)
    (hκ : 1425.78 < ndStiffness k ℓ T) :
    Tendsto (fun f => (efjc_isotensional_gibbs N ℓ m k).energy f T) (𝓝[>] 0) atBot := by
  have hN' : (0 : ℝ) < N := Nat.cast_pos.2 hN
  have hkT : 0 < kT T := mul_pos Polymers.boltzmann_pos hT
  have h := ((efjc_stiff_energy ℓ m T hκ).comp (ndForce_tendsto hℓ hT)).const_mul_atBot (show 0 < N * kT T by positivity)
  refine h.congr fun f => ?_
  have hs := C15_efjc_isotensional_gibbs N ℓ m k hN hℓ
  rw [hs.energy f T hT, hs.nd_total _ T hT]
  simp only [Function.comp, api_core, model_real]
  ring

example : Tendsto (fun f => (efjc_isotensional_gibbs 8 1 1 (8.314462618 * 300 * 2000)).energy f 300) (𝓝[>] 0) atBot := by
  refine C55_efjc_gibbs_diverges 8 1 1 _ 300 (by norm_num) (by norm_num) (by norm_num) ?_
  unfold ndStiffness kT
  norm_num

end Polymers.Props
