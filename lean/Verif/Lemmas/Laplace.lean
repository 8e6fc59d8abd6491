import Mathlib.Analysis.SpecialFunctions.Gaussian.GaussianIntegral
import Mathlib.MeasureTheory.Integral.Gamma
import Mathlib.MeasureTheory.Integral.DominatedConvergence
import Mathlib.MeasureTheory.Measure.Haar.NormedSpace
import Mathlib.Analysis.Calculus.MeanValue
import Mathlib.MeasureTheory.Integral.IntegralEqImproper
import Mathlib.MeasureTheory.Integral.IntervalIntegral.Basic

/-! The mean of a function under a narrow Gaussian, to second order. -/

namespace Polymers.Lemmas

open Real MeasureTheory Set Filter Topology

theorem gauss_half_pos : (0 : ℝ) < 1 / 2 := by norm_num

theorem integrable_gauss : Integrable fun s : ℝ => exp (-(1 / 2) * s ^ 2) := integrable_exp_neg_mul_sq gauss_half_pos

theorem integral_gauss : ∫ s : ℝ, exp (-(1 / 2) * s ^ 2) = √(2 * π) := by
  rw [integral_gaussian]; congr 1; field_simp

theorem integrable_sq_gauss : Integrable fun s : ℝ => s ^ 2 * exp (-(1 / 2) * s ^ 2) := by
  have := integrable_rpow_mul_exp_neg_mul_sq gauss_half_pos (s := 2) (by norm_num)
  simpa using this

theorem integrable_mul_gauss : Integrable fun s : ℝ => s * exp (-(1 / 2) * s ^ 2) := integrable_mul_exp_neg_mul_sq gauss_half_pos

theorem integral_mul_gauss : ∫ s : ℝ, s * exp (-(1 / 2) * s ^ 2) = 0 := by
  have h := integral_neg_eq_self (fun s : ℝ => s * exp (-(1 / 2) * s ^ 2)) volume
  have e : ∀ s : ℝ, -s * exp (-(1 / 2) * (-s) ^ 2) = -(s * exp (-(1 / 2) * s ^ 2)) := fun s => by rw [neg_sq]; ring
  simp only [e, integral_neg] at h
  linarith

theorem integral_sq_gauss : ∫ s : ℝ, s ^ 2 * exp (-(1 / 2) * s ^ 2) = √(2 * π) := by
  -- integrate the derivative of `s e^{-s²/2}`
  have hd : ∀ s : ℝ, HasDerivAt (fun s => s * exp (-(1 / 2) * s ^ 2))
      (exp (-(1 / 2) * s ^ 2) - s ^ 2 * exp (-(1 / 2) * s ^ 2)) s := by
    intro s
    refine ((hasDerivAt_id s).mul (((hasDerivAt_pow 2 s).const_mul (-(1 / 2))).exp)).congr_deriv ?_
    simp only [id]; ring
  have h := integral_eq_zero_of_hasDerivAt_of_integrable hd (integrable_gauss.sub integrable_sq_gauss) integrable_mul_gauss
  rw [integral_sub integrable_gauss integrable_sq_gauss, integral_gauss] at h
  linarith

/-- Taylor's theorem of second order in the form of Peano. -/
theorem taylor_two {G G1 : ℝ → ℝ} {d g2 : ℝ} (h1 : ∀ᶠ x in 𝓝 d, HasDerivAt G (G1 x) x) (h2 : HasDerivAt G1 g2 d) :
    (fun t => G (d + t) - G d - G1 d * t - g2 / 2 * t ^ 2) =o[𝓝 0] fun t => t ^ 2 := by
  rw [Asymptotics.isLittleO_iff]
  intro ε hε
  have h2' := (hasDerivAt_iff_isLittleO_nhds_zero.1 h2)
  rw [Asymptotics.isLittleO_iff] at h2'
  have h1' : ∀ᶠ t in 𝓝 (0 : ℝ), HasDerivAt G (G1 (d + t)) (d + t) := by
    have : Tendsto (fun t : ℝ => d + t) (𝓝 0) (𝓝 d) := by
      have := (by fun_prop : Continuous fun t : ℝ => d + t).tendsto 0
      simpa using this
    exact this.eventually h1
  obtain ⟨δ, hδ, hb⟩ := Metric.eventually_nhds_iff.1 ((h2' hε).and h1')
  refine Metric.eventually_nhds_iff.2 ⟨δ, hδ, fun t ht => ?_⟩
  have hder : ∀ u ∈ uIcc 0 t, HasDerivWithinAt (fun u => G (d + u) - G d - G1 d * u - g2 / 2 * u ^ 2)
      (G1 (d + u) - G1 d - u * g2) (uIcc 0 t) u := by
    intro u hu
    have hu' : dist u 0 < δ := by
      rw [Real.dist_0_eq_abs] at ht ⊢
      refine lt_of_le_of_lt ?_ ht
      rcases le_total 0 t with h | h
      · rw [uIcc_of_le h] at hu; rw [abs_of_nonneg hu.1, abs_of_nonneg h]; exact hu.2
      · rw [uIcc_of_ge h] at hu; rw [abs_of_nonpos hu.2, abs_of_nonpos h]; linarith [hu.1]
    have hg : HasDerivAt (fun u => G (d + u)) (G1 (d + u)) u := by
      have := (hb hu').2.comp u ((hasDerivAt_id u).const_add d)
      rw [mul_one] at this
      exact this
    refine ((((hg.sub_const (G d)).sub ((hasDerivAt_id u).const_mul (G1 d))).sub
      ((hasDerivAt_pow 2 u).const_mul (g2 / 2))).congr_deriv ?_).hasDerivWithinAt
    simp; ring
  have hbound : ∀ u ∈ uIcc 0 t, ‖G1 (d + u) - G1 d - u * g2‖ ≤ ε * |t| := by
    intro u hu
    have hut : |u| ≤ |t| := by
      rcases le_total 0 t with h | h
      · rw [uIcc_of_le h] at hu; rw [abs_of_nonneg hu.1, abs_of_nonneg h]; exact hu.2
      · rw [uIcc_of_ge h] at hu; rw [abs_of_nonpos hu.2, abs_of_nonpos h]; linarith [hu.1]
    have hu' : dist u 0 < δ := by
      rw [Real.dist_0_eq_abs] at ht ⊢
      exact lt_of_le_of_lt hut ht
    have := (hb hu').1
    simp only [smul_eq_mul] at this
    refine this.trans ?_
    rw [Real.norm_eq_abs]
    exact mul_le_mul_of_nonneg_left hut hε.le
  have := (convex_uIcc 0 t).norm_image_sub_le_of_norm_hasDerivWithin_le hder hbound left_mem_uIcc right_mem_uIcc
  simp only [add_zero, sub_self, mul_zero, ne_eq, OfNat.ofNat_ne_zero, not_false_eq_true, zero_pow, sub_zero] at this
  refine this.trans ?_
  rw [Real.norm_eq_abs, Real.norm_eq_abs, abs_pow, mul_assoc, ← sq]

/-- The mean of `G` under a Gaussian of variance `1/c` at `d`, cut off outside a neighbourhood, is
`G d + G'' d / (2 c)` to first order in `1/c`. -/
theorem gauss_mean {G : ℝ → ℝ} {d g1 g2 M : ℝ} (hm : Measurable G) (hM : ∀ x, |G x| ≤ M)
    (hT : (fun t => G (d + t) - G d - g1 * t - g2 / 2 * t ^ 2) =o[𝓝 0] fun t => t ^ 2) :
    Tendsto (fun c : ℝ => c * (√(c / (2 * π)) * (∫ r, G r * exp (-(c / 2) * (r - d) ^ 2)) - G d)) atTop (𝓝 (g2 / 2)) := by
  -- a global quadratic bound of the remainder
  obtain ⟨B, hB⟩ : ∃ B, ∀ t, |G (d + t) - G d - g1 * t| ≤ B * t ^ 2 := by
    have h1 := (Asymptotics.isLittleO_iff.1 hT) (one_pos)
    obtain ⟨δ, hδ, hb⟩ := Metric.eventually_nhds_iff.1 h1
    have hM0 : 0 ≤ M := (abs_nonneg _).trans (hM d)
    refine ⟨1 + |g2 / 2| + 2 * M / δ ^ 2 + |g1| / δ, fun t => ?_⟩
    have hpos1 : 0 ≤ 2 * M / δ ^ 2 := by positivity
    have hpos2 : 0 ≤ |g1| / δ := by positivity
    rcases lt_or_ge |t| δ with h | h
    · have := hb (y := t) (by rwa [Real.dist_0_eq_abs])
      rw [Real.norm_eq_abs, Real.norm_eq_abs, abs_of_nonneg (sq_nonneg t)] at this
      have h3 : |G (d + t) - G d - g1 * t| ≤ |G (d + t) - G d - g1 * t - g2 / 2 * t ^ 2| + |g2 / 2 * t ^ 2| := by
        have := abs_add_le (G (d + t) - G d - g1 * t - g2 / 2 * t ^ 2) (g2 / 2 * t ^ 2)
        rwa [sub_add_cancel] at this
      rw [abs_mul, abs_of_nonneg (sq_nonneg t)] at h3
      nlinarith [sq_nonneg t, mul_nonneg hpos1 (sq_nonneg t), mul_nonneg hpos2 (sq_nonneg t)]
    · have h3 : |G (d + t) - G d - g1 * t| ≤ 2 * M + |g1| * |t| := by
        have e1 := abs_sub (G (d + t) - G d) (g1 * t)
        have e2 := abs_sub (G (d + t)) (G d)
        rw [abs_mul] at e1
        linarith [hM (d + t), hM d]
      have ht2 : δ ^ 2 ≤ t ^ 2 := by rw [← sq_abs t]; exact pow_le_pow_left₀ hδ.le h 2
      have e1 : 2 * M ≤ 2 * M / δ ^ 2 * t ^ 2 := by
        rw [div_mul_eq_mul_div, le_div_iff₀ (by positivity)]
        exact mul_le_mul_of_nonneg_left ht2 (by positivity)
      have e2 : |g1| * |t| ≤ |g1| / δ * t ^ 2 := by
        rw [div_mul_eq_mul_div, le_div_iff₀ hδ, mul_assoc]
        refine mul_le_mul_of_nonneg_left ?_ (abs_nonneg _)
        rw [← sq_abs t, sq]
        exact mul_le_mul_of_nonneg_left h (abs_nonneg _)
      nlinarith [sq_nonneg t, mul_nonneg (abs_nonneg (g2 / 2)) (sq_nonneg t)]
  have h2π : (0 : ℝ) < 2 * π := by positivity
  -- the rescaled integrand
  have key : ∀ c : ℝ, 0 < c → c * (√(c / (2 * π)) * (∫ r, G r * exp (-(c / 2) * (r - d) ^ 2)) - G d) =
      (√(2 * π))⁻¹ * ∫ s, c * (G (d + s / √c) - G d - g1 * (s / √c)) * exp (-(1 / 2) * s ^ 2) := by
    intro c hc
    have hs := Real.sqrt_pos.2 hc
    have e1 : ∫ r, G r * exp (-(c / 2) * (r - d) ^ 2) = ∫ t, G (d + t) * exp (-(c / 2) * t ^ 2) := by
      rw [← integral_add_left_eq_self (μ := volume) (fun r => G r * exp (-(c / 2) * (r - d) ^ 2)) d]
      simp only [add_sub_cancel_left]
    have e2 := Measure.integral_comp_mul_left (fun t => G (d + t) * exp (-(c / 2) * t ^ 2)) (√c)⁻¹
    rw [inv_inv, abs_of_pos hs, smul_eq_mul] at e2
    have e3 : ∀ s : ℝ, G (d + (√c)⁻¹ * s) * exp (-(c / 2) * ((√c)⁻¹ * s) ^ 2) = G (d + s / √c) * exp (-(1 / 2) * s ^ 2) := by
      intro s
      rw [show (√c)⁻¹ * s = s / √c by rw [div_eq_inv_mul], div_pow, Real.sq_sqrt hc.le]
      congr 2
      field_simp
    simp only [e3] at e2
    have hG : Integrable fun s : ℝ => G (d + s / √c) * exp (-(1 / 2) * s ^ 2) := by
      refine integrable_gauss.bdd_mul (c := M) ?_ ?_
      · exact (hm.comp ((measurable_id.div_const _).const_add d)).aestronglyMeasurable
      · exact Eventually.of_forall fun s => by rw [Real.norm_eq_abs]; exact hM _
    have e4 : ∫ s, c * (G (d + s / √c) - G d - g1 * (s / √c)) * exp (-(1 / 2) * s ^ 2) =
        c * ((∫ s, G (d + s / √c) * exp (-(1 / 2) * s ^ 2)) - G d * √(2 * π)) := by
      have h5 : Integrable fun s : ℝ => G (d + s / √c) * exp (-(1 / 2) * s ^ 2) - G d * exp (-(1 / 2) * s ^ 2) :=
        hG.sub (integrable_gauss.const_mul _)
      have : ∀ s, c * (G (d + s / √c) - G d - g1 * (s / √c)) * exp (-(1 / 2) * s ^ 2) =
          c * (G (d + s / √c) * exp (-(1 / 2) * s ^ 2) - G d * exp (-(1 / 2) * s ^ 2) -
            g1 / √c * (s * exp (-(1 / 2) * s ^ 2))) := fun s => by ring
      simp only [this]
      rw [integral_const_mul, integral_sub h5 (integrable_mul_gauss.const_mul _),
        integral_sub hG (integrable_gauss.const_mul _), integral_const_mul, integral_const_mul, integral_gauss,
        integral_mul_gauss]
      ring
    rw [e4, e2, e1, Real.sqrt_div hc.le]
    have := (Real.sqrt_pos.2 h2π).ne'
    field_simp
  have hlim : Tendsto (fun c : ℝ => ∫ s, c * (G (d + s / √c) - G d - g1 * (s / √c)) * exp (-(1 / 2) * s ^ 2)) atTop
      (𝓝 (∫ s, g2 / 2 * (s ^ 2 * exp (-(1 / 2) * s ^ 2)))) := by
    refine tendsto_integral_filter_of_dominated_convergence (fun s => B * (s ^ 2 * exp (-(1 / 2) * s ^ 2))) ?_ ?_
      (integrable_sq_gauss.const_mul _) ?_
    · refine Eventually.of_forall fun c => Measurable.aestronglyMeasurable ?_
      exact ((((hm.comp ((measurable_id.div_const _).const_add d)).sub_const _).sub
        ((measurable_id.div_const _).const_mul g1)).const_mul c).mul (by fun_prop)
    · filter_upwards [eventually_gt_atTop 0] with c hc
      refine Eventually.of_forall fun s => ?_
      rw [Real.norm_eq_abs, abs_mul, abs_mul, abs_of_pos hc, abs_of_pos (exp_pos _), ← mul_assoc]
      refine mul_le_mul_of_nonneg_right ?_ (exp_pos _).le
      have := hB (s / √c)
      rw [div_pow, Real.sq_sqrt hc.le] at this
      calc c * |G (d + s / √c) - G d - g1 * (s / √c)| ≤ c * (B * (s ^ 2 / c)) := mul_le_mul_of_nonneg_left this hc.le
        _ = B * s ^ 2 := by field_simp
    · refine Eventually.of_forall fun s => ?_
      have hz : Tendsto (fun c : ℝ => s / √c) atTop (𝓝 0) := tendsto_const_nhds.div_atTop tendsto_sqrt_atTop
      have hq := hT.comp_tendsto hz
      rw [← mul_assoc]
      refine Tendsto.mul_const _ ?_
      rcases eq_or_ne s 0 with rfl | hs
      · simp
      have h3 := hq.tendsto_div_nhds_zero
      have h4 : Tendsto (fun c : ℝ => (G (d + s / √c) - G d - g1 * (s / √c) - g2 / 2 * (s / √c) ^ 2) / (s / √c) ^ 2 * s ^ 2 +
          g2 / 2 * s ^ 2) atTop (𝓝 (0 * s ^ 2 + g2 / 2 * s ^ 2)) := (h3.mul_const _).add_const _
      rw [zero_mul, zero_add] at h4
      refine h4.congr' ?_
      filter_upwards [eventually_gt_atTop 0] with c hc
      have := (Real.sqrt_pos.2 hc).ne'
      have e : (s / √c) ^ 2 = s ^ 2 / c := by rw [div_pow, Real.sq_sqrt hc.le]
      simp only [e]
      field_simp
      ring
  rw [integral_const_mul, integral_sq_gauss] at hlim
  have hfin := hlim.const_mul (√(2 * π))⁻¹
  have e : (√(2 * π))⁻¹ * (g2 / 2 * √(2 * π)) = g2 / 2 := by
    have := (Real.sqrt_pos.2 h2π).ne'
    field_simp
  rw [e] at hfin
  refine hfin.congr' ?_
  filter_upwards [eventually_gt_atTop 0] with c hc
  exact (key c hc).symm

end Polymers.Lemmas
