import Verif.Spec.LinkStatistics
import Verif.Spec.Links
import Verif.Lemmas.ErrorFunction
import Mathlib.MeasureTheory.Integral.IntegralEqImproper
import Mathlib.MeasureTheory.Integral.IntervalIntegral.FundThmCalculus
import Mathlib.Analysis.SpecialFunctions.Integrals.Basic
import Mathlib.Analysis.SpecialFunctions.Trigonometric.DerivHyp

/-! The integrals over the direction and the length of a link. -/

namespace Polymers.Lemmas

open Polymers.Spec Real Set Filter Topology MeasureTheory

theorem directionAverage_eq {a : ℝ} (ha : a ≠ 0) : directionAverage a = sinh a / a := by
  unfold directionAverage
  have h : ∀ x ∈ uIcc (-1 : ℝ) 1, HasDerivAt (fun x => exp (a * x) / a) (exp (a * x)) x := fun x _ => by
    refine ((((hasDerivAt_id x).const_mul a).exp).div_const a).congr_deriv ?_
    simp only [id, mul_one]
    field_simp
  rw [intervalIntegral.integral_eq_sub_of_hasDerivAt h (by apply Continuous.intervalIntegrable; fun_prop), sinh_eq]
  field_simp

theorem directionMoment_eq {η s : ℝ} (hη : η ≠ 0) (hs : s ≠ 0) :
    1 / 2 * ∫ x in (-1 : ℝ)..1, s * x * exp (η * s * x) = cosh (η * s) / η - sinh (η * s) / (η ^ 2 * s) := by
  have h : ∀ x ∈ uIcc (-1 : ℝ) 1, HasDerivAt (fun x => (x / η - 1 / (η ^ 2 * s)) * exp (η * s * x)) (s * x * exp (η * s * x)) x :=
    fun x _ => by
      refine ((((hasDerivAt_id x).div_const η).sub_const (1 / (η ^ 2 * s))).mul
        (((hasDerivAt_id x).const_mul (η * s)).exp)).congr_deriv ?_
      simp only [id, mul_one]
      field_simp
      ring
  rw [intervalIntegral.integral_eq_sub_of_hasDerivAt h (by apply Continuous.intervalIntegrable; fun_prop), sinh_eq, cosh_eq]
  field_simp
  ring_nf

theorem linkPartition_eq (w : ℝ → ℝ) {η : ℝ} (hη : η ≠ 0) :
    linkPartition w η = ∫ s in Ioi (0 : ℝ), w s * (s * sinh (η * s) / η) := by
  unfold linkPartition
  refine setIntegral_congr_fun measurableSet_Ioi fun s hs => ?_
  have hs : s ≠ 0 := ne_of_gt hs
  rw [directionAverage_eq (mul_ne_zero hη hs)]
  field_simp

theorem squareWell_integral {b : ℝ} (hb : 1 < b) (f : ℝ → ℝ) :
    ∫ s in Ioi (0 : ℝ), squareWell b s * f s = ∫ s in (1 : ℝ)..b, f s := by
  have e : (fun s => squareWell b s * f s) = (Icc 1 b).indicator f := by
    funext s
    unfold squareWell
    by_cases h : s ∈ Icc 1 b <;> simp [h]
  rw [e, setIntegral_indicator measurableSet_Icc, intervalIntegral.integral_of_le hb.le, ← integral_Icc_eq_integral_Ioc]
  congr 2
  ext s
  simp only [mem_inter_iff, mem_Ioi, mem_Icc, and_iff_right_iff_imp]
  intro h
  linarith [h.1]

theorem tendsto_errorFunction : Tendsto errorFunction atTop (𝓝 1) := by
  have h : Tendsto (fun x : ℝ => exp (-x ^ 2)) atTop (𝓝 0) :=
    tendsto_exp_atBot.comp (tendsto_neg_atTop_atBot.comp (tendsto_pow_atTop two_ne_zero))
  have h2 : Tendsto (fun x : ℝ => 1 - exp (-x ^ 2)) atTop (𝓝 1) := by simpa using tendsto_const_nhds.sub h
  refine tendsto_of_tendsto_of_tendsto_of_le_of_le' h2 tendsto_const_nhds ?_ ?_
  · filter_upwards [eventually_ge_atTop 0] with x hx
    linarith [(errorFunction_tail hx).2]
  · filter_upwards [eventually_ge_atTop 0] with x hx
    linarith [(errorFunction_tail hx).1]

/-- The Gaussian integral `∫₀^∞ s exp (η s - κ/2 (s - c)²) ds`, with `μ = c + η/κ`. -/
noncomputable def gaussMoment (κ c η : ℝ) : ℝ :=
  exp (c * η + η ^ 2 / (2 * κ)) * ((c + η / κ) * √(π / (2 * κ)) * (1 + errorFunction ((c + η / κ) * √(κ / 2)))) +
    exp (-κ * c ^ 2 / 2) / κ

theorem gaussMoment_integral {κ : ℝ} (hκ : 0 < κ) (c η : ℝ) :
    IntegrableOn (fun s => s * exp (η * s - κ / 2 * (s - c) ^ 2)) (Ioi 0) ∧
      ∫ s in Ioi (0 : ℝ), s * exp (η * s - κ / 2 * (s - c) ^ 2) = gaussMoment κ c η := by
  set μ := c + η / κ with hμ
  set b := √(κ / 2) with hb
  have hb0 : 0 < b := sqrt_pos.2 (by positivity)
  have hb2 : b ^ 2 = κ / 2 := sq_sqrt (by positivity)
  have hsplit : ∀ s, η * s - κ / 2 * (s - c) ^ 2 = (c * η + η ^ 2 / (2 * κ)) + -((s - μ) * b) ^ 2 := by
    intro s
    rw [mul_pow, hb2, hμ]
    field_simp
    ring
  set A := exp (c * η + η ^ 2 / (2 * κ)) with hA
  have hpi : √(π / (2 * κ)) * (2 / √π) * b = 1 := by
    rw [sqrt_div pi_pos.le, hb]
    have h1 : √(2 * κ) * √(κ / 2) = κ := by
      rw [← sqrt_mul (by positivity), show 2 * κ * (κ / 2) = κ ^ 2 by ring, sqrt_sq hκ.le]
    have h2 : √(κ / 2) = κ / √(2 * κ) := by
      rw [eq_div_iff (sqrt_pos.2 (by positivity)).ne', mul_comm, h1]
    have h3 : 0 < √π := sqrt_pos.2 pi_pos
    have h4 : √(2 * κ) * √(2 * κ) = 2 * κ := mul_self_sqrt (by positivity)
    have h5 : 0 < √(2 * κ) := sqrt_pos.2 (by positivity)
    rw [h2]
    field_simp
    nlinarith
  set F : ℝ → ℝ := fun s => A * (μ * √(π / (2 * κ)) * errorFunction ((s - μ) * b) - exp (-((s - μ) * b) ^ 2) / κ) with hF
  have hd : ∀ s, HasDerivAt F (s * exp (η * s - κ / 2 * (s - c) ^ 2)) s := by
    intro s
    have h0 : HasDerivAt (fun s => (s - μ) * b) b s := by simpa using ((hasDerivAt_id s).sub_const μ).mul_const b
    have h1 := (hasDerivAt_errorFunction ((s - μ) * b)).comp s h0
    have h2 := ((h0.pow 2).neg).exp
    refine (((h1.const_mul (μ * √(π / (2 * κ)))).sub (h2.div_const κ)).const_mul A).congr_deriv ?_
    rw [hsplit s, exp_add, ← hA]
    simp only [Pi.pow_apply, Pi.neg_apply]
    have e1 : μ * √(π / (2 * κ)) * (2 / √π * exp (-((s - μ) * b) ^ 2) * b) = μ * exp (-((s - μ) * b) ^ 2) := by
      rw [show μ * √(π / (2 * κ)) * (2 / √π * exp (-((s - μ) * b) ^ 2) * b) =
        μ * exp (-((s - μ) * b) ^ 2) * (√(π / (2 * κ)) * (2 / √π) * b) by ring, hpi, mul_one]
    rw [e1]
    have e2 : -(((2 : ℕ) : ℝ) * ((s - μ) * b) ^ (2 - 1) * b) = -(κ * (s - μ)) := by
      norm_num
      rw [show 2 * ((s - μ) * b) * b = 2 * (s - μ) * b ^ 2 by ring, hb2]
      ring
    rw [e2]
    field_simp
    ring
  have hlin : Tendsto (fun s : ℝ => (s - μ) * b) atTop atTop :=
    (tendsto_id.atTop_add tendsto_const_nhds).atTop_mul_const hb0
  have hlim : Tendsto F atTop (𝓝 (A * (μ * √(π / (2 * κ)) * 1 - 0 / κ))) := by
    refine ((((tendsto_errorFunction.comp hlin).const_mul _).sub (Tendsto.div_const ?_ κ)).const_mul A)
    exact tendsto_exp_atBot.comp (tendsto_neg_atTop_atBot.comp ((tendsto_pow_atTop two_ne_zero).comp hlin))
  have hnn : ∀ s ∈ Ioi (0 : ℝ), 0 ≤ s * exp (η * s - κ / 2 * (s - c) ^ 2) := fun s hs => by
    have hs : 0 < s := hs
    positivity
  have hint := integrableOn_Ioi_deriv_of_nonneg (a := 0) (hd 0).continuousAt.continuousWithinAt (fun s _ => hd s) hnn hlim
  refine ⟨hint, ?_⟩
  rw [integral_Ioi_of_hasDerivAt_of_tendsto (hd 0).continuousAt.continuousWithinAt (fun s _ => hd s) hint hlim]
  simp only [hF, gaussMoment]
  rw [show (0 - μ) * b = -(μ * b) by ring, errorFunction_neg, ← hμ, ← hA]
  have e3 : A * exp (-(-(μ * b)) ^ 2) = exp (-κ * c ^ 2 / 2) := by
    rw [hA, ← exp_add]
    congr 1
    rw [neg_sq, mul_pow, hb2, hμ]
    field_simp
    ring
  rw [← e3]
  ring

/-- `∫₀^∞ (s sinh (η s) / η) exp (-κ/2 (s - c)²) ds`: the boundary terms cancel. -/
theorem gauss_sinh {κ : ℝ} (hκ : 0 < κ) (c : ℝ) {η : ℝ} (hη : η ≠ 0) :
    IntegrableOn (fun s => exp (-(κ / 2 * (s - c) ^ 2)) * (s * sinh (η * s) / η)) (Ioi 0) ∧
      ∫ s in Ioi (0 : ℝ), exp (-(κ / 2 * (s - c) ^ 2)) * (s * sinh (η * s) / η) =
        √(π / (2 * κ)) * exp (η ^ 2 / (2 * κ)) / (2 * η) *
          (exp (c * η) * (c + η / κ) * (1 + errorFunction ((c + η / κ) * √(κ / 2))) -
            exp (-(c * η)) * (c - η / κ) * (1 + errorFunction ((c - η / κ) * √(κ / 2)))) := by
  obtain ⟨i1, e1⟩ := gaussMoment_integral hκ c η
  obtain ⟨i2, e2⟩ := gaussMoment_integral hκ c (-η)
  have h : (fun s => exp (-(κ / 2 * (s - c) ^ 2)) * (s * sinh (η * s) / η)) = fun s =>
      1 / (2 * η) * (s * exp (η * s - κ / 2 * (s - c) ^ 2) - s * exp (-η * s - κ / 2 * (s - c) ^ 2)) := by
    funext s
    rw [sinh_eq, sub_eq_add_neg (η * s), exp_add, sub_eq_add_neg (-η * s), exp_add, neg_mul]
    field_simp
  rw [h]
  refine ⟨(i1.sub i2).const_mul _, ?_⟩
  rw [integral_const_mul, integral_sub i1 i2, e1, e2, gaussMoment, gaussMoment]
  rw [neg_sq, exp_add, exp_add, mul_neg, neg_div, ← sub_eq_add_neg]
  field_simp
  ring

end Polymers.Lemmas
