import Verif.Lemmas.LinkStatistics
import Mathlib.Analysis.Calculus.ParametricIntegral
import Mathlib.Probability.Moments.ComplexMGF

/-!
A distribution of bounded lengths is determined by the means of `sinh (a x) / (a x)`.
-/

namespace Polymers.Lemmas

open Polymers.Spec Real Set MeasureTheory Filter Topology ProbabilityTheory

theorem mul_directionAverage (a x : ℝ) : a * directionAverage (a * x) = if x = 0 then a else sinh (a * x) / x := by
  split_ifs with h
  · subst h; unfold directionAverage; simp; norm_num
  · rcases eq_or_ne a 0 with rfl | ha
    · simp
    · rw [directionAverage_eq (mul_ne_zero ha h)]; field_simp

theorem hasDerivAt_mul_directionAverage (a x : ℝ) : HasDerivAt (fun a => a * directionAverage (a * x)) (cosh (a * x)) a := by
  simp only [mul_directionAverage]
  split_ifs with h
  · subst h; simpa using hasDerivAt_id' a
  · have h1 : HasDerivAt (fun a : ℝ => a * x) x a := by simpa using (hasDerivAt_id a).mul_const x
    refine (h1.sinh.div_const x).congr_deriv ?_
    field_simp

theorem measurable_mul_directionAverage (a : ℝ) : Measurable fun x => a * directionAverage (a * x) := by
  simp only [mul_directionAverage]
  exact Measurable.ite (measurableSet_singleton 0) measurable_const (by fun_prop)

theorem abs_cosh_le {s x K M : ℝ} (hs : |s| ≤ K) (hx : x ∈ Icc 0 M) : cosh (s * x) ≤ cosh (K * M) := by
  rw [cosh_le_cosh, abs_mul, abs_mul]
  have h1 : |x| ≤ |M| := by rw [abs_of_nonneg hx.1]; exact hx.2.trans (le_abs_self M)
  have h2 : |s| ≤ |K| := hs.trans (le_abs_self K)
  gcongr

/-- The mean of `cosh` is the derivative of the mean of `a * directionAverage (a x)`. -/
theorem hasDerivAt_integral_directionAverage {μ : Measure ℝ} [IsFiniteMeasure μ] {M : ℝ} (hμ : ∀ᵐ x ∂μ, x ∈ Icc 0 M) (a : ℝ) :
    HasDerivAt (fun a => ∫ x, a * directionAverage (a * x) ∂μ) (∫ x, cosh (a * x) ∂μ) a := by
  have hI : ∀ a, Integrable (fun x => a * directionAverage (a * x)) μ := fun a => by
    refine Integrable.of_bound (measurable_mul_directionAverage a).aestronglyMeasurable (|a| * (2 * cosh (|a| * M))) (hμ.mono fun x hx => ?_)
    rw [norm_eq_abs, abs_mul]
    refine mul_le_mul_of_nonneg_left ?_ (abs_nonneg a)
    unfold directionAverage
    have h1 : ‖∫ y in (-1 : ℝ)..1, exp (a * x * y)‖ ≤ (2 * cosh (|a| * M)) * |1 - (-1 : ℝ)| := by
      refine intervalIntegral.norm_integral_le_of_norm_le_const fun y hy => ?_
      rw [norm_eq_abs, abs_exp]
      have h2 : cosh (a * x * y) ≤ cosh (|a| * M) := by
        rw [mul_right_comm]
        refine abs_cosh_le ?_ hx
        rw [abs_mul]
        have : |y| ≤ 1 := by
          rw [uIoc_of_le (by norm_num)] at hy
          exact abs_le.2 ⟨hy.1.le, hy.2⟩
        exact mul_le_of_le_one_right (abs_nonneg a) this
      have h3 : exp (a * x * y) ≤ 2 * cosh (a * x * y) := by
        rw [cosh_eq]; linarith [exp_pos (-(a * x * y))]
      linarith
    rw [norm_eq_abs] at h1
    rw [abs_mul, abs_of_pos (by norm_num : (0 : ℝ) < 1 / 2)]
    norm_num at h1 ⊢
    linarith
  have h := hasDerivAt_integral_of_dominated_loc_of_deriv_le (μ := μ)
    (F := fun a x => a * directionAverage (a * x)) (F' := fun a x => cosh (a * x)) (x₀ := a) (s := Metric.ball a 1)
    (bound := fun _ => cosh ((|a| + 1) * M)) (Metric.ball_mem_nhds a one_pos)
    (Eventually.of_forall fun s => (measurable_mul_directionAverage s).aestronglyMeasurable) (hI a)
    (Continuous.aestronglyMeasurable (by fun_prop)) (hμ.mono fun x hx s hs => ?_) (integrable_const _)
    (ae_of_all _ fun x s _ => hasDerivAt_mul_directionAverage s x)
  · exact h.2
  · rw [norm_eq_abs, abs_of_pos (cosh_pos _)]
    refine abs_cosh_le ?_ hx
    rw [Metric.mem_ball, dist_eq] at hs
    have := abs_sub_abs_le_abs_sub s a
    linarith

theorem integral_cosh_eq {μ ν : Measure ℝ} [IsFiniteMeasure μ] [IsFiniteMeasure ν] {M : ℝ} (hμ : ∀ᵐ x ∂μ, x ∈ Icc 0 M)
    (hν : ∀ᵐ x ∂ν, x ∈ Icc 0 M) (h : ∀ a ≠ 0, ∫ x, directionAverage (a * x) ∂μ = ∫ x, directionAverage (a * x) ∂ν) (a : ℝ) :
    ∫ x, cosh (a * x) ∂μ = ∫ x, cosh (a * x) ∂ν := by
  have e : (fun a => ∫ x, a * directionAverage (a * x) ∂μ) = fun a => ∫ x, a * directionAverage (a * x) ∂ν := by
    funext a
    rw [integral_const_mul, integral_const_mul]
    rcases eq_or_ne a 0 with rfl | ha
    · simp
    · rw [h a ha]
  have h1 := hasDerivAt_integral_directionAverage hμ a
  rw [e] at h1
  exact h1.unique (hasDerivAt_integral_directionAverage hν a)

/-- The symmetric distribution. -/
noncomputable def symm (μ : Measure ℝ) : Measure ℝ := μ + μ.map Neg.neg

instance (μ : Measure ℝ) [IsFiniteMeasure μ] : IsFiniteMeasure (symm μ) := by unfold symm; infer_instance

theorem integrable_exp_symm {μ : Measure ℝ} [IsFiniteMeasure μ] {M : ℝ} (hμ : ∀ᵐ x ∂μ, x ∈ Icc 0 M) (a : ℝ) :
    Integrable (fun x => exp (a * x)) μ ∧ Integrable (fun x => exp (a * x)) (μ.map Neg.neg) := by
  have key : ∀ a : ℝ, Integrable (fun x => exp (a * x)) μ := fun a => by
    refine Integrable.of_bound (Continuous.aestronglyMeasurable (by fun_prop)) (2 * cosh (|a| * M)) (hμ.mono fun x hx => ?_)
    rw [norm_eq_abs, abs_exp]
    have h3 : exp (a * x) ≤ 2 * cosh (a * x) := by
      rw [cosh_eq]; linarith [exp_pos (-(a * x))]
    linarith [abs_cosh_le le_rfl hx (s := a)]
  refine ⟨key a, ?_⟩
  rw [integrable_map_measure (Continuous.aestronglyMeasurable (by fun_prop)) (by fun_prop)]
  refine (key (-a)).congr (ae_of_all _ fun x => ?_)
  simp

theorem mgf_symm {μ : Measure ℝ} [IsFiniteMeasure μ] {M : ℝ} (hμ : ∀ᵐ x ∂μ, x ∈ Icc 0 M) (a : ℝ) :
    mgf id (symm μ) a = 2 * ∫ x, cosh (a * x) ∂μ := by
  obtain ⟨h1, h2⟩ := integrable_exp_symm hμ a
  have h3 := (integrable_exp_symm hμ (-a)).1
  unfold mgf symm
  simp only [id]
  rw [integral_add_measure h1 h2, integral_map (by fun_prop) (Continuous.aestronglyMeasurable (by fun_prop)), ← integral_const_mul,
    ← integral_add h1 (h3.congr (ae_of_all _ fun x => by simp))]
  refine integral_congr_ae (ae_of_all _ fun x => ?_)
  simp only
  rw [cosh_eq, mul_neg]
  ring

theorem map_abs_symm {μ : Measure ℝ} {M : ℝ} (hμ : ∀ᵐ x ∂μ, x ∈ Icc 0 M) : (symm μ).map abs = μ + μ := by
  unfold symm
  have hm : Measurable (abs : ℝ → ℝ) := continuous_abs.measurable
  rw [Measure.map_add _ _ hm, Measure.map_map hm measurable_neg]
  have e1 : μ.map abs = μ := by
    conv_rhs => rw [← Measure.map_id (μ := μ)]
    exact Measure.map_congr (hμ.mono fun x hx => abs_of_nonneg hx.1)
  have e2 : (abs ∘ Neg.neg : ℝ → ℝ) = abs := by funext x; simp
  rw [e2, e1]

/-- A distribution of bounded lengths is determined by the means of `sinh (a x) / (a x)`. -/
theorem ext_of_directionAverage {μ ν : Measure ℝ} [IsFiniteMeasure μ] [IsFiniteMeasure ν] {M : ℝ} (hμ : ∀ᵐ x ∂μ, x ∈ Icc 0 M)
    (hν : ∀ᵐ x ∂ν, x ∈ Icc 0 M) (h : ∀ a ≠ 0, ∫ x, directionAverage (a * x) ∂μ = ∫ x, directionAverage (a * x) ∂ν) : μ = ν := by
  have hm : mgf id (symm μ) = mgf id (symm ν) := by
    funext a
    rw [mgf_symm hμ, mgf_symm hν, integral_cosh_eq hμ hν h]
  have h0 : ∀ κ : Measure ℝ, IsFiniteMeasure κ → (∀ᵐ x ∂κ, x ∈ Icc 0 M) → (symm κ = 0 ↔ mgf id (symm κ) 0 = 0) := fun κ _ _ => by
    constructor
    · intro h; rw [h]; simp
    · intro h
      rw [mgf_zero'] at h
      rw [← Measure.measure_univ_eq_zero]
      exact (measureReal_eq_zero_iff (measure_ne_top _ _)).1 h
  have hz : symm μ = 0 ↔ symm ν = 0 := by rw [h0 μ ‹_› hμ, h0 ν ‹_› hν, hm]
  have hu : integrableExpSet id (symm μ) = univ := by
    rw [eq_univ_iff_forall]
    intro a
    obtain ⟨h1, h2⟩ := integrable_exp_symm hμ a
    exact h1.add_measure h2
  have hc : complexMGF id (symm μ) = complexMGF id (symm ν) := by
    have := eqOn_complexMGF_of_mgf' hm hz
    rw [hu] at this
    simp only [interior_univ, mem_univ, ofPred_true, eqOn_univ] at this
    exact this
  have hs := Measure.ext_of_complexMGF_id_eq hc
  have h2 : μ + μ = ν + ν := by rw [← map_abs_symm hμ, ← map_abs_symm hν, hs]
  ext s _
  have h3 := congrArg (fun κ : Measure ℝ => κ s) h2
  simp only [Measure.coe_add, Pi.add_apply] at h3
  rw [← two_mul, ← two_mul] at h3
  exact (ENNReal.mul_right_inj (by norm_num) (by norm_num)).1 h3

end Polymers.Lemmas
