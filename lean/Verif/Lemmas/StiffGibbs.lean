import Verif.Lemmas.StiffLink
import Verif.Lemmas.LinkStatistics
import Mathlib.Analysis.SpecialFunctions.Complex.LogBounds

/-! The Gibbs energy of one stiff link to first order in its compliance. -/

namespace Polymers.Lemmas

open Polymers.Spec Real Set Filter Topology MeasureTheory

variable {v : ℝ → ℝ} {t b : ℝ}

/-- Build a `StiffLink` from derivatives up to the fourth. -/
theorem StiffLink.of_derivs {v1 v2 v3 v4 : ℝ → ℝ} {c : ℝ} (hb : 1 < b) (hcont : ContinuousOn v (Ioc 0 b)) (hc : 0 < c)
    (hlow : ∀ s ∈ Ioc 0 b, c * (s - 1) ^ 2 ≤ v s - v 1) (h1 : ∀ s ∈ Icc (1 / 2) b, HasDerivAt v (v1 s) s)
    (h2 : ∀ s ∈ Icc (1 / 2) b, HasDerivAt v1 (v2 s) s) (h3 : ∀ s ∈ Icc (1 / 2) b, HasDerivAt v2 (v3 s) s)
    (h4 : ∀ s ∈ Icc (1 / 2) b, HasDerivAt v3 (v4 s) s) (h4c : ContinuousOn v4 (Icc (1 / 2) b)) (e1 : v1 1 = 0) (e2 : v2 1 = 1)
    (e3 : v3 1 = t) : StiffLink v t b := by
  have h1m : (1 : ℝ) ∈ Icc (1 / 2) b := ⟨by norm_num, hb.le⟩
  obtain ⟨K, hK⟩ := isCompact_Icc.exists_bound_of_continuousOn h4c
  refine ⟨hb, hcont, ⟨c, hc, hlow⟩, v1, K, h1, fun s hs => (h2 s hs).continuousAt.continuousWithinAt, fun s hs => ?_⟩
  have := taylor_second h1m h2 h3 h4 (fun x hx => by simpa using hK x hx) s hs
  rwa [e1, e2, e3, sub_zero, one_mul] at this

theorem stiff_second (h : StiffLink v t b) : ∃ M, ∀ s ∈ Icc (1 / 2) b, |v s - v 1 - (s - 1) ^ 2 / 2| ≤ M * |s - 1| ^ 3 := by
  obtain ⟨v1, M, hd, -, hM⟩ := h.near
  have hb := h.one_lt
  have h1 : (1 : ℝ) ∈ Icc (1 / 2) b := ⟨by norm_num, hb.le⟩
  refine ⟨|t| / 2 + |M| * b, fun s hs => ?_⟩
  refine abs_le_pow_of_deriv (g := fun s => v s - v 1 - (s - 1) ^ 2 / 2) (g' := fun s => v1 s - (s - 1)) (n := 2) h1 (fun x hx => ?_)
    (by simp) (fun x hx => ?_) s hs
  · refine ((hd x hx).sub_const _ |>.sub ((((hasDerivAt_id x).sub_const 1).pow 2).div_const 2)).congr_deriv ?_
    norm_num
  · have hx1 : |x - 1| ≤ b := by rw [abs_le]; constructor <;> linarith [hx.1, hx.2]
    have e : v1 x - (x - 1) = (v1 x - (x - 1) - t / 2 * (x - 1) ^ 2) + t / 2 * (x - 1) ^ 2 := by ring
    rw [e]
    refine (abs_add_le _ _).trans ((add_le_add (hM x hx) le_rfl).trans ?_)
    rw [abs_mul, abs_pow, abs_div, abs_two]
    have hM1 : M * |x - 1| ^ 3 ≤ |M| * (b * |x - 1| ^ 2) := by
      refine (mul_le_mul_of_nonneg_right (le_abs_self M) (by positivity)).trans (mul_le_mul_of_nonneg_left ?_ (abs_nonneg _))
      rw [pow_succ, mul_comm]
      exact mul_le_mul_of_nonneg_right hx1 (by positivity)
    linarith

theorem tendsto_one_of_mul {x : ℝ → ℝ} {a r : ℝ} (hx : Tendsto (fun κ => κ * (x κ - a)) atTop (𝓝 r)) : Tendsto x atTop (𝓝 a) := by
  have h1 : Tendsto (fun κ : ℝ => κ⁻¹ * (κ * (x κ - a)) + a) atTop (𝓝 (0 * r + a)) :=
    (tendsto_inv_atTop_zero.mul hx).add_const a
  rw [zero_mul, zero_add] at h1
  refine h1.congr' ?_
  filter_upwards [eventually_gt_atTop 0] with κ hκ
  field_simp
  ring

/-- The energy of the stretched link under the force. -/
theorem stiff_stretch (h : StiffLink v t b) {lam : ℝ → ℝ} {η : ℝ} (hl : Tendsto (fun κ => κ * (lam κ - 1)) atTop (𝓝 η)) :
    Tendsto (fun κ => κ * (κ * (v (lam κ) - v 1) - η * (lam κ - 1))) atTop (𝓝 (-η ^ 2 / 2)) := by
  obtain ⟨M, hM⟩ := stiff_second h
  have hb := h.one_lt
  have hl1 := tendsto_one_of_mul hl
  have hmain : Tendsto (fun κ => (κ * (lam κ - 1)) ^ 2 / 2 - η * (κ * (lam κ - 1))) atTop (𝓝 (η ^ 2 / 2 - η * η)) :=
    ((hl.pow 2).div_const 2).sub (hl.const_mul η)
  have hrest : Tendsto (fun κ => κ ^ 2 * (v (lam κ) - v 1 - (lam κ - 1) ^ 2 / 2)) atTop (𝓝 0) := by
    have hbd : Tendsto (fun κ => M * |κ * (lam κ - 1)| ^ 3 * κ⁻¹) atTop (𝓝 0) := by
      simpa using ((hl.abs.pow 3).const_mul M).mul tendsto_inv_atTop_zero
    refine squeeze_zero_norm' ?_ hbd
    filter_upwards [eventually_gt_atTop 0, hl1.eventually (Icc_mem_nhds (show 1 / 2 < (1 : ℝ) by norm_num) hb)] with κ hκ hmem
    have h1 := mul_le_mul_of_nonneg_left (hM _ hmem) (show 0 ≤ κ ^ 2 by positivity)
    rw [norm_eq_abs, abs_mul, abs_of_nonneg (show 0 ≤ κ ^ 2 by positivity)]
    refine h1.trans (le_of_eq ?_)
    rw [abs_mul, abs_of_pos hκ]
    field_simp
  have := hmain.add hrest
  rw [show η ^ 2 / 2 - η * η + 0 = -η ^ 2 / 2 by ring] at this
  refine this.congr fun κ => ?_
  ring

/-- The weight of a stretch under the force, `s sinh (η s) / η`, and its derivatives. -/
noncomputable def forceWeight (η s : ℝ) : ℝ := s * sinh (η * s) / η

theorem forceWeight_taylor {η b : ℝ} (hη : η ≠ 0) (hb : 1 < b) : ∃ M, ∀ s ∈ Icc 0 b,
    |forceWeight η s - forceWeight η 1 - (sinh η / η + cosh η) * (s - 1) - (cosh η + η * sinh η / 2) * (s - 1) ^ 2| ≤
      M * |s - 1| ^ 3 := by
  have h0 : ∀ s : ℝ, HasDerivAt (fun s => η * s) η s := fun s => by simpa using (hasDerivAt_id s).const_mul η
  have h1 : ∀ s : ℝ, HasDerivAt (forceWeight η) (sinh (η * s) / η + s * cosh (η * s)) s := fun s => by
    refine (((hasDerivAt_id s).mul (h0 s).sinh).div_const η).congr_deriv ?_
    simp only [id]
    field_simp
  have h2 : ∀ s : ℝ, HasDerivAt (fun s => sinh (η * s) / η + s * cosh (η * s)) (2 * cosh (η * s) + η * (s * sinh (η * s))) s := fun s => by
    refine (((h0 s).sinh.div_const η).add ((hasDerivAt_id s).mul (h0 s).cosh)).congr_deriv ?_
    simp only [id]
    field_simp
    ring
  have h3 : ∀ s : ℝ, HasDerivAt (fun s => 2 * cosh (η * s) + η * (s * sinh (η * s)))
      (3 * η * sinh (η * s) + η ^ 2 * (s * cosh (η * s))) s := fun s => by
    refine (((h0 s).cosh.const_mul 2).add (((hasDerivAt_id s).mul (h0 s).sinh).const_mul η)).congr_deriv ?_
    simp only [id]
    ring
  obtain ⟨K, hK⟩ := (isCompact_Icc (a := (0 : ℝ)) (b := b)).exists_bound_of_continuousOn
    (f := fun s => 3 * η * sinh (η * s) + η ^ 2 * (s * cosh (η * s))) (by fun_prop)
  refine ⟨K, fun s hs => ?_⟩
  have := taylor_second (a := 0) (b := b) (x₀ := 1) ⟨zero_le_one, hb.le⟩ (fun x _ => h1 x) (fun x _ => h2 x) (fun x _ => h3 x)
    (fun x hx => by simpa using hK x hx) s hs
  simp only [mul_one, one_mul] at this
  rwa [show (2 * cosh η + η * sinh η) / 2 = cosh η + η * sinh η / 2 by ring] at this

theorem break_partition (κ : ℝ) {η : ℝ} (hη : η ≠ 0) : linkPartition (breakAt b fun s => exp (-(κ * v s))) η =
    exp (-(κ * v 1)) * ∫ s in Ioc 0 b, forceWeight η s * stiffWeight v κ s := by
  rw [linkPartition_eq _ hη, ← integral_const_mul]
  have e : (fun s => breakAt b (fun s => exp (-(κ * v s))) s * (s * sinh (η * s) / η)) =
      (Iic b).indicator fun s => exp (-(κ * v 1)) * (forceWeight η s * stiffWeight v κ s) := by
    funext s
    unfold breakAt stiffWeight forceWeight
    by_cases h : s ∈ Iic b
    · rw [indicator_of_mem h, indicator_of_mem h]
      rw [show -(κ * v s) = -(κ * v 1) + -(κ * (v s - v 1)) by ring, exp_add]
      ring
    · rw [indicator_of_notMem h, indicator_of_notMem h, zero_mul]
  rw [e, setIntegral_indicator measurableSet_Iic]
  rfl

/-- What the first-order theory predicts. -/
noncomputable def firstOrder (t η : ℝ) : ℝ := η ^ 2 / 2 + (1 - t / 2) * (η / tanh η)

theorem stiff_log (h : StiffLink v t b) {η : ℝ} (hη : 0 < η) :
    Tendsto (fun κ => κ * (log (linkPartition (breakAt b fun s => exp (-(κ * v s))) η) + κ * v 1 -
      log (∫ s in Ioc 0 b, stiffWeight v κ s) - log (sinh η / η))) atTop (𝓝 (firstOrder t η - t / 2)) := by
  have hs := sinh_pos_iff.2 hη
  obtain ⟨M, hM⟩ := forceWeight_taylor hη.ne' h.one_lt
  have hF : Continuous (forceWeight η) := by unfold forceWeight; fun_prop
  have h1 := laplace_mean h hF hM
  have e1 : forceWeight η 1 = sinh η / η := by simp [forceWeight]
  rw [e1] at h1
  have hp : 0 < sinh η / η := div_pos hs hη
  have h2 := tendsto_mul_comp_sub (hasDerivAt_log hp.ne') h1
  have e2 : (sinh η / η)⁻¹ * (cosh η + η * sinh η / 2 - (sinh η / η + cosh η) * t / 2) = firstOrder t η - t / 2 := by
    unfold firstOrder
    rw [tanh_eq_sinh_div_cosh]
    field_simp
    ring
  rw [e2] at h2
  obtain ⟨C, hC, κ₀, hκ₀, htot⟩ := stiff_total h
  have h3 := (tendsto_mul_comp_sub (hasDerivAt_log hp.ne') h1)
  have hpos := (tendsto_one_of_mul h1).eventually (lt_mem_nhds hp)
  refine h2.congr' ?_
  filter_upwards [eventually_ge_atTop κ₀, hpos] with κ hκ hq
  have hκ0 : 0 < κ := lt_of_lt_of_le hκ₀ hκ
  have hZ : 0 < ∫ s in Ioc 0 b, stiffWeight v κ s := lt_of_lt_of_le (div_pos hC (sqrt_pos.2 hκ0)) (htot κ hκ)
  have hI : 0 < ∫ s in Ioc 0 b, forceWeight η s * stiffWeight v κ s := by
    by_contra hneg
    exact absurd hq (not_lt.2 (div_nonpos_of_nonpos_of_nonneg (not_lt.1 hneg) hZ.le))
  rw [break_partition κ hη.ne', log_mul (exp_pos _).ne' hI.ne', log_exp, log_div hI.ne' hZ.ne']
  ring

theorem tendsto_log_corr (c : ℝ) : Tendsto (fun κ : ℝ => κ * log (1 + c / κ)) atTop (𝓝 c) :=
  Real.tendsto_mul_log_one_add_of_tendsto (tendsto_const_nhds.congr' (by
    filter_upwards [eventually_gt_atTop 0] with κ hκ
    field_simp))

theorem tendsto_div_corr (c : ℝ) : Tendsto (fun κ : ℝ => κ * (c / κ)) atTop (𝓝 c) :=
  tendsto_const_nhds.congr' (by
    filter_upwards [eventually_gt_atTop 0] with κ hκ
    field_simp)

/-- The first-order error of a model whose energy is that of the stretched rigid link minus a correction of size `e η coth η / κ`;
`K k` is the nondimensional stiffness. -/
theorem stiff_error (h : StiffLink v t b) {K : ℝ → ℝ} (hK : Tendsto K atTop atTop) {G u : ℝ → ℝ → ℝ} {lam L : ℝ → ℝ → ℝ} {e : ℝ}
    (A : ℝ → ℝ) (hu : ∀ᶠ k in atTop, u k = fun s => exp (-(K k * v s)))
    (hl : ∀ η > 0, Tendsto (fun κ => κ * (lam κ η - 1)) atTop (𝓝 η))
    (hL : ∀ η > 0, Tendsto (fun κ => κ * L κ η) atTop (𝓝 (e * (η / tanh η))))
    (hG : ∀ η > 0, ∀ᶠ k in atTop, G k η = A k - log (sinh η / η) - L (K k) η +
      (K k * (v (lam (K k) η) - v 1) - η * (lam (K k) η - 1))) {η η' : ℝ} (hη : 0 < η) (hη' : 0 < η') :
    Tendsto (fun k => K k * gibbsError (G k) (breakAt b (u k)) η η') atTop
      (𝓝 ((1 - t / 2 - e) * (η / tanh η - η' / tanh η'))) := by
  have key : ∀ η > 0, Tendsto (fun k => K k * (G k η - A k + log (linkPartition (breakAt b fun s => exp (-(K k * v s))) η) + K k * v 1 -
      log (∫ s in Ioc 0 b, stiffWeight v (K k) s))) atTop (𝓝 ((1 - t / 2 - e) * (η / tanh η) - t / 2)) := by
    intro η hη
    have h4 := (((stiff_log h hη).add (stiff_stretch h (hl η hη))).sub (hL η hη)).comp hK
    have e4 : firstOrder t η - t / 2 + -η ^ 2 / 2 - e * (η / tanh η) = (1 - t / 2 - e) * (η / tanh η) - t / 2 := by
      unfold firstOrder; ring
    rw [e4] at h4
    refine h4.congr' ?_
    filter_upwards [hG η hη] with k hk
    simp only [Function.comp, hk]
    ring
  have h5 := (key η hη).sub (key η' hη')
  rw [show (1 - t / 2 - e) * (η / tanh η) - t / 2 - ((1 - t / 2 - e) * (η' / tanh η') - t / 2) =
    (1 - t / 2 - e) * (η / tanh η - η' / tanh η') by ring] at h5
  refine h5.congr' ?_
  filter_upwards [hu] with k hk
  rw [gibbsError, hk]
  ring

end Polymers.Lemmas
