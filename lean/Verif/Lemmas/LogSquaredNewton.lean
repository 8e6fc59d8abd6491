import Verif.Lemmas.LambertSlope
import Verif.Lemmas.StretchNewton
import Verif.Props.LogSquared

/-! The stretch of a log-squared link as the program computes it, and what the program takes for its slope. -/

namespace Polymers.Lemmas

open Real Set Filter Topology Polymers.Props Polymers.math

/-- The computed stretch of a log-squared link under a force, less one. -/
noncomputable def lsPsi (κ x : ℝ) : ℝ := logSquaredStretch κ x - 1
/-- What the program takes for its slope. -/
noncomputable def lsPsi' (κ x : ℝ) : ℝ := κ / x ^ 2 * lambert_w (-x / κ) ^ 2 / (lambert_w (-x / κ) + 1)

theorem ls_arg {κ x : ℝ} (hκ : 0 < κ) (hx : 0 < x) (hM : x < κ / exp 1) : -exp (-1) < -x / κ ∧ -x / κ < 0 := by
  constructor
  · rw [neg_div, neg_lt_neg_iff, exp_neg, div_lt_iff₀ hκ, inv_mul_eq_div]; exact hM
  · rw [neg_div, neg_lt_zero]; positivity

/-- The computed value `-t` of the Lambert W function. -/
theorem ls_lambert {κ x : ℝ} (hκ : 0 < κ) (hx : 0 < x) (hM : x < κ / exp 1) :
    -1 < lambert_w (-x / κ) ∧ lambert_w (-x / κ) ≤ -x / κ ∧
      lambert_w (-x / κ) ≤ 3 / 4 * log (-x / κ + 1) ∧ -x / κ ≤ lambert_w (-x / κ) * exp (lambert_w (-x / κ)) := by
  obtain ⟨h1, h2⟩ := ls_arg hκ hx hM
  obtain ⟨w, hw, hw0, e⟩ := exists_lambert_neg h1 h2
  obtain ⟨-, b1, b2, b3⟩ := lwIter_between hw hw0 e
  rw [lambert_w_eq_iter h1 h2]
  refine ⟨by linarith [b1 4], lwIter_le_arg h1 h2 (by norm_num), b2 4, ?_⟩
  refine e.symm.le.trans ?_
  exact strictMonoOn_mul_exp.monotoneOn (mem_Ici.2 hw.le) (mem_Ici.2 (by linarith [b1 4])) (b1 4)

theorem lsPsi_eq (κ x : ℝ) : lsPsi κ x = exp (-lambert_w (-x / κ)) - 1 := by
  rw [lsPsi, logSquaredStretch, exp_neg, one_div]

/-- The computed value decreases as the force grows. -/
theorem ls_anti {κ x z : ℝ} (hκ : 0 < κ) (hz : 0 < z) (h : z ≤ x) (hM : x < κ / exp 1) :
    lambert_w (-x / κ) ≤ lambert_w (-z / κ) := by
  obtain ⟨h1, h2⟩ := ls_arg hκ (hz.trans_le h) hM
  obtain ⟨h3, h4⟩ := ls_arg hκ hz (h.trans_lt hM)
  rw [lambert_w_eq_iter h1 h2, lambert_w_eq_iter h3 h4]
  refine (lwIter_mono 4).1 ⟨h1, h2⟩ ⟨h3, h4⟩ ?_
  gcongr

/-- The derivative of the computed stretch. -/
theorem hasDerivAt_lsPsi {κ x : ℝ} (hκ : 0 < κ) (hx : 0 < x) (hM : x < κ / exp 1) :
    ∃ d, HasDerivAt (lsPsi κ) d x ∧ 0 ≤ d ∧ d * (κ * (lambert_w (-x / κ) + 1)) ≤ exp (-lambert_w (-x / κ)) ^ 2 ∧
      exp (-lwIter 3 (-x / κ)) ^ 2 ≤ d * (κ * (lwIter 3 (-x / κ) + 1)) := by
  obtain ⟨h1, h2⟩ := ls_arg hκ hx hM
  obtain ⟨w, hw, hw0, ew⟩ := exists_lambert_neg h1 h2
  obtain ⟨b0, b1, -, -⟩ := lwIter_between hw hw0 ew
  obtain ⟨d, hd, hd0, hd1⟩ := lwIter_slope h1 h2 4
  have hd2 := lwIter_slope_ge h1 h2 3 hd
  have hev : (lsPsi κ) =ᶠ[𝓝 x] fun x => exp (-lwIter 4 (-x / κ)) - 1 := by
    filter_upwards [Ioo_mem_nhds hx hM] with z hz
    obtain ⟨h3, h4⟩ := ls_arg hκ hz.1 hz.2
    rw [lsPsi_eq, lambert_w_eq_iter h3 h4]
  have hg : HasDerivAt (fun x : ℝ => -x / κ) (-1 / κ) x := ((hasDerivAt_id x).neg).div_const κ
  have hc : HasDerivAt (fun x => lwIter 4 (-x / κ)) (d * (-1 / κ)) x :=
    HasDerivAt.comp (h₂ := lwIter 4) (h := fun x : ℝ => -x / κ) x hd hg
  have hf : HasDerivAt (lsPsi κ) (exp (-lwIter 4 (-x / κ)) * -(d * (-1 / κ))) x :=
    (hc.neg.exp.sub_const 1).congr_of_eventuallyEq hev
  rw [lambert_w_eq_iter h1 h2]
  have hE : exp (-lwIter 4 (-x / κ)) * exp (lwIter 4 (-x / κ)) = 1 := by rw [← exp_add]; simp
  have hE3 : exp (-lwIter 3 (-x / κ)) * exp (lwIter 3 (-x / κ)) = 1 := by rw [← exp_add]; simp
  have h34 : lwIter 4 (-x / κ) ≤ lwIter 3 (-x / κ) := b0 (by norm_num)
  have hE34 : exp (-lwIter 3 (-x / κ)) ≤ exp (-lwIter 4 (-x / κ)) := exp_le_exp.2 (by linarith)
  have hp := exp_pos (-lwIter 4 (-x / κ))
  have hp3 := exp_pos (-lwIter 3 (-x / κ))
  have hq3 := exp_pos (lwIter 3 (-x / κ))
  have g3 : 0 < lwIter 3 (-x / κ) + 1 := by linarith [b1 3]
  refine ⟨_, hf, ?_, ?_, ?_⟩
  · have : exp (-lwIter 4 (-x / κ)) * -(d * (-1 / κ)) = exp (-lwIter 4 (-x / κ)) * (d / κ) := by ring
    rw [this]; positivity
  · generalize lwIter 4 (-x / κ) = v at *
    have e : exp (-v) * -(d * (-1 / κ)) * (κ * (v + 1)) = exp (-v) ^ 2 * (d * ((v + 1) * exp v)) := by
      field_simp
      linear_combination (-(v + 1) * d) * hE
    rw [e]
    exact mul_le_of_le_one_right (by positivity) hd1
  · rw [div_le_iff₀ (by positivity)] at hd2
    generalize lwIter 4 (-x / κ) = v at *
    generalize lwIter 3 (-x / κ) = u at *
    have e : exp (-v) * -(d * (-1 / κ)) * (κ * (u + 1)) = exp (-v) * exp (-u) * (d * ((u + 1) * exp u)) := by
      have e' : exp (-v) * -(d * (-1 / κ)) * (κ * (u + 1)) = exp (-v) * (d * (u + 1)) := by field_simp
      rw [e']
      linear_combination (-(u + 1) * d * exp (-v)) * hE3
    rw [e]
    calc exp (-u) ^ 2 = exp (-u) * exp (-u) := by ring
      _ ≤ exp (-v) * exp (-u) := mul_le_mul_of_nonneg_right hE34 hp3.le
      _ ≤ _ := le_mul_of_one_le_right (by positivity) hd2

/-- The program's slope is at least a quarter of the true one. -/
theorem ls_slope_le {κ x : ℝ} (hκ : 0 < κ) (hx : 0 < x) (hM : x < κ / exp 1) :
    exp (-lambert_w (-x / κ)) ^ 2 / (κ * (lambert_w (-x / κ) + 1)) ≤ 4 * lsPsi' κ x ∧
      lsPsi' κ x ≤ exp (-lambert_w (-x / κ)) ^ 2 / (κ * (lambert_w (-x / κ) + 1)) ∧ 0 < lsPsi' κ x ∧
      lsPsi κ x ≤ x * lsPsi' κ x ∧ x / κ ≤ lsPsi κ x := by
  obtain ⟨h1, h2⟩ := ls_arg hκ hx hM
  obtain ⟨l1, l2, l3, l4⟩ := ls_lambert hκ hx hM
  rw [lsPsi_eq, lsPsi']
  obtain ⟨s, hs⟩ : ∃ s, s = x / κ := ⟨_, rfl⟩
  have es : -x / κ = -s := by rw [hs]; ring
  have ex : x = s * κ := by rw [hs]; field_simp
  rw [es] at l1 l2 l3 l4 h1 h2 ⊢
  have hs0 : 0 < s := by linarith
  obtain ⟨t, ht⟩ : ∃ t, lambert_w (-s) = -t := ⟨-lambert_w (-s), by ring⟩
  rw [ht] at l1 l2 l3 l4 ⊢
  rw [neg_neg]
  have ht0 : 0 < t := by linarith
  have ht1 : 0 < 1 - t := by linarith
  have hE := exp_pos t
  have hEE : exp (-t) * exp t = 1 := by rw [← exp_add]; simp
  have e1 : κ / x ^ 2 * (-t) ^ 2 / (-t + 1) = t ^ 2 / (s ^ 2 * (κ * (1 - t))) := by
    rw [ex, show -t + 1 = 1 - t by ring]; field_simp
  have e2 : -t + 1 = 1 - t := by ring
  have hst : t ≤ s * exp t := by
    have := mul_le_mul_of_nonneg_right l4 hE.le
    have e : -t * exp (-t) * exp t = -t := by rw [mul_assoc, hEE, mul_one]
    rw [e] at this; linarith
  have hlow : s * exp t ≤ 2 * t := by
    -- at the start already
    have he : exp (-1) < 3 / 8 := by
      rw [exp_neg, inv_lt_comm₀ (exp_pos 1) (by norm_num)]
      have := exp_one_gt_d9
      norm_num at this ⊢
      linarith
    have h5 : 0 < -s + 1 := by linarith
    have hlog := log_le_sub_one_of_pos h5
    have hmono : -t * exp (-t) ≤ 3 / 4 * log (-s + 1) * exp (3 / 4 * log (-s + 1)) :=
      strictMonoOn_mul_exp.monotoneOn (mem_Ici.2 l1.le) (mem_Ici.2 (by linarith)) l3
    have hE2 : 7 / 10 ≤ exp (3 / 4 * log (-s + 1)) := by
      have : log (7 / 10) ≤ 3 / 4 * log (-s + 1) := by
        have h6 : log (5 / 8) ≤ log (-s + 1) := log_le_log (by norm_num) (by linarith)
        have h7 : 4 * log (7 / 10) ≤ 3 * log (5 / 8) := by
          have e3 : (4 : ℝ) * log (7 / 10) = log ((7 / 10) ^ 4) := by rw [log_pow]; norm_num
          have e4 : (3 : ℝ) * log (5 / 8) = log ((5 / 8) ^ 3) := by rw [log_pow]; norm_num
          rw [e3, e4]
          exact log_le_log (by norm_num) (by norm_num)
        linarith
      have := exp_le_exp.2 this
      rwa [exp_log (by norm_num)] at this
    have h8 : 3 / 4 * log (-s + 1) * exp (3 / 4 * log (-s + 1)) ≤ 3 / 4 * -s * (7 / 10) := by
      have : 3 / 4 * s * (7 / 10) ≤ -(3 / 4 * log (-s + 1)) * exp (3 / 4 * log (-s + 1)) :=
        mul_le_mul (by linarith) hE2 (by norm_num) (by linarith)
      linarith
    have h9 : s ≤ 2 * (t * exp (-t)) := by linarith
    have := mul_le_mul_of_nonneg_right h9 hE.le
    have e : 2 * (t * exp (-t)) * exp t = 2 * t := by rw [mul_assoc, mul_assoc t, hEE, mul_one]
    linarith
  have hsq1 : s ^ 2 * exp t ^ 2 ≤ 4 * t ^ 2 := by
    have := pow_le_pow_left₀ (by positivity) hlow 2
    nlinarith
  have hsq2 : t ^ 2 ≤ s ^ 2 * exp t ^ 2 := by
    have := pow_le_pow_left₀ ht0.le hst 2
    nlinarith
  rw [e1, e2]
  have hp : 0 < κ * (1 - t) := by positivity
  refine ⟨?_, ?_, by positivity, ?_, ?_⟩
  · rw [mul_div_assoc', div_le_div_iff₀ hp (by positivity)]
    have := mul_le_mul_of_nonneg_right hsq1 hp.le
    linarith
  · rw [div_le_div_iff₀ (by positivity) hp]
    have := mul_le_mul_of_nonneg_right hsq2 hp.le
    linarith
  · have e3 : x * (t ^ 2 / (s ^ 2 * (κ * (1 - t)))) = t ^ 2 / (s * (1 - t)) := by rw [ex]; field_simp
    rw [e3, le_div_iff₀ (by positivity)]
    have h3 := add_one_le_exp (-t)
    have h4 : exp t * (1 - t) ≤ 1 := by
      have := mul_le_mul_of_nonneg_right h3 hE.le
      rw [hEE] at this; linarith
    have h6 : (exp t - 1) * (1 - t) ≤ t := by linarith
    have h7 := mul_le_mul_of_nonneg_left h6 hs0.le
    nlinarith
  · have := add_one_le_exp t
    rw [← hs]; linarith

theorem goodStretch_ls {κ : ℝ} (hκ : 0 < κ) : GoodStretch (lsPsi κ) (lsPsi' κ) (κ / exp 1) where
  slope_pos x hx hM := (ls_slope_le hκ hx hM).2.2.1
  le_slope x hx hM := (ls_slope_le hκ hx hM).2.2.2.1
  sub_le x z hz h hM := by
    have hx := hz.trans_le h
    rcases h.eq_or_lt with rfl | hlt
    · simp
    have hc : ContinuousOn (lsPsi κ) (Icc z x) := fun y hy => by
      obtain ⟨d, hd, -⟩ := hasDerivAt_lsPsi hκ (hz.trans_le hy.1) (hy.2.trans_lt hM)
      exact hd.continuousAt.continuousWithinAt
    have hdf : DifferentiableOn ℝ (lsPsi κ) (Ioo z x) := fun y hy => by
      obtain ⟨d, hd, -⟩ := hasDerivAt_lsPsi hκ (hz.trans hy.1) (hy.2.trans hM)
      exact hd.differentiableAt.differentiableWithinAt
    obtain ⟨y, hy, e⟩ := exists_deriv_eq_slope (lsPsi κ) hlt hc hdf
    obtain ⟨d, hd, hd0, hd1, -⟩ := hasDerivAt_lsPsi hκ (hz.trans hy.1) (hy.2.trans hM)
    rw [hd.deriv, eq_div_iff (by linarith)] at e
    have l1 := (ls_lambert hκ hx hM).1
    have hle := ls_anti hκ (hz.trans hy.1) hy.2.le hM
    have h1 := (ls_slope_le hκ hx hM).1
    have h2 : d ≤ exp (-lambert_w (-x / κ)) ^ 2 / (κ * (lambert_w (-x / κ) + 1)) := by
      rw [le_div_iff₀ (mul_pos hκ (by linarith))]
      calc d * (κ * (lambert_w (-x / κ) + 1)) ≤ d * (κ * (lambert_w (-y / κ) + 1)) := by gcongr
        _ ≤ exp (-lambert_w (-y / κ)) ^ 2 := hd1
        _ ≤ exp (-lambert_w (-x / κ)) ^ 2 := by gcongr
    rw [← e]
    have := mul_le_mul_of_nonneg_right (h2.trans h1) (by linarith : 0 ≤ x - z)
    linarith

end Polymers.Lemmas
