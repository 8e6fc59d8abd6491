import Verif.Lemmas.LogSquaredNewton
import Verif.Lemmas.LambertAccuracy

/-! How much of the distance a step of the search for the force of a log-squared link gains. -/

namespace Polymers.Lemmas

open Real Set Filter Topology Polymers.Props Polymers.math

theorem exp_neg_ge_cubic {s : ℝ} (hs : 0 ≤ s) : 1 - s + s ^ 2 / 2 - s ^ 3 / 6 ≤ exp (-s) := by
  have b0 : ∀ s : ℝ, 0 ≤ s → exp (-s) ≤ 1 - s + s ^ 2 / 2 := fun s hs => by
    have := nonneg_of_deriv_Icc (h := fun s => 1 - s + s ^ 2 / 2 - exp (-s)) (h' := fun s => -1 + s + exp (-s)) hs
      (by simp) (fun s _ _ => by
        refine ((((hasDerivAt_id s).const_sub 1).add ((hasDerivAt_pow 2 s).div_const 2)).sub
          ((hasDerivAt_id s).neg.exp)).congr_deriv ?_
        norm_num) (fun s _ _ => by have := add_one_le_exp (-s); linarith)
    linarith
  have := nonneg_of_deriv_Icc (h := fun s => exp (-s) - (1 - s + s ^ 2 / 2 - s ^ 3 / 6))
    (h' := fun s => 1 - s + s ^ 2 / 2 - exp (-s)) hs
    (by simp) (fun s _ _ => by
      refine (((hasDerivAt_id s).neg.exp).sub ((((hasDerivAt_id s).const_sub 1).add ((hasDerivAt_pow 2 s).div_const 2)).sub
        ((hasDerivAt_pow 3 s).div_const 6))).congr_deriv ?_
      norm_num; ring) (fun s h1 _ => by have := b0 s h1; linarith)
  linarith

/-- The solution for a force up to 95% of the largest one. -/
theorem ls_solution {κ x : ℝ} (hκ : 0 < κ) (hx : 0 < x) (hM : x ≤ 19 / 20 * (κ / exp 1)) :
    ∃ u, 0 < u ∧ u ≤ 357 / 500 ∧ u * exp (-u) = x / κ ∧ (1 - 3e-6) * u ≤ -lwIter 3 (-x / κ) ∧
      (1 - 1e-16) * u ≤ -lambert_w (-x / κ) ∧ -lambert_w (-x / κ) ≤ u := by
  have hp : 0 < κ / exp 1 := by positivity
  have hM' : x < κ / exp 1 := by linarith
  obtain ⟨h1, h2⟩ := ls_arg hκ hx hM'
  obtain ⟨w, hw, hw0, ew⟩ := exists_lambert_neg h1 h2
  obtain ⟨-, b1, -, -⟩ := lwIter_between hw hw0 ew
  have hge : -(357 / 500) ≤ w := by
    refine lambert_ge_neg hw ?_
    rw [ew, neg_div, neg_le_neg_iff, div_le_iff₀ hκ, exp_neg]
    calc x ≤ _ := hM
      _ = _ := by rw [div_eq_mul_inv]; ring
  obtain ⟨a3, a4⟩ := lwIter_accurate_neg hw0 hge
  rw [ew] at a3 a4
  rw [lambert_w_eq_iter h1 h2]
  refine ⟨-w, by linarith, by linarith, ?_, by linarith, by linarith, by linarith [b1 4]⟩
  rw [neg_neg, neg_mul, ew]; ring

/-- The stretch against the solution. -/
theorem ls_psi_ge {u t : ℝ} (hu0 : 0 < u) (hu1 : u ≤ 357 / 500) (h : (1 - 1e-16) * u ≤ t) : u ≤ (73 / 50 - u) * (exp t - 1) := by
  norm_num at h
  have ht0 : 9999 / 10000 * u ≤ t := by linarith only [h, hu0]
  have h5 := quadratic_le_exp_of_nonneg (show 0 ≤ t by linarith only [ht0, hu0])
  have h4 : (9999 / 10000 * u) ^ 2 ≤ t ^ 2 := pow_le_pow_left₀ (by positivity) ht0 2
  have h6 : 9999 / 10000 * u + (9999 / 10000 * u) ^ 2 / 2 ≤ exp t - 1 := by linarith only [h4, h5, ht0]
  have h7 := mul_le_mul_of_nonneg_left h6 (show 0 ≤ 73 / 50 - u by linarith only [hu1])
  refine le_trans ?_ h7
  have h8 : 0 ≤ u * (u * (357 / 500 - u)) := by
    have := sub_nonneg.2 hu1
    positivity
  have h9 : 0 ≤ u * (357 / 500 - u) := mul_nonneg hu0.le (sub_nonneg.2 hu1)
  linarith only [h8, h9, hu0]

set_option maxHeartbeats 1000000 in
/-- A step of length at most a quarter of the force, and at most `E` times the relation over four times the stretch, gains at
least the part `q` of what the slope at its end promises. -/
theorem ls_gain {κ x z E α q : ℝ} (hκ : 0 < κ) (hz : 0 < z) (hzx : z ≤ x) (hM : x ≤ 19 / 20 * (κ / exp 1))
    (hδ : x - z ≤ x / 4) (hE : (x - z) * lsPsi κ x ≤ x / 4 * (E * (1 + lsPsi κ x))) (hE0 : 0 ≤ E) (hα : 0 ≤ α)
    (hm : min (357 / 500) (73 / 50 * E) / 4 ≤ 143 / 500 * α + α ^ 2 / 2) (hq0 : 0 ≤ q)
    (hq : q * (143 / 500 + (α + 3e-6)) ≤
      143 / 500 * (1 - 2 * (α + 3e-6) + (2 * (α + 3e-6)) ^ 2 / 2 - (2 * (α + 3e-6)) ^ 3 / 6)) :
    q * ((x - z) * lsPsi' κ x) ≤ lsPsi κ x - lsPsi κ z := by
  rcases hzx.eq_or_lt with rfl | hlt
  · simp
  have hx : 0 < x := hz.trans hlt
  have hp : 0 < κ / exp 1 := by positivity
  have hM' : x < κ / exp 1 := by linarith
  obtain ⟨u, hu0, hu1, eu, -, u4, u4'⟩ := ls_solution hκ hx hM
  obtain ⟨v, hv0, hv1, ev, -, -, -⟩ := ls_solution hκ hz (by linarith)
  -- the mean value theorem
  have hc : ContinuousOn (lsPsi κ) (Icc z x) := fun y hy => by
    obtain ⟨d, hd, -⟩ := hasDerivAt_lsPsi hκ (hz.trans_le hy.1) (hy.2.trans_lt hM')
    exact hd.continuousAt.continuousWithinAt
  have hdf : DifferentiableOn ℝ (lsPsi κ) (Ioo z x) := fun y hy => by
    obtain ⟨d, hd, -⟩ := hasDerivAt_lsPsi hκ (hz.trans hy.1) (hy.2.trans hM')
    exact hd.differentiableAt.differentiableWithinAt
  obtain ⟨y, hy, e⟩ := exists_deriv_eq_slope (lsPsi κ) hlt hc hdf
  have hy0 := hz.trans hy.1
  obtain ⟨d, hd, hd0, -, hd1⟩ := hasDerivAt_lsPsi hκ hy0 (hy.2.trans hM')
  obtain ⟨r, hr0, hr1, er, r3, -, -⟩ := ls_solution hκ hy0 (by linarith [hy.2])
  rw [hd.deriv, eq_div_iff (by linarith)] at e
  rw [← e]
  -- the solutions are ordered
  have hmono : ∀ {a b : ℝ}, 0 < a → a ≤ 357 / 500 → 0 < b → b ≤ 357 / 500 → a * exp (-a) ≤ b * exp (-b) → a ≤ b := by
    intro a b ha ha1 hb hb1 h
    by_contra hc
    have := strictMonoOn_mul_exp (mem_Ici.2 (by linarith : (-1:ℝ) ≤ -a)) (mem_Ici.2 (by linarith : (-1:ℝ) ≤ -b)) (by linarith)
    simp only at this
    linarith
  have hvr : v ≤ r := hmono hv0 hv1 hr0 hr1 (by rw [ev, er]; exact div_le_div_of_nonneg_right hy.1.le hκ.le)
  have hvu : v ≤ u := hmono hv0 hv1 hu0 hu1 (by rw [ev, eu]; exact div_le_div_of_nonneg_right hzx hκ.le)
  -- how far apart they are
  have ha : u - v ≤ α := by
    obtain ⟨a, rfl⟩ : ∃ a, v = u - a := ⟨u - v, by ring⟩
    have ha0 : 0 ≤ a := by linarith
    have h1 : (1 - u) * a + a ^ 2 / 2 ≤ u - (u - a) * exp a := by
      have := nonneg_of_deriv_Icc (h := fun s => u - (u - s) * exp s - (1 - u) * s - s ^ 2 / 2)
        (h' := fun s => (1 - u + s) * (exp s - 1)) ha0 (by simp) (fun s _ _ => by
          refine ((((((hasDerivAt_id s).const_sub u).mul (hasDerivAt_exp s)).const_sub u).sub
            ((hasDerivAt_id s).const_mul (1 - u))).sub ((hasDerivAt_pow 2 s).div_const 2)).congr_deriv ?_
          norm_num; ring) (fun s h1 _ => by
            have : 1 ≤ exp s := one_le_exp h1
            exact mul_nonneg (by linarith) (by linarith))
      linarith
    have h2 : (x - z) / κ = exp (-u) * (u - (u - a) * exp a) := by
      have e1 : exp (-(u - a)) = exp (-u) * exp a := by rw [← exp_add]; ring_nf
      rw [sub_div, ← eu, ← ev, e1]; ring
    have h3 : (x - z) * u = x * (u - (u - a) * exp a) := by
      have e1 : x = κ * (u * exp (-u)) := by rw [eu]; field_simp
      have e2 : x - z = κ * (exp (-u) * (u - (u - a) * exp a)) := by rw [← h2]; field_simp
      rw [e2]
      linear_combination (-(u - (u - a) * exp a)) * e1
    have h4 : (x - z) * u ≤ x * (min (357 / 500) (73 / 50 * E) / 4) := by
      rcases min_cases (357 / 500) (73 / 50 * E) with ⟨h, -⟩ | ⟨h, -⟩
      · rw [h]
        calc (x - z) * u ≤ x / 4 * (357 / 500) := mul_le_mul hδ hu1 hu0.le (by linarith)
          _ = _ := by ring
      · rw [h]
        -- the stretch is at least as large as its exponent
        have hψ : u ≤ (73 / 50 - u) * lsPsi κ x := by
          rw [lsPsi_eq]
          exact ls_psi_ge hu0 hu1 u4
        have hψ0 : 0 < lsPsi κ x := by
          have := (ls_slope_le hκ hx hM').2.2.2.2
          have : 0 < x / κ := by positivity
          linarith
        have h5 := mul_le_mul_of_nonneg_right hE hu0.le
        have h6 : (1 + lsPsi κ x) * u ≤ 73 / 50 * lsPsi κ x := by linarith
        have h7 := mul_le_mul_of_nonneg_left h6 (show 0 ≤ x / 4 * E by positivity)
        have : (x - z) * u * lsPsi κ x ≤ x * (73 / 50 * E / 4) * lsPsi κ x := by linarith
        exact le_of_mul_le_mul_right this hψ0
    have h5 : (1 - u) * a + a ^ 2 / 2 ≤ 143 / 500 * α + α ^ 2 / 2 := by
      rw [h3] at h4
      have := le_of_mul_le_mul_left h4 hx
      linarith
    by_contra hcon
    rw [not_le] at hcon
    have e5 : u - (u - a) = a := by ring
    rw [e5] at hcon
    have h6 : 143 / 500 * α ≤ (1 - u) * a := mul_le_mul (by linarith only [hu1]) hcon.le hα (by linarith only [hu1])
    have h7 : α ^ 2 < a ^ 2 := pow_lt_pow_left₀ hcon hα two_ne_zero
    linarith only [h5, h6, h7]
  -- the slopes
  obtain ⟨τ, hτ⟩ : ∃ τ, τ = (1 - 3e-6) * v := ⟨_, rfl⟩
  have hτv : τ ≤ v := by rw [hτ]; norm_num; linarith
  have hτr : τ ≤ -lwIter 3 (-y / κ) := by
    refine le_trans ?_ r3
    rw [hτ]
    exact mul_le_mul_of_nonneg_left hvr (by norm_num)
  have hτu : u - τ ≤ α + 3e-6 := by
    rw [hτ]; norm_num; linarith
  have hd2 : exp (2 * τ) ≤ d * (κ * (1 - τ)) := by
    have h1 : exp (2 * τ) ≤ exp (-lwIter 3 (-y / κ)) ^ 2 := by
      rw [← exp_nat_mul]
      exact exp_le_exp.2 (by push_cast; linarith)
    have h2 : d * (κ * (lwIter 3 (-y / κ) + 1)) ≤ d * (κ * (1 - τ)) := by
      refine mul_le_mul_of_nonneg_left (mul_le_mul_of_nonneg_left ?_ hκ.le) hd0
      linarith
    linarith
  have hs : lsPsi' κ x * (κ * (1 - u)) ≤ exp (2 * u) := by
    have h1 := (ls_slope_le hκ hx hM').2.1
    have h0 := (ls_slope_le hκ hx hM').2.2.1
    have h2 : 0 < lambert_w (-x / κ) + 1 := by linarith
    rw [le_div_iff₀ (by positivity)] at h1
    have h3 : exp (-lambert_w (-x / κ)) ^ 2 ≤ exp (2 * u) := by
      rw [← exp_nat_mul]
      exact exp_le_exp.2 (by push_cast; linarith)
    have h4 : lsPsi' κ x * (κ * (1 - u)) ≤ lsPsi' κ x * (κ * (lambert_w (-x / κ) + 1)) := by
      refine mul_le_mul_of_nonneg_left (mul_le_mul_of_nonneg_left ?_ hκ.le) h0.le
      linarith
    linarith
  generalize lsPsi' κ x = P at *
  have hkey : q * P ≤ d := by
    obtain ⟨β, hβ⟩ : ∃ β, β = α + 3e-6 := ⟨_, rfl⟩
    rw [← hβ] at hq hτu
    have hβ0 : 0 ≤ β := by rw [hβ]; positivity
    have hu' : 0 < 1 - u := by linarith
    have hτ' : 0 < 1 - τ := by linarith
    have h1 := exp_neg_ge_cubic (show 0 ≤ 2 * β by positivity)
    have h2 : exp (-(2 * β)) * exp (2 * u) ≤ exp (2 * τ) := by
      rw [← exp_add]; exact exp_le_exp.2 (by linarith)
    have h3 : q * (143 / 500 + β) ≤ 143 / 500 * exp (-(2 * β)) := by linarith
    have h4 : q * (1 - τ) ≤ (1 - u) * exp (-(2 * β)) := by
      -- the ratio is worst for the largest solution
      have h5 : q ≤ exp (-(2 * β)) := by linarith only [h3, mul_nonneg hq0 hβ0]
      have h6 : 1 - τ ≤ (1 - u) + β := by linarith
      have h7 := mul_le_mul_of_nonneg_left h6 hq0
      have h8 := mul_le_mul_of_nonneg_left h5 (show 0 ≤ 1 - u - 143 / 500 by linarith only [hu1])
      linarith only [h3, h7, h8]
    have h5 : q * P * (κ * (1 - u) * (1 - τ)) ≤ d * (κ * (1 - u) * (1 - τ)) := by
      calc q * P * (κ * (1 - u) * (1 - τ)) = q * (1 - τ) * (P * (κ * (1 - u))) := by ring
        _ ≤ q * (1 - τ) * exp (2 * u) := mul_le_mul_of_nonneg_left hs (mul_nonneg hq0 hτ'.le)
        _ ≤ (1 - u) * exp (-(2 * β)) * exp (2 * u) := mul_le_mul_of_nonneg_right h4 (exp_pos _).le
        _ = (1 - u) * (exp (-(2 * β)) * exp (2 * u)) := by ring
        _ ≤ (1 - u) * exp (2 * τ) := mul_le_mul_of_nonneg_left h2 hu'.le
        _ ≤ (1 - u) * (d * (κ * (1 - τ))) := mul_le_mul_of_nonneg_left hd2 hu'.le
        _ = _ := by ring
    exact le_of_mul_le_mul_right h5 (by positivity)
  have := mul_le_mul_of_nonneg_right hkey (show 0 ≤ x - z by linarith)
  linarith

end Polymers.Lemmas
