import Verif.Lemmas.LambertAccuracy

/-!
C77: how accurate the computed Lambert W function is. Away from the branch point `-1/e` four updates are enough for all digits
of a double; next to it they are not.
-/

namespace Polymers.Props

open Real Set Polymers.Lemmas Polymers.math

/-- The start is above the solution by at most `2/5`. -/
theorem lw_start_above {w : ℝ} (hw : 0 ≤ w) : 3 / 4 * log (w * exp w + 1) - w ≤ 2 / 5 ∧ 3 / 4 * log (w * exp w + 1) - w ≤ w := by
  have hp : 0 < w * exp w + 1 := by positivity
  have e1 : 1 ≤ exp w := one_le_exp hw
  constructor
  · have h1 : 1 + w / 3 + (w / 3) ^ 2 / 2 ≤ exp (w / 3) := quadratic_le_exp_of_nonneg (by positivity)
    have h2 : 17 / 10 ≤ exp (8 / 15) := by
      have := sum_le_exp_of_nonneg (show (0:ℝ) ≤ 8 / 15 by norm_num) 4
      simp only [Finset.sum_range_succ, Finset.sum_range_zero, Nat.factorial] at this
      norm_num at this
      linarith
    have h3 : w * exp w + 1 ≤ exp (4 / 3 * w + 8 / 15) := by
      have e : exp (4 / 3 * w + 8 / 15) = exp w * (exp (w / 3) * exp (8 / 15)) := by rw [← exp_add, ← exp_add]; ring_nf
      rw [e]
      have h4 : w + 1 ≤ exp (w / 3) * exp (8 / 15) := by
        have : (1 + w / 3 + (w / 3) ^ 2 / 2) * (17 / 10) ≤ exp (w / 3) * exp (8 / 15) :=
          mul_le_mul h1 h2 (by norm_num) (exp_pos _).le
        nlinarith [sq_nonneg (w - 9 / 4)]
      have := mul_le_mul_of_nonneg_left h4 (exp_pos w).le
      linarith
    have := (log_le_iff_le_exp hp).2 h3
    linarith
  · have h3 : w * exp w + 1 ≤ exp (7 / 3 * w) := by
      have e : exp (7 / 3 * w) = exp w * exp (4 / 3 * w) := by rw [← exp_add]; ring_nf
      rw [e]
      have h4 : w + 1 ≤ exp (4 / 3 * w) := by linarith [add_one_le_exp (4 / 3 * w)]
      have := mul_le_mul_of_nonneg_left h4 (exp_pos w).le
      linarith
    have := (log_le_iff_le_exp hp).2 h3
    linarith

/-- The start is below the solution by at most `b`, for solutions up to `W`. -/
theorem lw_start_below {w b W : ℝ} (hw : 0 ≤ w) (hW : w ≤ W) (hW1 : 1 < W) (hb : 1 / 4 ≤ b) (h : exp (W / 3 - 4 / 3 * b) ≤ W) :
    w - 3 / 4 * log (w * exp w + 1) ≤ b ∧ w - 3 / 4 * log (w * exp w + 1) ≤ w := by
  have hp : 0 < w * exp w + 1 := by positivity
  constructor
  · have h1 : exp (w / 3 - 4 / 3 * b) ≤ exp (-w) + w := by
      rcases le_total w 1 with h1 | h1
      · have h2 : exp (w / 3 - 4 / 3 * b) ≤ 1 := exp_le_one_iff.2 (by linarith)
        have := add_one_le_exp (-w)
        linarith
      · obtain ⟨θ, hθ⟩ : ∃ θ, θ = (w - 1) / (W - 1) := ⟨_, rfl⟩
        have hW0 : 0 < W - 1 := by linarith
        have t0 : 0 ≤ θ := by rw [hθ]; exact div_nonneg (by linarith) hW0.le
        have t1 : θ ≤ 1 := by rw [hθ, div_le_one hW0]; linarith
        have e : w = (1 - θ) * 1 + θ * W := by rw [hθ]; field_simp; ring
        have hc := convexOn_exp.2 (mem_univ (1 / 3 - 4 / 3 * b)) (mem_univ (W / 3 - 4 / 3 * b)) (sub_nonneg.2 t1) t0 (by ring)
        simp only [smul_eq_mul] at hc
        have e2 : (1 - θ) * (1 / 3 - 4 / 3 * b) + θ * (W / 3 - 4 / 3 * b) = w / 3 - 4 / 3 * b := by rw [e]; ring
        rw [e2] at hc
        have h2 : exp (1 / 3 - 4 / 3 * b) ≤ 1 := exp_le_one_iff.2 (by linarith)
        have h3 := mul_le_mul_of_nonneg_left h2 (sub_nonneg.2 t1)
        have h4 := mul_le_mul_of_nonneg_left h t0
        have := exp_pos (-w)
        linarith
    have h2 : exp (4 / 3 * (w - b)) ≤ w * exp w + 1 := by
      have e : exp (4 / 3 * (w - b)) = exp w * exp (w / 3 - 4 / 3 * b) := by rw [← exp_add]; ring_nf
      have e2 : exp w * exp (-w) = 1 := by rw [← exp_add]; simp
      rw [e]
      have := mul_le_mul_of_nonneg_left h1 (exp_pos w).le
      linarith
    have := (le_log_iff_exp_le hp).2 h2
    linarith
  · have : 0 ≤ log (w * exp w + 1) := log_nonneg (by have : 0 ≤ w * exp w := by positivity
                                                     linarith)
    linarith

theorem le_of_mul_exp_le {w W X : ℝ} (hW : 0 ≤ W) (h : w * exp w ≤ X) (hX : X ≤ W * exp W) : w ≤ W := by
  by_contra hc
  have := strictMonoOn_mul_exp (mem_Ici.2 (by linarith)) (mem_Ici.2 (by linarith)) (not_le.1 hc)
  simp only at this
  linarith

theorem exp_nat_ge (n : ℕ) {r : ℝ} : (2.7182818283 : ℝ) ^ n * exp r ≤ exp (n + r) := by
  rw [exp_add]
  have e : exp (n : ℝ) = exp 1 ^ n := by rw [← exp_nat_mul]; simp
  rw [e]
  exact mul_le_mul_of_nonneg_right (pow_le_pow_left₀ (by norm_num) exp_one_gt_d9.le n) (exp_pos r).le

/-- One update on the positive side from above. -/
theorem lw_step_above {w u R : ℝ} (hw : 0 ≤ w) (hu : w ≤ u) (hR1 : R ≤ 1) (hR : u - w ≤ R) :
    lambert_w_update (w * exp w) u - w ≤ R ^ 2 / (1 - R + R ^ 2) * (u - w) := by
  have h := lw_update_above (by linarith) hu (.inr hw)
  have h4 : (u + 2) * (u - w) ≤ 2 * R * (u + 1) := by nlinarith
  exact lw_rate_above (by linarith) (mul_nonneg (by linarith) (by linarith)) (by linarith) hR1 h4 h

/-- One update on the positive side from below. -/
theorem lw_step_below {w u R q : ℝ} (hu : 0 ≤ u) (hw : u ≤ w) (hq : u + 2 ≤ q * (u + 1)) (hR : q * (w - u) ≤ 2 * R) :
    w - lambert_w_update (w * exp w) u ≤ R ^ 2 / (1 + R + R ^ 2) * (w - u) := by
  have h := lw_update_below (by linarith) hw
  have h4 : (u + 2) * (w - u) ≤ 2 * R * (u + 1) := by
    calc (u + 2) * (w - u) ≤ (q * (u + 1)) * (w - u) := mul_le_mul_of_nonneg_right hq (by linarith)
      _ = q * (w - u) * (u + 1) := by ring
      _ ≤ _ := mul_le_mul_of_nonneg_right hR (by linarith)
  exact lw_rate_below (by linarith) (mul_nonneg (by linarith) (by linarith)) (by linarith) h4 h

theorem lw_accurate_above {w : ℝ} (hw : 0 ≤ w) (h : w ≤ 3 / 4 * log (w * exp w + 1)) :
    |lambert_w_loop (w * exp w) 4 (3 / 4 * log (w * exp w + 1)) - w| ≤ 1e-16 * w := by
  obtain ⟨s1, s2⟩ := lw_start_above hw
  generalize 3 / 4 * log (w * exp w + 1) = v at *
  obtain ⟨-, hl⟩ := (lambert_w_loop_between (by linarith) (by linarith) (.inr hw)).1 h
  have es := lambert_w_loop_succ (w * exp w)
  have e0 : lambert_w_loop (w * exp w) 0 v = v := rfl
  have h1 := lw_step_above (R := 2 / 5) hw (hl 0) (by norm_num) (by rw [e0]; exact s1)
  rw [← es, e0] at h1
  norm_num at h1
  have h2 := lw_step_above (R := 85 / 1000) hw (hl 1) (by norm_num) (by linarith)
  rw [← es] at h2
  norm_num at h2
  have h3 := lw_step_above (R := 1 / 1000) hw (hl 2) (by norm_num) (by linarith)
  rw [← es] at h3
  norm_num at h3
  have h4 := lw_step_above (R := 1 / 100000000) hw (hl 3) (by norm_num) (by linarith)
  rw [← es] at h4
  norm_num at h4
  rw [abs_of_nonneg (by linarith [hl 4])]
  norm_num
  linarith

theorem lw_accurate_below {w : ℝ} (hw : 0 ≤ w) (hX : w * exp w ≤ 10000) (h : 3 / 4 * log (w * exp w + 1) ≤ w) :
    |lambert_w_loop (w * exp w) 4 (3 / 4 * log (w * exp w + 1)) - w| ≤ 1e-16 * w := by
  have hW : w ≤ 29 / 4 := by
    refine le_of_mul_exp_le (by norm_num) hX ?_
    have h1 := exp_nat_ge 7 (r := 1 / 4)
    have h2 := quadratic_le_exp_of_nonneg (show (0 : ℝ) ≤ 1 / 4 by norm_num)
    norm_num at h1 h2 ⊢
    linarith
  have hE : exp (29 / 4 / 3 - 4 / 3 * (2 / 5)) ≤ 29 / 4 := by
    have h1 : exp (29 / 4 / 3 - 4 / 3 * (2 / 5)) * exp (7 / 60) = exp 1 ^ 2 := by
      rw [← exp_add, ← exp_nat_mul]; norm_num
    have h2 := add_one_le_exp (7 / 60 : ℝ)
    have h3 := exp_one_lt_d9
    have h4 : exp 1 ^ 2 ≤ 739 / 100 := by
      norm_num at h3
      nlinarith [exp_pos 1]
    rw [← h1] at h4
    have := mul_le_mul_of_nonneg_left h2 (exp_pos (29 / 4 / 3 - 4 / 3 * (2 / 5))).le
    linarith
  obtain ⟨s1, s2⟩ := lw_start_below hw hW (by norm_num) (by norm_num) hE
  have hv : 0 ≤ 3 / 4 * log (w * exp w + 1) := by linarith
  generalize 3 / 4 * log (w * exp w + 1) = v at *
  obtain ⟨hm, hl⟩ := (lambert_w_loop_between (by linarith) (by linarith) (.inr hw)).2 h
  have es := lambert_w_loop_succ (w * exp w)
  have e0 : lambert_w_loop (w * exp w) 0 v = v := rfl
  have hp : ∀ n, 0 ≤ lambert_w_loop (w * exp w) n v := fun n => hv.trans (hm (Nat.zero_le n))
  have hq : ∀ n, lambert_w_loop (w * exp w) n v + 2 ≤ 2 * (lambert_w_loop (w * exp w) n v + 1) := fun n => by linarith [hp n]
  have h1 := lw_step_below (R := 2 / 5) (hp 0) (hl 0) (hq 0) (by rw [e0]; linarith)
  rw [← es, e0] at h1
  norm_num at h1
  have h2 := lw_step_below (R := 85 / 1000) (hp 1) (hl 1) (hq 1) (by linarith)
  rw [← es] at h2
  norm_num at h2
  have h3 := lw_step_below (R := 1 / 1000) (hp 2) (hl 2) (hq 2) (by linarith)
  rw [← es] at h3
  norm_num at h3
  have h4 := lw_step_below (R := 1 / 100000000) (hp 3) (hl 3) (hq 3) (by linarith)
  rw [← es] at h4
  norm_num at h4
  rw [abs_of_nonpos (by linarith [hl 4])]
  norm_num
  linarith

theorem lw_accurate_large {w : ℝ} (hw : 0 ≤ w) (hx : 10000 ≤ w * exp w) (hX : w * exp w ≤ 100000000)
    (h : 3 / 4 * log (w * exp w + 1) ≤ w) :
    |lambert_w_loop (w * exp w) 4 (3 / 4 * log (w * exp w + 1)) - w| ≤ 1e-13 * w := by
  have hW : w ≤ 157 / 10 := by
    refine le_of_mul_exp_le (by norm_num) hX ?_
    have h1 := exp_nat_ge 15 (r := 7 / 10)
    have h2 := sum_le_exp_of_nonneg (show (0:ℝ) ≤ 7 / 10 by norm_num) 5
    simp only [Finset.sum_range_succ, Finset.sum_range_zero, Nat.factorial] at h2
    norm_num at h1 h2 ⊢
    linarith
  have hE : exp (157 / 10 / 3 - 4 / 3 * (19 / 10)) ≤ 157 / 10 := by
    have h1 : exp (157 / 10 / 3 - 4 / 3 * (19 / 10)) * exp (3 / 10) = exp 1 ^ 3 := by
      rw [← exp_add, ← exp_nat_mul]; norm_num
    have h2 := add_one_le_exp (3 / 10 : ℝ)
    have h3 := exp_one_lt_d9
    have h4 : exp 1 ^ 3 ≤ 20.1 := by
      have := pow_le_pow_left₀ (exp_pos 1).le h3.le 3
      norm_num at this ⊢
      linarith
    rw [← h1] at h4
    norm_num at h4
    have := mul_le_mul_of_nonneg_left h2 (exp_pos (157 / 10 / 3 - 4 / 3 * (19 / 10))).le
    linarith
  obtain ⟨s1, s2⟩ := lw_start_below hw hW (by norm_num) (by norm_num) hE
  have hv : 6 ≤ 3 / 4 * log (w * exp w + 1) := by
    have : 8 ≤ log (w * exp w + 1) := by
      rw [le_log_iff_exp_le (by linarith)]
      have h3 := exp_one_lt_d9
      have e : exp (8 : ℝ) = exp 1 ^ 8 := by rw [← exp_nat_mul]; norm_num
      rw [e]
      have := pow_le_pow_left₀ (exp_pos 1).le h3.le 8
      norm_num at this
      linarith
    linarith
  generalize 3 / 4 * log (w * exp w + 1) = v at *
  obtain ⟨hm, hl⟩ := (lambert_w_loop_between (by linarith) (by linarith) (.inr hw)).2 h
  have es := lambert_w_loop_succ (w * exp w)
  have e0 : lambert_w_loop (w * exp w) 0 v = v := rfl
  have hp : ∀ n, 6 ≤ lambert_w_loop (w * exp w) n v := fun n => hv.trans (hm (Nat.zero_le n))
  have hp' : ∀ n, 0 ≤ lambert_w_loop (w * exp w) n v := fun n => by linarith [hp n]
  have hq : ∀ n, lambert_w_loop (w * exp w) n v + 2 ≤ 8 / 7 * (lambert_w_loop (w * exp w) n v + 1) := fun n => by linarith [hp n]
  have h1 := lw_step_below (R := 10858 / 10000) (hp' 0) (hl 0) (hq 0) (by rw [e0]; linarith)
  rw [← es, e0] at h1
  norm_num at h1
  have h2 := lw_step_below (R := 3922 / 10000) (hp' 1) (hl 1) (hq 1) (by linarith)
  rw [← es] at h2
  norm_num at h2
  have h3 := lw_step_below (R := 391 / 10000) (hp' 2) (hl 2) (hq 2) (by linarith)
  rw [← es] at h3
  norm_num at h3
  have h4 := lw_step_below (R := 58 / 1000000) (hp' 3) (hl 3) (hq 3) (by linarith)
  rw [← es] at h4
  norm_num at h4
  rw [abs_of_nonpos (by linarith [hl 4])]
  norm_num
  linarith

/-- C77: between `-0.95 / e` and ten thousand, `lambert_w` returns the solution `w > -1` of `w e^w = x` to a relative error of
`1e-16`. -/
theorem C77_lambert_w_accurate {x w : ℝ} (hw : -1 < w) (hx : w * exp w = x) (h1 : -(0.95 / exp 1) ≤ x) (h2 : x ≤ 10000) :
    |lambert_w x - w| ≤ 1e-16 * |w| := by
  have e1 : exp (-1) = 1 / exp 1 := by rw [exp_neg, one_div]
  have hx1 : -exp (-1) < x := by
    have := strictMonoOn_mul_exp (mem_Ici.2 le_rfl) (mem_Ici.2 hw.le) hw
    rw [← hx]; simpa using this
  rcases lt_or_ge w 0 with h0 | h0
  · have hw' : -(357 / 500) ≤ w := by
      refine lambert_ge_neg hw ?_
      rw [hx, e1]
      have e : (0.95 : ℝ) / exp 1 = 19 / 20 * (1 / exp 1) := by rw [show (0.95 : ℝ) = 19 / 20 by norm_num]; ring
      linarith
    have hx0 : x < 0 := by rw [← hx]; exact mul_neg_of_neg_of_pos h0 (exp_pos w)
    obtain ⟨-, b1, -, -⟩ := lwIter_between hw h0 hx
    rw [lambert_w_eq_iter hx1 hx0, abs_of_neg h0, abs_of_nonneg (by linarith [b1 4]), ← hx]
    exact (lwIter_accurate_neg h0 hw').2
  · have hx0 : 0 ≤ x := by rw [← hx]; positivity
    rw [lambert_w_real, (C08_lambert_w_updates x).2 (by rw [abs_of_nonneg hx0]; norm_num; linarith), abs_of_nonneg h0]
    subst hx
    rcases le_total w (3 / 4 * log (w * exp w + 1)) with h | h
    · exact lw_accurate_above h0 h
    · exact lw_accurate_below h0 h2 h

example : |lambert_w (1 * exp 1) - 1| ≤ 1e-16 * |(1 : ℝ)| :=
  C77_lambert_w_accurate (by norm_num) rfl (by have := exp_pos 1; have : 0 ≤ 0.95 / exp 1 := by positivity
                                               linarith) (by have := exp_one_lt_d9; norm_num at this; linarith)

/-- C77: from ten thousand to a hundred million to a relative error of `1e-13`. -/
theorem C77_lambert_w_accurate_large {x w : ℝ} (hw : -1 < w) (hx : w * exp w = x) (h1 : 10000 ≤ x) (h2 : x ≤ 1e8) :
    |lambert_w x - w| ≤ 1e-13 * |w| := by
  have h0 : 0 ≤ w := by
    by_contra hc
    have := mul_neg_of_neg_of_pos (not_le.1 hc) (exp_pos w)
    linarith
  norm_num at h2
  rw [lambert_w_real, (C08_lambert_w_updates x).2 (by rw [abs_of_nonneg (by linarith)]; norm_num; linarith), abs_of_nonneg h0]
  subst hx
  rcases le_total w (3 / 4 * log (w * exp w + 1)) with h | h
  · refine (lw_accurate_above h0 h).trans ?_
    norm_num
    linarith
  · exact lw_accurate_large h0 h1 h2 h

example : |lambert_w (9 * exp 9) - 9| ≤ 1e-13 * |(9 : ℝ)| := by
  have e : exp (9 : ℝ) = exp 1 ^ 9 := by rw [← exp_nat_mul]; norm_num
  refine C77_lambert_w_accurate_large (by norm_num) rfl ?_ ?_
  · have := pow_le_pow_left₀ (by norm_num) exp_one_gt_d9.le 9
    rw [e]; norm_num at this ⊢; linarith
  · have := pow_le_pow_left₀ (exp_pos 1).le exp_one_lt_d9.le 9
    rw [e]; norm_num at this ⊢; linarith

/-- An update moves at most this far towards `-1`. -/
theorem lw_update_ge {w u α α' : ℝ} (hw : -1 < w) (hu : w ≤ u) (hu0 : u ≤ 0) (hα : 0 < α) (hαu : α ≤ u + 1) (hα' : α' ≤ α)
    (h : α' * (2 - (α + 1) * (1 / 2 - α / 6 + α ^ 2 / 24)) ≤
      α * (2 - (α + 1) * (1 / 2 - α / 6 + α ^ 2 / 24) - (1 - α / 3 + α ^ 2 / 12))) :
    α' ≤ lambert_w_update (w * exp w) u + 1 := by
  have hb := (lambert_w_update_between hw (by linarith) (.inl hu0)).1 hu
  rcases le_total (w + 1) α with h1 | h1
  swap
  · linarith
  -- the update at `α - 1`
  have hD : ∀ z ∈ Icc (α - 1) u, 0 < lwD (w * exp w) z := fun z hz =>
    lwD_pos_of_ge hw (by linarith [hz.1]) (.inl (by linarith [hz.2]))
  have hmono : lambert_w_update (w * exp w) (α - 1) ≤ lambert_w_update (w * exp w) u := by
    have hab : α - 1 ≤ u := by linarith
    have := monotoneOn_of_deriv_nonneg (convex_Icc (α - 1) u)
      (fun z hz => (hasDerivAt_lwUpdate (by linarith [hz.1]) (hD z hz)).continuousAt.continuousWithinAt)
      (fun z hz => by
        rw [interior_Icc] at hz
        exact (hasDerivAt_lwUpdate (by linarith [hz.1]) (hD z (Ioo_subset_Icc_self hz))).differentiableAt.differentiableWithinAt)
      (fun z hz => by
        rw [interior_Icc] at hz
        rw [(hasDerivAt_lwUpdate (by linarith [hz.1]) (hD z (Ioo_subset_Icc_self hz))).deriv]
        have : 0 < z ^ 2 + 4 * z + 6 := by nlinarith [sq_nonneg (z + 2)]
        positivity)
    exact this (left_mem_Icc.2 hab) (right_mem_Icc.2 hab) hab
  refine le_trans ?_ (by linarith : lambert_w_update (w * exp w) (α - 1) + 1 ≤ _)
  rw [lambert_w_update_eq (by linarith)]
  have hDα := hD (α - 1) ⟨le_rfl, by linarith⟩
  have hE := exp_pos (α - 1)
  obtain ⟨f, hf⟩ : ∃ f, f = α - 1 - w * exp w * exp (1 - α) := ⟨_, rfl⟩
  have eE : exp (α - 1) * exp (1 - α) = 1 := by rw [← exp_add]; simp
  have eF : (α - 1) * exp (α - 1) - w * exp w = exp (α - 1) * f := by
    rw [hf]; linear_combination (w * exp w) * eE
  have eD : lwD (w * exp w) (α - 1) = exp (α - 1) * (2 * α ^ 2 - (α + 1) * f) := by rw [lwD, eF]; ring
  rw [eD] at hDα
  have hD' : 0 < 2 * α ^ 2 - (α + 1) * f := pos_of_mul_pos_right hDα hE.le
  -- the function is at most that of the branch point
  have hx : -exp (-1) < w * exp w := by
    have := strictMonoOn_mul_exp (mem_Ici.2 le_rfl) (mem_Ici.2 hw.le) hw
    simpa using this
  have hfq : f ≤ α ^ 2 * (1 / 2 - α / 6 + α ^ 2 / 24) := by
    have h2 : f ≤ α - 1 + exp (-α) := by
      have h3 : exp (-1) * exp (1 - α) = exp (-α) := by rw [← exp_add]; ring_nf
      have := mul_lt_mul_of_pos_right hx (exp_pos (1 - α))
      rw [hf]; linarith
    have h4 : exp (-α) ≤ 1 - α + α ^ 2 / 2 - α ^ 3 / 6 + α ^ 4 / 24 := by
      have b1 : ∀ s : ℝ, 0 ≤ s → 1 - s + s ^ 2 / 2 - s ^ 3 / 6 ≤ exp (-s) := fun s hs => by
        have b0 : ∀ s : ℝ, 0 ≤ s → exp (-s) ≤ 1 - s + s ^ 2 / 2 := fun s hs => by
          have := nonneg_of_deriv_Icc (h := fun s => 1 - s + s ^ 2 / 2 - exp (-s)) (h' := fun s => -1 + s + exp (-s)) hs
            (by simp) (fun s _ _ => by
              refine ((((hasDerivAt_id s).const_sub 1).add ((hasDerivAt_pow 2 s).div_const 2)).sub
                ((hasDerivAt_id s).neg.exp)).congr_deriv ?_
              norm_num) (fun s _ _ => by have := add_one_le_exp (-s); linarith)
          linarith
        have := nonneg_of_deriv_Icc (h := fun s => exp (-s) - (1 - s + s ^ 2 / 2 - s ^ 3 / 6))
          (h' := fun s => 1 - s + s ^ 2 / 2 - exp (-s)) hs
          (by simp) (fun s _ _ => by
            refine (((hasDerivAt_id s).neg.exp).sub ((((hasDerivAt_id s).const_sub 1).add ((hasDerivAt_pow 2 s).div_const 2)).sub
              ((hasDerivAt_pow 3 s).div_const 6))).congr_deriv ?_
            norm_num; ring) (fun s h1 _ => by have := b0 s h1; linarith)
        linarith
      have := nonneg_of_deriv_Icc (h := fun s => 1 - s + s ^ 2 / 2 - s ^ 3 / 6 + s ^ 4 / 24 - exp (-s))
        (h' := fun s => exp (-s) - (1 - s + s ^ 2 / 2 - s ^ 3 / 6)) hα.le
        (by simp) (fun s _ _ => by
          refine ((((((hasDerivAt_id s).const_sub 1).add ((hasDerivAt_pow 2 s).div_const 2)).sub
            ((hasDerivAt_pow 3 s).div_const 6)).add ((hasDerivAt_pow 4 s).div_const 24)).sub ((hasDerivAt_id s).neg.exp)).congr_deriv ?_
          norm_num; ring) (fun s h1 _ => by have := b1 s h1; linarith)
      linarith
    linarith
  have e3 : α - 1 - 2 * (α - 1 + 1) * ((α - 1) * exp (α - 1) - w * exp w) / lwD (w * exp w) (α - 1) + 1 =
      (α * (2 * α ^ 2 - (α + 1) * f) - 2 * α * f) / (2 * α ^ 2 - (α + 1) * f) := by
    rw [eF, eD]
    have hne := hD'.ne'
    have hne2 := hE.ne'
    have : 2 * (α - 1 + 1) * (exp (α - 1) * f) / (exp (α - 1) * (2 * α ^ 2 - (α + 1) * f)) =
        2 * α * f / (2 * α ^ 2 - (α + 1) * f) := by field_simp; ring
    rw [this, eq_div_iff hne]
    have := div_mul_cancel₀ (2 * α * f) hne
    linear_combination -this
  rw [e3, le_div_iff₀ hD']
  have hα1 : α ≤ 1 := by linarith
  have hk : 0 ≤ α ^ 2 * (1 / 2 - α / 6 + α ^ 2 / 24) - f := by linarith
  -- both sides are linear in the value of the function
  have h5 : 0 ≤ (α * (α + 1) + 2 * α - α' * (α + 1)) := by nlinarith
  have h6 := mul_nonneg h5 hk
  have h7 := mul_le_mul_of_nonneg_left h (sq_nonneg α)
  nlinarith

/-- C77: next to the branch point the four updates do not reach the solution: for `x` within `1e-5` of `-1/e`, relatively, the result
is off by more than half a percent. -/
theorem C77_lambert_w_branch_point {x w : ℝ} (hw : -1 < w) (hx : w * exp w = x) (h : x ≤ -((1 - 1e-5) / exp 1)) :
    5e-3 ≤ lambert_w x - w := by
  have e1 : exp (-1) = 1 / exp 1 := by rw [exp_neg, one_div]
  have hx1 : -exp (-1) < x := by
    have := strictMonoOn_mul_exp (mem_Ici.2 le_rfl) (mem_Ici.2 hw.le) hw
    rw [← hx]; simpa using this
  have hx0 : x < 0 := by
    have : 0 < (1 - 1e-5) / exp 1 := div_pos (by norm_num) (exp_pos 1)
    linarith
  have hw0 : w < 0 := by
    by_contra hc
    have : 0 ≤ w * exp w := mul_nonneg (not_lt.1 hc) (exp_pos w).le
    linarith
  -- the solution is next to -1
  have hA : w + 1 ≤ 45 / 10000 := by
    obtain ⟨a, rfl⟩ : ∃ a, w = a - 1 := ⟨w + 1, by ring⟩
    have ha : 0 ≤ a := by linarith
    have h3 : (1 - 1e-5) ≤ (1 - a) * exp a := by
      have e2 : exp (a - 1) = exp a / exp 1 := exp_sub _ _
      rw [← hx, e2] at h
      have h4 : (1 - 1e-5) / exp 1 ≤ (1 - a) * exp a / exp 1 := by
        have e3 : (a - 1) * (exp a / exp 1) = -((1 - a) * exp a / exp 1) := by ring
        linarith
      exact (div_le_div_iff_of_pos_right (exp_pos 1)).1 h4
    have h4 : (1 - a) * exp a ≤ 1 - a ^ 2 / 2 := by
      have := nonneg_of_deriv_nonneg_on (h := fun s => 1 - s ^ 2 / 2 - (1 - s) * exp s) (h' := fun s => s * (exp s - 1)) ha
        (by simp) (fun s => by
          refine ((((hasDerivAt_pow 2 s).div_const 2).const_sub 1).sub
            (((hasDerivAt_id s).const_sub 1).mul (hasDerivAt_exp s))).congr_deriv ?_
          norm_num; ring) (fun s h _ => by
            have : 1 ≤ exp s := one_le_exp h
            exact mul_nonneg h (by linarith))
      linarith
    norm_num at h3
    have h5 : a ≤ 45 / 10000 := by
      by_contra hc
      nlinarith
    linarith
  obtain ⟨-, b1, b2, -⟩ := lwIter_between hw hw0 hx
  have b4 : ∀ n, lwIter n x ≤ 0 := fun n => (b2 n).trans ((lambert_w_start hx1).2 hx0)
  have hs : ∀ n, lwIter (n + 1) x = lambert_w_update x (lwIter n x) := fun n => lambert_w_loop_succ _ _ _
  have s0 : 65 / 100 ≤ lwIter 0 x + 1 := by
    have e0 : lwIter 0 x = 3 / 4 * log (x + 1) := rfl
    have h2 : -(7 / 5) ≤ 3 * log (x + 1) := by
      have h3 : (63 / 100 : ℝ) ≤ x + 1 := by
        have h4 := exp_one_gt_d9
        have h5 : exp (-1) ≤ 37 / 100 := by
          rw [e1, div_le_iff₀ (exp_pos 1)]
          norm_num at h4
          linarith
        linarith
      have h4 : log ((63 / 100) ^ 3) ≤ 3 * log (x + 1) := by
        rw [log_pow]
        have := log_le_log (by norm_num) h3
        push_cast
        linarith
      refine le_trans ?_ h4
      rw [le_log_iff_exp_le (by norm_num), exp_neg]
      refine inv_le_of_inv_le₀ (by norm_num) ?_
      have := sum_le_exp_of_nonneg (show (0:ℝ) ≤ 7 / 5 by norm_num) 6
      simp only [Finset.sum_range_succ, Finset.sum_range_zero, Nat.factorial] at this
      norm_num at this ⊢
      linarith
    rw [e0]; linarith
  subst hx
  have s1 := lw_update_ge (α' := 248 / 1000) hw (b1 0) (b4 0) (by norm_num) s0 (by norm_num) (by norm_num)
  rw [← hs] at s1
  have s2 := lw_update_ge (α' := 873 / 10000) hw (b1 1) (b4 1) (by norm_num) s1 (by norm_num) (by norm_num)
  rw [← hs] at s2
  have s3 := lw_update_ge (α' := 296 / 10000) hw (b1 2) (b4 2) (by norm_num) s2 (by norm_num) (by norm_num)
  rw [← hs] at s3
  have s4 := lw_update_ge (α' := 98 / 10000) hw (b1 3) (b4 3) (by norm_num) s3 (by norm_num) (by norm_num)
  rw [← hs] at s4
  rw [lambert_w_eq_iter hx1 hx0]
  norm_num at s4 ⊢
  linarith

/-- There is such an argument. -/
example : ∃ x w : ℝ, -1 < w ∧ w * exp w = x ∧ x ≤ -((1 - 1e-5) / exp 1) := by
  obtain ⟨w, ⟨h1, h2⟩, -⟩ := exists_unique_lambert (x := -((1 - 1e-5) / exp 1)) (by
    rw [exp_neg, neg_lt_neg_iff, ← one_div]
    exact div_lt_div_of_pos_right (by norm_num) (exp_pos 1))
  exact ⟨_, w, h1, h2, le_rfl⟩

end Polymers.Props
