import Verif.Lemmas.LambertSlope
import Verif.Lemmas.SwfjcSolve

/-! How fast the updates of `lambert_w` approach the solution: the error of an update is of third order. -/

namespace Polymers.Lemmas

open Real Set Polymers.Props Polymers.math

/-- One update from above the solution. -/
theorem lw_update_above {w u : ℝ} (hw : -1 < w) (hu : w ≤ u) (h : u ≤ 0 ∨ 0 ≤ w) :
    (lambert_w_update (w * exp w) u - w) * (4 * (u + 1) ^ 2 - 2 * (u + 1) * ((u + 2) * (u - w)) + ((u + 2) * (u - w)) ^ 2) ≤
      ((u + 2) * (u - w)) ^ 2 * (u - w) := by
  have hD := lwD_pos_of_ge hw hu h
  rw [lambert_w_update_eq (by linarith)]
  obtain ⟨k, rfl⟩ : ∃ k, w = u - k := ⟨u - w, by ring⟩
  have hk : 0 ≤ k := by linarith
  have e : exp (u - k) = exp u * exp (-k) := by rw [← exp_add]; ring_nf
  have hE := exp_pos u
  obtain ⟨f, hf⟩ : ∃ f, f = u - (u - k) * exp (-k) := ⟨_, rfl⟩
  have eF : u * exp u - (u - k) * exp (u - k) = exp u * f := by rw [e, hf]; ring
  have eD : lwD ((u - k) * exp (u - k)) u = exp u * (2 * (u + 1) ^ 2 - (u + 2) * f) := by
    rw [lwD, eF]; ring
  rw [eD] at hD
  rw [eF, eD]
  have hD' : 0 < 2 * (u + 1) ^ 2 - (u + 2) * f := pos_of_mul_pos_right hD hE.le
  have e3 : 2 * (u + 1) * (exp u * f) / (exp u * (2 * (u + 1) ^ 2 - (u + 2) * f)) =
      2 * (u + 1) * f / (2 * (u + 1) ^ 2 - (u + 2) * f) := by
    field_simp
  have e4 : u - (u - k) = k := by ring
  rw [e3, e4]
  have ha : 0 < u + 1 := by linarith
  -- the function is at least quadratic
  have hlow : (u + 1) * k - (u + 2) * k ^ 2 / 2 ≤ f := by
    have e5 : f = (u + 1) * (1 - exp (-k)) - (1 - (1 + k) * exp (-k)) := by rw [hf]; ring
    have b1 : k - k ^ 2 / 2 ≤ 1 - exp (-k) := by
      have := nonneg_of_deriv_nonneg_on (h := fun s => 1 - exp (-s) - s + s ^ 2 / 2) (h' := fun s => exp (-s) - 1 + s) hk
        (by simp) (fun s => by
          refine (((((hasDerivAt_id s).neg.exp).const_sub 1).sub (hasDerivAt_id s)).add
            ((hasDerivAt_pow 2 s).div_const 2)).congr_deriv ?_
          norm_num) (fun s _ _ => by have := add_one_le_exp (-s); linarith)
      linarith
    have b2 : 1 - (1 + k) * exp (-k) ≤ k ^ 2 / 2 := by
      have := nonneg_of_deriv_nonneg_on (h := fun s => s ^ 2 / 2 - 1 + (1 + s) * exp (-s)) (h' := fun s => s * (1 - exp (-s))) hk
        (by simp) (fun s => by
          refine ((((hasDerivAt_pow 2 s).div_const 2).sub_const 1).add
            (((hasDerivAt_id s).const_add 1).mul ((hasDerivAt_id s).neg.exp))).congr_deriv ?_
          norm_num; ring) (fun s h _ => by
            have : exp (-s) ≤ 1 := exp_le_one_iff.2 (by linarith)
            exact mul_nonneg h (by linarith))
      linarith
    rw [e5]
    have := mul_le_mul_of_nonneg_left b1 ha.le
    linarith
  have hQ : 0 < 4 * (u + 1) ^ 2 - 2 * (u + 1) * ((u + 2) * k) + ((u + 2) * k) ^ 2 := by
    nlinarith [sq_nonneg (2 * (u + 1) - 2 * ((u + 2) * k)), sq_nonneg ((u + 1) - (u + 2) * k)]
  have e6 : u - 2 * (u + 1) * f / (2 * (u + 1) ^ 2 - (u + 2) * f) - (u - k) =
      (k * (2 * (u + 1) ^ 2 - (u + 2) * f) - 2 * (u + 1) * f) / (2 * (u + 1) ^ 2 - (u + 2) * f) := by
    have hne := hD'.ne'
    rw [eq_div_iff hne, sub_mul, sub_mul, div_mul_cancel₀ _ hne]; ring
  rw [e6, div_mul_eq_mul_div, div_le_iff₀ hD']
  nlinarith [mul_nonneg (pow_pos ha 3).le (sub_nonneg.2 hlow)]

/-- One update from below the solution. -/
theorem lw_update_below {w u : ℝ} (hv : -1 < u) (hu : u ≤ w) :
    (w - lambert_w_update (w * exp w) u) * (4 * (u + 1) ^ 2 + 2 * (u + 1) * ((u + 2) * (w - u)) + ((u + 2) * (w - u)) ^ 2) ≤
      ((u + 2) * (w - u)) ^ 2 * (w - u) := by
  have hw : -1 < w := by linarith
  have hD := lwD_pos_of_nonpos (x := w * exp w) hv (strictMonoOn_mul_exp.monotoneOn (mem_Ici.2 hv.le) (mem_Ici.2 hw.le) hu)
  rw [lambert_w_update_eq (by linarith)]
  obtain ⟨k, rfl⟩ : ∃ k, w = u + k := ⟨w - u, by ring⟩
  have hk : 0 ≤ k := by linarith
  have e : exp (u + k) = exp u * exp k := exp_add _ _
  have hE := exp_pos u
  obtain ⟨f, hf⟩ : ∃ f, f = (u + k) * exp k - u := ⟨_, rfl⟩
  have eF : u * exp u - (u + k) * exp (u + k) = -(exp u * f) := by rw [e, hf]; ring
  have eD : lwD ((u + k) * exp (u + k)) u = exp u * (2 * (u + 1) ^ 2 + (u + 2) * f) := by
    rw [lwD, eF]; ring
  rw [eD] at hD
  rw [eF, eD]
  have hD' : 0 < 2 * (u + 1) ^ 2 + (u + 2) * f := pos_of_mul_pos_right hD hE.le
  have e3 : 2 * (u + 1) * -(exp u * f) / (exp u * (2 * (u + 1) ^ 2 + (u + 2) * f)) =
      -(2 * (u + 1) * f / (2 * (u + 1) ^ 2 + (u + 2) * f)) := by
    field_simp
  have e4 : u + k - u = k := by ring
  rw [e3, e4]
  have ha : 0 < u + 1 := by linarith
  -- the function is at least quadratic
  have hlow : (u + 1) * k + (u + 2) * k ^ 2 / 2 ≤ f := by
    have e5 : f = (u + 1) * (exp k - 1) + (1 - (1 - k) * exp k) := by rw [hf]; ring
    have b1 : k + k ^ 2 / 2 ≤ exp k - 1 := by
      have := quadratic_le_exp_of_nonneg hk
      linarith
    have b2 : k ^ 2 / 2 ≤ 1 - (1 - k) * exp k := by
      have := nonneg_of_deriv_nonneg_on (h := fun s => 1 - s ^ 2 / 2 - (1 - s) * exp s) (h' := fun s => s * (exp s - 1)) hk
        (by simp) (fun s => by
          refine ((((hasDerivAt_pow 2 s).div_const 2).const_sub 1).sub
            (((hasDerivAt_id s).const_sub 1).mul (hasDerivAt_exp s))).congr_deriv ?_
          norm_num; ring) (fun s h _ => by
            have : 1 ≤ exp s := one_le_exp h
            exact mul_nonneg h (by linarith))
      linarith
    rw [e5]
    have := mul_le_mul_of_nonneg_left b1 ha.le
    linarith
  have e6 : u + k - (u - -(2 * (u + 1) * f / (2 * (u + 1) ^ 2 + (u + 2) * f))) =
      (k * (2 * (u + 1) ^ 2 + (u + 2) * f) - 2 * (u + 1) * f) / (2 * (u + 1) ^ 2 + (u + 2) * f) := by
    have hne := hD'.ne'
    have := div_mul_cancel₀ (2 * (u + 1) * f) hne
    rw [eq_div_iff hne, sub_neg_eq_add]
    linear_combination -this
  rw [e6, div_mul_eq_mul_div, div_le_iff₀ hD']
  nlinarith [mul_nonneg (pow_pos ha 3).le (sub_nonneg.2 hlow)]

/-- The factor by which an update from above reduces the error, in terms of its relative size. -/
theorem lw_rate_above {a p e d R : ℝ} (ha : 0 < a) (hp : 0 ≤ p) (he : 0 ≤ e) (hR : R ≤ 1) (h : p ≤ 2 * R * a)
    (hd : d * (4 * a ^ 2 - 2 * a * p + p ^ 2) ≤ p ^ 2 * e) : d ≤ R ^ 2 / (1 - R + R ^ 2) * e := by
  have hR0 : 0 ≤ R := by
    by_contra hc
    have : 2 * R * a < 0 := by nlinarith
    linarith
  have hQ : 0 < 4 * a ^ 2 - 2 * a * p + p ^ 2 := by nlinarith [sq_nonneg (2 * a - 2 * p), sq_nonneg (a - p)]
  have hR1 : 0 < 1 - R + R ^ 2 := by nlinarith [sq_nonneg (R - 1 / 2)]
  have key : p ^ 2 * (1 - R + R ^ 2) ≤ R ^ 2 * (4 * a ^ 2 - 2 * a * p + p ^ 2) := by
    have : 0 ≤ (2 * R * a - p) * (2 * R * a + p * (1 - R)) :=
      mul_nonneg (by linarith) (by have := mul_nonneg hp (sub_nonneg.2 hR); nlinarith [mul_nonneg hR0 ha.le])
    linarith
  rw [div_mul_eq_mul_div, le_div_iff₀ hR1]
  have h1 := mul_le_mul_of_nonneg_right hd hR1.le
  have h2 := mul_le_mul_of_nonneg_right key he
  have : d * (1 - R + R ^ 2) * (4 * a ^ 2 - 2 * a * p + p ^ 2) ≤ R ^ 2 * e * (4 * a ^ 2 - 2 * a * p + p ^ 2) := by linarith
  exact le_of_mul_le_mul_right this hQ

/-- The factor by which an update from below reduces the error. -/
theorem lw_rate_below {a p e d R : ℝ} (ha : 0 < a) (hp : 0 ≤ p) (he : 0 ≤ e) (h : p ≤ 2 * R * a)
    (hd : d * (4 * a ^ 2 + 2 * a * p + p ^ 2) ≤ p ^ 2 * e) : d ≤ R ^ 2 / (1 + R + R ^ 2) * e := by
  have hR0 : 0 ≤ R := by
    by_contra hc
    have : 2 * R * a < 0 := by nlinarith
    linarith
  have hQ : 0 < 4 * a ^ 2 + 2 * a * p + p ^ 2 := by positivity
  have hR1 : 0 < 1 + R + R ^ 2 := by positivity
  have key : p ^ 2 * (1 + R + R ^ 2) ≤ R ^ 2 * (4 * a ^ 2 + 2 * a * p + p ^ 2) := by
    have : 0 ≤ (2 * R * a - p) * (2 * R * a + p * (1 + R)) :=
      mul_nonneg (by linarith) (by positivity)
    linarith
  rw [div_mul_eq_mul_div, le_div_iff₀ hR1]
  have h1 := mul_le_mul_of_nonneg_right hd hR1.le
  have h2 := mul_le_mul_of_nonneg_right key he
  have : d * (1 + R + R ^ 2) * (4 * a ^ 2 + 2 * a * p + p ^ 2) ≤ R ^ 2 * e * (4 * a ^ 2 + 2 * a * p + p ^ 2) := by linarith
  exact le_of_mul_le_mul_right this hQ

/-- One update on the negative side, for solutions down to `-0.714`. -/
theorem lw_step_neg {t c c' R v : ℝ} (ht : 0 < t) (ht' : t ≤ 357 / 500) (hv : -t ≤ v) (hv0 : v ≤ 0) (hc : v + t ≤ c * t)
    (hR1 : R ≤ 1) (hR : 357 / 500 * c + 357 / 500 * c / (143 / 500 + 357 / 500 * c) ≤ 2 * R)
    (hc' : R ^ 2 / (1 - R + R ^ 2) * c ≤ c') : lambert_w_update (-t * exp (-t)) v + t ≤ c' * t := by
  have h := lw_update_above (w := -t) (u := v) (by linarith) hv (.inl hv0)
  have ha : 0 < v + 1 := by linarith
  have hc0 : 0 ≤ c := by
    by_contra h
    have : c * t < 0 := by nlinarith
    linarith
  have hq : 0 < 143 / 500 + 357 / 500 * c := by positivity
  have e : v - -t = v + t := by ring
  rw [sub_neg_eq_add, e] at h
  -- the relative size of the error
  have h1 : (v + t) / (v + 1) ≤ 357 / 500 * c / (143 / 500 + 357 / 500 * c) := by
    rw [div_le_div_iff₀ ha hq]
    have h3 : (v + t) * (143 / 500) ≤ 357 / 500 * c * (1 - t) := by
      have := mul_le_mul_of_nonneg_left ht' hc0
      have := mul_le_mul_of_nonneg_left ht' (mul_nonneg hc0 ht.le)
      nlinarith
    have e2 : v + 1 = (v + t) + (1 - t) := by ring
    rw [e2]
    linarith
  have h2 : v + t ≤ 357 / 500 * c := by nlinarith
  have h4 : (v + 2) * (v + t) ≤ 2 * R * (v + 1) := by
    have e3 : (v + 2) * (v + t) = ((v + t) + (v + t) / (v + 1)) * (v + 1) := by field_simp; ring
    rw [e3]
    exact mul_le_mul_of_nonneg_right (by linarith) ha.le
  have := lw_rate_above ha (mul_nonneg (by linarith) (by linarith)) (by linarith) hR1 h4 h
  have hr : 0 ≤ R ^ 2 / (1 - R + R ^ 2) := div_nonneg (sq_nonneg _) (by nlinarith [sq_nonneg (R - 1 / 2)])
  have h5 := mul_le_mul_of_nonneg_left hc hr
  have h6 := mul_le_mul_of_nonneg_right hc' ht.le
  linarith

theorem exp_286 : 13307 / 10000 ≤ exp (143 / 500) := by
  have := sum_le_exp_of_nonneg (show (0:ℝ) ≤ 143 / 500 by norm_num) 4
  simp only [Finset.sum_range_succ, Finset.sum_range_zero, Nat.factorial] at this
  norm_num at this
  linarith

theorem exp_neg_714 : 489 / 1000 ≤ exp (-(357 / 500)) := by
  have h1 := exp_286
  have h2 := exp_one_lt_d9
  have e : exp (-(357 / 500)) * exp 1 = exp (143 / 500) := by rw [← exp_add]; norm_num
  norm_num at h2
  have : 489 / 1000 * exp 1 ≤ exp (-(357 / 500)) * exp 1 := by rw [e]; linarith
  exact le_of_mul_le_mul_right this (exp_pos 1)

/-- The solutions for arguments at least `-0.95 / e`. -/
theorem lambert_ge_neg {w : ℝ} (hw : -1 < w) (h : -(19 / 20 * exp (-1)) ≤ w * exp w) : -(357 / 500) ≤ w := by
  by_contra hc
  rw [not_le] at hc
  have h1 := strictMonoOn_mul_exp (mem_Ici.2 hw.le) (mem_Ici.2 (by norm_num)) hc
  simp only at h1
  have e : exp (-(357 / 500)) = exp (-1) * exp (143 / 500) := by rw [← exp_add]; norm_num
  have h2 := exp_286
  have h3 : 19 / 20 * exp (-1) ≤ 357 / 500 * (exp (-1) * exp (143 / 500)) := by
    have := mul_le_mul_of_nonneg_left h2 (exp_pos (-1)).le
    have := exp_pos (-1)
    linarith
  rw [e] at h1
  linarith

theorem neg_log_one_sub_ge {s : ℝ} (h0 : 0 ≤ s) (h1 : s ≤ 1 / 2) : s + s ^ 2 / 2 + s ^ 3 / 3 ≤ -log (1 - s) := by
  have := nonneg_of_deriv_Icc (h := fun s => -log (1 - s) - s - s ^ 2 / 2 - s ^ 3 / 3) (h' := fun s => s ^ 3 / (1 - s)) h0
    (by simp) (fun s _ h2 => by
      have hs : 1 - s ≠ 0 := by linarith
      refine ((((((hasDerivAt_id s).const_sub 1).log hs).neg.sub (hasDerivAt_id s)).sub
        ((hasDerivAt_pow 2 s).div_const 2)).sub ((hasDerivAt_pow 3 s).div_const 3)).congr_deriv ?_
      norm_num
      field_simp
      ring) (fun s h1 h2 => by
        exact div_nonneg (by positivity) (by linarith))
  linarith

/-- The start of the updates on the negative side. -/
theorem lw_start_neg {t : ℝ} (ht : 0 < t) (ht' : t ≤ 357 / 500) :
    3 / 4 * log (-t * exp (-t) + 1) + t ≤ 14 / 25 * t := by
  obtain ⟨z, hz⟩ : ∃ z, t = 357 / 500 - z := ⟨357 / 500 - t, by ring⟩
  have hz0 : 0 ≤ z := by linarith
  have hz1 : z ≤ 357 / 500 := by linarith
  have hr : 489 / 1000 * (1 + z) ≤ exp (-t) := by
    have e : exp (-t) = exp (-(357 / 500)) * exp z := by rw [← exp_add, hz]; ring_nf
    rw [e]
    exact mul_le_mul exp_neg_714 (by linarith [add_one_le_exp z]) (by linarith) (exp_pos _).le
  have hs1 : t * exp (-t) ≤ 1 / 2 := by
    have : exp (-t) * (1 + t) ≤ 1 := by
      have e : exp (-t) * exp t = 1 := by rw [← exp_add]; simp
      rw [← e]
      exact mul_le_mul_of_nonneg_left (by linarith [add_one_le_exp t]) (exp_pos _).le
    have h2 := exp_pos (-t)
    have h3 : exp (-t) ≤ 1 := exp_le_one_iff.2 (by linarith)
    nlinarith
  have hs0 : 0 < t * exp (-t) := by positivity
  have hlog := neg_log_one_sub_ge hs0.le hs1
  have e : -t * exp (-t) + 1 = 1 - t * exp (-t) := by ring
  rw [e]
  generalize exp (-t) = r at *
  have hs : 349 / 1000 - 49 / 100 * z ≤ t * r := by
    have h1 := mul_le_mul_of_nonneg_left hr ht.le
    have h2 := mul_nonneg hz0 (sub_nonneg.2 hz1)
    have h3 : t * (489 / 1000 * (1 + z)) = 489 / 1000 * (357 / 500 - 143 / 500 * z - z ^ 2) := by rw [hz]; ring
    have h4 : z ^ 2 ≤ 357 / 500 * z := by linarith only [h2]
    rw [h3] at h1
    linarith only [h1, h4, hz0]
  have hs2 : 1 + 349 / 2000 + 349 ^ 2 / 3000000 - 360 / 1000 * z ≤ 1 + t * r / 2 + (t * r) ^ 2 / 3 := by
    nlinarith [sq_nonneg (t * r - 349 / 1000)]
  have h5 : 44 / 75 ≤ r * (1 + t * r / 2 + (t * r) ^ 2 / 3) := by
    have h6 : 489 / 1000 * (1 + z) * (1 + 349 / 2000 + 349 ^ 2 / 3000000 - 360 / 1000 * z) ≤
        r * (1 + t * r / 2 + (t * r) ^ 2 / 3) := mul_le_mul hr hs2 (by linarith) (by linarith)
    nlinarith
  have h7 := mul_le_mul_of_nonneg_left h5 ht.le
  nlinarith

/-- On the negative side the third update leaves a relative error below `3e-6`, the fourth one below `1e-16`. -/
theorem lwIter_accurate_neg {w : ℝ} (hw0 : w < 0) (hw : -(357 / 500) ≤ w) :
    lwIter 3 (w * exp w) - w ≤ 3e-6 * -w ∧ lwIter 4 (w * exp w) - w ≤ 1e-16 * -w := by
  obtain ⟨t, rfl⟩ : ∃ t, w = -t := ⟨-w, by ring⟩
  have ht : 0 < t := by linarith
  have ht' : t ≤ 357 / 500 := by linarith
  obtain ⟨-, b1, b2, b3⟩ := lwIter_between (w := -t) (by linarith) hw0 rfl
  have b4 : ∀ n, lwIter n (-t * exp (-t)) ≤ 0 := fun n => by
    have := b2 n
    have : 0 < t * exp (-t) := by positivity
    linarith
  have hs : ∀ n, lwIter (n + 1) (-t * exp (-t)) = lambert_w_update (-t * exp (-t)) (lwIter n (-t * exp (-t))) := fun n =>
    lambert_w_loop_succ _ _ _
  have h0 : lwIter 0 (-t * exp (-t)) + t ≤ 14 / 25 * t := lw_start_neg ht ht'
  have h1 := lw_step_neg (R := 4916 / 10000) (c' := 1805 / 10000) ht ht' (b1 0) (b4 0) h0 (by norm_num) (by norm_num) (by norm_num)
  rw [← hs] at h1
  have h2 := lw_step_neg (R := 2199 / 10000) (c' := 1055 / 100000) ht ht' (b1 1) (b4 1) h1 (by norm_num) (by norm_num) (by norm_num)
  rw [← hs] at h2
  have h3 := lw_step_neg (R := 1661 / 100000) (c' := 2960 / 1000000000) ht ht' (b1 2) (b4 2) h2 (by norm_num) (by norm_num) (by norm_num)
  rw [← hs] at h3
  have h4 := lw_step_neg (R := 4753 / 1000000000) (c' := 6.7e-17) ht ht' (b1 3) (b4 3) h3 (by norm_num) (by norm_num) (by norm_num)
  rw [← hs] at h4
  norm_num at h3 h4 ⊢
  constructor <;> linarith

end Polymers.Lemmas
