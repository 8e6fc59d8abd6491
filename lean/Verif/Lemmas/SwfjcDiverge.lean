import Verif.Lemmas.SwfjcNewton

/-!
Newton's method for the square-well chain, far above the root: for wide wells the step from the fixed guess overshoots to a
large negative force, the next one to a larger positive force, and so on.
-/

namespace Polymers

open Real Polymers.Props

/-- Extension per link of the square-well chain, as the code computes it. -/
noncomputable def swF (W x : ℝ) : ℝ := (W ^ 2 * x * sinh (W * x) - x * sinh x) / swZ W x - 3 / x

/-- Its slope, as the code computes it. -/
noncomputable def swF' (W x : ℝ) : ℝ :=
  (sinh x + x * cosh x - W ^ 3 * x * cosh (W * x) - W ^ 2 * sinh (W * x)) / (-swZ W x) -
    (x ^ 2 * (sinh x - W ^ 2 * sinh (W * x)) ^ 2) / (-swZ W x) ^ 2 + 3 / x ^ 2

theorem swZ_neg (W x : ℝ) : swZ W (-x) = -swZ W x := by
  unfold swZ swG
  rw [mul_neg, cosh_neg, sinh_neg, cosh_neg, sinh_neg]; ring

theorem swF_neg (W x : ℝ) : swF W (-x) = -swF W x := by
  unfold swF
  rw [swZ_neg, show W * -x = -(W * x) by ring, sinh_neg, sinh_neg, div_neg, div_neg]
  ring

theorem swF'_neg (W x : ℝ) : swF' W (-x) = swF' W x := by
  unfold swF'
  rw [swZ_neg, show W * -x = -(W * x) by ring, sinh_neg, sinh_neg, cosh_neg, cosh_neg]
  have h1 : -sinh x + -x * cosh x - W ^ 3 * -x * cosh (W * x) - W ^ 2 * -sinh (W * x) =
      -(sinh x + x * cosh x - W ^ 3 * x * cosh (W * x) - W ^ 2 * sinh (W * x)) := by ring
  rw [h1, neg_div_neg_eq]
  congr 2
  · rw [neg_sq x, neg_sq (-swZ W x)]; congr 2; ring
  · rw [neg_sq]

/-- Beyond ninety, the exponential of a ninth of the argument is negligible against the hyperbolic cosine. -/
theorem exp_ninth_small {u : ℝ} (hu : 90 ≤ u) : u ^ 2 * exp (u / 9) ≤ 1 / 10000000000 * cosh u := by
  have hq : (1024 : ℝ) ≤ exp (u / 9) := by
    have h1 : exp 10 ≤ exp (u / 9) := exp_le_exp.2 (by linarith)
    have h2 : (2 : ℝ) ^ 10 ≤ exp 1 ^ 10 := by gcongr; linarith [add_one_le_exp (1 : ℝ)]
    rw [← exp_nat_mul] at h2
    norm_num at h2
    linarith
  have hu9 : u ≤ 9 * exp (u / 9) := by linarith [add_one_le_exp (u / 9)]
  have hC : exp (u / 9) ^ 9 / 2 ≤ cosh u := by
    rw [← exp_nat_mul, cosh_eq, show ((9 : ℕ) : ℝ) * (u / 9) = u by norm_num; ring]
    linarith [exp_pos (-u)]
  generalize exp (u / 9) = q at *
  have hq0 : 0 < q := by linarith
  calc u ^ 2 * q ≤ (9 * q) ^ 2 * q := by gcongr
    _ = 81 * 1 * q ^ 3 := by ring
    _ ≤ 81 * (q / 1024) ^ 6 * q ^ 3 := by
        gcongr
        exact one_le_pow₀ (by rw [le_div_iff₀ (by norm_num)]; linarith)
    _ ≤ 1 / 10000000000 * (q ^ 9 / 2) := by
        have : 0 < q ^ 9 := by positivity
        rw [div_pow]; norm_num
        nlinarith
    _ ≤ _ := by gcongr

set_option maxHeartbeats 1000000 in
theorem sw_far {W x : ℝ} (hW : 9 ≤ W) (hu : 90 ≤ W * x) :
    483 / 500 * W ≤ swF W x ∧ 0 < swF' W x ∧ swF' W x * x ^ 2 ≤ (101 / 50) := by
  have hW0 : 0 < W := by linarith
  have hx : 0 < x := by
    by_contra h
    nlinarith [not_lt.1 h]
  have hZ := swZ_pos (by linarith : 1 < W) hx
  have hsm := exp_ninth_small hu
  have hS1 : sinh (W * x) = cosh (W * x) - exp (-(W * x)) := by rw [← cosh_sub_sinh]; ring
  have hE : exp (-(W * x)) ≤ 1 := exp_le_one_iff.2 (by linarith)
  have hE0 := exp_pos (-(W * x))
  have hcs : cosh (W * x) ^ 2 = sinh (W * x) ^ 2 + 1 := cosh_sq _
  have hxe : exp x ≤ exp (W * x / 9) := exp_le_exp.2 (by nlinarith)
  have hq1 : 1 ≤ exp (W * x / 9) := one_le_exp (by linarith)
  have hc1 : cosh x ≤ exp (W * x / 9) := by
    have := cosh_add_sinh x
    have := sinh_pos_iff.2 hx
    linarith
  have hs0 := sinh_pos_iff.2 hx
  have hs1 : sinh x ≤ cosh x := (sinh_lt_cosh x).le
  have hd0 : 0 ≤ swG x := le_trans (by positivity) (le_swG hx.le)
  have hd : swG x = x * cosh x - sinh x := rfl
  have hZd : swZ W x = W * x * cosh (W * x) - sinh (W * x) - swG x := rfl
  have hxu : x = W * x / W := by field_simp
  obtain ⟨u, hud⟩ : ∃ u, u = W * x := ⟨_, rfl⟩
  have hF : swF W x = W * ((u * sinh u - x / W * sinh x) / swZ W x - 3 / u) := by
    unfold swF; rw [hud]; field_simp
  have hF' : swF' W x * x ^ 2 = 3 + u ^ 2 * (((u * cosh u + sinh u) - (sinh x + x * cosh x) / W ^ 2) / swZ W x -
      (u * sinh u - x / W * sinh x) ^ 2 / swZ W x ^ 2) := by
    unfold swF'; rw [hud]; field_simp; ring
  have hxu9 : x ≤ u / 9 := by rw [hud]; nlinarith
  clear hxu
  rw [← hud] at hu hsm hS1 hE hE0 hcs hq1 hc1 hZd hxe
  -- small quantities
  have hC0 := cosh_pos u
  have hb0 : 0 ≤ x / W * sinh x := by positivity
  have hxW : x / W ≤ u / 81 := by
    rw [div_le_iff₀ hW0]; nlinarith
  have hb : x / W * sinh x ≤ u / 81 * exp (u / 9) := mul_le_mul hxW (hs1.trans hc1) hs0.le (by linarith)
  have hdle : swG x ≤ u / 9 * exp (u / 9) := by
    have : x * cosh x ≤ u / 9 * exp (u / 9) := mul_le_mul hxu9 hc1 (cosh_pos x).le (by linarith)
    linarith
  have ha0 : 0 ≤ (sinh x + x * cosh x) / W ^ 2 := by have := cosh_pos x; positivity
  have ha : (sinh x + x * cosh x) / W ^ 2 ≤ u * exp (u / 9) := by
    have h1 : x * cosh x ≤ u / 9 * exp (u / 9) := mul_le_mul hxu9 hc1 (cosh_pos x).le (by linarith)
    refine (div_le_self (by have := cosh_pos x; positivity) (by nlinarith)).trans ?_
    nlinarith
  generalize (sinh x + x * cosh x) / W ^ 2 = a at *
  generalize x / W * sinh x = b at *
  generalize swG x = d at *
  generalize swZ W x = Z at *
  generalize exp (u / 9) = q at *
  generalize exp (-u) = E at *
  generalize cosh u = C at *
  generalize sinh u = S at *
  clear hc1 hs1 hs0 hxe hd hxu9 hxW
  have huq : 90 * (u * q) ≤ u ^ 2 * q := by
    have : 0 ≤ u * q := by positivity
    nlinarith
  have huu : u ^ 2 ≤ u ^ 2 * q := le_mul_of_one_le_right (sq_nonneg u) hq1
  have hCbig : 81000000000000 ≤ C := by nlinarith
  have hSC : 9999 / 10000 * C ≤ S := by linarith
  have hSC2 : S ≤ C := by linarith
  have hS0 : 0 < S := by linarith
  have huC : 90 * C ≤ u * C := by nlinarith
  have hZle : Z ≤ u * C := by linarith
  have hZge : 49 / 50 * (u * C) ≤ Z := by linarith
  refine ⟨?_, ?_⟩
  · rw [hF]
    have h1 : 4999 / 5000 ≤ (u * S - b) / Z := by
      rw [le_div_iff₀ hZ]
      have : u * (9999 / 10000 * C) ≤ u * S := by gcongr
      nlinarith
    have h2 : 3 / u ≤ 3 / 90 := by gcongr
    nlinarith
  · have hnum : ((u * C + S) - a) / Z - (u * S - b) ^ 2 / Z ^ 2 =
        (u ^ 2 - S ^ 2 - a * Z - d * (u * C + S) + 2 * u * S * b - b ^ 2) / Z ^ 2 := by
      have h1 : ((u * C + S) - a) / Z = ((u * C + S) - a) * Z / Z ^ 2 := by field_simp
      rw [h1, ← sub_div]
      congr 1
      rw [hZd]
      linear_combination u ^ 2 * hcs
    rw [hnum] at hF'
    have hu2C : u ^ 2 * q ≤ 1 / 10000000000 * C := hsm
    have hb1 : 0 ≤ u * S * b := by positivity
    have hb2 : u * S * b ≤ 1 / 10000000000 * C ^ 2 := by
      have h1 : u * b ≤ 1 / 10000000000 * C := by
        have : u * b ≤ u * (u / 81 * q) := by gcongr
        linarith
      have : u * S * b = u * b * S := by ring
      rw [this, sq, ← mul_assoc]
      exact mul_le_mul h1 hSC2 hS0.le (by positivity)
    have hC2 : 10000000000 * C ≤ C ^ 2 := by
      rw [sq]; exact mul_le_mul_of_nonneg_right (by linarith) hC0.le
    have hqC : u ^ 2 * q * C ≤ 1 / 10000000000 * C ^ 2 := by
      rw [sq C, ← mul_assoc]; exact mul_le_mul_of_nonneg_right hsm hC0.le
    have hu2 : u ^ 2 ≤ 1 / 10000000000 * C ^ 2 := by linarith
    have haZ0 : 0 ≤ a * Z := by positivity
    have haZ : a * Z ≤ 1 / 10000000000 * C ^ 2 := by
      have h1 : a * Z ≤ u * q * (u * C) := mul_le_mul ha hZle hZ.le (by positivity)
      have h2 : u * q * (u * C) = u ^ 2 * q * C := by ring
      linarith
    have hdZ0 : 0 ≤ d * (u * C + S) := by positivity
    have hdZ : d * (u * C + S) ≤ 1 / 10000000000 * C ^ 2 := by
      have h1 : d * (u * C + S) ≤ u / 9 * q * (2 * (u * C)) := mul_le_mul hdle (by linarith) (by positivity) (by positivity)
      have h2 : u / 9 * q * (2 * (u * C)) = 2 / 9 * (u ^ 2 * q * C) := by ring
      linarith
    have hbb : b ^ 2 ≤ 1 / 10000000000 * C ^ 2 := by
      have h1 : b ≤ 1 / 10000000000 * C := by linarith
      have : b ^ 2 ≤ (1 / 10000000000 * C) ^ 2 := by gcongr
      have h0 : 0 ≤ C ^ 2 := sq_nonneg C
      rw [mul_pow] at this
      linarith
    have hbb0 := sq_nonneg b
    have hS2 : S ^ 2 = C ^ 2 - 1 := by linarith
    obtain ⟨n, hn⟩ : ∃ n, n = u ^ 2 - S ^ 2 - a * Z - d * (u * C + S) + 2 * u * S * b - b ^ 2 := ⟨_, rfl⟩
    rw [← hn] at hF'
    have hn1 : n ≤ -(99 / 100 * C ^ 2) := by linarith
    have hn2 : -(101 / 100 * C ^ 2) ≤ n := by linarith [sq_nonneg u]
    have hZ2 : Z ^ 2 ≤ u ^ 2 * C ^ 2 := by rw [← mul_pow]; gcongr
    have hZ2' : 24 / 25 * (u ^ 2 * C ^ 2) ≤ Z ^ 2 := by
      rw [← mul_pow]
      have : (49 / 50 * (u * C)) ^ 2 ≤ Z ^ 2 := by gcongr
      have h0 : 0 ≤ (u * C) ^ 2 := by positivity
      linarith
    have hZ20 : 0 < Z ^ 2 := by positivity
    have hr1 : u ^ 2 * (n / Z ^ 2) ≤ -(49 / 50) := by
      rw [mul_div_assoc', div_le_iff₀ hZ20]
      have : u ^ 2 * n ≤ u ^ 2 * (-(99 / 100 * C ^ 2)) := by gcongr
      linarith
    have hr2 : -2 ≤ u ^ 2 * (n / Z ^ 2) := by
      rw [mul_div_assoc', le_div_iff₀ hZ20]
      have : u ^ 2 * (-(101 / 100 * C ^ 2)) ≤ u ^ 2 * n := by gcongr
      have : 0 < u ^ 2 * C ^ 2 := by positivity
      linarith
    have hx2 : 0 < x ^ 2 := by positivity
    refine ⟨?_, ?_⟩
    · refine pos_of_mul_pos_left ?_ hx2.le
      rw [hF']; linarith
    · rw [hF']; linarith

/-- The region the iteration never leaves. -/
def SwFar (W x : ℝ) : Prop := 90 ≤ W * x ∨ W * x ≤ -100

/-- A Newton step for an extension between `0.9` and `183 / 200` of the largest one. -/
theorem sw_far_step {W x y : ℝ} (hW : 9 ≤ W) (hy0 : 9 / 10 * W ≤ y) (hy1 : y ≤ 183 / 200 * W) (h : SwFar W x) :
    SwFar W (x + (y - swF W x) / swF' W x) := by
  have hW0 : 0 < W := by linarith
  rcases h with h | h
  · obtain ⟨h1, h2, h3⟩ := sw_far hW h
    right
    have hx : 0 < x := by
      by_contra hc
      nlinarith [not_lt.1 hc]
    generalize swF W x = f at *
    generalize swF' W x = p at *
    have h4 : (y - f) / p ≤ -(51 / 1000 * W) * (x ^ 2 / (101 / 50)) := by
      rw [div_le_iff₀ h2]
      have : x ^ 2 / (101 / 50) * p ≤ 1 := by
        rw [div_mul_eq_mul_div, div_le_one (by norm_num)]; linarith
      have : 51 / 1000 * W * (x ^ 2 / (101 / 50) * p) ≤ 51 / 1000 * W * 1 := by gcongr
      linarith
    have h5 : W * (x + (y - f) / p) ≤ W * (x + -(51 / 1000 * W) * (x ^ 2 / (101 / 50))) := by gcongr
    refine h5.trans ?_
    have : W * (x + -(51 / 1000 * W) * (x ^ 2 / (101 / 50))) = W * x - 51 / 1000 / (101 / 50) * (W * x) ^ 2 := by ring
    rw [this]
    norm_num
    nlinarith
  · have h' : 90 ≤ W * (-x) := by linarith
    obtain ⟨h1, h2, h3⟩ := sw_far hW h'
    left
    rw [swF_neg] at h1
    rw [swF'_neg] at h2 h3
    rw [neg_sq] at h3
    generalize swF W x = f at *
    generalize swF' W x = p at *
    have h4 : W * (x ^ 2 / (101 / 50)) ≤ (y - f) / p := by
      rw [le_div_iff₀ h2]
      have : x ^ 2 / (101 / 50) * p ≤ 1 := by
        rw [div_mul_eq_mul_div, div_le_one (by norm_num)]; linarith
      have : W * (x ^ 2 / (101 / 50) * p) ≤ W * 1 := by gcongr
      linarith
    have h5 : W * (x + W * (x ^ 2 / (101 / 50))) ≤ W * (x + (y - f) / p) := by gcongr
    refine le_trans ?_ h5
    have : W * (x + W * (x ^ 2 / (101 / 50))) = W * x + 1 / (101 / 50) * (W * x) ^ 2 := by ring
    rw [this]
    norm_num
    nlinarith

end Polymers
