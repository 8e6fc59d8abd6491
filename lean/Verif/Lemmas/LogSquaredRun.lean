import Verif.Lemmas.LogSquaredGain

/-! How fast the search for the force of a log-squared link approaches it. -/

namespace Polymers.Lemmas

open Real Set Filter Topology Polymers.Props Polymers.math

/-- How much of the residual a step leaves, when the residual is at most `E` times the extension. -/
theorem ls_step_gain {C C' : ℝ → ℝ} {κ γ x z E α q : ℝ} (hC : MildCorr C C' (κ / exp 1)) (hκ : 0 < κ) (hx : 0 < x)
    (hM : x ≤ 19 / 20 * (κ / exp 1)) (hz : 3 / 4 * x ≤ z) (hzx : z < x) (hγ : γ < langevin x + C x + lsPsi κ x)
    (hS : (x - z) * (4 * (1 / x ^ 2 - 1 / sinh x ^ 2 + C' x + lsPsi' κ x)) = langevin x + C x + lsPsi κ x - γ)
    (hE : langevin x + C x + lsPsi κ x - γ ≤ E * γ) (hE0 : 0 ≤ E) (hα : 0 ≤ α)
    (hm : min (357 / 500) (73 / 50 * E) / 4 ≤ 143 / 500 * α + α ^ 2 / 2) (hq0 : 0 ≤ q) (hq1 : q ≤ 1)
    (hq : q * (143 / 500 + (α + 3e-6)) ≤
      143 / 500 * (1 - 2 * (α + 3e-6) + (2 * (α + 3e-6)) ^ 2 / 2 - (2 * (α + 3e-6)) ^ 3 / 6)) :
    langevin z + C z + lsPsi κ z - γ ≤ (1 - q / 4) * (langevin x + C x + lsPsi κ x - γ) := by
  have hp : 0 < κ / exp 1 := by positivity
  have hM' : x < κ / exp 1 := by linarith
  have hz0 : 0 < z := by linarith
  have hψ := goodStretch_ls hκ
  have h1 := hC.key x hx hM'
  have h2 := hψ.le_slope x hx hM'
  have h3 := hC.nonneg x hx
  have h4 := langevin_lt_one hx
  have h5 := hC.concave x z hx hz0
  have h6 := langevin_deriv_pos hx.ne'
  have h7 := hC.slope x hx hM'
  have h8 : 0 < lsPsi κ x := by
    have := (ls_slope_le hκ hx hM').2.2.2.2
    have : 0 < x / κ := by positivity
    linarith
  have hgain : q * ((x - z) * lsPsi' κ x) ≤ lsPsi κ x - lsPsi κ z := by
    refine ls_gain hκ hz0 hzx.le hM (by linarith) ?_ hE0 hα hm hq0 hq
    have hd : 0 ≤ x - z := by linarith
    have a1 : (x - z) * (C x + lsPsi κ x) ≤ x / 4 * (E * (1 + C x + lsPsi κ x)) := by
      have b1 : (x - z) * (C x + lsPsi κ x) ≤ (x - z) * (x * (1 / x ^ 2 - 1 / sinh x ^ 2 + C' x + lsPsi' κ x)) :=
        mul_le_mul_of_nonneg_left (by linarith) hd
      have b2 : (x - z) * (x * (1 / x ^ 2 - 1 / sinh x ^ 2 + C' x + lsPsi' κ x)) =
          x / 4 * (langevin x + C x + lsPsi κ x - γ) := by rw [← hS]; ring
      have b3 : E * γ ≤ E * (1 + C x + lsPsi κ x) := mul_le_mul_of_nonneg_left (by linarith) hE0
      rw [b2] at b1
      exact b1.trans (mul_le_mul_of_nonneg_left (by linarith) (by linarith))
    rcases le_or_gt (x - z) (x / 4 * E) with hle | hgt
    · have b1 := mul_le_mul_of_nonneg_right hle h8.le
      have b2 : 0 ≤ x / 4 * E := by positivity
      linarith
    · have b1 : 0 ≤ (x - z - x / 4 * E) * C x := mul_nonneg (by linarith) h3
      linarith
  have h9 : 0 ≤ (1 - q) * ((x - z) * (1 / x ^ 2 - 1 / sinh x ^ 2 + C' x)) :=
    mul_nonneg (by linarith) (mul_nonneg (by linarith) (by linarith))
  have e : q / 4 * (langevin x + C x + lsPsi κ x - γ) =
      q * ((x - z) * (1 / x ^ 2 - 1 / sinh x ^ 2 + C' x)) + q * ((x - z) * lsPsi' κ x) := by rw [← hS]; ring
  linarith

/-- A sequence which shrinks by the factor `c` from each member on which is at most `E g`. -/
theorem phase {e : ℕ → ℝ} {g c E E' : ℝ} {n : ℕ} (k : ℕ) (hn : e n ≤ E * g)
    (h : ∀ m, e m ≤ E * g → e (m + 1) ≤ c * e m) (hc : 0 ≤ c) (hc1 : c ≤ 1) (hE : 0 ≤ E) (hg : 0 ≤ g) (hk : c ^ k * E ≤ E') :
    e (n + k) ≤ E' * g := by
  have key : ∀ j, e (n + j) ≤ c ^ j * (E * g) := by
    intro j
    induction j with
    | zero => simpa using hn
    | succ j ih =>
      have h1 : c ^ j * (E * g) ≤ E * g := mul_le_of_le_one_left (by positivity) (pow_le_one₀ hc hc1)
      have h2 := h (n + j) (ih.trans h1)
      have h3 := mul_le_mul_of_nonneg_left ih hc
      rw [pow_succ]
      rw [← add_assoc]
      linarith
  calc e (n + k) ≤ c ^ k * (E * g) := key k
    _ = c ^ k * E * g := by ring
    _ ≤ _ := mul_le_mul_of_nonneg_right hk hg

/-- Ninety-three steps are enough. -/
theorem ls_phases {e : ℕ → ℝ} {g : ℝ} (hg : 0 ≤ g) (h0 : e 0 ≤ 17 / 10 * g)
    (h : ∀ E α q : ℝ, 0 ≤ E → 0 ≤ α → min (357 / 500) (73 / 50 * E) / 4 ≤ 143 / 500 * α + α ^ 2 / 2 → 0 ≤ q → q ≤ 1 →
      q * (143 / 500 + (α + 3e-6)) ≤
        143 / 500 * (1 - 2 * (α + 3e-6) + (2 * (α + 3e-6)) ^ 2 / 2 - (2 * (α + 3e-6)) ^ 3 / 6) →
      ∀ m, e m ≤ E * g → e (m + 1) ≤ (1 - q / 4) * e m) : e 93 ≤ 1 / 1000000 * g := by
  have hr : ∀ {E α : ℝ}, 73 / 50 * E / 4 ≤ 143 / 500 * α + α ^ 2 / 2 →
      min (357 / 500) (73 / 50 * E) / 4 ≤ 143 / 500 * α + α ^ 2 / 2 := fun h =>
    (div_le_div_of_nonneg_right (min_le_right _ _) (by norm_num)).trans h
  have h1 : e (0 + 29) ≤ 2 / 5 * g := phase (E := 17 / 10) 29 h0
    (h (17 / 10) (18821 / 50000) (99 / 500) (by norm_num) (by norm_num)
      ((div_le_div_of_nonneg_right (min_le_left _ _) (by norm_num)).trans (by norm_num)) (by norm_num) (by norm_num) (by norm_num))
    (by norm_num) (by norm_num) (by norm_num) hg (by norm_num)
  have h2 : e (0 + 29 + 8) ≤ 1 / 4 * g := phase 8 h1
    (h (2 / 5) (32539 / 100000) (6 / 25) (by norm_num) (by norm_num) (hr (by norm_num)) (by norm_num) (by norm_num) (by norm_num))
    (by norm_num) (by norm_num) (by norm_num) hg (by norm_num)
  have h3 : e (0 + 29 + 8 + 6) ≤ 3 / 20 * g := phase 6 h2
    (h (1 / 4) (2281 / 10000) (351 / 1000) (by norm_num) (by norm_num) (hr (by norm_num)) (by norm_num) (by norm_num) (by norm_num))
    (by norm_num) (by norm_num) (by norm_num) hg (by norm_num)
  have h4 : e (0 + 29 + 8 + 6 + 6) ≤ 7 / 100 * g := phase 6 h3
    (h (3 / 20) (7569 / 50000) (241 / 500) (by norm_num) (by norm_num) (hr (by norm_num)) (by norm_num) (by norm_num) (by norm_num))
    (by norm_num) (by norm_num) (by norm_num) hg (by norm_num)
  have h5 : e (0 + 29 + 8 + 6 + 6 + 7) ≤ 1 / 50 * g := phase 7 h4
    (h (7 / 100) (1571 / 20000) (67 / 100) (by norm_num) (by norm_num) (hr (by norm_num)) (by norm_num) (by norm_num) (by norm_num))
    (by norm_num) (by norm_num) (by norm_num) hg (by norm_num)
  have h6 : e (0 + 29 + 8 + 6 + 6 + 7 + 6) ≤ 1 / 200 * g := phase 6 h5
    (h (1 / 50) (153 / 6250) (877 / 1000) (by norm_num) (by norm_num) (hr (by norm_num)) (by norm_num) (by norm_num) (by norm_num))
    (by norm_num) (by norm_num) (by norm_num) hg (by norm_num)
  have h7 : e (0 + 29 + 8 + 6 + 6 + 7 + 6 + 31) ≤ 1 / 1000000 * g := phase 31 h6
    (h (1 / 200) (79 / 12500) (483 / 500) (by norm_num) (by norm_num) (hr (by norm_num)) (by norm_num) (by norm_num) (by norm_num))
    (by norm_num) (by norm_num) (by norm_num) hg (by norm_num)
  exact h7

/-- The stretch of a link under at most 95% of the largest force. -/
theorem ls_psi_le {κ x : ℝ} (hκ : 0 < κ) (hx : 0 < x) (hM : x ≤ 19 / 20 * (κ / exp 1)) :
    lsPsi κ x ≤ 209 / 200 ∧ lsPsi κ x ≤ 3 * (x / κ) := by
  obtain ⟨u, hu0, hu1, eu, -, u4, u4'⟩ := ls_solution hκ hx hM
  have hb : exp (357 / 500) ≤ 409 / 200 := by
    have h := exp_neg_714
    have e : exp (357 / 500) * exp (-(357 / 500)) = 1 := by rw [← exp_add]; simp
    nlinarith [exp_pos (357 / 500)]
  have h1 : lsPsi κ x ≤ exp u - 1 := by
    rw [lsPsi_eq]
    linarith [exp_le_exp.2 u4']
  have h2 : exp u ≤ 409 / 200 := (exp_le_exp.2 hu1).trans hb
  refine ⟨by linarith, h1.trans ?_⟩
  have h3 : exp u ≤ 1 + 293 / 200 * u := by
    have ha : 0 ≤ 1 - u / (357 / 500) := by rw [sub_nonneg, div_le_one (by norm_num)]; exact hu1
    have hb' : 0 ≤ u / (357 / 500) := by positivity
    have hc := convexOn_exp.2 (mem_univ 0) (mem_univ (357 / 500 : ℝ)) ha hb' (by ring)
    simp only [smul_eq_mul, mul_zero, zero_add, exp_zero, mul_one] at hc
    rw [div_mul_cancel₀ _ (by norm_num)] at hc
    have := mul_le_mul_of_nonneg_left hb (show 0 ≤ u / (357 / 500) by positivity)
    linarith
  have h4 : u = exp u * (x / κ) := by
    rw [← eu, mul_comm u, ← mul_assoc, ← exp_add]; simp
  have h5 : exp u * (x / κ) ≤ 409 / 200 * (x / κ) := mul_le_mul_of_nonneg_right h2 (by positivity)
  have h6 : 0 < x / κ := by positivity
  linarith

theorem langevin_ge_one_sub {x : ℝ} (hx : 0 < x) : 1 - 1 / x ≤ langevin x := by
  have h := self_lt_div_tanh hx
  have : 1 ≤ 1 / tanh x := by
    rw [div_eq_mul_one_div] at h
    by_contra hc
    nlinarith
  unfold langevin
  linarith

/-- The residual at the start. -/
theorem ls_start {C C' : ℝ → ℝ} {κ γ x : ℝ} (hC : MildCorr C C' (κ / exp 1)) (hC6 : C x ≤ x / 6) (hκ : 20 ≤ κ) (hx : 0 < x)
    (hM : x ≤ 19 / 20 * (κ / exp 1)) (hL : langevin x ≤ γ) : langevin x + C x + lsPsi κ x - γ ≤ 17 / 10 * γ := by
  have hκ0 : 0 < κ := by linarith
  have hp : 0 < κ / exp 1 := by positivity
  obtain ⟨p1, p2⟩ := ls_psi_le hκ0 hx hM
  obtain ⟨c1, -⟩ := hC.le x hx (by linarith)
  have p3 : x / κ ≤ x / 20 := div_le_div_of_nonneg_left hx.le (by norm_num) hκ
  have hm : ∀ {y : ℝ}, 0 < y → y ≤ x → langevin y ≤ langevin x := fun hy h =>
    langevin_strictMonoOn.monotoneOn (mem_Ioi.2 hy) (mem_Ioi.2 hx) h
  suffices C x + lsPsi κ x ≤ 17 / 10 * langevin x by linarith
  rcases le_or_gt x 1 with h | h
  · have h1 := langevin_gt_cubic hx
    have h2 : x ^ 3 ≤ x := by
      have : x ^ 2 ≤ 1 := pow_le_one₀ hx.le h
      nlinarith
    linarith
  rcases le_or_gt x (7 / 5) with h' | h'
  · have h1 := langevin_gt_cubic (x := 1) (by norm_num)
    have := hm (y := 1) (by norm_num) h.le
    norm_num at h1
    linarith
  rcases le_or_gt x 2 with h'' | h''
  · have h1 := langevin_gt_cubic (x := 7 / 5) (by norm_num)
    have := hm (y := 7 / 5) (by norm_num) h'.le
    norm_num at h1
    linarith
  rcases le_or_gt x 3 with h3 | h3
  · have h1 := langevin_gt_cubic (x := 2) (by norm_num)
    have := hm (y := 2) (by norm_num) h''.le
    norm_num at h1
    linarith
  rcases le_or_gt x (21 / 5) with h4 | h4
  · have h1 := langevin_ge_one_sub (x := 3) (by norm_num)
    have := hm (y := 3) (by norm_num) h3.le
    norm_num at h1
    linarith
  rcases le_or_gt x 6 with h5 | h5
  · have h1 := langevin_ge_one_sub (x := 21 / 5) (by norm_num)
    have := hm (y := 21 / 5) (by norm_num) h4.le
    norm_num at h1
    linarith
  · have h1 := langevin_ge_one_sub (x := 6) (by norm_num)
    have := hm (y := 6) (by norm_num) h5.le
    norm_num at h1
    linarith

end Polymers.Lemmas
