import Verif.Lemmas.Bessel
import Mathlib.Analysis.SpecialFunctions.Pow.Real
import Mathlib.Analysis.SpecialFunctions.Sqrt

/-! Property C09: the modified Bessel function routines. -/

namespace Polymers.Props

open Polymers.Lemmas Set

/-- C09: orders above one are not implemented; the routine returns minus one. -/
theorem C09_other_orders (nu : ℕ) (x : ℝ) (h : 2 ≤ nu) : math.bessel_i nu x = -1 := by
  unfold math.bessel_i
  rw [if_neg (by simp; omega), if_neg (by simp; omega)]
  simp only [model_real]

example : math.bessel_i 2 (3 : ℝ) = -1 := C09_other_orders 2 3 (by norm_num)

/-- C09: on the range of the small-argument polynomials the routines have the parity of the Bessel functions, order
zero is at least one, and order one has the sign of its argument. -/
theorem C09_small_range {x : ℝ} (h : |x| < 7.75) :
    math.bessel_i 0 (-x) = math.bessel_i 0 x ∧ math.bessel_i 1 (-x) = -math.bessel_i 1 x ∧
    1 ≤ math.bessel_i 0 x ∧ (0 < x → 0 < math.bessel_i 1 x) ∧ (x < 0 → math.bessel_i 1 x < 0) := by
  rw [lit_7_75, abs_lt] at h
  have h' : -x < 31 / 4 := by linarith [h.1]
  have h1 := one_le_hval_i1 (x ^ 2 / 4) (by positivity)
  refine ⟨?_, ?_, one_le_bessel_i0 h.2, fun hx => ?_, fun hx => ?_⟩
  · rw [bessel_i0_small_eq h', bessel_i0_small_eq h.2, neg_sq]
  · rw [bessel_i1_small_eq h', bessel_i1_small_eq h.2, neg_sq]; ring
  · rw [bessel_i1_small_eq h.2]; exact mul_pos (by linarith) (by linarith)
  · rw [bessel_i1_small_eq h.2]; exact mul_neg_of_neg_of_pos (by linarith) (by linarith)

example : math.bessel_i 1 (-(2 : ℝ)) = -math.bessel_i 1 2 :=
  (C09_small_range (by rw [abs_of_pos] <;> norm_num)).2.1

/-- C09: every argument below 7.75, however negative, is evaluated with the small-argument polynomials; the order-zero
routine stays above one there. -/
theorem C09_negative_arguments {x : ℝ} (h : x < 7.75) : 1 ≤ math.bessel_i 0 x := by
  rw [lit_7_75] at h; exact one_le_bessel_i0 h

example : 1 ≤ math.bessel_i 0 (-1000 : ℝ) := C09_negative_arguments (by norm_num)

theorem hval_i0_le {t : ℝ} (ht : 1 ≤ t) : hval math.bessel_i0_small t ≤ 2 * t ^ 14 := by
  have p : ∀ k : ℕ, k ≤ 14 → t ^ k ≤ t ^ 14 := fun k hk => pow_le_pow_right₀ ht hk
  have := p 0 (by norm_num); have := p 1 (by norm_num); have := p 2 (by norm_num); have := p 3 (by norm_num)
  have := p 4 (by norm_num); have := p 5 (by norm_num); have := p 6 (by norm_num); have := p 7 (by norm_num)
  have := p 8 (by norm_num); have := p 9 (by norm_num); have := p 10 (by norm_num); have := p 11 (by norm_num)
  have := p 12 (by norm_num); have := p 13 (by norm_num)
  have h0 : (0 : ℝ) ≤ t ^ 14 := by positivity
  have e : hval math.bessel_i0_small t ≤ 1 + 0.25 * t + 0.03 * t ^ 2 + 0.01 * t ^ 3 + 0.01 * t ^ 4 + 0.01 * t ^ 5 +
      0.01 * t ^ 6 + 0.01 * t ^ 7 + 0.01 * t ^ 8 + 0.01 * t ^ 9 + 0.01 * t ^ 10 + 0.01 * t ^ 11 + 0.01 * t ^ 12 +
      0.01 * t ^ 13 + 0.01 * t ^ 14 := by
    have := hval_le (l := math.bessel_i0_small) (b := [1, 0.25, 0.03, 0.01, 0.01, 0.01, 0.01, 0.01, 0.01, 0.01, 0.01, 0.01,
      0.01, 0.01, 0.01]) (t := t) (by
        unfold math.bessel_i0_small
        repeat' (refine List.Forall₂.cons ?_ ?_)
        all_goals first | exact .nil | norm_num) (by linarith)
    refine this.trans (le_of_eq ?_)
    simp only [hval]
    ring
  norm_num at *
  linarith

/-- C09: the parity is lost for large negative arguments, which are evaluated with the small-argument polynomial: at
every magnitude of at least 500 the value at `-x` falls short of the value at `x`. -/
theorem C09_parity_lost {x : ℝ} (h : 500 ≤ x) : math.bessel_i 0 (-x) < math.bessel_i 0 x := by
  have hx : 0 < x := by linarith
  have e : math.bessel_i 0 x = math.bessel_i0 x := rfl
  have hS : (0.39 : ℝ) ≤ math.inverse_power_sum math.bessel_i0_large x := by
    unfold math.inverse_power_sum math.bessel_i0_large
    simp only [List.mapIdx_cons, List.mapIdx_nil, fsum_eq, elem_powi, List.sum_cons, List.sum_nil, zpow_natCast]
    have h1 : (0 : ℝ) ≤ 4.986778504914345e-2 / x ^ (0 + 1) := by positivity
    have h2 : (0 : ℝ) ≤ 2.805063089165061e-2 / x ^ (0 + 1 + 1) := by positivity
    have h3 : (0 : ℝ) ≤ 2.921790968539151e-2 / x ^ (0 + 1 + 1 + 1) := by positivity
    have h4 : (0 : ℝ) ≤ 4.533712087625794e-2 / x ^ (0 + 1 + 1 + 1 + 1) := by positivity
    norm_num at *
    linarith
  have hbig : math.bessel_i 0 x = Real.exp x / √x * math.inverse_power_sum math.bessel_i0_large x := by
    rw [e, math.bessel_i0]
    simp only [model_real]
    rw [if_neg (by linarith), if_neg (by linarith)]
    have : Real.exp x = Real.exp (1 / 2 * x) * Real.exp (1 / 2 * x) := by rw [← Real.exp_add]; ring_nf
    rw [this]; ring
  have ht : 1 ≤ x ^ 2 / 4 := by nlinarith
  have hp := hval_i0_le ht
  rw [bessel_i0_small_eq (by linarith), neg_sq, hbig]
  have hpoly : 1 + x ^ 2 / 4 * hval math.bessel_i0_small (x ^ 2 / 4) ≤ x ^ 30 := by
    have h1 : x ^ 2 / 4 * hval math.bessel_i0_small (x ^ 2 / 4) ≤ x ^ 2 / 4 * (2 * (x ^ 2 / 4) ^ 14) :=
      mul_le_mul_of_nonneg_left hp (by positivity)
    have h2 : (1 : ℝ) ≤ x ^ 30 / 4 := by
      have : (500 : ℝ) ^ 30 ≤ x ^ 30 := pow_le_pow_left₀ (by norm_num) h 30
      have : (4 : ℝ) ≤ 500 ^ 30 := by norm_num
      linarith
    have h3 : x ^ 2 / 4 * (2 * (x ^ 2 / 4) ^ 14) = x ^ 30 * (2 / 4 ^ 15) := by ring
    have h4 : (0 : ℝ) ≤ x ^ 30 := by positivity
    rw [h3] at h1
    norm_num at h1 ⊢
    linarith
  refine lt_of_le_of_lt hpoly ?_
  have hexp : x ^ 70 / ((70).factorial : ℝ) ≤ Real.exp x := Real.pow_div_factorial_le_exp x hx.le 70
  have hsq : √x ≤ x := by
    rw [Real.sqrt_le_left hx.le]; nlinarith
  have hsq0 : 0 < √x := Real.sqrt_pos.2 hx
  have h1 : x ^ 69 / ((70).factorial : ℝ) ≤ Real.exp x / √x := by
    rw [le_div_iff₀ hsq0]
    have : x ^ 69 / ((70).factorial : ℝ) * √x ≤ x ^ 69 / ((70).factorial : ℝ) * x :=
      mul_le_mul_of_nonneg_left hsq (by positivity)
    refine this.trans (le_trans (le_of_eq ?_) hexp)
    ring
  have h2 : x ^ 69 / ((70).factorial : ℝ) * 0.39 ≤ Real.exp x / √x * math.inverse_power_sum math.bessel_i0_large x :=
    mul_le_mul h1 hS (by norm_num) (by positivity)
  refine lt_of_lt_of_le ?_ h2
  have h3 : (500 : ℝ) ^ 39 ≤ x ^ 39 := pow_le_pow_left₀ (by norm_num) h 39
  have h4 : ((70).factorial : ℝ) < 500 ^ 39 * 0.39 := by norm_num [Nat.factorial]
  have h5 : (0 : ℝ) < ((70).factorial : ℝ) := by positivity
  rw [div_mul_eq_mul_div, lt_div_iff₀ h5]
  have h6 : x ^ 69 = x ^ 30 * x ^ 39 := by ring
  rw [h6, mul_assoc]
  refine mul_lt_mul_of_pos_left (h4.trans_le ?_) (by positivity)
  exact mul_le_mul_of_nonneg_right h3 (by norm_num)

example : math.bessel_i 0 (-500 : ℝ) < math.bessel_i 0 500 := C09_parity_lost le_rfl

theorem bessel_coef_abs :
    List.Forall₂ (fun c d => |c| ≤ d) (List.zipWith (· - ·) (dcoef 1 math.bessel_i0_small) (1 :: (1 / 2) :: math.bessel_i1_small))
      [0, 2.01e-16, 1.34e-15, 3.41e-15, 4.10e-15, 2.77e-15, 1.16e-15, 3.13e-16, 5.72e-17, 7.21e-18, 6.24e-19, 3.66e-20, 1.39e-21, 3.02e-23, 2.91e-25] := by
  simp only [math.bessel_i0_small, math.bessel_i1_small, dcoef, List.zipWith_cons_cons, List.zipWith_nil_left]
  repeat' (refine List.Forall₂.cons ?_ ?_)
  all_goals first | exact .nil | norm_num [abs_le]

/-- C09: the order-one routine is the derivative of the order-zero routine to within `10⁻⁶ |x|` on the range of the
small-argument polynomials, and to within 2.2 % of itself at every smaller argument. -/
theorem C09_derivative (x : ℝ) (h : x < 7.75) :
    ∃ slope, HasDerivAt (math.bessel_i 0) slope x ∧ |slope - math.bessel_i 1 x| ≤ 0.022 * |math.bessel_i 1 x| ∧
      (-7.75 ≤ x → |slope - math.bessel_i 1 x| ≤ 1e-6 * |x|) := by
  rw [lit_7_75] at *
  refine ⟨besselSlope x, hasDerivAt_bessel_i0 h, bessel_slope_rel h, fun h' => ?_⟩
  have ht : 0 ≤ x ^ 2 / 4 := by positivity
  have hts : x ^ 2 / 4 ≤ 961 / 64 := by nlinarith
  have h1 := abs_hval_le bessel_coef_abs ht hts
  rw [← hval_sub (by simp [dcoef, math.bessel_i0_small, math.bessel_i1_small])] at h1
  rw [bessel_i1_small_eq h, besselSlope, ← mul_sub, abs_mul, abs_div, abs_two]
  have h2 : hval [0, 2.01e-16, 1.34e-15, 3.41e-15, 4.10e-15, 2.77e-15, 1.16e-15, 3.13e-16, 5.72e-17, 7.21e-18, 6.24e-19, 3.66e-20, 1.39e-21, 3.02e-23, 2.91e-25] (961 / 64) ≤ 2e-6 := by
    simp only [hval]
    norm_num
  have := mul_le_mul_of_nonneg_left (h1.trans h2) (by positivity : 0 ≤ |x| / 2)
  linarith

example : ∃ slope : ℝ, HasDerivAt (math.bessel_i 0) slope (2 : ℝ) ∧ |slope - math.bessel_i 1 2| ≤ 1e-6 * |(2 : ℝ)| := by
  obtain ⟨s, h1, _, h2⟩ := C09_derivative 2 (by norm_num)
  exact ⟨s, h1, h2 (by norm_num)⟩

end Polymers.Props
