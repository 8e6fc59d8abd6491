import Verif.Lemmas.ErrorFunction
import Verif.Lemmas.LitsAttr
import Mathlib.Analysis.Complex.ExponentialBounds

/-! C10: the error function and its complement. -/

namespace Polymers.Props

open Polymers.Spec Polymers.Lemmas Real

theorem erf_eq {x e : ℝ} (h : math.erfcx x = e) : math.erf x = 1 - exp (-x ^ 2) * e := by
  unfold math.erf math.erfc
  rw [h, exp_neg]
  simp only [model_real]
  field_simp

theorem erfc_eq {x e : ℝ} (h : math.erfcx x = e) : math.erfc x = exp (-x ^ 2) * e := by
  unfold math.erfc
  rw [h, exp_neg]
  simp only [model_real]
  field_simp

theorem erfcx_table_range {x : ℝ} (h0 : 0 ≤ x) (h : x < 50) : math.erfcx x = math.erfcx_helper (400 / (4 + x)) := by
  unfold math.erfcx
  rw [if_pos (by simp only [model_real]; exact h0), if_neg (by simp only [model_real]; exact not_le.2 h)]
  norm_num

/-- C10: the two functions always add up to one. -/
theorem C10_erf_add_erfc (x : ℝ) : math.erf x + math.erfc x = 1 := by
  unfold math.erf
  norm_num

/-- C10: the error function is exactly odd for arguments up to 6.1 in size. -/
theorem C10_erf_odd {x : ℝ} (h : |x| ≤ 6.1) : math.erf (-x) = -math.erf x := by
  have key : ∀ y : ℝ, 0 ≤ y → y ≤ 6.1 → math.erf (-y) = -math.erf y := by
    intro y h0 h1
    rcases h0.eq_or_lt with rfl | h0
    · have e : math.erfcx (0 : ℝ) = 1 := by
        rw [erfcx_table_range le_rfl (by norm_num), erfcx_helper_last (by norm_num)]
      rw [neg_zero, erf_eq e]
      norm_num
    · have e : math.erfcx (-y) = 2 * exp ((-y) ^ 2) - math.erfcx_helper (400 / (4 + y)) := by
        unfold math.erfcx
        rw [if_neg (by simp only [model_real]; linarith), if_neg (by simp only [model_real]; linarith),
          if_neg (by simp only [model_real]; linarith)]
        simp only [model_real, sub_neg_eq_add]
      rw [erf_eq e, erf_eq (erfcx_table_range h0.le (by linarith)), neg_sq, exp_neg]
      field_simp
      ring
  rcases le_total 0 x with h0 | h0
  · exact key x h0 (by rwa [abs_of_nonneg h0] at h)
  · have := key (-x) (by linarith) (by rwa [abs_of_nonpos h0] at h)
    rw [neg_neg] at this
    rw [this, neg_neg]

example : math.erf (-2 : ℝ) = -math.erf 2 := C10_erf_odd (by norm_num)

/-- For nonnegative arguments the scaled complement lies in `(0, 1]`. -/
theorem erfcx_mem {x : ℝ} (h0 : 0 ≤ x) : 0 < math.erfcx x ∧ math.erfcx x ≤ 1 := by
  rcases lt_or_ge x 50 with h | h
  · rw [erfcx_table_range h0 h]
    have hz7 : 7 ≤ 400 / (4 + x) := by rw [le_div_iff₀ (by linarith)]; linarith
    generalize 400 / (4 + x) = z at *
    rcases lt_or_ge z 100 with hz | hz
    · have hf0 : (⌊z⌋₊ : ℝ) ≤ z := Nat.floor_le (by linarith)
      have hf1 : z ≤ ⌊z⌋₊ + 1 := (Nat.lt_floor_add_one z).le
      have h7 : 7 ≤ ⌊z⌋₊ := Nat.le_floor (by exact_mod_cast hz7)
      have h100 : ⌊z⌋₊ < 100 := (Nat.floor_lt (by linarith)).2 (by exact_mod_cast hz)
      rw [erfcx_helper_eq h100 rfl]
      exact ⟨armAt_pos h100 h7 hf0 hf1, (abs_le.1 (armAt_le_one h100 hf0 hf1)).2⟩
    · rw [erfcx_helper_last hz]; norm_num
  · unfold math.erfcx
    rw [if_pos (by simp only [model_real]; exact h0), if_pos (by simp only [model_real]; exact h)]
    have hx : 0 < x := by linarith
    split_ifs with h5
    · constructor
      · positivity
      · rw [div_le_one hx]; norm_num; linarith
    · simp only [model_real]
      constructor
      · positivity
      · rw [div_le_one (by positivity)]
        have h2 : 2500 ≤ x ^ 2 := by nlinarith
        generalize x ^ 2 = y at *
        have : y * (y + 4.5) + 2.0 ≤ 50 * (y * (y + 5.0) + 3.75) := by norm_num; nlinarith
        have hp : 0 < y * (y + 5.0) + 3.75 := by norm_num; nlinarith
        have h3 : 50 * (y * (y + 5.0) + 3.75) ≤ x * (y * (y + 5.0) + 3.75) := mul_le_mul_of_nonneg_right h hp.le
        have hq : 0 < y * (y + 4.5) + 2.0 := by norm_num; nlinarith
        norm_num at *
        nlinarith

/-- C10: for every nonnegative argument the complement is positive and at most `exp (-x²)`, so that the error function tends
to one at least that fast. -/
theorem C10_erfc_bound {x : ℝ} (h : 0 ≤ x) : 0 < math.erfc x ∧ math.erfc x ≤ exp (-x ^ 2) := by
  obtain ⟨h0, h1⟩ := erfcx_mem h
  rw [erfc_eq rfl]
  have := exp_pos (-x ^ 2)
  constructor
  · positivity
  · nlinarith

example : 0 < math.erfc (100 : ℝ) ∧ math.erfc (100 : ℝ) ≤ exp (-100 ^ 2) := C10_erfc_bound (by norm_num)

theorem exp_neg_39 : exp (-39 : ℝ) ≤ 1e-16 := by
  have h := exp_one_gt_d9
  have e : exp (39 : ℝ) = exp 1 ^ 39 := by rw [← exp_nat_mul]; norm_num
  have : (1e16 : ℝ) ≤ exp 39 := by
    rw [e]
    calc (1e16 : ℝ) ≤ 2.7 ^ 39 := by norm_num
      _ ≤ exp 1 ^ 39 := by gcongr; linarith
  rw [exp_neg, show (1e-16 : ℝ) = (1e16)⁻¹ by norm_num]
  exact inv_anti₀ (by norm_num) this

/-- For nonnegative arguments the computed error function is the error function to `3e-12`. -/
theorem erf_accuracy_nonneg {x : ℝ} (h : 0 ≤ x) : |math.erf x - errorFunction x| ≤ 2.6e-12 := by
  rcases lt_or_ge x 6.25 with h1 | h1
  · rw [erf_eq (erfcx_table_range h (by linarith))]
    refine (table_accuracy h (by linarith)).trans ?_
    norm_num at *
    linarith
  · obtain ⟨a, b⟩ := C10_erfc_bound h
    obtain ⟨c, d⟩ := errorFunction_tail h
    have e := C10_erf_add_erfc x
    have h39 : exp (-x ^ 2) ≤ 1e-16 := (exp_le_exp.2 (by norm_num at h1; nlinarith)).trans exp_neg_39
    rw [abs_le]
    norm_num at h39 ⊢
    constructor <;> linarith

/-- C10: for every argument from -26.7 up, the computed error function is the error function `2 / √π ∫₀ˣ exp (-t²) dt` to
within three parts in `10¹²`. -/
theorem C10_erf_accuracy {x : ℝ} (h : -26.7 ≤ x) : |math.erf x - errorFunction x| ≤ 3e-12 := by
  rcases le_or_gt 0 x with h0 | h0
  · exact (erf_accuracy_nonneg h0).trans (by norm_num)
  rcases le_or_gt (-6.1) x with h6 | h6
  · have e := C10_erf_odd (x := -x) (by rw [abs_of_nonneg (by linarith)]; linarith)
    have e' := errorFunction_neg (-x)
    rw [neg_neg] at e e'
    rw [e, e', neg_sub_neg, abs_sub_comm]
    exact (erf_accuracy_nonneg (by linarith)).trans (by norm_num)
  · have e : math.erfcx x = 2 * exp (x ^ 2) := by
      unfold math.erfcx
      rw [if_neg (by simp only [model_real]; linarith), if_neg (by simp only [model_real]; linarith),
        if_pos (by simp only [model_real]; linarith)]
      simp only [model_real]
    have e1 : math.erf x = -1 := by
      rw [erf_eq e, exp_neg]
      field_simp
      norm_num
    have e' := errorFunction_neg (-x)
    rw [neg_neg] at e'
    obtain ⟨c, d⟩ := errorFunction_tail (show 0 ≤ -x by linarith)
    have h36 : exp (-(-x) ^ 2) ≤ exp (-36) := exp_le_exp.2 (by norm_num at h6 ⊢; nlinarith)
    have h36' : exp (-36 : ℝ) ≤ 2.1e-15 := by
      have e : exp (-36 : ℝ) = exp (-39) * exp 1 ^ 3 := by rw [← exp_nat_mul, ← exp_add]; norm_num
      have h3 := exp_one_lt_d9
      have : exp 1 ^ 3 ≤ 2.72 ^ 3 := by gcongr; linarith
      rw [e]
      calc exp (-39) * exp 1 ^ 3 ≤ 1e-16 * 2.72 ^ 3 := mul_le_mul exp_neg_39 this (by positivity) (by norm_num)
        _ ≤ 2.1e-15 := by norm_num
    have h36 := h36.trans h36'
    rw [e1, e', abs_le]
    constructor <;> linarith

example : |math.erf (1 : ℝ) - errorFunction 1| ≤ 3e-12 := C10_erf_accuracy (by norm_num)

set_option exponentiation.threshold 1100 in
/-- C10: below -26.7 the computed error function is wrong: it is above 0.9 where the error function is below -0.99. -/
theorem C10_erf_negative_failure {x : ℝ} (h : x < -26.7) :
    0.9 < math.erf x ∧ math.erf x < 1 ∧ errorFunction x < -0.99 := by
  have e : math.erfcx x = Elem.maxFin := by
    unfold math.erfcx
    rw [if_neg (by simp only [model_real]; linarith), if_pos (by simp only [model_real]; linarith)]
  have hm0 : (0 : ℝ) < Elem.maxFin := by
    show (0 : ℝ) < (2 - 2 ^ (-52 : ℤ)) * 2 ^ (1023 : ℕ)
    norm_num
  have hm1 : (Elem.maxFin : ℝ) ≤ 2 ^ 1024 := by
    show ((2 - 2 ^ (-52 : ℤ)) * 2 ^ (1023 : ℕ) : ℝ) ≤ 2 ^ 1024
    rw [show (2 : ℝ) ^ 1024 = 2 * 2 ^ 1023 from pow_succ' 2 1023]
    exact mul_le_mul_of_nonneg_right (by norm_num) (by positivity)
  have hx : 712.89 ≤ x ^ 2 := by norm_num at h ⊢; nlinarith
  have hbig : (2 : ℝ) ^ 1024 * 11 < exp (x ^ 2) := by
    have h1 := exp_one_gt_d9
    have e1 : exp (712 : ℝ) = exp 1 ^ 712 := by rw [← exp_nat_mul]; norm_num
    have e2 : (1.89 : ℝ) ≤ exp 0.89 := by
      have := add_one_le_exp (0.89 : ℝ)
      norm_num at *; linarith
    calc (2 : ℝ) ^ 1024 * 11 < 2.718281828 ^ 712 * 1.89 := by norm_num
      _ ≤ exp 1 ^ 712 * exp 0.89 := by gcongr; linarith
      _ = exp 712.89 := by rw [← e1, ← exp_add]; norm_num
      _ ≤ exp (x ^ 2) := exp_le_exp.2 hx
  rw [erf_eq e, exp_neg]
  have hp := exp_pos (x ^ 2)
  have q0 : 0 < (exp (x ^ 2))⁻¹ * Elem.maxFin := by positivity
  have q1 : (exp (x ^ 2))⁻¹ * (Elem.maxFin : ℝ) < 1 / 11 := by
    rw [inv_mul_lt_iff₀ hp]
    linarith
  refine ⟨by norm_num at *; linarith, by linarith, ?_⟩
  have e' := errorFunction_neg (-x)
  rw [neg_neg] at e'
  obtain ⟨c, d⟩ := errorFunction_tail (show 0 ≤ -x by linarith)
  have h39 : exp (-(-x) ^ 2) ≤ 1e-16 := (exp_le_exp.2 (by rw [neg_sq]; linarith)).trans exp_neg_39
  norm_num at h39 ⊢
  rw [e']
  norm_num at d
  linarith

example : 0.9 < math.erf (-30 : ℝ) ∧ math.erf (-30 : ℝ) < 1 ∧ errorFunction (-30) < -0.99 :=
  C10_erf_negative_failure (by norm_num)

end Polymers.Props
