import Verif.Lemmas.InverseLangevin
import Verif.Lemmas.Lits
import Verif.Model.RealInst
import Verif.Model.SReal
import Verif.Model.Math
import Mathlib.Analysis.Complex.ExponentialBounds

/-! C07: the inverse Langevin routine. -/

namespace Polymers.Props

open Polymers.math Real Set

/-- The loop started below the root. -/
theorem inverse_langevin_loop {y : ℝ} (h0 : 1e-3 < y) (h1 : y < 1) {f f' : ℝ → ℝ} (hf : f = langevin)
    (hf' : f' = fun x => 1 / x ^ 2 - 1 / sinh x ^ 2) (n : ℕ) :
    ∀ x res q : ℝ, 0 < x → langevin x ≤ y → y - langevin x ≤ res * y → 0 ≤ q → langevinErr y x ≤ q →
      q ^ 2 ^ n ≤ 1e-10 →
      0 < inverse_newton_raphson_loop y f f' 1e-6 n x res ∧
      langevin (inverse_newton_raphson_loop y f f' 1e-6 n x res) ≤ y ∧
      y - langevin (inverse_newton_raphson_loop y f f' 1e-6 n x res) ≤ 1e-6 * y := by
  induction n with
  | zero =>
    intro x res q hx hle hres hq he hqn
    refine ⟨hx, hle, ?_⟩
    rw [inverse_newton_raphson_loop]
    have hu := (le_langevinU hx).2
    have e : y - langevin x = langevinErr y x / langevinU x := by
      rw [langevin_eq_of_U hx.le]; unfold langevinErr
      have := (langevinU_pos hx.le).ne'
      field_simp; ring
    have h2 : langevinErr y x ≤ 1e-10 := he.trans (by simpa using hqn)
    have : y - langevin x ≤ 1e-10 := by
      rw [e, div_le_iff₀ (by linarith)]
      linarith
    norm_num at *
    linarith
  | succ n ih =>
    intro x res q hx hle hres hq he hqn
    rw [inverse_newton_raphson_loop]
    by_cases hr : (1e-6 : ℝ) < res
    · have hlt : Elem.lt (1e-6 : ℝ) res = true := by simp only [model_real]; norm_num at *; exact hr
      rw [if_pos hlt]
      have hstep : x + (y - f x) / f' x = langevinStep y x := by rw [hf, hf']; rfl
      have hres' : Elem.abs ((y - f x) / y) = |(y - langevin x) / y| := by rw [hf]; simp only [model_real]
      simp only [hstep, hres']
      have hpos := hx.trans_le (langevinStep_pos_of_below hx hle)
      have he0 : 0 ≤ langevinErr y x := by
        unfold langevinErr
        rw [langevin_eq_of_U hx.le] at hle
        have hu := langevinU_pos hx.le
        have : 1 - y ≤ 1 / langevinU x := by linarith
        rw [le_div_iff₀ hu] at this
        linarith
      have hy0 : 0 < y := lt_trans (by norm_num) h0
      refine ih _ _ (q ^ 2) hpos (langevinStep_below hx hpos.le) ?_ (by positivity)
        ((langevinStep_err h1 hx hpos.le).trans (by gcongr)) ?_
      · rw [abs_div, abs_of_pos hy0, div_mul_cancel₀ _ hy0.ne']
        exact langevinStep_residual h1 hx hpos (by linarith)
      · rw [← pow_mul, ← pow_succ']; exact hqn
    · have hlt : ¬ Elem.lt (1e-6 : ℝ) res = true := by simp only [model_real]; norm_num at *; exact hr
      rw [if_neg hlt]
      have hy0 : 0 < y := lt_trans (by norm_num) h0
      refine ⟨hx, hle, hres.trans ?_⟩
      have := not_lt.1 hr
      gcongr

theorem inverse_langevin_newton {y : ℝ} (h0 : 1e-3 < y) (h1 : y < 1) :
    0 < inverse_langevin y ∧ langevin (inverse_langevin y) ≤ y ∧ y - langevin (inverse_langevin y) ≤ 1e-6 * y := by
  have hy0 : 0 < y := lt_trans (by norm_num) h0
  have hle : ¬ Elem.le y (1e-3 : ℝ) = true := by simp only [model_real]; norm_num at *; exact h0
  obtain ⟨hg, hg2, hge⟩ := langevinGuess_facts hy0 h1
  have hpos := langevinStep_pos hy0 hg hg2
  have hf : (fun x : ℝ => 1.0 / Elem.tanh x - 1.0 / x) = langevin := by
    funext x; simp only [model_real, langevin]
  have hf' : (fun x : ℝ => 1.0 / Elem.powi x 2 - 1.0 / Elem.powi (Elem.sinh x) 2) =
      fun x => 1 / x ^ 2 - 1 / sinh x ^ 2 := by
    funext x; simp only [model_real]
  have hgu : (2.14234 * Elem.powi y 3 - 4.22785 * Elem.powi y 2 + 3.0 * y) / (1.0 - y)
        / (0.71716 * Elem.powi y 3 - 0.41103 * Elem.powi y 2 - 0.39165 * y + 1.0) = langevinGuess y := by
    simp only [model_real, langevinGuess]
  rw [inverse_langevin, if_neg hle, hf, hf', hgu, inverse_newton_raphson, inverse_newton_raphson_loop]
  have hlt : Elem.lt (1e-6 : ℝ) (1.0 : ℝ) = true := by simp only [model_real]; norm_num
  rw [if_pos hlt]
  have hstep : langevinGuess y + (y - langevin (langevinGuess y)) / (1 / langevinGuess y ^ 2 -
    1 / sinh (langevinGuess y) ^ 2) = langevinStep y (langevinGuess y) := rfl
  have hres' : Elem.abs ((y - langevin (langevinGuess y)) / y) = |(y - langevin (langevinGuess y)) / y| := by
    simp only [model_real]
  simp only [hstep, hres']
  have he := abs_le.1 hge
  refine inverse_langevin_loop h0 h1 rfl rfl _ _ _ (1 / 4) hpos (langevinStep_below hg hpos.le) ?_ (by norm_num)
    ((langevinStep_err h1 hg hpos.le).trans ?_) ?_
  · rw [abs_div, abs_of_pos hy0, div_mul_cancel₀ _ hy0.ne']
    exact langevinStep_residual h1 hg hpos (by linarith)
  · nlinarith
  · calc ((1:ℝ) / 4) ^ 2 ^ 99 ≤ (1 / 4) ^ 32 :=
        pow_le_pow_of_le_one (by norm_num) (by norm_num) (by norm_num)
      _ ≤ 1e-10 := by norm_num

/-- C07: for every extension strictly between zero and one, the returned force is positive and its Langevin function,
`coth x - 1/x`, reproduces the extension to a relative accuracy of one part in a million. -/
theorem C07_inverse_langevin (y : ℝ) (h0 : 0 < y) (h1 : y < 1) :
    0 < inverse_langevin y ∧ |(cosh (inverse_langevin y) / sinh (inverse_langevin y) - 1 / inverse_langevin y) - y| ≤ 1e-6 * y := by
  rw [← one_div_tanh]
  change _ ∧ |langevin (inverse_langevin y) - y| ≤ _
  rcases le_or_gt y 1e-3 with h | h
  · have hle : Elem.le y (1e-3 : ℝ) = true := by simp only [model_real]; norm_num at *; exact h
    rw [inverse_langevin, if_pos hle]
    have e : (3.0 : ℝ) * y = 3 * y := by norm_num
    rw [e]
    have h3 : 0 < 3 * y := by linarith
    refine ⟨h3, ?_⟩
    have a := langevin_lt_third h3
    have b := langevin_gt_cubic h3
    rw [abs_le]
    norm_num at *
    constructor
    · nlinarith [mul_pos h0 h0, mul_nonneg h0.le (sub_nonneg.2 h)]
    · nlinarith
  · obtain ⟨a, b, c⟩ := inverse_langevin_newton h h1
    refine ⟨a, ?_⟩
    rw [abs_of_nonpos (by linarith)]; linarith

example : 0 < inverse_langevin (1 / 2 : ℝ) := (C07_inverse_langevin (1 / 2) (by norm_num) (by norm_num)).1

/-- C07: below the small-extension threshold, so also at every negative extension, three times the extension is returned.
-/
theorem C07_small (y : ℝ) (h : y ≤ 1e-3) : inverse_langevin y = 3 * y := by
  have hle : Elem.le y (1e-3 : ℝ) = true := by simp only [model_real]; norm_num at *; exact h
  rw [inverse_langevin, if_pos hle]
  norm_num

example : inverse_langevin (-1 / 2 : ℝ) = 3 * (-1 / 2) := C07_small _ (by norm_num)

/-- C07: that is not an inverse for negative extensions: at and below minus one third, the Langevin function of the returned
force is at least five percent short of the extension. -/
theorem C07_negative (y : ℝ) (h : y ≤ -(1 / 3)) :
    |cosh (inverse_langevin y) / sinh (inverse_langevin y) - 1 / inverse_langevin y| ≤ 0.95 * |y| := by
  rw [← one_div_tanh, C07_small y (by norm_num; linarith)]
  change |langevin (3 * y)| ≤ _
  have hneg : langevin (3 * y) = -langevin (-(3 * y)) := by rw [langevin_neg]; ring
  set x := -(3 * y) with hx
  have hx1 : 1 ≤ x := by linarith
  have hy : |y| = x / 3 := by rw [abs_of_neg (by linarith), hx]; ring
  rw [hneg, abs_neg, abs_of_pos (langevin_pos (by linarith)), hy]
  -- by concavity the chord slope is at most that at one
  have hc := langevin_concave.2 (show (0:ℝ) ∈ Ici 0 by simp) (show x ∈ Ici (0:ℝ) from by simp; linarith)
    (show 0 ≤ 1 - 1 / x by rw [sub_nonneg, div_le_one (by linarith)]; exact hx1) (show 0 ≤ 1 / x by positivity) (by ring)
  simp only [smul_eq_mul, mul_zero, zero_add, langevin_zero] at hc
  rw [one_div_mul_cancel (by linarith)] at hc
  have h1 : langevin 1 ≤ 0.95 / 3 := by
    have he := exp_one_gt_d9
    have e2 : exp 1 * exp 1 = exp 1 ^ 2 := by ring
    rw [langevin_eq one_ne_zero, sinh_eq, cosh_eq, exp_neg]
    generalize exp 1 = a at *
    have hd : 0 < a ^ 2 - 1 := by nlinarith
    have e : (1 * ((a + a⁻¹) / 2) - (a - a⁻¹) / 2) / (1 * ((a - a⁻¹) / 2)) = 2 / (a ^ 2 - 1) := by
      have ha : 0 < a := by linarith
      have h1 : a - a⁻¹ = (a ^ 2 - 1) / a := by field_simp
      rw [h1]; field_simp; ring
    rw [e, div_le_iff₀ hd]
    nlinarith
  have h2 : langevin x ≤ x * langevin 1 := by
    have := mul_le_mul_of_nonneg_left hc (show 0 ≤ x by linarith)
    rw [← mul_assoc, mul_one_div_cancel (by linarith), one_mul] at this
    exact this
  nlinarith

example : |cosh (inverse_langevin (-1 / 2)) / sinh (inverse_langevin (-1 / 2)) - 1 / inverse_langevin (-1 / 2)| ≤
    0.95 * |(-1 / 2 : ℝ)| := C07_negative (-1 / 2) (by norm_num)

/-- C07: at full extension the result is undefined. -/
theorem C07_full_extension : inverse_langevin (SReal.val 1) = SReal.undef := by
  have h1 : Elem.le (SReal.val 1) (1e-3 : SReal) = false := by
    rw [SReal.lit_val, Bool.eq_false_iff, Ne, SReal.le_val]; norm_num
  have hz : ((1.0 : SReal) - SReal.val 1) = SReal.val 0 := by
    rw [SReal.lit_val, SReal.sub_val]; norm_num
  have hlt : Elem.lt (1e-6 : SReal) (1.0 : SReal) = true := by
    rw [SReal.lit_val, SReal.lit_val, SReal.lt_val]; norm_num
  rw [inverse_langevin, h1, inverse_newton_raphson, inverse_newton_raphson_loop, if_pos hlt, hz]
  simp only [SReal.lit_val, SReal.powi_val_ofNat, SReal.mul_val, SReal.sub_val, SReal.add_val, SReal.div_zero,
    SReal.undef_div, SReal.tanh_undef, SReal.div_undef, SReal.undef_sub_undef, SReal.sub_undef, SReal.sinh_undef,
    SReal.powi_of_undef, SReal.undef_div_undef, SReal.undef_add_undef, SReal.abs_undef, Bool.false_eq_true, if_false]
  rw [inverse_newton_raphson_loop, SReal.lt_undef_right]
  simp

/-- The order-one Langevin step never meets an undefined operation at a positive argument. -/
theorem sreal_langevin {x : ℝ} (hx : 0 < x) :
    (1.0 / Elem.tanh (SReal.val x) - 1.0 / SReal.val x : SReal) = SReal.val (langevin x) ∧
    (1.0 / Elem.powi (SReal.val x) 2 - 1.0 / Elem.powi (Elem.sinh (SReal.val x)) 2 : SReal) =
      SReal.val (1 / x ^ 2 - 1 / sinh x ^ 2) := by
  have h1 := tanh_ne_zero hx.ne'
  have h2 : x ^ 2 ≠ 0 := by positivity
  have h3 : sinh x ^ 2 ≠ 0 := pow_ne_zero _ (sinh_pos_iff.2 hx).ne'
  constructor
  · rw [SReal.tanh_val, SReal.lit_val, SReal.div_val _ h1, SReal.div_val _ hx.ne', SReal.sub_val, langevin]; norm_num
  · rw [SReal.sinh_val, SReal.lit_val, SReal.powi_val_ofNat, SReal.powi_val_ofNat, SReal.div_val _ h2, SReal.div_val _ h3,
      SReal.sub_val]; norm_num

theorem sreal_inverse_langevin_loop {y : ℝ} (h0 : 0 < y) {f f' : ℝ → ℝ} (hf : f = langevin)
    (hf' : f' = fun x => 1 / x ^ 2 - 1 / sinh x ^ 2) {F F' : SReal → SReal}
    (hF : ∀ x, 0 < x → F (SReal.val x) = SReal.val (langevin x))
    (hF' : ∀ x, 0 < x → F' (SReal.val x) = SReal.val (1 / x ^ 2 - 1 / sinh x ^ 2)) (n : ℕ) :
    ∀ x res : ℝ, 0 < x → 0 < langevinStep y x →
      inverse_newton_raphson_loop (SReal.val y) F F' 1e-6 n (SReal.val x) (SReal.val res) =
        SReal.val (inverse_newton_raphson_loop y f f' 1e-6 n x res) := by
  induction n with
  | zero => intro x res _ _; rfl
  | succ n ih =>
    intro x res hx hpos
    rw [inverse_newton_raphson_loop, inverse_newton_raphson_loop]
    by_cases hr : (1e-6 : ℝ) < res
    · have hlt : Elem.lt (1e-6 : ℝ) res = true := by simp only [model_real]; norm_num at *; exact hr
      have hlt' : Elem.lt (1e-6 : SReal) (SReal.val res) = true := by rw [SReal.lit_val, SReal.lt_val]; exact hr
      rw [if_pos hlt, if_pos hlt']
      have hle := langevinStep_below (y := y) hx hpos.le
      have hd := (langevin_deriv_pos hx.ne').ne'
      simp only [hF x hx, hF' x hx, SReal.sub_val, SReal.div_val _ hd, SReal.add_val, SReal.div_val _ h0.ne', SReal.abs_val]
      have := ih (langevinStep y x) |(y - langevin x) / y| hpos (hpos.trans_le (langevinStep_pos_of_below hpos hle))
      rw [hf, hf'] at *
      exact this
    · have hlt : ¬ Elem.lt (1e-6 : ℝ) res = true := by simp only [model_real]; norm_num at *; exact hr
      have hlt' : ¬ Elem.lt (1e-6 : SReal) (SReal.val res) = true := by rw [SReal.lit_val, SReal.lt_val]; exact hr
      rw [if_neg hlt, if_neg hlt']

/-- C46: between zero and one the routine meets no undefined operation on the way to its result. -/
theorem C46_inverse_langevin (y : ℝ) (h0 : 0 < y) (h1 : y < 1) :
    inverse_langevin (SReal.val y) = SReal.val (inverse_langevin y) := by
  rcases le_or_gt y 1e-3 with h | h
  · have hle : Elem.le (SReal.val y) (1e-3 : SReal) = true := by rw [SReal.lit_val, SReal.le_val]; exact h
    rw [C07_small y h, inverse_langevin, if_pos hle, SReal.lit_val, SReal.mul_val]; norm_num
  · have hle : ¬ Elem.le (SReal.val y) (1e-3 : SReal) = true := by
      rw [SReal.lit_val, SReal.le_val]; exact not_le.2 h
    have hle' : ¬ Elem.le y (1e-3 : ℝ) = true := by simp only [model_real]; norm_num at *; exact h
    obtain ⟨hg, hg2, hge⟩ := langevinGuess_facts h0 h1
    have hpos := langevinStep_pos h0 hg hg2
    have hf : (fun x : ℝ => 1.0 / Elem.tanh x - 1.0 / x) = langevin := by
      funext x; simp only [model_real, langevin]
    have hf' : (fun x : ℝ => 1.0 / Elem.powi x 2 - 1.0 / Elem.powi (Elem.sinh x) 2) =
        fun x => 1 / x ^ 2 - 1 / sinh x ^ 2 := by
      funext x; simp only [model_real]
    have hgu : (2.14234 * Elem.powi y 3 - 4.22785 * Elem.powi y 2 + 3.0 * y) / (1.0 - y)
          / (0.71716 * Elem.powi y 3 - 0.41103 * Elem.powi y 2 - 0.39165 * y + 1.0) = langevinGuess y := by
      simp only [model_real, langevinGuess]
    have hgu' : ((2.14234 * Elem.powi (SReal.val y) 3 - 4.22785 * Elem.powi (SReal.val y) 2 + 3.0 * SReal.val y) /
        (1.0 - SReal.val y) / (0.71716 * Elem.powi (SReal.val y) 3 - 0.41103 * Elem.powi (SReal.val y) 2 -
          0.39165 * SReal.val y + 1.0) : SReal) = SReal.val (langevinGuess y) := by
      have hB := langevinGuess_den h0.le h1.le
      have e1 : (1.0 : ℝ) - y ≠ 0 := by norm_num; linarith
      have e2 : (0.71716 : ℝ) * y ^ 3 - 0.41103 * y ^ 2 - 0.39165 * y + 1.0 ≠ 0 := by
        norm_num at *; linarith
      simp only [SReal.lit_val, SReal.powi_val_ofNat, SReal.mul_val, SReal.sub_val, SReal.add_val, SReal.div_val _ e1,
        SReal.div_val _ e2]
      unfold langevinGuess
      norm_num
    have hone : (1.0 : SReal) = SReal.val 1 := by rw [SReal.lit_val]; norm_num
    have hone' : (1.0 : ℝ) = 1 := by norm_num
    rw [inverse_langevin, inverse_langevin, if_neg hle, if_neg hle', hf, hf', hgu, hgu', inverse_newton_raphson,
      inverse_newton_raphson, hone']
    exact (congrArg _ hone).trans (sreal_inverse_langevin_loop h0 rfl rfl (fun x hx => (sreal_langevin hx).1)
      (fun x hx => (sreal_langevin hx).2) _ _ _ hg hpos)

example : inverse_langevin (SReal.val (1 / 2)) = SReal.val (inverse_langevin (1 / 2)) :=
  C46_inverse_langevin (1 / 2) (by norm_num) (by norm_num)

end Polymers.Props
