import Verif.Spec.Network
import Mathlib.Analysis.SpecialFunctions.Gaussian.GaussianIntegral
import Mathlib.MeasureTheory.Integral.IntegralEqImproper

/-! Moments of a Gaussian, for the mean square length of a harmonic link. -/

namespace Polymers.Lemmas

open Real MeasureTheory Polymers.Spec

theorem integrable_pow_gauss {b : ℝ} (hb : 0 < b) (n : ℕ) : Integrable fun x : ℝ => x ^ n * exp (-b * x ^ 2) := by
  have := integrable_rpow_mul_exp_neg_mul_sq hb (s := (n : ℝ)) (by have := n.cast_nonneg (α := ℝ); linarith)
  simpa only [rpow_natCast] using this

theorem hasDerivAt_pow_gauss (b : ℝ) (n : ℕ) (x : ℝ) : HasDerivAt (fun x : ℝ => x ^ (n + 1) * exp (-b * x ^ 2))
    ((n + 1) * (x ^ n * exp (-b * x ^ 2)) - 2 * b * (x ^ (n + 2) * exp (-b * x ^ 2))) x := by
  have h1 := (hasDerivAt_pow (n + 1) x).mul (((hasDerivAt_pow 2 x).const_mul (-b)).exp)
  convert! h1 using 1
  push_cast [Nat.add_sub_cancel]
  ring

/-- The `n`-th moment of a Gaussian. -/
noncomputable def gaussMean (b : ℝ) (n : ℕ) : ℝ := ∫ x : ℝ, x ^ n * exp (-b * x ^ 2)

theorem gaussMean_succ {b : ℝ} (hb : 0 < b) (n : ℕ) : gaussMean b (n + 2) = (n + 1) / (2 * b) * gaussMean b n := by
  have i0 := (integrable_pow_gauss hb n).const_mul ((n : ℝ) + 1)
  have i2 := (integrable_pow_gauss hb (n + 2)).const_mul (2 * b)
  have h := integral_eq_zero_of_hasDerivAt_of_integrable (hasDerivAt_pow_gauss b n) (i0.sub i2)
    (integrable_pow_gauss hb (n + 1))
  rw [integral_sub i0 i2, integral_const_mul, integral_const_mul, ← gaussMean, ← gaussMean] at h
  field_simp
  linarith

theorem gaussMean_one {b : ℝ} (hb : 0 < b) : gaussMean b 1 = 0 := by
  have hd : ∀ x : ℝ, HasDerivAt (fun x : ℝ => x ^ 0 * exp (-b * x ^ 2)) (-(2 * b) * (x ^ 1 * exp (-b * x ^ 2))) x := by
    intro x
    have h1 := (((hasDerivAt_pow 2 x).const_mul (-b)).exp)
    simp only [pow_zero, one_mul]
    convert! h1 using 1
    push_cast
    ring
  have h := integral_eq_zero_of_hasDerivAt_of_integrable hd ((integrable_pow_gauss hb 1).const_mul _)
    (integrable_pow_gauss hb 0)
  rw [integral_const_mul, ← gaussMean] at h
  rcases mul_eq_zero.1 h with h | h
  · linarith
  · exact h

/-- The mean square length of a harmonic link. -/
theorem meanSquareLink_eq {κ : ℝ} (hκ : 0 < κ) :
    meanSquareLink κ = (κ ^ 2 + 6 * κ + 3) / (κ * (κ + 1)) := by
  have hb : 0 < κ / 2 := by positivity
  have m1 := gaussMean_one hb
  have m2 := gaussMean_succ hb 0
  have m3 := gaussMean_succ hb 1
  have m4 := gaussMean_succ hb 2
  have m0 : 0 < gaussMean (κ / 2) 0 := by
    simp only [gaussMean, pow_zero, one_mul]
    rw [integral_gaussian]
    positivity
  have i0 := integrable_pow_gauss hb 0
  have i1 := integrable_pow_gauss hb 1
  have i2 := integrable_pow_gauss hb 2
  have i3 := integrable_pow_gauss hb 3
  have i4 := integrable_pow_gauss hb 4
  have e2 : ∫ s : ℝ, s ^ 2 * exp (-(κ / 2 * (s - 1) ^ 2)) =
      gaussMean (κ / 2) 2 + (2 * gaussMean (κ / 2) 1 + gaussMean (κ / 2) 0) := by
    rw [← integral_add_right_eq_self _ (1:ℝ)]
    have : ∀ x : ℝ, (x + 1) ^ 2 * exp (-(κ / 2 * (x + 1 - 1) ^ 2)) =
        x ^ 2 * exp (-(κ / 2) * x ^ 2) + (2 * (x ^ 1 * exp (-(κ / 2) * x ^ 2)) + x ^ 0 * exp (-(κ / 2) * x ^ 2)) := by
      intro x; rw [add_sub_cancel_right, neg_mul]; ring
    simp only [this]
    have j1 : Integrable fun x : ℝ => 2 * (x ^ 1 * exp (-(κ / 2) * x ^ 2)) + x ^ 0 * exp (-(κ / 2) * x ^ 2) :=
      (i1.const_mul 2).add i0
    rw [integral_add i2 j1, integral_add (i1.const_mul 2) i0, integral_const_mul]
    rfl
  have e4 : ∫ s : ℝ, s ^ 4 * exp (-(κ / 2 * (s - 1) ^ 2)) = gaussMean (κ / 2) 4 + (4 * gaussMean (κ / 2) 3 +
      (6 * gaussMean (κ / 2) 2 + (4 * gaussMean (κ / 2) 1 + gaussMean (κ / 2) 0))) := by
    rw [← integral_add_right_eq_self _ (1:ℝ)]
    have : ∀ x : ℝ, (x + 1) ^ 4 * exp (-(κ / 2 * (x + 1 - 1) ^ 2)) =
        x ^ 4 * exp (-(κ / 2) * x ^ 2) + (4 * (x ^ 3 * exp (-(κ / 2) * x ^ 2)) + (6 * (x ^ 2 * exp (-(κ / 2) * x ^ 2)) +
          (4 * (x ^ 1 * exp (-(κ / 2) * x ^ 2)) + x ^ 0 * exp (-(κ / 2) * x ^ 2)))) := by
      intro x; rw [add_sub_cancel_right, neg_mul]; ring
    simp only [this]
    have j1 : Integrable fun x : ℝ => 4 * (x ^ 1 * exp (-(κ / 2) * x ^ 2)) + x ^ 0 * exp (-(κ / 2) * x ^ 2) :=
      (i1.const_mul 4).add i0
    have j2 : Integrable fun x : ℝ => 6 * (x ^ 2 * exp (-(κ / 2) * x ^ 2)) + (4 * (x ^ 1 * exp (-(κ / 2) * x ^ 2)) +
        x ^ 0 * exp (-(κ / 2) * x ^ 2)) := (i2.const_mul 6).add j1
    have j3 : Integrable fun x : ℝ => 4 * (x ^ 3 * exp (-(κ / 2) * x ^ 2)) + (6 * (x ^ 2 * exp (-(κ / 2) * x ^ 2)) +
        (4 * (x ^ 1 * exp (-(κ / 2) * x ^ 2)) + x ^ 0 * exp (-(κ / 2) * x ^ 2))) := (i3.const_mul 4).add j2
    rw [integral_add i4 j3, integral_add (i3.const_mul 4) j2, integral_add (i2.const_mul 6) j1,
      integral_add (i1.const_mul 4) i0, integral_const_mul, integral_const_mul, integral_const_mul]
    rfl
  norm_num at m2 m3 m4
  rw [meanSquareLink, e4, e2, m4, m3, m2, m1]
  field_simp
  ring

end Polymers.Lemmas
