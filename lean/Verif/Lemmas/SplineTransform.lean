import Verif.Lemmas.IrwinHallNorm
import Mathlib.MeasureTheory.Integral.Gamma
import Mathlib.MeasureTheory.Group.Integral

/-! The Laplace transform of the spline of Treloar's density. -/

namespace Polymers.Lemmas

open Finset MeasureTheory Set

theorem spline_anti (n : ℕ) (x : ℝ) :
    spline (n + 3) (n + 1) (((n + 3 : ℕ) : ℝ) - x) = -spline (n + 3) (n + 1) x := by
  have h1 := (hasDerivAt_spline (n + 3) n (((n + 3 : ℕ) : ℝ) - x)).comp x ((hasDerivAt_id x).const_sub ((n + 3 : ℕ) : ℝ))
  have h2 := hasDerivAt_spline (n + 3) n x
  have e : (spline (n + 3) (n + 2) ∘ HSub.hSub ((n + 3 : ℕ) : ℝ)) = spline (n + 3) (n + 2) := by
    funext y
    exact (spline_unimodal (n + 1)).1 y
  rw [e] at h1
  have h := h1.unique h2
  have hn : (0 : ℝ) < n + 2 := by positivity
  have : ((n : ℝ) + 2) * (spline (n + 3) (n + 1) (((n + 3 : ℕ) : ℝ) - x) + spline (n + 3) (n + 1) x) = 0 := by linarith
  have := (mul_eq_zero.1 this).resolve_left hn.ne'
  linarith

theorem integral_tpow {q : ℕ} (hq : q ≠ 0) {b : ℝ} (hb : 0 < b) :
    ∫ x, tpow q x * Real.exp (-(b * x)) = q.factorial / b ^ (q + 1) := by
  have e : ∀ x ∉ Ioi (0 : ℝ), tpow q x * Real.exp (-(b * x)) = 0 := by
    intro x hx
    rw [tpow_of_nonpos hq (not_lt.1 hx), zero_mul]
  rw [← setIntegral_eq_integral_of_forall_compl_eq_zero e]
  have h := Real.integral_rpow_mul_exp_neg_mul_Ioi (a := q + 1) (by positivity) hb
  rw [Real.Gamma_nat_eq_factorial, add_sub_cancel_right] at h
  rw [setIntegral_congr_fun measurableSet_Ioi (g := fun x => x ^ (q : ℝ) * Real.exp (-(b * x))), h]
  · rw [show ((q : ℝ) + 1) = ((q + 1 : ℕ) : ℝ) by push_cast; ring, Real.rpow_natCast, one_div, inv_pow]
    field_simp
  · intro x hx
    simp only [tpow_of_nonneg q (le_of_lt hx), Real.rpow_natCast]

theorem integrable_tpow {q : ℕ} (hq : q ≠ 0) {b : ℝ} (hb : 0 < b) : Integrable fun x => tpow q x * Real.exp (-(b * x)) := by
  refine Integrable.of_integral_ne_zero ?_
  rw [integral_tpow hq hb]
  positivity

theorem integrable_tpow_sub {q : ℕ} (hq : q ≠ 0) {b : ℝ} (hb : 0 < b) (s : ℝ) :
    Integrable fun x => tpow q (x - s) * Real.exp (-(b * x)) := by
  have h := ((integrable_tpow hq hb).comp_sub_right s).const_mul (Real.exp (-(b * s)))
  refine h.congr (.of_forall fun x => ?_)
  simp only
  rw [show -(b * x) = -(b * s) + -(b * (x - s)) by ring, Real.exp_add]
  ring

theorem integral_tpow_sub {q : ℕ} (hq : q ≠ 0) {b : ℝ} (hb : 0 < b) (s : ℝ) :
    ∫ x, tpow q (x - s) * Real.exp (-(b * x)) = Real.exp (-(b * s)) * (q.factorial / b ^ (q + 1)) := by
  rw [← integral_tpow hq hb, ← integral_const_mul, ← integral_sub_right_eq_self (fun x => Real.exp (-(b * s)) * _) s]
  congr 1
  funext x
  rw [show -(b * x) = -(b * s) + -(b * (x - s)) by ring, Real.exp_add]
  ring

theorem spline_laplace (n : ℕ) {q : ℕ} (hq : q ≠ 0) {b : ℝ} (hb : 0 < b) :
    ∫ x, spline n q x * Real.exp (-(b * x)) = (1 - Real.exp (-b)) ^ n * (q.factorial / b ^ (q + 1)) := by
  have e : ∀ x, spline n q x * Real.exp (-(b * x)) =
      ∑ s ∈ range (n + 1), (-1) ^ s * (n.choose s : ℝ) * (tpow q (x - s) * Real.exp (-(b * x))) := by
    intro x
    rw [spline, Finset.sum_mul]
    exact Finset.sum_congr rfl fun s _ => by ring
  simp only [e]
  rw [integral_finsetSum _ fun (s : ℕ) _ => (integrable_tpow_sub hq hb (s : ℝ)).const_mul _]
  simp only [integral_const_mul, integral_tpow_sub hq hb]
  rw [show 1 - Real.exp (-b) = -Real.exp (-b) + 1 by ring, add_pow, Finset.sum_mul]
  refine Finset.sum_congr rfl fun s _ => ?_
  rw [one_pow, neg_pow (Real.exp (-b)), ← Real.exp_nat_mul, show (s : ℝ) * -b = -(b * s) by ring]
  ring

/-- The hyperbolic sine transform of the spline over the extensions. -/
theorem spline_sinh (n : ℕ) {η : ℝ} (hη : 0 < η) :
    ∫ γ in (0 : ℝ)..1, spline (n + 3) (n + 1) (((n + 3 : ℕ) : ℝ) * ((1 - γ) / 2)) * Real.sinh (((n + 3 : ℕ) : ℝ) * η * γ) =
      2 * Real.sinh η ^ (n + 3) * (n + 1).factorial / (η ^ (n + 2) * ((n + 3 : ℕ) : ℝ)) := by
  set N : ℝ := ((n + 3 : ℕ) : ℝ) with hNdef
  have hN : 0 < N := by rw [hNdef]; positivity
  set F : ℝ → ℝ := spline (n + 3) (n + 1) with hF
  have hcF : Continuous F := by rw [hF]; unfold spline tpow; fun_prop
  set f : ℝ → ℝ := fun x => F x * Real.exp (-(2 * η * x)) with hf
  have hcf : Continuous f := by fun_prop
  have hL : ∫ x, f x = (1 - Real.exp (-(2 * η))) ^ (n + 3) * ((n + 1).factorial / (2 * η) ^ (n + 2)) :=
    spline_laplace (n + 3) (q := n + 1) (by omega) (by positivity)
  have hsupp : ∀ x ∉ Ioc 0 N, f x = 0 := by
    intro x hx
    simp only [hf]
    rcases le_or_gt x 0 with h | h
    · rw [hF, spline_nonpos _ (by omega) h, zero_mul]
    · have h' : N < x := by by_contra hc; exact hx ⟨h, not_lt.1 hc⟩
      have := spline_anti n (N - x)
      rw [← hNdef, sub_sub_cancel, spline_nonpos (x := N - x) _ (by omega) (by linarith)] at this
      rw [hF, this, neg_zero, zero_mul]
  have h1 : ∫ x, f x = ∫ x in (0 : ℝ)..N / 2, 2 * Real.exp (-(N * η)) * (F x * Real.sinh (2 * η * (N / 2 - x))) := by
    rw [← setIntegral_eq_integral_of_forall_compl_eq_zero hsupp, ← intervalIntegral.integral_of_le hN.le,
      ← intervalIntegral.integral_add_adjacent_intervals (hcf.intervalIntegrable 0 (N / 2)) (hcf.intervalIntegrable (N / 2) N)]
    have h2 := intervalIntegral.integral_comp_sub_left (a := 0) (b := N / 2) f N
    rw [sub_zero, show N - N / 2 = N / 2 by ring] at h2
    rw [← h2, ← intervalIntegral.integral_add (hcf.intervalIntegrable _ _)
      ((by fun_prop : Continuous fun x => f (N - x)).intervalIntegrable _ _)]
    refine intervalIntegral.integral_congr fun x _ => ?_
    simp only [hf]
    rw [hF, spline_anti, ← hF, Real.sinh_eq]
    rw [show -(2 * η * x) = -(N * η) + 2 * η * (N / 2 - x) by ring,
      show -(2 * η * (N - x)) = -(N * η) + -(2 * η * (N / 2 - x)) by ring, Real.exp_add, Real.exp_add]
    ring
  have h3 := intervalIntegral.integral_comp_sub_mul (a := 0) (b := 1)
    (fun x => 2 * Real.exp (-(N * η)) * (F x * Real.sinh (2 * η * (N / 2 - x)))) (c := N / 2) (by positivity) (N / 2)
  rw [mul_one, sub_self, mul_zero, sub_zero, ← h1, hL] at h3
  have h4 : ∀ γ : ℝ, 2 * Real.exp (-(N * η)) * (F (N / 2 - N / 2 * γ) * Real.sinh (2 * η * (N / 2 - (N / 2 - N / 2 * γ)))) =
      2 * Real.exp (-(N * η)) * (F (N * ((1 - γ) / 2)) * Real.sinh (N * η * γ)) := by
    intro γ
    rw [show N / 2 - N / 2 * γ = N * ((1 - γ) / 2) by ring, show 2 * η * (N / 2 - N * ((1 - γ) / 2)) = N * η * γ by ring]
  simp only [h4] at h3
  rw [intervalIntegral.integral_const_mul] at h3
  have h5 : (1 - Real.exp (-(2 * η))) ^ (n + 3) = Real.exp (-(N * η)) * (2 * Real.sinh η) ^ (n + 3) := by
    rw [hNdef, show -(((n + 3 : ℕ) : ℝ) * η) = ((n + 3 : ℕ) : ℝ) * (-η) by ring, Real.exp_nat_mul, ← mul_pow]
    congr 1
    rw [Real.sinh_eq, show -(2 * η) = -η + -η by ring, Real.exp_add]
    have : Real.exp (-η) * Real.exp η = 1 := by rw [← Real.exp_add]; simp
    linear_combination -this
  rw [h5, smul_eq_mul] at h3
  have he := Real.exp_ne_zero (-(N * η))
  have : 2 * Real.exp (-(N * η)) * (∫ γ in (0 : ℝ)..1, F (N * ((1 - γ) / 2)) * Real.sinh (N * η * γ)) =
      2 * Real.exp (-(N * η)) * (2 * Real.sinh η ^ (n + 3) * (n + 1).factorial / (η ^ (n + 2) * N)) := by
    rw [h3, mul_pow, mul_pow]
    field_simp
    ring
  exact mul_left_cancel₀ (by positivity) this

end Polymers.Lemmas
