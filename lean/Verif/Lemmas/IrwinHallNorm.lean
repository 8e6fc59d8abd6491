import Verif.Lemmas.IrwinHall
import Mathlib.Algebra.Group.ForwardDiff
import Mathlib.MeasureTheory.Integral.IntervalIntegral.FundThmCalculus

/-! The value of the Irwin-Hall spline at its centre, and the first moment that normalises Treloar's density. -/

namespace Polymers.Lemmas

open Finset

theorem spline_end (n : ℕ) : spline (n + 1) (n + 1) ((n + 1 : ℕ) : ℝ) = ((n + 1).factorial : ℝ) := by
  have h := congrFun (fwdDiff_iter_eq_factorial (R := ℝ) (n := n + 1)) 0
  rw [fwdDiff_iter_eq_sum_shift] at h
  have h' : ((n + 1).factorial : ℝ) = ∑ k ∈ range (n + 1 + 1), (-1 : ℝ) ^ (n + 1 - k) * ((n + 1).choose k : ℝ) * (k : ℝ) ^ (n + 1) := by
    rw [show ((n + 1).factorial : ℝ) = ((n + 1).factorial : ℝ → ℝ) 0 from rfl, ← h]
    refine Finset.sum_congr rfl fun k _ => ?_
    simp
  rw [h', spline, ← Finset.sum_range_reflect]
  refine Finset.sum_congr rfl fun s hs => ?_
  have hs := Finset.mem_range.1 hs
  have e : n + 1 + 1 - 1 - s = n + 1 - s := by omega
  rw [e, Nat.choose_symm (by omega)]
  have e2 : ((n + 1 : ℕ) : ℝ) - ((n + 1 - s : ℕ) : ℝ) = s := by
    rw [Nat.cast_sub (by omega)]; ring
  rw [e2, tpow_of_nonneg _ (Nat.cast_nonneg s)]

/-- The spline is half of its final value at its centre. -/
theorem spline_center (n : ℕ) : spline (n + 2) (n + 2) (((n + 2 : ℕ) : ℝ) / 2) = ((n + 2).factorial : ℝ) / 2 := by
  have hs := (spline_unimodal n).1
  have hD : ∀ x, HasDerivAt (fun x => spline (n + 2) (n + 2) ((n + 2 : ℕ) - x) + spline (n + 2) (n + 2) x) 0 x := by
    intro x
    have h1 := (hasDerivAt_spline (n + 2) n ((n + 2 : ℕ) - x)).comp x ((hasDerivAt_id x).const_sub ((n + 2 : ℕ) : ℝ))
    refine (h1.add (hasDerivAt_spline (n + 2) n x)).congr_deriv ?_
    rw [hs x]; ring
  have hconst := is_const_of_deriv_eq_zero (fun x => (hD x).differentiableAt) (fun x => (hD x).deriv) 0
    (((n + 2 : ℕ) : ℝ) / 2)
  have e : ((n + 2 : ℕ) : ℝ) - ((n + 2 : ℕ) : ℝ) / 2 = ((n + 2 : ℕ) : ℝ) / 2 := by ring
  simp only [e, sub_zero] at hconst
  rw [spline_end (n + 1), spline_nonpos _ (by omega) le_rfl] at hconst
  linarith

/-- `∫₀¹ γ Σ_s (-1)^s C(n,s) max(n (1-γ)/2 - s, 0)^(n-2) dγ` for `n ≥ 3`. -/
theorem spline_moment (n : ℕ) :
    ∫ γ in (0 : ℝ)..1, γ * spline (n + 3) (n + 1) (((n + 3 : ℕ) : ℝ) * ((1 - γ) / 2)) =
      2 * ((n + 3).factorial : ℝ) / ((n + 3) ^ 3 * (n + 2)) := by
  set N : ℝ := ((n + 3 : ℕ) : ℝ) with hNdef
  have hN : N = n + 3 := by rw [hNdef]; push_cast; ring
  have hn0 : (0 : ℝ) ≤ n := Nat.cast_nonneg n
  have hx : ∀ γ : ℝ, HasDerivAt (fun γ : ℝ => N * ((1 - γ) / 2)) (-(N / 2)) γ := by
    intro γ
    exact ((((hasDerivAt_id γ).const_sub 1).div_const 2).const_mul N).congr_deriv (by ring)
  have h1 : ∀ γ, HasDerivAt (fun γ => spline (n + 3) (n + 2) (N * ((1 - γ) / 2)))
      (((n : ℝ) + 2) * spline (n + 3) (n + 1) (N * ((1 - γ) / 2)) * (-(N / 2))) γ :=
    fun γ => (hasDerivAt_spline (n + 3) n _).comp γ (hx γ)
  have h2 : ∀ γ, HasDerivAt (fun γ => spline (n + 3) (n + 3) (N * ((1 - γ) / 2)))
      (((n : ℝ) + 3) * spline (n + 3) (n + 2) (N * ((1 - γ) / 2)) * (-(N / 2))) γ := by
    intro γ
    refine ((hasDerivAt_spline (n + 3) (n + 1) _).comp γ (hx γ)).congr_deriv ?_
    push_cast
    ring
  have hd : ∀ γ ∈ Set.uIcc (0 : ℝ) 1, HasDerivAt
      (fun γ => γ * (-(2 / (N * (n + 2))) * spline (n + 3) (n + 2) (N * ((1 - γ) / 2))) -
        4 / (N ^ 3 * (n + 2)) * spline (n + 3) (n + 3) (N * ((1 - γ) / 2)))
      (γ * spline (n + 3) (n + 1) (N * ((1 - γ) / 2))) γ := by
    intro γ _
    refine (((hasDerivAt_id γ).mul ((h1 γ).const_mul (-(2 / (N * (n + 2)))))).sub
      ((h2 γ).const_mul (4 / (N ^ 3 * (n + 2))))).congr_deriv ?_
    simp only [id, hN]
    have a1 : (n : ℝ) + 3 ≠ 0 := by positivity
    have a2 : (n : ℝ) + 2 ≠ 0 := by positivity
    field_simp
    ring
  have hcont : Continuous fun γ => γ * spline (n + 3) (n + 1) (N * ((1 - γ) / 2)) := by
    have : Continuous (spline (n + 3) (n + 1)) := by
      unfold spline tpow
      fun_prop
    fun_prop
  rw [intervalIntegral.integral_eq_sub_of_hasDerivAt hd (hcont.intervalIntegrable _ _)]
  have e1 : N * ((1 - 1) / 2) = 0 := by ring
  have e0 : N * ((1 - 0) / 2) = ((n + 1 + 2 : ℕ) : ℝ) / 2 := by rw [hN]; push_cast; ring
  simp only [e1, e0, spline_nonpos _ (show n + 2 ≠ 0 by omega) le_rfl, spline_nonpos _ (show n + 3 ≠ 0 by omega) le_rfl]
  rw [show spline (n + 3) (n + 3) (((n + 1 + 2 : ℕ) : ℝ) / 2) = ((n + 1 + 2).factorial : ℝ) / 2 from spline_center (n + 1), hN]
  have a1 : (n : ℝ) + 3 ≠ 0 := by positivity
  have a2 : (n : ℝ) + 2 ≠ 0 := by positivity
  rw [show n + 1 + 2 = n + 3 from rfl]
  field_simp
  ring

end Polymers.Lemmas
