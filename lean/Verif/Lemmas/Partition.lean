import Verif.Lemmas.Quadrature
import Mathlib.Analysis.Calculus.Deriv.Add
import Mathlib.Analysis.SpecialFunctions.Log.Deriv
import Mathlib.Algebra.Order.BigOperators.Ring.Finset

/-! Helper lemmas about partition functions computed by the one-dimensional midpoint rule: congruence, positivity,
differentiation under the sum, and the Cauchy-Schwarz inequality. -/

namespace Polymers.math

open Finset Set

variable {a b : ℝ} {n : ℕ}

theorem integrate_1d_congr {f g : ℝ → ℝ} (hab : a < b) (h : ∀ x ∈ Ioo a b, f x = g x) :
    integrate_1d f a b n = integrate_1d g a b n := by
  rw [integrate_1d_eq_sum, integrate_1d_eq_sum]
  congr 1
  exact Finset.sum_congr rfl fun i hi => h _ (midpoint_mem_Ioo hab (Finset.mem_range.1 hi))

theorem integrate_1d_const_mul (f : ℝ → ℝ) (c : ℝ) :
    integrate_1d (fun x => c * f x) a b n = c * integrate_1d f a b n := by
  rw [integrate_1d_eq_sum, integrate_1d_eq_sum, ← Finset.mul_sum]; ring

theorem integrate_1d_div_const (f : ℝ → ℝ) (c : ℝ) :
    integrate_1d (fun x => f x / c) a b n = integrate_1d f a b n / c := by
  rw [integrate_1d_eq_sum, integrate_1d_eq_sum, ← Finset.sum_div]; ring

theorem integrate_1d_neg (f : ℝ → ℝ) :
    integrate_1d (fun x => -f x) a b n = -integrate_1d f a b n := by
  rw [integrate_1d_eq_sum, integrate_1d_eq_sum, Finset.sum_neg_distrib]; ring

theorem integrate_1d_pos {f : ℝ → ℝ} (hab : a < b) (hn : 0 < n) (h : ∀ x ∈ Ioo a b, 0 < f x) :
    0 < integrate_1d f a b n := by
  rw [integrate_1d_eq_sum]
  have hn' : (0 : ℝ) < n := by exact_mod_cast hn
  exact mul_pos (Finset.sum_pos (fun i hi => h _ (midpoint_mem_Ioo hab (Finset.mem_range.1 hi)))
    (Finset.nonempty_range_iff.2 hn.ne')) (div_pos (by linarith) hn')

theorem integrate_1d_nonneg {f : ℝ → ℝ} (hab : a < b) (h : ∀ x ∈ Ioo a b, 0 ≤ f x) :
    0 ≤ integrate_1d f a b n := by
  rw [integrate_1d_eq_sum]
  exact mul_nonneg (Finset.sum_nonneg fun i hi => h _ (midpoint_mem_Ioo hab (Finset.mem_range.1 hi)))
    (div_nonneg (by linarith) (Nat.cast_nonneg n))

theorem integrate_1d_lt {f g : ℝ → ℝ} (hab : a < b) (hn : 0 < n) (h : ∀ x ∈ Ioo a b, f x < g x) :
    integrate_1d f a b n < integrate_1d g a b n := by
  have := integrate_1d_pos (f := fun x => g x - f x) hab hn fun x hx => sub_pos.2 (h x hx)
  have e : integrate_1d (fun x => g x - f x) a b n = integrate_1d g a b n - integrate_1d f a b n := by
    rw [integrate_1d_eq_sum, integrate_1d_eq_sum, integrate_1d_eq_sum, Finset.sum_sub_distrib]; ring
  linarith

theorem hasDerivAt_integrate_1d {g : ℝ → ℝ → ℝ} {g' : ℝ → ℝ} {t : ℝ} (hab : a < b)
    (h : ∀ x ∈ Ioo a b, HasDerivAt (fun t => g t x) (g' x) t) :
    HasDerivAt (fun t => integrate_1d (g t) a b n) (integrate_1d g' a b n) t := by
  simp only [integrate_1d_eq_sum]
  refine HasDerivAt.mul_const ?_ _
  exact HasDerivAt.fun_sum fun i hi => h _ (midpoint_mem_Ioo hab (Finset.mem_range.1 hi))

/-- Cauchy-Schwarz for the midpoint rule with a positive weight. -/
theorem integrate_1d_sq_le {f g h : ℝ → ℝ} (hab : a < b) (hf : ∀ x ∈ Ioo a b, 0 < f x)
    (hle : ∀ x ∈ Ioo a b, g x ^ 2 ≤ f x * h x) :
    integrate_1d g a b n ^ 2 ≤ integrate_1d f a b n * integrate_1d h a b n := by
  rw [integrate_1d_eq_sum, integrate_1d_eq_sum, integrate_1d_eq_sum]
  have key := Finset.sum_sq_le_sum_mul_sum_of_sq_le_mul (Finset.range n)
    (r := fun i : ℕ => g (a + (0.5 + (i : ℝ)) * ((b - a) / n)))
    (f := fun i : ℕ => f (a + (0.5 + (i : ℝ)) * ((b - a) / n)))
    (g := fun i : ℕ => h (a + (0.5 + (i : ℝ)) * ((b - a) / n)))
    (fun i hi => (hf _ (midpoint_mem_Ioo hab (Finset.mem_range.1 hi))).le)
    (fun i hi => by
      have hm := midpoint_mem_Ioo hab (Finset.mem_range.1 hi)
      by_contra hc
      nlinarith [hle _ hm, hf _ hm, sq_nonneg (g (a + (0.5 + (i : ℝ)) * ((b - a) / n)))])
    (fun i hi => hle _ (midpoint_mem_Ioo hab (Finset.mem_range.1 hi)))
  have := mul_le_mul_of_nonneg_right key (sq_nonneg ((b - a) / n))
  nlinarith [this]

/-- Strict version: the log-convexity of a sum of strictly log-convex terms. -/
theorem integrate_1d_sq_lt {f g h : ℝ → ℝ} (hab : a < b) (hn : 0 < n) (hf : ∀ x ∈ Ioo a b, 0 < f x)
    (hlt : ∀ x ∈ Ioo a b, g x ^ 2 < f x * h x) :
    integrate_1d g a b n ^ 2 < integrate_1d f a b n * integrate_1d h a b n := by
  have h1 : integrate_1d g a b n ^ 2 ≤ integrate_1d f a b n * integrate_1d (fun x => g x ^ 2 / f x) a b n :=
    integrate_1d_sq_le hab hf fun x hx => by
      have := (hf x hx).ne'
      rw [mul_div_cancel₀ _ this]
  have h2 : integrate_1d (fun x => g x ^ 2 / f x) a b n < integrate_1d h a b n :=
    integrate_1d_lt hab hn fun x hx => by
      rw [div_lt_iff₀ (hf x hx), mul_comm]; exact hlt x hx
  have h3 := integrate_1d_pos hab hn hf
  nlinarith

end Polymers.math
