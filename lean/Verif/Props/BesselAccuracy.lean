import Verif.Props.Bessel
import Verif.Spec.Special
import Mathlib.Analysis.SpecificLimits.Normed
import Mathlib.Topology.Algebra.InfiniteSum.Real

/-! Property C52: accuracy of the Bessel routines on the range of the small-argument polynomials. -/

namespace Polymers.Props

open Polymers.Lemmas Polymers.Spec Set
open scoped Nat

/-- Terms of the series of the Bessel function of order `ν` divided by `(x/2)^ν`, in `t = x²/4`. -/
noncomputable def besselTerm (ν : ℕ) (t : ℝ) (k : ℕ) : ℝ := t ^ k / (k ! * (k + ν)!)

theorem besselTerm_tail (ν n : ℕ) {t : ℝ} (ht : 0 ≤ t) (k : ℕ) :
    besselTerm ν t (k + n) ≤ t ^ n / (n ! * (n + ν)!) * (t / (n + 1) ^ 2) ^ k := by
  have h1 : ((n ! * (n + 1) ^ k : ℕ) : ℝ) ≤ ((k + n)! : ℕ) := by
    rw [add_comm k n]; exact_mod_cast Nat.factorial_mul_pow_le_factorial
  have h2 : (((n + ν)! * (n + 1) ^ k : ℕ) : ℝ) ≤ ((k + n + ν)! : ℕ) := by
    have h3 : (n + ν)! * (n + ν + 1) ^ k ≤ (n + ν + k)! := Nat.factorial_mul_pow_le_factorial
    have h4 : (n + ν)! * (n + 1) ^ k ≤ (n + ν)! * (n + ν + 1) ^ k :=
      Nat.mul_le_mul_left _ (Nat.pow_le_pow_left (by omega) k)
    rw [show k + n + ν = n + ν + k by omega]
    exact_mod_cast h4.trans h3
  push_cast at h1 h2
  unfold besselTerm
  have e : t ^ n / (n ! * (n + ν)!) * (t / ((n : ℝ) + 1) ^ 2) ^ k =
      t ^ (k + n) / ((n ! * ((n : ℝ) + 1) ^ k) * ((n + ν)! * ((n : ℝ) + 1) ^ k)) := by
    rw [div_pow, pow_right_comm, pow_add]
    field_simp
  rw [e]
  refine div_le_div_of_nonneg_left (by positivity) (by positivity) ?_
  exact mul_le_mul h1 h2 (by positivity) (by positivity)

theorem besselTerm_nonneg (ν : ℕ) {t : ℝ} (ht : 0 ≤ t) (k : ℕ) : 0 ≤ besselTerm ν t k := by
  unfold besselTerm; positivity

theorem besselTerm_tsum (ν n : ℕ) {t : ℝ} (ht : 0 ≤ t) (hn : t / ((n : ℝ) + 1) ^ 2 < 1) :
    |∑' k, besselTerm ν t k - ∑ k ∈ Finset.range n, besselTerm ν t k| ≤
      t ^ n / (n ! * (n + ν)!) * (1 - t / ((n : ℝ) + 1) ^ 2)⁻¹ := by
  have hr : 0 ≤ t / ((n : ℝ) + 1) ^ 2 := by positivity
  have hg : HasSum (fun k => t ^ n / (n ! * (n + ν)!) * (t / ((n : ℝ) + 1) ^ 2) ^ k)
      (t ^ n / (n ! * (n + ν)!) * (1 - t / ((n : ℝ) + 1) ^ 2)⁻¹) := (hasSum_geometric_of_lt_one hr hn).mul_left _
  have hs : Summable fun k => besselTerm ν t (k + n) :=
    Summable.of_nonneg_of_le (fun k => besselTerm_nonneg ν ht _) (besselTerm_tail ν n ht) hg.summable
  have hs' : Summable (besselTerm ν t) := (summable_nat_add_iff n).1 hs
  rw [← hs'.sum_add_tsum_nat_add n, add_sub_cancel_left, abs_of_nonneg (tsum_nonneg fun k => besselTerm_nonneg ν ht _)]
  rw [← hg.tsum_eq]
  exact hs.tsum_le_tsum (besselTerm_tail ν n ht) hg.summable

theorem besselI_eq (ν : ℕ) (x : ℝ) : besselI ν x = (x / 2) ^ ν * ∑' k, besselTerm ν (x ^ 2 / 4) k := by
  rw [besselI, ← tsum_mul_left]
  refine tsum_congr fun k => ?_
  rw [besselTerm, show x ^ 2 / 4 = (x / 2) ^ 2 by ring, ← pow_mul, pow_add]
  ring

theorem bessel_i0_coef : List.Forall₂ (fun c d : ℝ => |c| ≤ d) (List.zipWith (· - ·) math.bessel_i0_small
    [1 / 1, 1 / 4, 1 / 36, 1 / 576, 1 / 14400, 1 / 518400, 1 / 25401600, 1 / 1625702400, 1 / 131681894400, 1 / 13168189440000, 1 / 1593350922240000, 1 / 229442532802560000, 1 / 38775788043632640000, 1 / 7600054456551997440000, 1 / 1710012252724199424000000]) [0, 1.01e-16, 4.44e-16, 8.76e-16, 8.92e-16, 5.48e-16, 2.20e-16, 6.01e-17, 1.17e-17, 1.62e-18, 1.61e-19, 1.14e-20, 5.54e-22, 1.78e-23, 3.25e-25] := by
  simp only [math.bessel_i0_small, List.zipWith_cons_cons, List.zipWith_nil_left]
  repeat' (refine List.Forall₂.cons ?_ ?_)
  all_goals first | exact .nil | norm_num [abs_le]

theorem bessel_i1_coef : List.Forall₂ (fun c d : ℝ => |c| ≤ d) (List.zipWith (· - ·) (1 :: (1 / 2) :: math.bessel_i1_small)
    [1 / 1, 1 / 2, 1 / 12, 1 / 144, 1 / 2880, 1 / 86400, 1 / 3628800, 1 / 203212800, 1 / 14631321600, 1 / 1316818944000, 1 / 144850083840000, 1 / 19120211066880000, 1 / 2982752926433280000, 1 / 542861032610856960000, 1 / 114000816848279961600000]) [0, 0, 3.35e-18, 1.05e-16, 3.71e-16, 5.26e-16, 3.87e-16, 1.70e-16, 4.74e-17, 8.87e-18, 1.15e-18, 9.93e-20, 5.83e-21, 2.18e-22, 4.57e-24] := by
  simp only [math.bessel_i1_small, List.zipWith_cons_cons, List.zipWith_nil_left]
  repeat' (refine List.Forall₂.cons ?_ ?_)
  all_goals first | exact .nil | norm_num [abs_le]

/-- C52: on the range of the small-argument polynomial the order-zero routine is within `7·10⁻⁶` of the modified Bessel
function. -/
theorem C52_bessel_i0_accuracy {x : ℝ} (h : |x| < 7.75) : |math.bessel_i 0 x - besselI 0 x| ≤ 7e-6 := by
  rw [lit_7_75, abs_lt] at h
  have ht : 0 ≤ x ^ 2 / 4 := by positivity
  have hts : x ^ 2 / 4 ≤ 961 / 64 := by nlinarith
  have h1 := abs_hval_le bessel_i0_coef ht hts
  rw [← hval_sub (by simp [math.bessel_i0_small])] at h1
  have h2 : 961 / 64 * hval [0, 1.01e-16, 4.44e-16, 8.76e-16, 8.92e-16, 5.48e-16, 2.20e-16, 6.01e-17, 1.17e-17, 1.62e-18, 1.61e-19, 1.14e-20, 5.54e-22, 1.78e-23, 3.25e-25] (961 / 64) ≤ 6.5e-6 := by
    simp only [hval]; norm_num
  have hlt : x ^ 2 / 4 / (((16 : ℕ) : ℝ) + 1) ^ 2 ≤ 1 / 2 := by
    rw [div_le_iff₀ (by positivity)]; norm_num; linarith
  have h3 := besselTerm_tsum 0 16 ht (by linarith)
  have h4 : (x ^ 2 / 4) ^ 16 / (16 ! * (16 + 0)!) * (1 - x ^ 2 / 4 / (((16 : ℕ) : ℝ) + 1) ^ 2)⁻¹ ≤ 4e-8 := by
    have a : (x ^ 2 / 4) ^ 16 / ((16 ! : ℕ) * (16 + 0)!) ≤ (961 / 64 : ℝ) ^ 16 / (16 ! * (16 + 0)!) :=
      div_le_div_of_nonneg_right (pow_le_pow_left₀ ht hts 16) (by positivity)
    have b : (1 - x ^ 2 / 4 / (((16 : ℕ) : ℝ) + 1) ^ 2)⁻¹ ≤ 2 := by
      rw [inv_le_comm₀ (by linarith) (by norm_num)]; linarith
    have c : (961 / 64 : ℝ) ^ 16 / (16 ! * (16 + 0)!) * 2 ≤ 4e-8 := by norm_num [Nat.factorial]
    refine le_trans (mul_le_mul a b ?_ (by positivity)) c
    exact inv_nonneg.2 (by linarith)
  have e : ∑ k ∈ Finset.range 16, besselTerm 0 (x ^ 2 / 4) k = 1 + x ^ 2 / 4 * hval [1 / 1, 1 / 4, 1 / 36, 1 / 576, 1 / 14400, 1 / 518400, 1 / 25401600, 1 / 1625702400, 1 / 131681894400, 1 / 13168189440000, 1 / 1593350922240000, 1 / 229442532802560000, 1 / 38775788043632640000, 1 / 7600054456551997440000, 1 / 1710012252724199424000000] (x ^ 2 / 4) := by
    simp only [Finset.sum_range_succ, Finset.sum_range_zero, besselTerm, hval, Nat.factorial]
    generalize x ^ 2 / 4 = t
    norm_num
    ring
  rw [bessel_i0_small_eq h.2, besselI_eq, pow_zero, one_mul]
  rw [e] at h3
  have h5 := mul_le_mul_of_nonneg_left h1 ht
  rw [← abs_of_nonneg ht, ← abs_mul, abs_of_nonneg ht] at h5
  have h6 : x ^ 2 / 4 * hval [0, 1.01e-16, 4.44e-16, 8.76e-16, 8.92e-16, 5.48e-16, 2.20e-16, 6.01e-17, 1.17e-17, 1.62e-18, 1.61e-19, 1.14e-20, 5.54e-22, 1.78e-23, 3.25e-25] (961 / 64) ≤
      961 / 64 * hval [0, 1.01e-16, 4.44e-16, 8.76e-16, 8.92e-16, 5.48e-16, 2.20e-16, 6.01e-17, 1.17e-17, 1.62e-18, 1.61e-19, 1.14e-20, 5.54e-22, 1.78e-23, 3.25e-25] (961 / 64) :=
    mul_le_mul_of_nonneg_right hts (by simp only [hval]; norm_num)
  have h7 := h3.trans h4
  have h8 := h5.trans (h6.trans h2)
  rw [abs_le] at *
  constructor <;> norm_num at * <;> linarith [h7.1, h7.2, h8.1, h8.2]

example : |math.bessel_i 0 5 - besselI 0 5| ≤ 7e-6 := C52_bessel_i0_accuracy (by rw [abs_of_pos] <;> norm_num)

/-- C52: the order-one routine is within `2·10⁻⁶ |x|` of the modified Bessel function. -/
theorem C52_bessel_i1_accuracy {x : ℝ} (h : |x| < 7.75) : |math.bessel_i 1 x - besselI 1 x| ≤ 2e-6 * |x| := by
  rw [lit_7_75, abs_lt] at h
  have ht : 0 ≤ x ^ 2 / 4 := by positivity
  have hts : x ^ 2 / 4 ≤ 961 / 64 := by nlinarith
  have h1 := abs_hval_le bessel_i1_coef ht hts
  rw [← hval_sub (by simp [math.bessel_i1_small])] at h1
  have h2 : hval [0, 0, 3.35e-18, 1.05e-16, 3.71e-16, 5.26e-16, 3.87e-16, 1.70e-16, 4.74e-17, 8.87e-18, 1.15e-18, 9.93e-20, 5.83e-21, 2.18e-22, 4.57e-24] (961 / 64) ≤ 3.5e-6 := by
    simp only [hval]; norm_num
  have hlt : x ^ 2 / 4 / (((15 : ℕ) : ℝ) + 1) ^ 2 ≤ 1 / 2 := by
    rw [div_le_iff₀ (by positivity)]; norm_num; linarith
  have h3 := besselTerm_tsum 1 15 ht (by linarith)
  have h4 : (x ^ 2 / 4) ^ 15 / (15 ! * (15 + 1)!) * (1 - x ^ 2 / 4 / (((15 : ℕ) : ℝ) + 1) ^ 2)⁻¹ ≤ 4e-8 := by
    have a : (x ^ 2 / 4) ^ 15 / ((15 ! : ℕ) * (15 + 1)!) ≤ (961 / 64 : ℝ) ^ 15 / (15 ! * (15 + 1)!) :=
      div_le_div_of_nonneg_right (pow_le_pow_left₀ ht hts 15) (by positivity)
    have b : (1 - x ^ 2 / 4 / (((15 : ℕ) : ℝ) + 1) ^ 2)⁻¹ ≤ 2 := by
      rw [inv_le_comm₀ (by linarith) (by norm_num)]; linarith
    have c : (961 / 64 : ℝ) ^ 15 / (15 ! * (15 + 1)!) * 2 ≤ 4e-8 := by norm_num [Nat.factorial]
    refine le_trans (mul_le_mul a b ?_ (by positivity)) c
    exact inv_nonneg.2 (by linarith)
  have e : ∑ k ∈ Finset.range 15, besselTerm 1 (x ^ 2 / 4) k = hval [1 / 1, 1 / 2, 1 / 12, 1 / 144, 1 / 2880, 1 / 86400, 1 / 3628800, 1 / 203212800, 1 / 14631321600, 1 / 1316818944000, 1 / 144850083840000, 1 / 19120211066880000, 1 / 2982752926433280000, 1 / 542861032610856960000, 1 / 114000816848279961600000] (x ^ 2 / 4) := by
    simp only [Finset.sum_range_succ, Finset.sum_range_zero, besselTerm, hval, Nat.factorial]
    generalize x ^ 2 / 4 = t
    norm_num
    ring
  rw [bessel_i1_small_eq h.2, besselI_eq, pow_one, ← mul_sub, abs_mul, abs_div, abs_two]
  rw [e] at h3
  have h7 := h3.trans h4
  have h8 := h1.trans h2
  have h9 : |hval (1 :: (1 / 2) :: math.bessel_i1_small) (x ^ 2 / 4) - ∑' k, besselTerm 1 (x ^ 2 / 4) k| ≤ 4e-6 := by
    rw [abs_le] at *
    constructor <;> norm_num at * <;> linarith [h7.1, h7.2, h8.1, h8.2]
  have := mul_le_mul_of_nonneg_left h9 (by positivity : 0 ≤ |x| / 2)
  linarith

example : |math.bessel_i 1 5 - besselI 1 5| ≤ 2e-6 * |(5 : ℝ)| := C52_bessel_i1_accuracy (by rw [abs_of_pos] <;> norm_num)

end Polymers.Props
