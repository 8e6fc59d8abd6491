import Verif.Model.Math
import Verif.Model.RealInst
import Mathlib.MeasureTheory.Integral.IntervalIntegral.FundThmCalculus
import Mathlib.Analysis.SpecialFunctions.Integrals.Basic
import Mathlib.Analysis.Calculus.MeanValue

/-! Helper lemmas about the midpoint sums of `Verif/Model/Math.lean` over `ℝ`. -/

namespace Polymers.math

open Finset MeasureTheory intervalIntegral Set

/-- The one-dimensional rule as a finite sum. -/
theorem integrate_1d_eq_sum (f : ℝ → ℝ) (a b : ℝ) (n : ℕ) :
    integrate_1d f a b n
      = (∑ i ∈ Finset.range n, f (a + (0.5 + (i : ℝ)) * ((b - a) / n))) * ((b - a) / n) := by
  unfold integrate_1d
  simp only [fsum_eq]
  rw [Finset.sum_range, ← List.sum_ofFn]
  congr 2
  rw [List.ofFn_eq_map]
  rw [← List.map_coe_finRange_eq_range, List.map_map]
  rfl

theorem list_sum_map_range (g : ℕ → ℝ) (n : ℕ) :
    ((List.range n).map g).sum = ∑ i ∈ Finset.range n, g i := by
  rw [Finset.sum_range, ← List.sum_ofFn, List.ofFn_eq_map, ← List.map_coe_finRange_eq_range, List.map_map]
  rfl

theorem fsum_flatMap {ι κ : Type} (l : List ι) (m : List κ) (g : ι → κ → ℝ) :
    fsum (l.flatMap fun x => m.map fun y => g x y) = (l.map fun x => (m.map fun y => g x y).sum).sum := by
  rw [fsum_eq]
  induction l with
  | nil => rfl
  | cons x l ih => simp [List.flatMap_cons, ih]

/-- midpoints lie inside the interval -/
theorem midpoint_mem {a b : ℝ} (hab : a ≤ b) {n i : ℕ} (hi : i < n) :
    a + (0.5 + (i : ℝ)) * ((b - a) / n) ∈ Icc a b := by
  have hn : (0 : ℝ) < n := by exact_mod_cast Nat.lt_of_le_of_lt (Nat.zero_le i) hi
  have h1 : (i : ℝ) + 1 ≤ n := by exact_mod_cast hi
  have h0 : (0 : ℝ) ≤ i := Nat.cast_nonneg i
  have hd : 0 ≤ (b - a) / n := div_nonneg (by linarith) hn.le
  constructor
  · have := mul_nonneg (show (0 : ℝ) ≤ 0.5 + i by norm_num; linarith) hd
    linarith
  · have h2 : (0.5 + (i : ℝ)) * ((b - a) / n) ≤ n * ((b - a) / n) :=
      mul_le_mul_of_nonneg_right (by norm_num; linarith) hd
    rw [mul_div_cancel₀ _ hn.ne'] at h2
    linarith

theorem midpoint_mem_Ioo {a b : ℝ} (hab : a < b) {n i : ℕ} (hi : i < n) :
    a + (0.5 + (i : ℝ)) * ((b - a) / n) ∈ Ioo a b := by
  have hn : (0 : ℝ) < n := by exact_mod_cast Nat.lt_of_le_of_lt (Nat.zero_le i) hi
  have h1 : (i : ℝ) + 1 ≤ n := by exact_mod_cast hi
  have h0 : (0 : ℝ) ≤ i := Nat.cast_nonneg i
  have hd : 0 < (b - a) / n := div_pos (by linarith) hn
  constructor
  · have := mul_pos (show (0 : ℝ) < 0.5 + i by norm_num; linarith) hd
    linarith
  · have h2 : (0.5 + (i : ℝ)) * ((b - a) / n) < n * ((b - a) / n) :=
      mul_lt_mul_of_pos_right (by norm_num; linarith) hd
    rw [mul_div_cancel₀ _ hn.ne'] at h2
    linarith

/-- Second-order Taylor bound on an interval from a bound on the second derivative. -/
theorem taylor_two_bound {f f' f'' : ℝ → ℝ} {a b M : ℝ}
    (hf : ∀ x ∈ Icc a b, HasDerivWithinAt f (f' x) (Icc a b) x)
    (hf' : ∀ x ∈ Icc a b, HasDerivWithinAt f' (f'' x) (Icc a b) x)
    (hM : ∀ x ∈ Icc a b, |f'' x| ≤ M) {c x : ℝ} (hc : c ∈ Icc a b) (hx : x ∈ Icc a b) :
    |f x - f c - f' c * (x - c)| ≤ M / 2 * (x - c) ^ 2 := by
  have hlip : ∀ y ∈ Icc a b, |f' y - f' c| ≤ M * |y - c| := by
    intro y hy
    have := Convex.norm_image_sub_le_of_norm_hasDerivWithin_le (f := f') (f' := f'') (C := M) (s := Icc a b)
      hf' (by simpa using hM) (convex_Icc a b) hc hy
    simpa using this
  -- the two auxiliary functions
  have key : ∀ s : ℝ, |s| = 1 →
      0 ≤ M / 2 * (x - c) ^ 2 + s * (f x - f c - f' c * (x - c)) := by
    intro s hs
    set G : ℝ → ℝ := fun y => M / 2 * (y - c) ^ 2 + s * (f y - f c - f' c * (y - c)) with hG
    have hGd : ∀ y ∈ Icc a b, HasDerivWithinAt G (M * (y - c) + s * (f' y - f' c)) (Icc a b) y := by
      intro y hy
      have h1 : HasDerivWithinAt (fun y : ℝ => y - c) 1 (Icc a b) y := (hasDerivWithinAt_id y _).sub_const c
      have h2 := ((h1.pow 2).const_mul (M / 2)).add
        ((((hf y hy).sub_const (f c)).sub (h1.const_mul (f' c))).const_mul s)
      refine h2.congr_deriv ?_
      simp
      ring
    have hG0 : G c = 0 := by simp [hG]
    have hsb : ∀ y ∈ Icc a b, |s * (f' y - f' c)| ≤ M * |y - c| := by
      intro y hy; rw [abs_mul, hs, one_mul]; exact hlip y hy
    have hGc : ContinuousOn G (Icc a b) := fun y hy => (hGd y hy).continuousWithinAt
    rcases le_total c x with hcx | hcx
    · have hmono : MonotoneOn G (Icc c x) := by
        apply monotoneOn_of_deriv_nonneg (convex_Icc c x)
        · exact hGc.mono (Icc_subset_Icc hc.1 hx.2)
        · rw [interior_Icc]
          intro y hy
          have hy' : y ∈ Icc a b := ⟨hc.1.trans hy.1.le, hy.2.le.trans hx.2⟩
          have hn : Icc a b ∈ nhds y := Icc_mem_nhds (hc.1.trans_lt hy.1) (hy.2.trans_le hx.2)
          exact ((hGd y hy').hasDerivAt hn).differentiableAt.differentiableWithinAt
        · rw [interior_Icc]
          intro y hy
          have hy' : y ∈ Icc a b := ⟨hc.1.trans hy.1.le, hy.2.le.trans hx.2⟩
          have hn : Icc a b ∈ nhds y := Icc_mem_nhds (hc.1.trans_lt hy.1) (hy.2.trans_le hx.2)
          rw [((hGd y hy').hasDerivAt hn).deriv]
          have h1 := hsb y hy'
          rw [abs_of_pos (sub_pos.2 hy.1)] at h1
          have h2 := neg_abs_le (s * (f' y - f' c))
          linarith
      have := hmono (left_mem_Icc.2 hcx) (right_mem_Icc.2 hcx) hcx
      rw [hG0] at this
      exact this
    · have hanti : AntitoneOn G (Icc x c) := by
        apply antitoneOn_of_deriv_nonpos (convex_Icc x c)
        · exact hGc.mono (Icc_subset_Icc hx.1 hc.2)
        · rw [interior_Icc]
          intro y hy
          have hy' : y ∈ Icc a b := ⟨hx.1.trans hy.1.le, hy.2.le.trans hc.2⟩
          have hn : Icc a b ∈ nhds y := Icc_mem_nhds (hx.1.trans_lt hy.1) (hy.2.trans_le hc.2)
          exact ((hGd y hy').hasDerivAt hn).differentiableAt.differentiableWithinAt
        · rw [interior_Icc]
          intro y hy
          have hy' : y ∈ Icc a b := ⟨hx.1.trans hy.1.le, hy.2.le.trans hc.2⟩
          have hn : Icc a b ∈ nhds y := Icc_mem_nhds (hx.1.trans_lt hy.1) (hy.2.trans_le hc.2)
          rw [((hGd y hy').hasDerivAt hn).deriv]
          have h1 := hsb y hy'
          rw [abs_of_neg (sub_neg.2 hy.2)] at h1
          have h2 := le_abs_self (s * (f' y - f' c))
          linarith
      have := hanti (left_mem_Icc.2 hcx) (right_mem_Icc.2 hcx) hcx
      rw [hG0] at this
      exact this
  have h1 := key 1 (by simp)
  have h2 := key (-1) (by simp)
  rw [abs_le]
  constructor <;> linarith

/-- Midpoint rule on one cell. -/
theorem midpoint_cell_bound {f f' f'' : ℝ → ℝ} {a b M : ℝ}
    (hf : ∀ x ∈ Icc a b, HasDerivWithinAt f (f' x) (Icc a b) x)
    (hf' : ∀ x ∈ Icc a b, HasDerivWithinAt f' (f'' x) (Icc a b) x)
    (hM : ∀ x ∈ Icc a b, |f'' x| ≤ M) {c h : ℝ} (hh : 0 ≤ h) (hl : a ≤ c - h / 2) (hr : c + h / 2 ≤ b) :
    |f c * h - ∫ x in (c - h / 2)..(c + h / 2), f x| ≤ M * h ^ 3 / 24 := by
  have hsub : Icc (c - h / 2) (c + h / 2) ⊆ Icc a b := Icc_subset_Icc hl hr
  have hle : c - h / 2 ≤ c + h / 2 := by linarith
  have hcont : ContinuousOn f (Icc (c - h / 2) (c + h / 2)) :=
    fun x hx => ((hf x (hsub hx)).continuousWithinAt).mono hsub
  have hfi : IntervalIntegrable f volume (c - h / 2) (c + h / 2) := hcont.intervalIntegrable_of_Icc hle
  have hlin : IntervalIntegrable (fun x => f c + f' c * (x - c)) volume (c - h / 2) (c + h / 2) :=
    Continuous.intervalIntegrable (by fun_prop) _ _
  have hlinI : ∫ x in (c - h / 2)..(c + h / 2), (f c + f' c * (x - c)) = f c * h := by
    rw [integral_add (by simp) (Continuous.intervalIntegrable (by fun_prop) _ _), intervalIntegral.integral_const,
      intervalIntegral.integral_const_mul, intervalIntegral.integral_sub (by simp) (by simp), integral_id]
    simp; ring
  have hquadI : ∫ x in (c - h / 2)..(c + h / 2), (M / 2 * (x - c) ^ 2) = M * h ^ 3 / 24 := by
    rw [intervalIntegral.integral_const_mul, intervalIntegral.integral_comp_sub_right (fun x => x ^ 2) c, integral_pow]
    ring
  rw [← hlinI, ← integral_sub hlin hfi, ← hquadI]
  have := intervalIntegral.norm_integral_le_of_norm_le (μ := volume) (f := fun x => f c + f' c * (x - c) - f x)
    (g := fun x => M / 2 * (x - c) ^ 2) hle
    (Filter.Eventually.of_forall fun x hx => by
      have hx' : x ∈ Icc a b := hsub ⟨hx.1.le, hx.2⟩
      have hc' : c ∈ Icc a b := hsub ⟨by linarith, by linarith⟩
      have := taylor_two_bound hf hf' hM hc' hx'
      rw [Real.norm_eq_abs, abs_sub_comm]
      convert this using 2
      ring) (Continuous.intervalIntegrable (by fun_prop) _ _)
  simpa using this

/-- adjacent cells add up -/
theorem sum_cells {f : ℝ → ℝ} {a b : ℝ} (hab : a ≤ b) (hf : IntervalIntegrable f volume a b) {n : ℕ} (hn : 0 < n) :
    ∑ i ∈ Finset.range n, ∫ x in (a + i * ((b - a) / n))..(a + (i + 1 : ℕ) * ((b - a) / n)), f x
      = ∫ x in a..b, f x := by
  have hn' : (0 : ℝ) < n := by exact_mod_cast hn
  have hd : 0 ≤ (b - a) / n := div_nonneg (by linarith) hn'.le
  have hmem : ∀ i : ℕ, i ≤ n → a + i * ((b - a) / n) ∈ Icc a b := by
    intro i hi
    have hi' : (i : ℝ) ≤ n := by exact_mod_cast hi
    constructor
    · have := mul_nonneg (Nat.cast_nonneg (α := ℝ) i) hd; linarith
    · have := mul_le_mul_of_nonneg_right hi' hd
      rw [mul_div_cancel₀ _ hn'.ne'] at this
      linarith
  have h := sum_integral_adjacent_intervals (μ := volume) (f := f) (a := fun i : ℕ => a + i * ((b - a) / n)) (n := n)
    (by
      intro k hk
      apply hf.mono_set
      rw [uIcc_of_le hab]
      have h1 := hmem k hk.le
      have h2 := hmem (k + 1) hk
      exact uIcc_subset_Icc h1 h2)
  rw [h]
  congr 1
  · simp
  · rw [mul_div_cancel₀ _ hn'.ne']; ring

end Polymers.math
