import Verif.Model.Math
import Verif.Lemmas.Lits
import Mathlib.Analysis.Calculus.Deriv.Add
import Mathlib.Analysis.Calculus.Deriv.Comp
import Mathlib.Analysis.Calculus.Deriv.Mul
import Mathlib.Analysis.Calculus.Deriv.Pow
import Mathlib.Tactic.Linarith
import Mathlib.Tactic.Positivity
import Mathlib.Tactic.Ring
import Mathlib.Tactic.FieldSimp

/-! Power sums with a list of coefficients, and the Bessel routines at `ℝ`. -/

namespace Polymers.Lemmas

/-- `Σ cᵢ tⁱ` by Horner's rule. -/
def hval : List ℝ → ℝ → ℝ
  | [], _ => 0
  | c :: cs, t => c + t * hval cs t

theorem sum_mapIdx_pow (l : List ℝ) (t : ℝ) (n : ℕ) :
    (l.mapIdx fun i c => c * t ^ (i + n)).sum = t ^ n * hval l t := by
  induction l generalizing n with
  | nil => simp [hval]
  | cons c cs ih =>
    rw [List.mapIdx_cons, List.sum_cons]
    have := ih (n + 1)
    rw [show (fun i c => c * t ^ (i + 1 + n)) = (fun i (c : ℝ) => c * t ^ (i + (n + 1))) from by
      funext i c; rw [add_assoc, add_comm 1 n], this, hval, zero_add, pow_succ]
    ring

theorem power_sum_eq (l : List ℝ) (t : ℝ) : math.power_sum l t = hval l t := by
  unfold math.power_sum
  rw [fsum_eq]
  have := sum_mapIdx_pow l t 0
  simp only [add_zero, pow_zero, one_mul] at this
  rw [← this]
  simp only [elem_powi, zpow_natCast]

theorem hval_nonneg {l : List ℝ} (h : ∀ c ∈ l, 0 ≤ c) {t : ℝ} (ht : 0 ≤ t) : 0 ≤ hval l t := by
  induction l with
  | nil => simp [hval]
  | cons c cs ih =>
    rw [hval]
    have := ih fun c hc => h c (List.mem_cons_of_mem _ hc)
    have := h c (by simp)
    positivity

/-- Coefficients of the derivative of `t ↦ tⁿ Σ cᵢ tⁱ` divided by `tⁿ⁻¹`. -/
def dcoef : ℕ → List ℝ → List ℝ
  | _, [] => []
  | n, c :: cs => (n * c) :: dcoef (n + 1) cs

theorem hasDerivAt_hval (l : List ℝ) (n : ℕ) (t : ℝ) :
    HasDerivAt (fun t => t ^ (n + 1) * hval l t) (t ^ n * hval (dcoef (n + 1) l) t) t := by
  induction l generalizing n with
  | nil => simpa [hval, dcoef] using hasDerivAt_const t (0 : ℝ)
  | cons c cs ih =>
    have h1 := ((hasDerivAt_pow (n + 1) t).mul_const c).add (ih (n + 1))
    refine HasDerivAt.congr_deriv (HasDerivAt.congr_of_eventuallyEq h1 (Filter.Eventually.of_forall fun y => ?_)) ?_
    · simp only [hval, Pi.add_apply]; ring
    · simp only [hval, dcoef, Nat.add_sub_cancel]; push_cast; ring

/-- Coefficientwise difference of two lists of the same length. -/
theorem hval_sub {l l' : List ℝ} (h : l.length = l'.length) (t : ℝ) :
    hval l t - hval l' t = hval (List.zipWith (· - ·) l l') t := by
  induction l generalizing l' with
  | nil =>
    obtain rfl : l' = [] := List.length_eq_zero_iff.1 h.symm
    simp [hval]
  | cons c cs ih =>
    cases l' with
    | nil => simp at h
    | cons c' cs' =>
      rw [List.zipWith_cons_cons, hval, hval, hval, ← ih (by simpa using h)]
      ring

theorem abs_hval_le {l b : List ℝ} (h : List.Forall₂ (fun c d => |c| ≤ d) l b) {t s : ℝ} (ht : 0 ≤ t) (hs : t ≤ s) :
    |hval l t| ≤ hval b s := by
  induction h with
  | nil => simp [hval]
  | @cons c d cs ds hc _ ih =>
    rw [hval, hval]
    have h1 := abs_add_le c (t * hval cs t)
    rw [abs_mul, abs_of_nonneg ht] at h1
    have : t * |hval cs t| ≤ s * hval ds s := by
      have := abs_nonneg (hval cs t)
      exact mul_le_mul hs ih this (ht.trans hs)
    linarith

theorem hval_le {l b : List ℝ} (h : List.Forall₂ (fun c d => c ≤ d) l b) {t : ℝ} (ht : 0 ≤ t) : hval l t ≤ hval b t := by
  induction h with
  | nil => simp [hval]
  | @cons c d cs ds hc _ ih =>
    rw [hval, hval]
    have := mul_le_mul_of_nonneg_left ih ht
    linarith

theorem hval_const_mul (a : ℝ) (l : List ℝ) (t : ℝ) : hval (l.map (a * ·)) t = a * hval l t := by
  induction l with
  | nil => simp [hval]
  | cons c cs ih => rw [List.map_cons, hval, hval, ih]; ring

/-- Below 7.75 the order-zero routine is a polynomial in `x²/4`. -/
theorem bessel_i0_small_eq {x : ℝ} (h : x < 31 / 4) :
    math.bessel_i 0 x = 1 + x ^ 2 / 4 * hval math.bessel_i0_small (x ^ 2 / 4) := by
  have e : math.bessel_i 0 x = math.bessel_i0 x := rfl
  rw [e, math.bessel_i0]
  simp only [model_real, if_pos h]
  rw [power_sum_eq, show (1 / 4 : ℝ) * x ^ 2 = x ^ 2 / 4 by ring]

/-- Below 7.75 the order-one routine is `x/2` times a polynomial in `x²/4`. -/
theorem bessel_i1_small_eq {x : ℝ} (h : x < 31 / 4) :
    math.bessel_i 1 x = x / 2 * hval (1 :: (1 / 2) :: math.bessel_i1_small) (x ^ 2 / 4) := by
  have e : math.bessel_i 1 x = math.bessel_i1 x := rfl
  rw [e, math.bessel_i1]
  simp only [model_real, if_pos h]
  rw [power_sum_eq, power_sum_eq, show (1 / 4 : ℝ) * x ^ 2 = x ^ 2 / 4 by ring]
  simp only [hval]
  ring

/-- The derivative of the order-zero routine below 7.75. -/
noncomputable def besselSlope (x : ℝ) : ℝ := x / 2 * hval (dcoef 1 math.bessel_i0_small) (x ^ 2 / 4)

theorem hasDerivAt_bessel_i0 {x : ℝ} (h : x < 31 / 4) : HasDerivAt (math.bessel_i 0) (besselSlope x) x := by
  have h1 := hasDerivAt_hval math.bessel_i0_small 0 (x ^ 2 / 4)
  have h2 := (hasDerivAt_pow 2 x).div_const 4
  have h3 := (HasDerivAt.comp x h1 h2).const_add 1
  refine HasDerivAt.congr_deriv (HasDerivAt.congr_of_eventuallyEq h3 ?_) ?_
  · filter_upwards [gt_mem_nhds h] with y hy
    rw [bessel_i0_small_eq hy]
    simp [Function.comp]
  · unfold besselSlope
    simp
    ring

theorem bessel_i0_small_nonneg : ∀ c ∈ (math.bessel_i0_small : List ℝ), 0 ≤ c := by
  unfold math.bessel_i0_small
  simp only [List.forall_mem_cons]
  norm_num

theorem bessel_i1_small_nonneg : ∀ c ∈ (math.bessel_i1_small : List ℝ), 0 ≤ c := by
  unfold math.bessel_i1_small
  simp only [List.forall_mem_cons]
  norm_num

theorem one_le_bessel_i0 {x : ℝ} (h : x < 31 / 4) : 1 ≤ math.bessel_i 0 x := by
  rw [bessel_i0_small_eq h]
  have := hval_nonneg bessel_i0_small_nonneg (by positivity : 0 ≤ x ^ 2 / 4)
  have : 0 ≤ x ^ 2 / 4 * hval math.bessel_i0_small (x ^ 2 / 4) := by positivity
  linarith

/-- The factor of `x/2` in the order-one routine is at least one. -/
theorem one_le_hval_i1 (t : ℝ) (ht : 0 ≤ t) : 1 ≤ hval (1 :: (1 / 2) :: math.bessel_i1_small) t := by
  have := hval_nonneg bessel_i1_small_nonneg ht
  simp only [hval]
  have : 0 ≤ t * (1 / 2 + t * hval math.bessel_i1_small t) := by positivity
  linarith

/-- The coefficients of the slope of the order-zero routine and of the order-one routine agree to 2.2%. -/
theorem bessel_coef_rel :
    List.Forall₂ (fun c d => |c| ≤ d) (List.zipWith (· - ·) (dcoef 1 math.bessel_i0_small) (1 :: (1 / 2) :: math.bessel_i1_small))
      ((1 :: (1 / 2) :: math.bessel_i1_small).map (0.022 * ·)) := by
  simp only [math.bessel_i0_small, math.bessel_i1_small, dcoef, List.zipWith_cons_cons, List.zipWith_nil_left,
    List.map_cons, List.map_nil]
  repeat' (refine List.Forall₂.cons ?_ ?_)
  · norm_num [abs_le]
  · norm_num [abs_le]
  · norm_num [abs_le]
  · norm_num [abs_le]
  · norm_num [abs_le]
  · norm_num [abs_le]
  · norm_num [abs_le]
  · norm_num [abs_le]
  · norm_num [abs_le]
  · norm_num [abs_le]
  · norm_num [abs_le]
  · norm_num [abs_le]
  · norm_num [abs_le]
  · norm_num [abs_le]
  · norm_num [abs_le]
  · exact .nil

theorem bessel_slope_rel {x : ℝ} (h : x < 31 / 4) :
    |besselSlope x - math.bessel_i 1 x| ≤ 0.022 * |math.bessel_i 1 x| := by
  have ht : 0 ≤ x ^ 2 / 4 := by positivity
  have h1 := abs_hval_le bessel_coef_rel ht le_rfl
  rw [hval_const_mul, ← hval_sub (by simp [dcoef, math.bessel_i0_small, math.bessel_i1_small])] at h1
  rw [bessel_i1_small_eq h, besselSlope, ← mul_sub, abs_mul, abs_mul,
    abs_of_pos (lt_of_lt_of_le one_pos (one_le_hval_i1 _ ht))]
  have := mul_le_mul_of_nonneg_left h1 (abs_nonneg (x / 2))
  linarith

theorem abs_bessel_i1_le {x : ℝ} (h : x < 31 / 4) : |math.bessel_i 1 x| ≤ |x| / 2 * math.bessel_i 0 x := by
  have ht : 0 ≤ x ^ 2 / 4 := by positivity
  have h1 := one_le_hval_i1 _ ht
  rw [bessel_i1_small_eq h, abs_mul, abs_div, abs_two,
    abs_of_pos (show 0 < hval (1 :: (1 / 2) :: math.bessel_i1_small) (x ^ 2 / 4) by linarith)]
  refine mul_le_mul_of_nonneg_left ?_ (by positivity)
  rw [bessel_i0_small_eq h, show 1 + x ^ 2 / 4 * hval math.bessel_i0_small (x ^ 2 / 4) =
    hval (1 :: math.bessel_i0_small) (x ^ 2 / 4) from rfl]
  have e : hval (1 :: (1 / 2) :: math.bessel_i1_small) (x ^ 2 / 4) =
      hval ((1 :: (1 / 2) :: math.bessel_i1_small) ++ [0]) (x ^ 2 / 4) := by
    simp [math.bessel_i1_small, hval]
  rw [e]
  refine hval_le ?_ ht
  simp only [math.bessel_i0_small, math.bessel_i1_small, model_real, List.cons_append, List.nil_append]
  norm_num

end Polymers.Lemmas
