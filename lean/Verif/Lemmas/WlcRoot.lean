import Verif.Lemmas.WlcIsotensional
import Verif.Lemmas.InverseLangevin
import Mathlib.Analysis.Calculus.MeanValue
import Mathlib.Analysis.Convex.Deriv

/-!
The damped Newton iteration of the worm-like chain stays in the unit interval when the chain is flexible.
-/

namespace Polymers.Lemmas

open Polymers.wlc.thermodynamics Set

/-! ### Elementary functions in the force -/

theorem hasDerivAt_ratA (c : ℝ) {x : ℝ} (h : 1 - c * x ^ 2 ≠ 0) :
    HasDerivAt (fun x : ℝ => x / (1 - c * x ^ 2) ^ 2) ((1 + 3 * c * x ^ 2) / (1 - c * x ^ 2) ^ 3) x := by
  have d := (((hasDerivAt_pow 2 x).const_mul c).const_sub 1).pow 2
  refine hasDerivAt_of_eq ((hasDerivAt_id x).div d (pow_ne_zero 2 h)) (fun y => rfl) ?_
  simp only [id, Pi.pow_apply, Nat.cast_ofNat, show 2 - 1 = 1 from rfl, pow_one]
  field_simp
  ring

theorem hasDerivAt_ratA' (c : ℝ) {x : ℝ} (h : 1 - c * x ^ 2 ≠ 0) :
    HasDerivAt (fun x : ℝ => (1 + 3 * c * x ^ 2) / (1 - c * x ^ 2) ^ 3)
      (12 * c * x * (1 + c * x ^ 2) / (1 - c * x ^ 2) ^ 4) x := by
  have d := (((hasDerivAt_pow 2 x).const_mul c).const_sub 1).pow 3
  refine hasDerivAt_of_eq (((((hasDerivAt_pow 2 x).const_mul (3 * c)).const_add 1)).div d (pow_ne_zero 3 h))
    (fun y => rfl) ?_
  simp only [Pi.pow_apply, Nat.cast_ofNat, show 2 - 1 = 1 from rfl, show 3 - 1 = 2 from rfl, pow_one]
  field_simp
  ring

theorem hasDerivAt_ratB (c : ℝ) {x : ℝ} (h : 1 - c * x ^ 2 ≠ 0) :
    HasDerivAt (fun x : ℝ => x / (1 - c * x ^ 2)) ((1 + c * x ^ 2) / (1 - c * x ^ 2) ^ 2) x := by
  have d := ((hasDerivAt_pow 2 x).const_mul c).const_sub 1
  refine hasDerivAt_of_eq ((hasDerivAt_id x).div d h) (fun y => rfl) ?_
  simp only [id, Nat.cast_ofNat, show 2 - 1 = 1 from rfl, pow_one]
  field_simp
  ring

theorem hasDerivAt_ratB' (c : ℝ) {x : ℝ} (h : 1 - c * x ^ 2 ≠ 0) :
    HasDerivAt (fun x : ℝ => (1 + c * x ^ 2) / (1 - c * x ^ 2) ^ 2)
      (2 * c * x * (3 + c * x ^ 2) / (1 - c * x ^ 2) ^ 3) x := by
  have d := (((hasDerivAt_pow 2 x).const_mul c).const_sub 1).pow 2
  refine hasDerivAt_of_eq (((((hasDerivAt_pow 2 x).const_mul c).const_add 1)).div d (pow_ne_zero 2 h))
    (fun y => rfl) ?_
  simp only [Pi.pow_apply, Nat.cast_ofNat, show 2 - 1 = 1 from rfl, pow_one]
  field_simp
  ring

/-- `q²`. -/
noncomputable def wlcQ : ℝ := (473 / 1000) ^ 2

/-- Part of the force of a flexible chain without the Bessel functions. -/
noncomputable def wlcF (w C k x : ℝ) : ℝ :=
  w * (x / (1 - 1 * x ^ 2) ^ 2 + (1 / 2 * x - 7 / 16 * x ^ 3)) + (x - 9 / 4 * x ^ 3) - 5 * (x / (1 - 1 * x ^ 2)) +
    5 * C * (x / (1 - C * x ^ 2)) + 2 * (473 / 1000) * k * (x / (1 - wlcQ * x ^ 2) ^ 2)

noncomputable def wlcF' (w C k x : ℝ) : ℝ :=
  w * ((1 + 3 * 1 * x ^ 2) / (1 - 1 * x ^ 2) ^ 3 + (1 / 2 - 21 / 16 * x ^ 2)) + (1 - 27 / 4 * x ^ 2) -
    5 * ((1 + 1 * x ^ 2) / (1 - 1 * x ^ 2) ^ 2) +
    5 * C * ((1 + C * x ^ 2) / (1 - C * x ^ 2) ^ 2) + 2 * (473 / 1000) * k * ((1 + 3 * wlcQ * x ^ 2) / (1 - wlcQ * x ^ 2) ^ 3)

noncomputable def wlcF'' (w C k x : ℝ) : ℝ :=
  w * (12 * 1 * x * (1 + 1 * x ^ 2) / (1 - 1 * x ^ 2) ^ 4 - 21 / 8 * x) - 27 / 2 * x -
    5 * (2 * 1 * x * (3 + 1 * x ^ 2) / (1 - 1 * x ^ 2) ^ 3) +
    5 * C * (2 * C * x * (3 + C * x ^ 2) / (1 - C * x ^ 2) ^ 3) +
    2 * (473 / 1000) * k * (12 * wlcQ * x * (1 + wlcQ * x ^ 2) / (1 - wlcQ * x ^ 2) ^ 4)

theorem wlcQ_pos : 0 < wlcQ := by unfold wlcQ; norm_num
theorem wlcQ_lt : wlcQ < 224 / 1000 := by unfold wlcQ; norm_num

theorem one_sub_mul_pos {c x : ℝ} (hc : c ≤ 1) (hx : x ^ 2 < 1) : 0 < 1 - c * x ^ 2 := by
  nlinarith [sq_nonneg x]

theorem hasDerivAt_wlcF {w C k x : ℝ} (hC : C ≤ 1) (hx : x ^ 2 < 1) : HasDerivAt (wlcF w C k) (wlcF' w C k x) x := by
  have h1 := one_sub_mul_pos le_rfl hx
  have hC' := one_sub_mul_pos hC hx
  have hq := one_sub_mul_pos (show wlcQ ≤ 1 by linarith [wlcQ_lt]) hx
  have dp1 : HasDerivAt (fun x : ℝ => 1 / 2 * x - 7 / 16 * x ^ 3) (1 / 2 - 21 / 16 * x ^ 2) x := by
    refine hasDerivAt_of_eq (((hasDerivAt_id x).const_mul (1 / 2)).sub ((hasDerivAt_pow 3 x).const_mul (7 / 16)))
      (fun y => rfl) ?_
    norm_num; ring
  have dp2 : HasDerivAt (fun x : ℝ => x - 9 / 4 * x ^ 3) (1 - 27 / 4 * x ^ 2) x := by
    refine hasDerivAt_of_eq ((hasDerivAt_id x).sub ((hasDerivAt_pow 3 x).const_mul (9 / 4))) (fun y => rfl) ?_
    norm_num; ring
  exact (((((((hasDerivAt_ratA 1 h1.ne').add dp1).const_mul w).add dp2).sub ((hasDerivAt_ratB 1 h1.ne').const_mul 5)).add
    ((hasDerivAt_ratB C hC'.ne').const_mul (5 * C))).add ((hasDerivAt_ratA wlcQ hq.ne').const_mul (2 * (473 / 1000) * k)))

theorem hasDerivAt_wlcF' {w C k x : ℝ} (hC : C ≤ 1) (hx : x ^ 2 < 1) : HasDerivAt (wlcF' w C k) (wlcF'' w C k x) x := by
  have h1 := one_sub_mul_pos le_rfl hx
  have hC' := one_sub_mul_pos hC hx
  have hq := one_sub_mul_pos (show wlcQ ≤ 1 by linarith [wlcQ_lt]) hx
  have dp1 : HasDerivAt (fun x : ℝ => 1 / 2 - 21 / 16 * x ^ 2) (-(21 / 8 * x)) x := by
    refine hasDerivAt_of_eq (((hasDerivAt_pow 2 x).const_mul (21 / 16)).const_sub (1 / 2)) (fun y => rfl) ?_
    norm_num; ring
  have dp2 : HasDerivAt (fun x : ℝ => 1 - 27 / 4 * x ^ 2) (-(27 / 2 * x)) x := by
    refine hasDerivAt_of_eq (((hasDerivAt_pow 2 x).const_mul (27 / 4)).const_sub 1) (fun y => rfl) ?_
    norm_num; ring
  exact (((((((hasDerivAt_ratA' 1 h1.ne').add dp1).const_mul w).add dp2).sub ((hasDerivAt_ratB' 1 h1.ne').const_mul 5)).add
    ((hasDerivAt_ratB' C hC'.ne').const_mul (5 * C))).add
    ((hasDerivAt_ratA' wlcQ hq.ne').const_mul (2 * (473 / 1000) * k))).congr_deriv (by unfold wlcF''; ring)

theorem wlcF'_ge {w C k x : ℝ} (hw : 25 ≤ w) (hC0 : 0 ≤ C) (hC : C ≤ 1) (hk : 0 ≤ k) (hx : x ^ 2 < 1) :
    20 ≤ wlcF' w C k x := by
  have h1 := one_sub_mul_pos le_rfl hx
  have hC' := one_sub_mul_pos hC hx
  have hq := one_sub_mul_pos (show wlcQ ≤ 1 by linarith [wlcQ_lt]) hx
  have hQ := wlcQ_pos
  have e1 : 0 ≤ 5 * C * ((1 + C * x ^ 2) / (1 - C * x ^ 2) ^ 2) := by positivity
  have e2 : 0 ≤ 2 * (473 / 1000) * k * ((1 + 3 * wlcQ * x ^ 2) / (1 - wlcQ * x ^ 2) ^ 3) := by positivity
  unfold wlcF'
  have hu := sq_nonneg x
  generalize x ^ 2 = u at *
  simp only [one_mul, mul_one] at *
  have h3 : 1 + 3 * u ≤ (1 + 3 * u) / (1 - u) ^ 3 := by
    rw [le_div_iff₀ (by positivity)]
    have : (1 - u) ^ 3 ≤ 1 := pow_le_one₀ h1.le (by linarith)
    nlinarith
  have h4 : 5 * ((1 + u) / (1 - u) ^ 2) ≤ 5 * ((1 + 3 * u) / (1 - u) ^ 3) := by
    refine mul_le_mul_of_nonneg_left ?_ (by norm_num)
    rw [div_le_div_iff₀ (by positivity) (by positivity)]
    have : 0 ≤ (1 - u) ^ 2 * ((1 + 3 * u) - (1 + u) * (1 - u)) := mul_nonneg (by positivity) (by nlinarith)
    nlinarith
  have h5 : 25 * ((1 + 3 * u) / (1 - u) ^ 3 + (1 / 2 - 21 / 16 * u)) ≤
      w * ((1 + 3 * u) / (1 - u) ^ 3 + (1 / 2 - 21 / 16 * u)) := mul_le_mul_of_nonneg_right hw (by linarith)
  linarith

theorem wlcF''_nonneg {w C k x : ℝ} (hw : 25 ≤ w) (hC0 : 0 ≤ C) (hC : C ≤ 1) (hk : 0 ≤ k) (h0 : 0 ≤ x) (hx : x ^ 2 < 1) :
    0 ≤ wlcF'' w C k x := by
  have h1 := one_sub_mul_pos le_rfl hx
  have hC' := one_sub_mul_pos hC hx
  have hq := one_sub_mul_pos (show wlcQ ≤ 1 by linarith [wlcQ_lt]) hx
  have hQ := wlcQ_pos
  have e1 : 0 ≤ 5 * C * (2 * C * x * (3 + C * x ^ 2) / (1 - C * x ^ 2) ^ 3) := by positivity
  have e2 : 0 ≤ 2 * (473 / 1000) * k * (12 * wlcQ * x * (1 + wlcQ * x ^ 2) / (1 - wlcQ * x ^ 2) ^ 4) := by positivity
  unfold wlcF''
  have hu := sq_nonneg x
  generalize x ^ 2 = u at *
  simp only [one_mul, mul_one] at *
  have h3 : x * 12 ≤ 12 * x * (1 + u) / (1 - u) ^ 4 := by
    rw [le_div_iff₀ (by positivity)]
    have : (1 - u) ^ 4 ≤ 1 := pow_le_one₀ h1.le (by linarith)
    have : x * 12 * (1 - u) ^ 4 ≤ x * 12 * 1 := mul_le_mul_of_nonneg_left this (by positivity)
    nlinarith
  have h4 : 5 * (2 * x * (3 + u) / (1 - u) ^ 3) ≤ 5 * (12 * x * (1 + u) / (1 - u) ^ 4) := by
    refine mul_le_mul_of_nonneg_left ?_ (by norm_num)
    rw [div_le_div_iff₀ (by positivity) (by positivity)]
    have : 0 ≤ x * (1 - u) ^ 3 * (12 * (1 + u) - 2 * (3 + u) * (1 - u)) := mul_nonneg (by positivity) (by nlinarith)
    nlinarith
  have h5 : 25 * (12 * x * (1 + u) / (1 - u) ^ 4 - 21 / 8 * x) ≤ w * (12 * x * (1 + u) / (1 - u) ^ 4 - 21 / 8 * x) :=
    mul_le_mul_of_nonneg_right hw (by linarith)
  linarith

theorem wlcF_convex {w C k : ℝ} (hw : 25 ≤ w) (hC0 : 0 ≤ C) (hC : C ≤ 1) (hk : 0 ≤ k) :
    ConvexOn ℝ (Ico 0 1) (wlcF w C k) := by
  have hx : ∀ x ∈ Ico (0:ℝ) 1, x ^ 2 < 1 := fun x hx => by nlinarith [hx.1, hx.2]
  refine convexOn_of_hasDerivWithinAt2_nonneg (convex_Ico 0 1) (f' := wlcF' w C k) (f'' := wlcF'' w C k) ?_ ?_ ?_ ?_
  · exact fun x h => (hasDerivAt_wlcF hC (hx x h)).continuousAt.continuousWithinAt
  · exact fun x h => (hasDerivAt_wlcF hC (hx x (interior_subset h))).hasDerivWithinAt
  · exact fun x h => (hasDerivAt_wlcF' hC (hx x (interior_subset h))).hasDerivWithinAt
  · exact fun x h => wlcF''_nonneg hw hC0 hC hk (interior_subset h).1 (hx x (interior_subset h))


/-! ### The part with the Bessel functions -/

noncomputable def besP0 (t : ℝ) : ℝ := 1 + t * hval math.bessel_i0_small t
noncomputable def besP1 (t : ℝ) : ℝ := 1 + t * hval ((1 / 2) :: math.bessel_i1_small) t

theorem bes_deriv (l : List ℝ) (t : ℝ) : HasDerivAt (fun t => 1 + t * hval l t) (hval (dcoef 1 l) t) t := by
  have := (hasDerivAt_hval l 0 t).const_add 1
  simpa using this

theorem besP0_ge {t : ℝ} (ht : 0 ≤ t) : 1 ≤ besP0 t := by
  have := hval_nonneg bessel_i0_small_nonneg ht
  unfold besP0; nlinarith

theorem besP1_ge {t : ℝ} (ht : 0 ≤ t) : 1 ≤ besP1 t := by
  have := one_le_hval_i1 t ht
  simpa only [besP1, hval] using this

theorem bes_slope0 {t : ℝ} (ht : 0 ≤ t) (h1 : t ≤ 1) : hval (dcoef 1 math.bessel_i0_small) t ∈ Icc (0:ℝ) 2 := by
  constructor
  · refine hval_nonneg ?_ ht
    intro c hc
    simp only [math.bessel_i0_small, dcoef, List.mem_cons, List.not_mem_nil, or_false] at hc
    rcases hc with h | h | h | h | h | h | h | h | h | h | h | h | h | h | h <;> (rw [h]; norm_num)
  · have := abs_hval_le (l := dcoef 1 math.bessel_i0_small) (b := dcoef 1 math.bessel_i0_small) (t := t) (s := 1) ?_ ht h1
    · refine (le_abs_self _).trans (this.trans ?_)
      simp only [math.bessel_i0_small, dcoef, hval]
      norm_num
    · simp only [math.bessel_i0_small, dcoef]
      repeat' constructor
      all_goals (rw [abs_of_nonneg]; norm_num)

theorem bes_slope1 {t : ℝ} (ht : 0 ≤ t) (h1 : t ≤ 1) :
    hval (dcoef 1 ((1 / 2) :: math.bessel_i1_small)) t ∈ Icc (0:ℝ) 2 := by
  constructor
  · refine hval_nonneg ?_ ht
    intro c hc
    simp only [math.bessel_i1_small, dcoef, List.mem_cons, List.not_mem_nil, or_false] at hc
    rcases hc with h | h | h | h | h | h | h | h | h | h | h | h | h | h <;> (rw [h]; norm_num)
  · have := abs_hval_le (l := dcoef 1 ((1 / 2) :: math.bessel_i1_small)) (b := dcoef 1 ((1 / 2) :: math.bessel_i1_small))
      (t := t) (s := 1) ?_ ht h1
    · refine (le_abs_self _).trans (this.trans ?_)
      simp only [math.bessel_i1_small, dcoef, hval]
      norm_num
    · simp only [math.bessel_i1_small, dcoef]
      repeat' constructor
      all_goals (rw [abs_of_nonneg]; norm_num)

theorem besP1_le {t : ℝ} (ht : 0 ≤ t) : besP1 t ≤ besP0 t := by
  rcases eq_or_lt_of_le ht with rfl | h
  · simp [besP0, besP1]
  have hs := Real.sqrt_pos.2 h
  have h0 : -(2 * Real.sqrt t) < 31 / 4 := by linarith
  have hsq : (-(2 * Real.sqrt t)) ^ 2 / 4 = t := by rw [neg_sq, mul_pow, Real.sq_sqrt ht]; ring
  have := abs_bessel_i1_le h0
  rw [bessel_i0_small_eq h0, bessel_i1_small_eq h0, hsq, abs_mul, abs_div, abs_two] at this
  have hp : (0:ℝ) < |-(2 * Real.sqrt t)| / 2 := by
    rw [abs_neg]; positivity
  have := le_of_mul_le_mul_left this hp
  rw [abs_of_nonneg (by linarith [one_le_hval_i1 t ht])] at this
  simpa only [besP1, besP0, hval] using this

theorem wlcQ_mul {x : ℝ} (hx : x ^ 2 < 1) : 0 ≤ wlcQ * x ^ 2 ∧ wlcQ * x ^ 2 ≤ 224 / 1000 := by
  have := wlcQ_pos
  have := wlcQ_lt
  exact ⟨by positivity, by nlinarith [sq_nonneg x]⟩

noncomputable def wlcB (x : ℝ) : ℝ := x * (1 + wlcQ * x ^ 2) / (1 - wlcQ * x ^ 2) ^ 3
noncomputable def wlcB' (x : ℝ) : ℝ :=
  (1 + 3 * (wlcQ * x ^ 2)) / (1 - wlcQ * x ^ 2) ^ 3 + 6 * (wlcQ * x ^ 2) * (1 + wlcQ * x ^ 2) / (1 - wlcQ * x ^ 2) ^ 4
noncomputable def wlcT (k x : ℝ) : ℝ := k ^ 2 * x ^ 2 / (4 * (1 - wlcQ * x ^ 2) ^ 2)
noncomputable def wlcG (k x : ℝ) : ℝ := k ^ 2 / 2 * (wlcB x * (besP1 (wlcT k x) / besP0 (wlcT k x)))

theorem hasDerivAt_wlcB {x : ℝ} (h : 1 - wlcQ * x ^ 2 ≠ 0) : HasDerivAt wlcB (wlcB' x) x := by
  have d := (((hasDerivAt_pow 2 x).const_mul wlcQ).const_sub 1).pow 3
  have n := (hasDerivAt_id x).mul (((hasDerivAt_pow 2 x).const_mul wlcQ).const_add 1)
  refine hasDerivAt_of_eq (n.div d (pow_ne_zero 3 h)) (fun y => rfl) ?_
  simp only [wlcB', id, Pi.pow_apply, Pi.mul_apply, Nat.cast_ofNat, show 2 - 1 = 1 from rfl, show 3 - 1 = 2 from rfl, pow_one]
  field_simp
  ring

theorem hasDerivAt_wlcT {k x : ℝ} (h : 1 - wlcQ * x ^ 2 ≠ 0) : HasDerivAt (wlcT k) (k ^ 2 / 2 * wlcB x) x := by
  have d := ((((hasDerivAt_pow 2 x).const_mul wlcQ).const_sub 1).pow 2).const_mul 4
  have n := (hasDerivAt_pow 2 x).const_mul (k ^ 2)
  refine hasDerivAt_of_eq (n.div d (mul_ne_zero (by norm_num) (pow_ne_zero 2 h))) (fun y => rfl) ?_
  simp only [wlcB, Pi.pow_apply, Nat.cast_ofNat, show 2 - 1 = 1 from rfl, pow_one]
  field_simp
  ring

theorem wlcB_abs {x : ℝ} (hx : x ^ 2 < 1) : |wlcB x| ≤ 263 / 100 := by
  obtain ⟨h0, h1⟩ := wlcQ_mul hx
  unfold wlcB
  generalize wlcQ * x ^ 2 = a at *
  have hx1 : |x| ≤ 1 := by rw [← sq_le_one_iff_abs_le_one]; exact hx.le
  have e : (776 / 1000 : ℝ) ^ 3 ≤ (1 - a) ^ 3 := pow_le_pow_left₀ (by norm_num) (by linarith) 3
  have hp : 0 < (1 - a) ^ 3 := lt_of_lt_of_le (by norm_num) e
  rw [abs_div, abs_mul, abs_of_pos hp, abs_of_nonneg (show 0 ≤ 1 + a by linarith), div_le_iff₀ hp]
  have : |x| * (1 + a) ≤ 1 * (1224 / 1000) := mul_le_mul hx1 (by linarith) (by linarith) (by norm_num)
  nlinarith

theorem wlcB'_abs {x : ℝ} (hx : x ^ 2 < 1) : |wlcB' x| ≤ 82 / 10 := by
  obtain ⟨h0, h1⟩ := wlcQ_mul hx
  unfold wlcB'
  generalize wlcQ * x ^ 2 = a at *
  have e : (776 / 1000 : ℝ) ^ 3 ≤ (1 - a) ^ 3 := pow_le_pow_left₀ (by norm_num) (by linarith) 3
  have e4 : (776 / 1000 : ℝ) ^ 4 ≤ (1 - a) ^ 4 := pow_le_pow_left₀ (by norm_num) (by linarith) 4
  have hp : 0 < (1 - a) ^ 3 := lt_of_lt_of_le (by norm_num) e
  have hp4 : 0 < (1 - a) ^ 4 := lt_of_lt_of_le (by norm_num) e4
  rw [abs_of_nonneg (by positivity)]
  have i1 : (1 + 3 * a) / (1 - a) ^ 3 ≤ 36 / 10 := by rw [div_le_iff₀ hp]; nlinarith
  have i2 : 6 * a * (1 + a) / (1 - a) ^ 4 ≤ 46 / 10 := by
    rw [div_le_iff₀ hp4]
    have : 6 * a * (1 + a) ≤ 6 * (224 / 1000) * (1224 / 1000) := by gcongr; linarith
    nlinarith
  linarith

theorem wlcT_mem {k x : ℝ} (hk2 : k ^ 2 ≤ 686 / 1000) (hx : x ^ 2 < 1) : wlcT k x ∈ Icc (0:ℝ) 1 := by
  obtain ⟨h0, h1⟩ := wlcQ_mul hx
  unfold wlcT
  generalize wlcQ * x ^ 2 = a at *
  have e : (776 / 1000 : ℝ) ^ 2 ≤ (1 - a) ^ 2 := pow_le_pow_left₀ (by norm_num) (by linarith) 2
  have hp : 0 < (1 - a) ^ 2 := lt_of_lt_of_le (by norm_num) e
  refine ⟨by positivity, ?_⟩
  rw [div_le_one (by positivity)]
  have : k ^ 2 * x ^ 2 ≤ 686 / 1000 * 1 := mul_le_mul hk2 hx.le (sq_nonneg x) (by norm_num)
  nlinarith

noncomputable def wlcG' (k x : ℝ) : ℝ :=
  k ^ 2 / 2 * (wlcB' x * (besP1 (wlcT k x) / besP0 (wlcT k x)) + wlcB x *
    ((hval (dcoef 1 ((1 / 2) :: math.bessel_i1_small)) (wlcT k x) * (k ^ 2 / 2 * wlcB x) * besP0 (wlcT k x) -
      besP1 (wlcT k x) * (hval (dcoef 1 math.bessel_i0_small) (wlcT k x) * (k ^ 2 / 2 * wlcB x))) / besP0 (wlcT k x) ^ 2))

theorem hasDerivAt_wlcG {k x : ℝ} (hk2 : k ^ 2 ≤ 686 / 1000) (hx : x ^ 2 < 1) : HasDerivAt (wlcG k) (wlcG' k x) x := by
  have hq := one_sub_mul_pos (show wlcQ ≤ 1 by linarith [wlcQ_lt]) hx
  have ht := wlcT_mem hk2 hx
  have dT := hasDerivAt_wlcT (k := k) hq.ne'
  have d0 : HasDerivAt (fun x => besP0 (wlcT k x)) _ x := (bes_deriv math.bessel_i0_small (wlcT k x)).comp x dT
  have d1 : HasDerivAt (fun x => besP1 (wlcT k x)) _ x := (bes_deriv ((1 / 2) :: math.bessel_i1_small) (wlcT k x)).comp x dT
  have hp := besP0_ge ht.1
  exact ((hasDerivAt_wlcB hq.ne').mul (d1.div d0 (by linarith))).const_mul (k ^ 2 / 2)

theorem wlcG'_abs {k x : ℝ} (hk2 : k ^ 2 ≤ 686 / 1000) (hx : x ^ 2 < 1) : |wlcG' k x| ≤ 5 := by
  have ht := wlcT_mem hk2 hx
  have hB := wlcB_abs hx
  have hB' := wlcB'_abs hx
  have h0 := besP0_ge ht.1
  have h1 := besP1_ge ht.1
  have h01 := besP1_le ht.1
  have s0 := bes_slope0 ht.1 ht.2
  have s1 := bes_slope1 ht.1 ht.2
  unfold wlcG'
  generalize besP0 (wlcT k x) = p0 at *
  generalize besP1 (wlcT k x) = p1 at *
  generalize hval (dcoef 1 ((1 / 2) :: math.bessel_i1_small)) (wlcT k x) = q1 at *
  generalize hval (dcoef 1 math.bessel_i0_small) (wlcT k x) = q0 at *
  generalize wlcB x = b at *
  generalize wlcB' x = b' at *
  have hk0 := sq_nonneg k
  generalize k ^ 2 = K at *
  have hR : |p1 / p0| ≤ 1 := by
    rw [abs_of_nonneg (div_nonneg (by linarith) (by linarith)), div_le_one (by linarith)]; exact h01
  have hS : |(q1 * p0 - p1 * q0) / p0 ^ 2| ≤ 2 := by
    rw [abs_div, abs_of_pos (show (0:ℝ) < p0 ^ 2 by positivity), div_le_iff₀ (by positivity), abs_le]
    have a1 : p1 * q0 ≤ p0 * 2 := mul_le_mul h01 s0.2 s0.1 (by linarith)
    have a2 : q1 * p0 ≤ 2 * p0 := mul_le_mul_of_nonneg_right s1.2 (by linarith)
    have a3 : 0 ≤ p1 * q0 := mul_nonneg (by linarith) s0.1
    have a4 : 0 ≤ q1 * p0 := mul_nonneg s1.1 (by linarith)
    constructor <;> nlinarith
  have e : K / 2 * (b' * (p1 / p0) + b * ((q1 * (K / 2 * b) * p0 - p1 * (q0 * (K / 2 * b))) / p0 ^ 2)) =
      K / 2 * (b' * (p1 / p0)) + (K / 2) * (K / 2) * (b * b * ((q1 * p0 - p1 * q0) / p0 ^ 2)) := by
    field_simp
  rw [e]
  have hL : K / 2 ≤ 343 / 1000 := by linarith
  have hL0 : 0 ≤ K / 2 := by linarith
  generalize K / 2 = L at *
  have c1 : |L * (b' * (p1 / p0))| ≤ 343 / 1000 * (82 / 10 * 1) := by
    rw [abs_mul, abs_mul, abs_of_nonneg hL0]
    gcongr
  have c2 : |L * L * (b * b * ((q1 * p0 - p1 * q0) / p0 ^ 2))| ≤
      343 / 1000 * (343 / 1000) * (263 / 100 * (263 / 100) * 2) := by
    rw [abs_mul, abs_mul, abs_mul, abs_mul, abs_of_nonneg hL0]
    gcongr
  exact (abs_add_le _ _).trans ((add_le_add c1 c2).trans (by norm_num))

/-! ### The force of a flexible chain and the iteration -/

noncomputable def wlcK (ϖ : ℝ) : ℝ := ϖ * (7027 / 500) * (1 + 473 / 1000)

theorem wlcC_nonneg {ϖ : ℝ} (h : 0 < ϖ) : 0 ≤ wlcC ϖ := by
  have : (1 + (19 / 50 / ϖ ^ (19 / 20 : ℝ)) ^ (-5 : ℤ)) ^ (-(1 / 5) : ℝ) ≤ 1 :=
    Real.rpow_le_one_of_one_le_of_nonpos (by have : 0 ≤ (19 / 50 / ϖ ^ (19 / 20 : ℝ)) ^ (-5 : ℤ) := by positivity
                                             linarith) (by norm_num)
  unfold wlcC
  linarith

theorem wlc_flex_force (N : ℕ) {ϖ x : ℝ} (h : 0 < ϖ) (h1 : ϖ ≤ 1 / 25) (hx : x ^ 2 < 1) :
    isometric.nondimensional_force N ϖ x = (wlcF ϖ⁻¹ (wlcC ϖ) (wlcK ϖ) x - wlcG (wlcK ϖ) x) / N := by
  rw [wlc_force_eq]
  congr 1
  have hD : wlcD ϖ = 1 := if_pos (by linarith)
  have hC1 := wlcC_lt_one h
  have hC' := one_sub_mul_pos hC1.le hx
  have hu := one_sub_mul_pos le_rfl hx
  have hq := one_sub_mul_pos (show wlcQ ≤ 1 by linarith [wlcQ_lt]) hx
  have hA : wlcArg ϖ x = -(wlcK ϖ * (x / (1 - wlcQ * x ^ 2))) := by
    rw [wlcArg, hD, wlcK, wlcQ]; ring
  have hk0 : 0 < wlcK ϖ := by unfold wlcK; positivity
  have hk1 : wlcK ϖ ≤ 829 / 1000 := by unfold wlcK; linarith
  have hA' : wlcArg ϖ x < 31 / 4 := by
    rw [hA]
    have hx1 : |x| < 1 := by rw [← sq_lt_one_iff_abs_lt_one]; exact hx
    have := abs_lt.1 hx1
    obtain ⟨q0, q1⟩ := wlcQ_mul hx
    have : -1 / (1 - wlcQ * x ^ 2) ≤ x / (1 - wlcQ * x ^ 2) := by gcongr; linarith
    have : -2 ≤ -1 / (1 - wlcQ * x ^ 2) := by rw [le_div_iff₀ hq]; nlinarith
    nlinarith
  have hT : wlcArg ϖ x ^ 2 / 4 = wlcT (wlcK ϖ) x := by
    rw [hA, wlcT, neg_sq, mul_pow, div_pow]; field_simp
  have hP0 := besP0_ge (t := wlcT (wlcK ϖ) x) (by rw [← hT]; positivity)
  rw [wlcSlope, bessel_i0_small_eq hA', bessel_i1_small_eq hA', hT]
  rw [show (1:ℝ) + wlcT (wlcK ϖ) x * hval math.bessel_i0_small (wlcT (wlcK ϖ) x) = besP0 (wlcT (wlcK ϖ) x) from rfl,
    show hval (1 :: (1 / 2) :: math.bessel_i1_small) (wlcT (wlcK ϖ) x) = besP1 (wlcT (wlcK ϖ) x) from rfl, hA,
    show (473 / 1000 : ℝ) ^ 2 = wlcQ from rfl]
  rcases eq_or_ne x 0 with rfl | hx0
  · simp [wlcF, wlcG, wlcB, wlcSum]
  have hϖ := h.ne'
  unfold wlcF wlcG wlcB wlcSum
  generalize besP0 (wlcT (wlcK ϖ) x) = p0 at *
  generalize besP1 (wlcT (wlcK ϖ) x) = p1 at *
  generalize wlcC ϖ = C at *
  generalize wlcK ϖ = k at *
  have hp : p0 ≠ 0 := by linarith
  have e1 : 1 - x ^ 2 ≠ 0 := by linarith
  have e2 := hC'.ne'
  have e3 := hq.ne'
  have s1 : (5 * x * (1 - C / ((1 - C * x ^ 2) / (1 - x ^ 2)))) / (1 - x ^ 2) =
      5 * (x / (1 - x ^ 2)) - 5 * C * (x / (1 - C * x ^ 2)) := by
    field_simp
  have s2 : ((ϖ⁻¹ * (-(3 / 4) * x ^ 2 + 2 * (23 / 64) * x ^ 4 - 3 * (7 / 64) * x ^ 6) +
        (-(1 / 2) * x ^ 2 + 2 * (17 / 16) * x ^ 4 - 3 * (9 / 16) * x ^ 6)) * 2 / x +
      2 * x * (ϖ⁻¹ * (-(3 / 4) * x ^ 2 + 23 / 64 * x ^ 4 - 7 / 64 * x ^ 6) + (-(1 / 2) * x ^ 2 + 17 / 16 * x ^ 4 - 9 / 16 * x ^ 6)) /
        (1 - x ^ 2)) / (1 - x ^ 2) = -(ϖ⁻¹ * (x / (1 - 1 * x ^ 2) ^ 2 + (1 / 2 * x - 7 / 16 * x ^ 3)) + (x - 9 / 4 * x ^ 3)) := by
    rw [one_mul]
    field_simp
    ring
  have a0 : x / (1 - wlcQ * x ^ 2) * (1 - wlcQ * x ^ 2) = x := div_mul_cancel₀ _ e3
  have a1 : 1 + x * wlcQ * (x / (1 - wlcQ * x ^ 2)) = 1 / (1 - wlcQ * x ^ 2) := by
    rw [eq_div_iff e3]
    linear_combination (x * wlcQ) * a0
  have a2 : 1 / x + 2 * wlcQ * (x / (1 - wlcQ * x ^ 2)) = (1 + wlcQ * x ^ 2) / (x * (1 - wlcQ * x ^ 2)) := by
    rw [eq_div_iff (mul_ne_zero hx0 e3)]
    have : 1 / x * x = 1 := div_mul_cancel₀ _ hx0
    linear_combination (1 - wlcQ * x ^ 2) * this + 2 * wlcQ * x * a0
  have s3 : 2 * (473 / 1000) * -(k * (x / (1 - wlcQ * x ^ 2))) * (1 + x * wlcQ * (x / (1 - wlcQ * x ^ 2))) =
      -(2 * (473 / 1000) * k * (x / (1 - wlcQ * x ^ 2) ^ 2)) := by
    rw [a1]
    generalize 1 - wlcQ * x ^ 2 = H at *
    field_simp
  have s4 : -(k * (x / (1 - wlcQ * x ^ 2))) * (-(k * (x / (1 - wlcQ * x ^ 2))) / 2 * p1) / p0 *
      (1 / x + 2 * wlcQ * (x / (1 - wlcQ * x ^ 2))) =
      k ^ 2 / 2 * (x * (1 + wlcQ * x ^ 2) / (1 - wlcQ * x ^ 2) ^ 3 * (p1 / p0)) := by
    rw [a2]
    generalize 1 - wlcQ * x ^ 2 = H at *
    field_simp
  rw [s3, s4]
  rw [add_assoc (5 * x * _), add_div, s1, s2]
  ring

/-- One step of the iteration. -/
noncomputable def wlcStep (φ : ℝ → ℝ) (Y x : ℝ) : ℝ :=
  x - (φ x - Y) / ((φ (x + 1e-8) - φ (x - 1e-8)) / 2e-8) / 2

theorem wlc_step {w C k Y x : ℝ} (hw : 25 ≤ w) (hC0 : 0 ≤ C) (hC : C ≤ 1) (hk : 0 ≤ k) (hk2 : k ^ 2 ≤ 686 / 1000)
    (hY : 0 ≤ Y) (h0 : 0 < x) (h1 : x ≤ 9999 / 10000) (hx : Y < wlcF w C k x - wlcG k x) :
    0 < (wlcF w C k (x + 1e-8) - wlcG k (x + 1e-8) - (wlcF w C k (x - 1e-8) - wlcG k (x - 1e-8))) / 2e-8 ∧
    0 < wlcStep (fun x => wlcF w C k x - wlcG k x) Y x ∧ wlcStep (fun x => wlcF w C k x - wlcG k x) Y x ≤ x ∧
      Y < wlcF w C k (wlcStep (fun x => wlcF w C k x - wlcG k x) Y x) - wlcG k (wlcStep (fun x => wlcF w C k x - wlcG k x) Y x) := by
  have hlt : ∀ z : ℝ, z ∈ Ioo (-1:ℝ) 1 → z ^ 2 < 1 := fun z hz => by nlinarith [hz.1, hz.2]
  have hcv := wlcF_convex hw hC0 hC hk
  have hd := hasDerivAt_wlcF (w := w) (k := k) hC (hlt x ⟨by linarith, by linarith⟩)
  have hm := wlcF'_ge hw hC0 hC hk (hlt x ⟨by linarith, by linarith⟩)
  -- the part with the Bessel functions
  have hG : ∀ a ∈ Ioo (-1:ℝ) 1, ∀ b ∈ Ioo (-1:ℝ) 1, |wlcG k b - wlcG k a| ≤ 5 * |b - a| := by
    intro a ha b hb
    have := (convex_Ioo (-1:ℝ) 1).norm_image_sub_le_of_norm_hasDerivWithin_le (f := wlcG k) (f' := wlcG' k) (C := 5)
      (fun z hz => (hasDerivAt_wlcG hk2 (hlt z hz)).hasDerivWithinAt)
      (fun z hz => by rw [Real.norm_eq_abs]; exact wlcG'_abs hk2 (hlt z hz)) ha hb
    simpa only [Real.norm_eq_abs] using this
  have hlow : ∀ a ∈ Ioo (-1:ℝ) 1, ∀ b ∈ Ioo (-1:ℝ) 1, a ≤ b → 20 * (b - a) ≤ wlcF w C k b - wlcF w C k a := by
    intro a ha b hb hab
    refine (convex_Ioo (-1:ℝ) 1).mul_sub_le_image_sub_of_le_deriv (f := wlcF w C k) ?_ ?_ ?_ a ha b hb hab
    · exact fun z hz => (hasDerivAt_wlcF hC (hlt z hz)).continuousAt.continuousWithinAt
    · exact fun z hz => (hasDerivAt_wlcF hC (hlt z (interior_subset hz))).differentiableAt.differentiableWithinAt
    · intro z hz
      rw [(hasDerivAt_wlcF hC (hlt z (interior_subset hz))).deriv]
      exact wlcF'_ge hw hC0 hC hk (hlt z (interior_subset hz))
  have xm : x ∈ Ioo (-1:ℝ) 1 := ⟨by linarith, by linarith⟩
  have xp' : x + 1e-8 ∈ Ioo (-1:ℝ) 1 := ⟨by norm_num; linarith, by norm_num; linarith⟩
  have xm' : x - 1e-8 ∈ Ioo (-1:ℝ) 1 := ⟨by norm_num; linarith, by norm_num; linarith⟩
  have zm : (0:ℝ) ∈ Ioo (-1:ℝ) 1 := ⟨by norm_num, by norm_num⟩
  have g1 := abs_le.1 (hG _ xm' _ xp')
  rw [show |x + 1e-8 - (x - 1e-8)| = (2e-8 : ℝ) by rw [show x + 1e-8 - (x - 1e-8) = (2e-8:ℝ) by ring, abs_of_pos (by norm_num)]] at g1
  have f1 := hlow _ xm' _ xm (by norm_num)
  have f2 := convex_tangent hcv (x := x) (z := x + 1e-8) ⟨h0.le, by linarith⟩ ⟨by norm_num; linarith, xp'.2⟩ hd
  obtain ⟨d, hdd⟩ : ∃ d, d = (wlcF w C k (x + 1e-8) - wlcG k (x + 1e-8) - (wlcF w C k (x - 1e-8) - wlcG k (x - 1e-8))) / 2e-8 :=
    ⟨_, rfl⟩
  have hd2 : wlcF' w C k x + 10 ≤ 2 * d := by
    rw [hdd, ← mul_div_assoc, le_div_iff₀ (by norm_num)]
    norm_num at g1 f1 f2 ⊢
    linarith
  have hF0 : wlcF w C k 0 = 0 := by simp [wlcF]
  have hG0 : wlcG k 0 = 0 := by simp [wlcG, wlcB]
  have f3 := convex_tangent hcv (x := x) (z := 0) ⟨h0.le, by linarith⟩ ⟨le_rfl, by norm_num⟩ hd
  have g3 := abs_le.1 (hG _ zm _ xm)
  rw [sub_zero, abs_of_pos h0, hG0] at g3
  rw [hF0] at f3
  have hdp : 0 < 2 * d := by linarith
  have hst : wlcStep (fun x => wlcF w C k x - wlcG k x) Y x = x - (wlcF w C k x - wlcG k x - Y) / (2 * d) := by
    simp only [wlcStep]
    rw [← hdd, div_div, mul_comm d 2]
  rw [hst]
  obtain ⟨s, hs⟩ : ∃ s, s = (wlcF w C k x - wlcG k x - Y) / (2 * d) := ⟨_, rfl⟩
  have hs2 : s * (2 * d) = wlcF w C k x - wlcG k x - Y := by rw [hs]; exact div_mul_cancel₀ _ hdp.ne'
  rw [← hs]
  have hs0' : 0 < s := by rw [hs]; exact div_pos (by linarith) hdp
  have hs0 := hs0'.le
  have hsx : s < x := by
    by_contra hc
    push Not at hc
    have : x * (wlcF' w C k x + 10) ≤ s * (2 * d) := mul_le_mul hc hd2 (by linarith) hs0
    nlinarith
  have f4 := convex_tangent hcv (x := x) (z := x - s) ⟨h0.le, by linarith⟩ ⟨by linarith, by linarith⟩ hd
  have g4 := abs_le.1 (hG _ xm (x - s) ⟨by linarith, by linarith⟩)
  rw [show x - s - x = -s by ring, abs_neg, abs_of_nonneg hs0] at g4
  refine ⟨by rw [← hdd]; linarith, by linarith, by linarith, ?_⟩
  have : s * (wlcF' w C k x + 10) ≤ s * (2 * d) := mul_le_mul_of_nonneg_left hd2 hs0
  nlinarith

theorem wlcF_start {w C k : ℝ} (hw : 25 ≤ w) (hC0 : 0 ≤ C) (hC : C ≤ 1) (hk : 0 ≤ k) :
    2 * 10 ^ 8 ≤ wlcF w C k (9999 / 10000) := by
  have h1 := one_sub_mul_pos (c := C) (x := 9999 / 10000) hC (by norm_num)
  have h2 := one_sub_mul_pos (c := wlcQ) (x := 9999 / 10000) (by linarith [wlcQ_lt]) (by norm_num)
  have e1 : 0 ≤ 5 * C * ((9999 / 10000) / (1 - C * (9999 / 10000) ^ 2)) := by positivity
  have e2 : 0 ≤ 2 * (473 / 1000) * k * ((9999 / 10000) / (1 - wlcQ * (9999 / 10000) ^ 2) ^ 2) := by positivity
  unfold wlcF
  have : 25 * ((9999 / 10000) / (1 - 1 * (9999 / 10000) ^ 2) ^ 2 + (1 / 2 * (9999 / 10000) - 7 / 16 * (9999 / 10000) ^ 3)) ≤
      w * ((9999 / 10000 : ℝ) / (1 - 1 * (9999 / 10000) ^ 2) ^ 2 + (1 / 2 * (9999 / 10000) - 7 / 16 * (9999 / 10000) ^ 3)) :=
    mul_le_mul_of_nonneg_right hw (by norm_num)
  norm_num at this e1 e2 ⊢
  linarith

/-- The step of the code in terms of the force times the number of links. -/
theorem wlc_step_code {N : ℕ} {ϖ η x : ℝ} (hN' : (0:ℝ) < N)
    (hf : ∀ z ∈ Ioo (-1:ℝ) 1, isometric.nondimensional_force N ϖ z = (wlcF ϖ⁻¹ (wlcC ϖ) (wlcK ϖ) z - wlcG (wlcK ϖ) z) / N)
    (xm : x ∈ Ioo (-1:ℝ) 1) (xp' : x + 1e-8 ∈ Ioo (-1:ℝ) 1) (xm' : x - 1e-8 ∈ Ioo (-1:ℝ) 1) :
    x + -(Elem.powi (isometric.nondimensional_force N ϖ x - η) ((2 : ℕ) : ℤ)) /
      Elem.powi (isometric.nondimensional_force N ϖ x - η) (((2 : ℕ) : ℤ) - 1) /
      ((isometric.nondimensional_force N ϖ (x + 1e-8) - isometric.nondimensional_force N ϖ (x - 1e-8)) / 2e-8) / ((2 : ℕ) : ℝ) =
      wlcStep (fun x => wlcF ϖ⁻¹ (wlcC ϖ) (wlcK ϖ) x - wlcG (wlcK ϖ) x) (N * η) x := by
  rw [hf x xm, hf _ xp', hf _ xm']
  simp only [wlcStep, elem_powi]
  generalize wlcF ϖ⁻¹ (wlcC ϖ) (wlcK ϖ) x - wlcG (wlcK ϖ) x = p at *
  generalize wlcF ϖ⁻¹ (wlcC ϖ) (wlcK ϖ) (x + 1e-8) - wlcG (wlcK ϖ) (x + 1e-8) = p1 at *
  generalize wlcF ϖ⁻¹ (wlcC ϖ) (wlcK ϖ) (x - 1e-8) - wlcG (wlcK ϖ) (x - 1e-8) = p2 at *
  have e2 : p / N - η = (p - N * η) / N := by field_simp
  have e3 : -(((p - N * η) / N) ^ ((2:ℕ):ℤ)) / ((p - N * η) / N) ^ (((2:ℕ):ℤ) - 1) = -((p - N * η) / N) := by
    norm_num
    rcases eq_or_ne ((p - N * η) / (N:ℝ)) 0 with h | h
    · rw [h]; norm_num
    · rw [neg_div, pow_two, mul_div_assoc, div_self h, mul_one]
  rw [e2, e3]
  rw [show (p1 / (N:ℝ) - p2 / N) / 2e-8 = ((p1 - p2) / 2e-8) / N by ring, ← neg_div, div_div_div_cancel_right₀ hN'.ne']
  push_cast
  ring

/-- The force at the starting point of the search exceeds every admissible one. -/
theorem wlc_start {w C k : ℝ} (hw : 25 ≤ w) (hC0 : 0 ≤ C) (hC : C ≤ 1) (hk : 0 ≤ k) (hk2 : k ^ 2 ≤ 686 / 1000) :
    10 ^ 8 < wlcF w C k (9999 / 10000) - wlcG k (9999 / 10000) := by
  have hlt : ∀ z : ℝ, z ∈ Ioo (-1:ℝ) 1 → z ^ 2 < 1 := fun z hz => by nlinarith [hz.1, hz.2]
  have hG0 : wlcG k 0 = 0 := by simp [wlcG, wlcB]
  have hG : wlcG k (9999 / 10000) ≤ 5 := by
    have := (convex_Ioo (-1:ℝ) 1).norm_image_sub_le_of_norm_hasDerivWithin_le (f := wlcG k) (f' := wlcG' k) (C := 5)
      (x := 0) (y := 9999 / 10000) (fun z hz => (hasDerivAt_wlcG hk2 (hlt z hz)).hasDerivWithinAt)
      (fun z hz => by rw [Real.norm_eq_abs]; exact wlcG'_abs hk2 (hlt z hz)) (by norm_num) (by norm_num)
    rw [hG0, Real.norm_eq_abs, Real.norm_eq_abs] at this
    have := (abs_le.1 this).2
    norm_num at this ⊢
    linarith
  have hst := wlcF_start hw hC0 hC hk
  linarith

/-- For a flexible chain the root search ends in the unit interval. -/
theorem wlcRoot_mem {N : ℕ} {ϖ η : ℝ} (hN : 0 < N) (h : 0 < ϖ) (h1 : ϖ ≤ 1 / 25) (hη : 0 ≤ η) (hη1 : N * η ≤ 10 ^ 8) :
    0 < wlcRoot N ϖ η ∧ wlcRoot N ϖ η ≤ 9999 / 10000 := by
  have hN' : (0:ℝ) < N := Nat.cast_pos.2 hN
  have hw : 25 ≤ ϖ⁻¹ := by rw [le_inv_comm₀ (by norm_num) h]; norm_num; linarith
  have hC0 := wlcC_nonneg h
  have hC := (wlcC_lt_one h).le
  have hk : 0 ≤ wlcK ϖ := by unfold wlcK; positivity
  have hk1 : wlcK ϖ ≤ 8281 / 10000 := by unfold wlcK; linarith
  have hk2 : wlcK ϖ ^ 2 ≤ 686 / 1000 := by nlinarith
  have hlt : ∀ z : ℝ, z ∈ Ioo (-1:ℝ) 1 → z ^ 2 < 1 := fun z hz => by nlinarith [hz.1, hz.2]
  have hf : ∀ z ∈ Ioo (-1:ℝ) 1, isometric.nondimensional_force N ϖ z = (wlcF ϖ⁻¹ (wlcC ϖ) (wlcK ϖ) z - wlcG (wlcK ϖ) z) / N :=
    fun z hz => wlc_flex_force N h h1 (hlt z hz)
  have hloop : ∀ (n : ℕ) (x r : ℝ), 0 < x → x ≤ 9999 / 10000 →
      N * η < wlcF ϖ⁻¹ (wlcC ϖ) (wlcK ϖ) x - wlcG (wlcK ϖ) x →
      0 < math.inverse_newton_raphson_powered_loop η (fun γ => isometric.nondimensional_force N ϖ γ)
        (fun γ => (isometric.nondimensional_force N ϖ (γ + 1e-8) - isometric.nondimensional_force N ϖ (γ - 1e-8)) / 2e-8) 1e-5 2 n x r ∧
      math.inverse_newton_raphson_powered_loop η (fun γ => isometric.nondimensional_force N ϖ γ)
        (fun γ => (isometric.nondimensional_force N ϖ (γ + 1e-8) - isometric.nondimensional_force N ϖ (γ - 1e-8)) / 2e-8) 1e-5 2 n x r ≤
        9999 / 10000 := by
    intro n
    induction n with
    | zero => exact fun x r h0 h1 _ => ⟨h0, h1⟩
    | succ n ih =>
      intro x r h0 hx1 hx
      simp only [math.inverse_newton_raphson_powered_loop]
      split_ifs with hc
      · have xm : x ∈ Ioo (-1:ℝ) 1 := ⟨by linarith, by linarith⟩
        have xp' : x + 1e-8 ∈ Ioo (-1:ℝ) 1 := ⟨by norm_num; linarith, by norm_num; linarith⟩
        have xm' : x - 1e-8 ∈ Ioo (-1:ℝ) 1 := ⟨by norm_num; linarith, by norm_num; linarith⟩
        have hs := wlc_step hw hC0 hC hk hk2 (show 0 ≤ N * η by positivity) h0 hx1 hx
        have e := wlc_step_code (η := η) hN' hf xm xp' xm'
        rw [e]
        exact ih _ _ hs.2.1 (hs.2.2.1.trans hx1) hs.2.2.2
      · exact ⟨h0, hx1⟩
  have hst := wlc_start hw hC0 hC hk hk2
  have := hloop 100 (9999 / 10000) 1.0 (by norm_num) le_rfl (by linarith [hst])
  rw [show wlcRoot N ϖ η = math.inverse_newton_raphson_powered_loop η (fun γ => isometric.nondimensional_force N ϖ γ)
        (fun γ => (isometric.nondimensional_force N ϖ (γ + 1e-8) - isometric.nondimensional_force N ϖ (γ - 1e-8)) / 2e-8) 1e-5 2 100
        0.9999 1.0 from rfl, show (0.9999 : ℝ) = 9999 / 10000 by norm_num]
  exact this

end Polymers.Lemmas
