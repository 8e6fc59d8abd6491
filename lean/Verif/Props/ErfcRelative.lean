import Verif.Props.ErrorFunction

/-! C10: the complement of the error function keeps its relative accuracy, however small it is. -/

namespace Polymers.Props

open Polymers.Spec Polymers.Lemmas Real Set Filter Topology

theorem tendsto_exp_neg_sq : Tendsto (fun x : ℝ => exp (-x ^ 2)) atTop (𝓝 0) := by
  refine tendsto_exp_atBot.comp (tendsto_neg_atTop_atBot.comp (tendsto_pow_atTop (by norm_num)))

theorem tendsto_errorFunction : Tendsto errorFunction atTop (𝓝 1) := by
  have h : Tendsto (fun x => 1 - errorFunction x) atTop (𝓝 0) := by
    refine squeeze_zero' ?_ ?_ tendsto_exp_neg_sq
    · filter_upwards [eventually_ge_atTop 0] with x hx using (errorFunction_tail hx).1
    · filter_upwards [eventually_ge_atTop 0] with x hx using (errorFunction_tail hx).2
  have := h.const_sub 1
  simpa using this

/-- A function whose slope is small relative to that of the error function, between two points. -/
theorem slope_interval {g : ℝ → ℝ} {a b ε : ℝ} (hab : a ≤ b)
    (hd : ∀ x ∈ Icc a b, ∃ d, HasDerivAt g d x ∧ |d| ≤ ε * (2 / √π * exp (-x ^ 2))) :
    |g a| ≤ |g b| + ε * (errorFunction b - errorFunction a) := by
  have key : ∀ f : ℝ → ℝ, (∀ x ∈ Icc a b, ∃ d, HasDerivAt f d x ∧ |d| ≤ ε * (2 / √π * exp (-x ^ 2))) →
      f a ≤ f b + ε * (errorFunction b - errorFunction a) := by
    intro f hf
    have hh : ∀ x ∈ Icc a b, ∃ d, HasDerivAt (fun x => f x + ε * errorFunction x) d x ∧ 0 ≤ d := by
      intro x hx
      obtain ⟨d, h1, h2⟩ := hf x hx
      refine ⟨_, h1.add ((hasDerivAt_errorFunction x).const_mul ε), ?_⟩
      have := (abs_le.1 h2).1
      linarith
    have hm : MonotoneOn (fun x => f x + ε * errorFunction x) (Icc a b) := by
      refine monotoneOn_of_deriv_nonneg (convex_Icc a b) (fun x hx => ?_) (fun x hx => ?_) (fun x hx => ?_)
      · obtain ⟨d, h1, _⟩ := hh x hx
        exact h1.continuousAt.continuousWithinAt
      · obtain ⟨d, h1, _⟩ := hh x (interior_subset hx)
        exact h1.differentiableAt.differentiableWithinAt
      · obtain ⟨d, h1, h2⟩ := hh x (interior_subset hx)
        rw [h1.deriv]; exact h2
    have := hm (left_mem_Icc.2 hab) (right_mem_Icc.2 hab) hab
    simp only at this
    linarith
  have h1 := key g hd
  have h2 := key (fun x => -g x) fun x hx => by
    obtain ⟨d, h1, h2⟩ := hd x hx
    exact ⟨-d, h1.neg, by rwa [abs_neg]⟩
  rw [abs_le]
  have := le_abs_self (g b)
  have := neg_abs_le (g b)
  constructor <;> linarith

/-- The same, from infinity. -/
theorem slope_tail {g : ℝ → ℝ} {a ε : ℝ} (hd : ∀ x, a ≤ x → ∃ d, HasDerivAt g d x ∧ |d| ≤ ε * (2 / √π * exp (-x ^ 2)))
    (hl : Tendsto g atTop (𝓝 0)) : |g a| ≤ ε * (1 - errorFunction a) := by
  have h : Tendsto (fun b => |g b| + ε * (errorFunction b - errorFunction a)) atTop
      (𝓝 (|0| + ε * (1 - errorFunction a))) :=
    hl.abs.add ((tendsto_errorFunction.sub_const _).const_mul ε)
  rw [abs_zero, zero_add] at h
  refine ge_of_tendsto h ?_
  filter_upwards [eventually_ge_atTop a] with b hb
  exact slope_interval hb fun x hx => hd x hx.1

/-- The complement is not too small. -/
theorem exp_le_complement {x : ℝ} (hx : 0 ≤ x) : exp (-x ^ 2) ≤ √π * (x + 1) * (1 - errorFunction x) := by
  have hs : 0 < √π := sqrt_pos.2 pi_pos
  have hd : ∀ y ∈ Ici x, HasDerivAt (fun y => 1 - errorFunction y - exp (-y ^ 2) / (√π * (y + 1)))
      (-(2 / √π * exp (-y ^ 2)) - (exp (-y ^ 2) * (-(2 * y)) * (√π * (y + 1)) - exp (-y ^ 2) * (√π * 1)) / (√π * (y + 1)) ^ 2) y := by
    intro y hy
    have hy0 : 0 ≤ y := hx.trans hy
    have de : HasDerivAt (fun x : ℝ => exp (-x ^ 2)) (exp (-y ^ 2) * (-(2 * y))) y := by
      have := ((hasDerivAt_pow 2 y).neg).exp
      refine this.congr_deriv ?_
      simp
    exact ((hasDerivAt_errorFunction y).const_sub 1).sub
      (de.div (((hasDerivAt_id y).add_const 1).const_mul √π) (by positivity))
  have hm : AntitoneOn (fun y => 1 - errorFunction y - exp (-y ^ 2) / (√π * (y + 1))) (Ici x) := by
    refine antitoneOn_of_deriv_nonpos (convex_Ici x) (fun y hy => (hd y hy).continuousAt.continuousWithinAt)
      (fun y hy => (hd y (interior_subset hy)).differentiableAt.differentiableWithinAt) (fun y hy => ?_)
    rw [(hd y (interior_subset hy)).deriv]
    have hy0 : 0 ≤ y := hx.trans (interior_subset hy)
    have e : -(2 / √π * exp (-y ^ 2)) - (exp (-y ^ 2) * (-(2 * y)) * (√π * (y + 1)) - exp (-y ^ 2) * (√π * 1)) / (√π * (y + 1)) ^ 2 =
        -(exp (-y ^ 2) / √π) * ((2 * y + 1) / (y + 1) ^ 2) := by
      field_simp
      ring
    rw [e]
    have : 0 ≤ exp (-y ^ 2) / √π * ((2 * y + 1) / (y + 1) ^ 2) := by positivity
    linarith
  have hl : Tendsto (fun y => 1 - errorFunction y - exp (-y ^ 2) / (√π * (y + 1))) atTop (𝓝 (1 - 1 - 0)) := by
    refine (tendsto_errorFunction.const_sub 1).sub ?_
    refine tendsto_exp_neg_sq.div_atTop ?_
    exact (tendsto_atTop_add_const_right _ _ tendsto_id).const_mul_atTop hs
  have : (1 - 1 - 0 : ℝ) ≤ 1 - errorFunction x - exp (-x ^ 2) / (√π * (x + 1)) := by
    refine le_of_tendsto hl ?_
    filter_upwards [eventually_ge_atTop x] with y hy
    exact hm self_mem_Ici hy hy
  have h2 : exp (-x ^ 2) / (√π * (x + 1)) ≤ 1 - errorFunction x := by linarith
  rw [div_le_iff₀ (by positivity)] at h2
  linarith

theorem complement_pos {x : ℝ} (hx : 0 ≤ x) : 0 < 1 - errorFunction x := by
  have h := exp_le_complement hx
  have h2 : 0 < √π * (x + 1) := by positivity
  have h3 := exp_pos (-x ^ 2)
  by_contra h4
  nlinarith

/-- The rational function of `erfcx` from 50 on. -/
noncomputable def farErfcx (x : ℝ) : ℝ :=
  0.5641895835477563 * (x ^ 2 * (x ^ 2 + 4.5) + 2) / (x * (x ^ 2 * (x ^ 2 + 5) + 3.75))

theorem far_relative {x : ℝ} (hx : 50 ≤ x) :
    |exp (-x ^ 2) * farErfcx x - (1 - errorFunction x)| ≤ 1e-16 * (1 - errorFunction x) := by
  have hs : 0 < √π := sqrt_pos.2 pi_pos
  refine slope_tail (g := fun x => exp (-x ^ 2) * farErfcx x - (1 - errorFunction x)) (fun y hy => ?_) ?_
  · have hy0 : 50 ≤ y := hx.trans hy
    have hyp : 0 < y := by linarith
    have de : HasDerivAt (fun x : ℝ => exp (-x ^ 2)) (exp (-y ^ 2) * (-(2 * y))) y := by
      have := ((hasDerivAt_pow 2 y).neg).exp
      refine this.congr_deriv ?_
      simp
    have d2 : HasDerivAt (fun y : ℝ => y ^ 2) (2 * y) y := by
      have := hasDerivAt_pow 2 y
      refine this.congr_deriv ?_
      simp
    have hQ : 0 < y * (y ^ 2 * (y ^ 2 + 5) + 3.75) := by positivity
    have dR : HasDerivAt farErfcx
        ((0.5641895835477563 * (2 * y * (y ^ 2 + 4.5) + y ^ 2 * (2 * y)) * (y * (y ^ 2 * (y ^ 2 + 5) + 3.75)) -
          0.5641895835477563 * (y ^ 2 * (y ^ 2 + 4.5) + 2) * (1 * (y ^ 2 * (y ^ 2 + 5) + 3.75) + y * (2 * y * (y ^ 2 + 5) + y ^ 2 * (2 * y)))) /
          (y * (y ^ 2 * (y ^ 2 + 5) + 3.75)) ^ 2) y := by
      have n := ((d2.mul (d2.add_const 4.5)).add_const 2).const_mul 0.5641895835477563
      have q := (hasDerivAt_id y).mul ((d2.mul (d2.add_const 5)).add_const 3.75)
      exact n.div q hQ.ne'
    refine ⟨_, (de.mul dR).sub ((hasDerivAt_errorFunction y).const_sub 1), ?_⟩
    have e : exp (-y ^ 2) * -(2 * y) * farErfcx y + exp (-y ^ 2) *
        ((0.5641895835477563 * (2 * y * (y ^ 2 + 4.5) + y ^ 2 * (2 * y)) * (y * (y ^ 2 * (y ^ 2 + 5) + 3.75)) -
          0.5641895835477563 * (y ^ 2 * (y ^ 2 + 4.5) + 2) * (1 * (y ^ 2 * (y ^ 2 + 5) + 3.75) + y * (2 * y * (y ^ 2 + 5) + y ^ 2 * (2 * y)))) /
          (y * (y ^ 2 * (y ^ 2 + 5) + 3.75)) ^ 2) - -(2 / √π * exp (-y ^ 2)) =
        exp (-y ^ 2) * (2 * (1 / √π - 0.5641895835477563) - 0.5641895835477563 * 7.5 / (y * (y ^ 2 * (y ^ 2 + 5) + 3.75)) ^ 2) := by
      unfold farErfcx
      field_simp
      ring
    rw [e, abs_mul, abs_of_pos (exp_pos _), mul_comm, mul_comm (2 / √π), ← mul_assoc, mul_comm 1e-16, mul_assoc, mul_comm]
    refine mul_le_mul_of_nonneg_left ?_ (exp_pos _).le
    obtain ⟨c1, c2⟩ := inv_sqrt_pi_bounds
    have hQ2 : (1e17 / 1.1 : ℝ) ≤ (y * (y ^ 2 * (y ^ 2 + 5) + 3.75)) ^ 2 := by
      have : (50 : ℝ) * (50 ^ 2 * (50 ^ 2 + 5) + 3.75) ≤ y * (y ^ 2 * (y ^ 2 + 5) + 3.75) := by gcongr
      calc (1e17 / 1.1 : ℝ) ≤ (50 * (50 ^ 2 * (50 ^ 2 + 5) + 3.75)) ^ 2 := by norm_num
        _ ≤ _ := by gcongr
    have h7 : 0.5641895835477563 * 7.5 / (y * (y ^ 2 * (y ^ 2 + 5) + 3.75)) ^ 2 ≤ 5e-17 := by
      rw [div_le_iff₀ (by positivity)]
      calc (0.5641895835477563 * 7.5 : ℝ) ≤ 5e-17 * (1e17 / 1.1) := by norm_num
        _ ≤ _ := by gcongr
    have h8 : 0 < 0.5641895835477563 * 7.5 / (y * (y ^ 2 * (y ^ 2 + 5) + 3.75)) ^ 2 := by positivity
    have e2 : (2:ℝ) / √π = 2 * (1 / √π) := by ring
    rw [e2]
    generalize 0.5641895835477563 * 7.5 / (y * (y ^ 2 * (y ^ 2 + 5) + 3.75)) ^ 2 = u at *
    generalize 1 / √π = v at *
    rw [abs_le]
    norm_num at *
    constructor <;> linarith
  · have h1 : Tendsto (fun x => exp (-x ^ 2) * farErfcx x) atTop (𝓝 0) := by
      refine squeeze_zero' ?_ ?_ tendsto_exp_neg_sq
      · filter_upwards [eventually_ge_atTop 50] with y hy
        have hyp : 0 < y := by linarith
        unfold farErfcx
        positivity
      · filter_upwards [eventually_ge_atTop 50] with y hy
        have hyp : 0 < y := by linarith
        refine mul_le_of_le_one_right (exp_pos _).le ?_
        unfold farErfcx
        rw [div_le_one (by positivity)]
        have h2 : 0 ≤ y ^ 2 := by positivity
        have h3 : (x : ℝ) * 0 = 0 := by ring
        have h4 : 50 * (y ^ 2 * (y ^ 2 + 5) + 3.75) ≤ y * (y ^ 2 * (y ^ 2 + 5) + 3.75) := by gcongr
        norm_num at *
        nlinarith
    have := h1.sub (tendsto_errorFunction.const_sub 1)
    simpa using this

theorem farther_relative {x : ℝ} (hx : 5e7 ≤ x) :
    |exp (-x ^ 2) * (0.5641895835477563 / x) - (1 - errorFunction x)| ≤ 3e-16 * (1 - errorFunction x) := by
  have hs : 0 < √π := sqrt_pos.2 pi_pos
  have hx1 : 5e7 ≤ x := hx
  norm_num at hx1
  refine slope_tail (g := fun x => exp (-x ^ 2) * (0.5641895835477563 / x) - (1 - errorFunction x)) (fun y hy => ?_) ?_
  · have hy0 : 50000000 ≤ y := hx1.trans hy
    have hyp : 0 < y := by linarith
    have de : HasDerivAt (fun x : ℝ => exp (-x ^ 2)) (exp (-y ^ 2) * (-(2 * y))) y := by
      have := ((hasDerivAt_pow 2 y).neg).exp
      refine this.congr_deriv ?_
      simp
    have dR : HasDerivAt (fun y : ℝ => 0.5641895835477563 / y) ((0 * y - 0.5641895835477563 * 1) / y ^ 2) y :=
      (hasDerivAt_const y _).div (hasDerivAt_id y) hyp.ne'
    refine ⟨_, (de.mul dR).sub ((hasDerivAt_errorFunction y).const_sub 1), ?_⟩
    have e : exp (-y ^ 2) * -(2 * y) * (0.5641895835477563 / y) + exp (-y ^ 2) *
        ((0 * y - 0.5641895835477563 * 1) / y ^ 2) - -(2 / √π * exp (-y ^ 2)) =
        exp (-y ^ 2) * (2 * (1 / √π - 0.5641895835477563) - 0.5641895835477563 / y ^ 2) := by
      field_simp
      ring
    rw [e, abs_mul, abs_of_pos (exp_pos _), mul_comm, mul_comm (2 / √π), ← mul_assoc, mul_comm 3e-16, mul_assoc, mul_comm]
    refine mul_le_mul_of_nonneg_left ?_ (exp_pos _).le
    obtain ⟨c1, c2⟩ := inv_sqrt_pi_bounds
    have h7 : 0.5641895835477563 / y ^ 2 ≤ 2.3e-16 := by
      rw [div_le_iff₀ (by positivity)]
      calc (0.5641895835477563 : ℝ) ≤ 2.3e-16 * 50000000 ^ 2 := by norm_num
        _ ≤ _ := by gcongr
    have h8 : 0 < 0.5641895835477563 / y ^ 2 := by positivity
    have e2 : (2:ℝ) / √π = 2 * (1 / √π) := by ring
    rw [e2]
    generalize 0.5641895835477563 / y ^ 2 = u at *
    generalize 1 / √π = v at *
    rw [abs_le]
    norm_num at *
    constructor <;> linarith
  · have h1 : Tendsto (fun x => exp (-x ^ 2) * (0.5641895835477563 / x)) atTop (𝓝 (0 * 0)) :=
      tendsto_exp_neg_sq.mul (tendsto_const_nhds.div_atTop tendsto_id)
    rw [zero_mul] at h1
    have := h1.sub (tendsto_errorFunction.const_sub 1)
    simpa using this

/-- Full relative accuracy from 50 on. -/
theorem erfc_relative_far {x : ℝ} (hx : 50 ≤ x) :
    |math.erfc x - (1 - errorFunction x)| ≤ 3e-16 * (1 - errorFunction x) := by
  have hp := complement_pos (x := x) (by linarith)
  rw [erfc_eq rfl]
  unfold math.erfcx
  rw [if_pos (by simp only [model_real]; linarith), if_pos (by simp only [model_real]; exact hx)]
  split_ifs with h5
  · simp only [model_real] at h5
    exact farther_relative (by norm_num; exact h5.le)
  · have := far_relative hx
    simp only [model_real]
    have e : ((4.5 : ℝ) = 9 / 2) ∧ (3.75 : ℝ) = 15 / 4 := by norm_num
    unfold farErfcx at this
    rw [e.1, e.2] at this
    refine this.trans ?_
    exact mul_le_mul_of_nonneg_right (by norm_num) hp.le

/-! The tabulated part, from 50 down. -/

theorem armErf_slope {x : ℝ} {i : ℕ} (hi : i < 100) (h7 : 7 ≤ i) (hx : 0 ≤ x) (h0 : (i : ℝ) ≤ 400 / (4 + x))
    (h1 : 400 / (4 + x) ≤ i + 1) :
    ∃ d, HasDerivAt (fun x => armErf i x - errorFunction x) d x ∧ |d| ≤ 3.6e-13 * (2 / √π * exp (-x ^ 2)) := by
  obtain ⟨d, h, hb⟩ := armErf_deriv hi h7 hx h0 h1
  refine ⟨d, h, hb.trans ?_⟩
  rw [← mul_assoc]
  refine mul_le_mul_of_nonneg_right ?_ (exp_pos _).le
  have := inv_sqrt_pi_bounds.1
  have e : (2:ℝ) / √π = 2 * (1 / √π) := by ring
  rw [e]
  norm_num at *
  linarith

theorem arm_back {a b : ℝ} {i : ℕ} (hi : i < 100) (h7 : 7 ≤ i) (ha : 0 ≤ a) (hab : a ≤ b) (h0 : (i : ℝ) ≤ 400 / (4 + b))
    (h1 : 400 / (4 + a) ≤ i + 1) :
    |armErf i a - errorFunction a| ≤ |armErf i b - errorFunction b| + 3.6e-13 * (errorFunction b - errorFunction a) :=
  slope_interval (g := fun x => armErf i x - errorFunction x) hab fun x hx =>
    armErf_slope hi h7 (ha.trans hx.1)
      (h0.trans (div_le_div_of_nonneg_left (by norm_num) (by linarith [hx.1]) (by linarith [hx.2])))
      (le_trans (div_le_div_of_nonneg_left (by norm_num) (by linarith) (by linarith [hx.1])) h1)

/-- Exact evaluation of an arm at a rational number. -/
def pevq (t : ℚ) : List ℚ → ℚ
  | [] => 0
  | c :: cs => c + pevq t cs * t

theorem pev_cast (t : ℚ) : ∀ a, pev (t : ℝ) a = (pevq t a : ℚ)
  | [] => by simp [pev, pevq]
  | x :: a => by simp [pev, pevq, pev_cast t a]

theorem arm_seven : |pevq (2 * (400 / 54) - 15) (arm 7) -
    0.5641895835477563 * (50 ^ 2 * (50 ^ 2 + 4.5) + 2) / (50 * (50 ^ 2 * (50 ^ 2 + 5) + 3.75))| ≤ 2e-16 := by
  decide +kernel

/-- The first arm at 50. -/
theorem arm_seven_start : |armErf 7 50 - errorFunction 50| ≤
    3.6e-13 * (1 - errorFunction 50) + 2e-16 * exp (-50 ^ 2) := by
  have h := far_relative (x := 50) le_rfl
  have hp := complement_pos (x := 50) (by norm_num)
  have e : armAt 7 (400 / (4 + 50)) = (pevq (2 * (400 / 54) - 15) (arm 7) : ℚ) := by
    unfold armAt
    rw [← pev_cast]
    congr 1
    norm_num
  have hq : |armAt 7 (400 / (4 + 50)) - farErfcx 50| ≤ 2e-16 := by
    rw [e]
    have h' : ((|pevq (2 * (400 / 54) - 15) (arm 7) -
      0.5641895835477563 * (50 ^ 2 * (50 ^ 2 + 4.5) + 2) / (50 * (50 ^ 2 * (50 ^ 2 + 5) + 3.75))| : ℚ) : ℝ) ≤ ((2e-16 : ℚ) : ℝ) :=
      Rat.cast_le.2 arm_seven
    rw [Rat.cast_abs, Rat.cast_sub] at h'
    unfold farErfcx
    push_cast at h'
    exact h'
  unfold armErf
  have hE := exp_pos (-(50:ℝ) ^ 2)
  have h1 : |exp (-50 ^ 2) * (armAt 7 (400 / (4 + 50)) - farErfcx 50)| ≤ 2e-16 * exp (-50 ^ 2) := by
    rw [abs_mul, abs_of_pos hE, mul_comm]
    exact mul_le_mul_of_nonneg_right hq hE.le
  have e2 : 1 - exp (-50 ^ 2) * armAt 7 (400 / (4 + 50)) - errorFunction 50 =
      -(exp (-50 ^ 2) * (armAt 7 (400 / (4 + 50)) - farErfcx 50)) -
        (exp (-50 ^ 2) * farErfcx 50 - (1 - errorFunction 50)) := by ring
  rw [e2]
  refine (abs_sub _ _).trans ?_
  rw [abs_neg]
  have : 1e-16 * (1 - errorFunction 50) ≤ 3.6e-13 * (1 - errorFunction 50) :=
    mul_le_mul_of_nonneg_right (by norm_num) hp.le
  linarith

theorem exp_sq_anti {a b : ℝ} (ha : 0 ≤ a) (hab : a ≤ b) : exp (-b ^ 2) ≤ exp (-a ^ 2) := by
  apply exp_le_exp.2
  nlinarith

/-- The error anywhere on an arm, given the one at its far end. -/
theorem arm_on {a b : ℝ} {i : ℕ} (hi : i < 100) (h7 : 7 ≤ i) (ha : 0 ≤ a) (hab : a ≤ b) (h0 : (i : ℝ) ≤ 400 / (4 + b))
    (h1 : 400 / (4 + a) ≤ i + 1) {n : ℝ} (hn : 0 ≤ n)
    (h : |armErf i b - errorFunction b| ≤ 3.6e-13 * (1 - errorFunction b) + 2e-16 * n * exp (-b ^ 2)) :
    |armErf i a - errorFunction a| ≤ 3.6e-13 * (1 - errorFunction a) + 2e-16 * n * exp (-a ^ 2) := by
  have h2 := arm_back hi h7 ha hab h0 h1
  have h3 : 2e-16 * n * exp (-b ^ 2) ≤ 2e-16 * n * exp (-a ^ 2) :=
    mul_le_mul_of_nonneg_left (exp_sq_anti ha hab) (by positivity)
  linarith

theorem armEnd_nonneg {i : ℕ} (h1 : 1 ≤ i) (h : i ≤ 100) : 0 ≤ armEnd i := by
  unfold armEnd
  have : (0:ℝ) < i := by exact_mod_cast h1
  have : (i:ℝ) ≤ 100 := by exact_mod_cast h
  have : 4 ≤ (400 : ℝ) / i := by rw [le_div_iff₀ (by linarith)]; linarith
  linarith

theorem four_add_armEnd (i : ℕ) : 4 + armEnd i = 400 / i := by unfold armEnd; ring

/-- Where arm `i` begins, counted from infinity. -/
theorem arm_far_end (k : ℕ) : ∀ i : ℕ, i = 8 + k → i < 100 →
    |armErf i (armEnd i) - errorFunction (armEnd i)| ≤
      3.6e-13 * (1 - errorFunction (armEnd i)) + 2e-16 * (i - 6 : ℝ) * exp (-armEnd i ^ 2) := by
  -- the jump from the arm before
  have jump : ∀ i : ℕ, 7 ≤ i → i < 99 → ∀ n : ℝ,
      |armErf i (armEnd (i + 1)) - errorFunction (armEnd (i + 1))| ≤
        3.6e-13 * (1 - errorFunction (armEnd (i + 1))) + 2e-16 * n * exp (-armEnd (i + 1) ^ 2) →
      |armErf (i + 1) (armEnd (i + 1)) - errorFunction (armEnd (i + 1))| ≤
        3.6e-13 * (1 - errorFunction (armEnd (i + 1))) + 2e-16 * (n + 1) * exp (-armEnd (i + 1) ^ 2) := by
    intro i h7 hi n h
    have hE0 : 0 < exp (-armEnd (i + 1) ^ 2) := exp_pos _
    have h3 : |armErf (i + 1) (armEnd (i + 1)) - armErf i (armEnd (i + 1))| ≤ 2e-16 * exp (-armEnd (i + 1) ^ 2) := by
      unfold armErf
      have i0 : (0:ℝ) < (i:ℝ) + 1 := by positivity
      rw [four_add_armEnd]
      push_cast
      rw [div_div_cancel₀ (by norm_num)]
      have hm := armAt_match hi
      generalize armAt i ((i : ℝ) + 1) = u at *
      generalize armAt (i + 1) ((i : ℝ) + 1) = v at *
      have e : ∀ E : ℝ, 1 - E * v - (1 - E * u) = E * (u - v) := fun E => by ring
      rw [e, abs_mul, abs_of_pos hE0, mul_comm]
      exact mul_le_mul_of_nonneg_right hm hE0.le
    have h4 := abs_sub_le (armErf (i + 1) (armEnd (i + 1))) (armErf i (armEnd (i + 1))) (errorFunction (armEnd (i + 1)))
    linarith
  induction k with
  | zero =>
    intro i hi _
    obtain rfl : i = 7 + 1 := by omega
    have e : armEnd (7 + 1) = 46 := by unfold armEnd; norm_num
    have h := arm_on (a := 46) (b := 50) (i := 7) (n := 1) (by norm_num) (by norm_num) (by norm_num) (by norm_num)
      (by norm_num) (by norm_num) (by norm_num) (by rw [mul_one]; exact arm_seven_start)
    rw [← e] at h
    have := jump 7 le_rfl (by norm_num) 1 h
    convert this using 3
    norm_num
  | succ k ih =>
    intro i hi hi100
    have h := ih (8 + k) rfl (by omega)
    obtain rfl : i = 8 + k + 1 := by omega
    have hk : (0:ℝ) ≤ k := by positivity
    have h2 := arm_on (a := armEnd (8 + k + 1)) (b := armEnd (8 + k)) (i := 8 + k) (n := ((8 + k : ℕ) : ℝ) - 6) (by omega) (by omega)
      (armEnd_nonneg (by omega) (by omega)) (by
        unfold armEnd
        push_cast
        have : (400 : ℝ) / (8 + k + 1) ≤ 400 / (8 + k) := div_le_div_of_nonneg_left (by norm_num) (by linarith) (by linarith)
        linarith)
      (by rw [four_add_armEnd, div_div_cancel₀ (by norm_num)])
      (by rw [four_add_armEnd, div_div_cancel₀ (by norm_num)]; push_cast; linarith)
      (by push_cast; linarith) h
    have := jump (8 + k) (by omega) (by omega) _ h2
    convert this using 3
    push_cast
    ring

/-- Relative accuracy of the tabulated part. -/
theorem erfc_relative_table {x : ℝ} (hx : 0 ≤ x) (h50 : x < 50) :
    |math.erfc x - (1 - errorFunction x)| ≤ 5e-13 * (1 - errorFunction x) := by
  rw [erfc_eq (erfcx_table_range hx h50)]
  rcases hx.eq_or_lt with rfl | hx
  · rw [erfcx_helper_last (by norm_num), errorFunction_zero]; norm_num
  have hp := complement_pos hx.le
  set z := 400 / (4 + x) with hz
  have hz1 : z < 100 := by rw [hz, div_lt_iff₀ (by linarith)]; linarith
  have hz7 : 7 ≤ z := by rw [hz, le_div_iff₀ (by linarith)]; linarith
  obtain ⟨i, hi⟩ : ∃ i, i = ⌊z⌋₊ := ⟨_, rfl⟩
  have h0 : (i : ℝ) ≤ z := by rw [hi]; exact Nat.floor_le (by linarith)
  have h1 : z < i + 1 := by rw [hi]; exact Nat.lt_floor_add_one z
  have hi7 : 7 ≤ i := by rw [hi]; exact Nat.le_floor (by exact_mod_cast hz7)
  have hi100 : i < 100 := by rw [hi]; exact (Nat.floor_lt (by linarith)).2 (by exact_mod_cast hz1)
  rw [erfcx_helper_eq hi100 hi.symm]
  have hir : (7 : ℝ) ≤ i := by exact_mod_cast hi7
  have hx4 : i * (4 + x) ≤ 400 := by
    rw [hz, le_div_iff₀ (by linarith)] at h0
    exact h0
  have key : |armErf i x - errorFunction x| ≤ 3.6e-13 * (1 - errorFunction x) + 2e-16 * (i - 6 : ℝ) * exp (-x ^ 2) := by
    rcases hi7.eq_or_lt with rfl | hi8
    · have := arm_on (a := x) (b := 50) (i := 7) (n := 1) (by norm_num) (by norm_num) hx.le h50.le (by norm_num)
        h1.le (by norm_num) (by rw [mul_one]; exact arm_seven_start)
      convert this using 3
      norm_num
    · refine arm_on (b := armEnd i) hi100 hi7 hx.le ?_ ?_ h1.le (by linarith) (arm_far_end (i - 8) i (by omega) hi100)
      · unfold armEnd
        have : 4 + x ≤ 400 / i := by rw [le_div_iff₀ (by linarith)]; linarith
        linarith
      · rw [four_add_armEnd, div_div_cancel₀ (by norm_num)]
  have e : exp (-x ^ 2) * armAt i z - (1 - errorFunction x) = -(armErf i x - errorFunction x) := by
    unfold armErf; ring
  rw [e, abs_neg]
  refine key.trans ?_
  have hE := exp_le_complement hx.le
  have hs : √π ≤ 1.7725 := by
    rw [sqrt_le_left (by norm_num)]
    have := pi_lt_d6
    norm_num at *; linarith
  have hs0 : 0 < √π := sqrt_pos.2 pi_pos
  have hcount : (i - 6 : ℝ) * (x + 1) ≤ 270 := by
    have hi0 : (0:ℝ) < i := by linarith
    nlinarith [sq_nonneg ((i:ℝ) - 28)]
  have h2 : (i - 6 : ℝ) * exp (-x ^ 2) ≤ 480 * (1 - errorFunction x) := by
    calc (i - 6 : ℝ) * exp (-x ^ 2) ≤ (i - 6) * (√π * (x + 1) * (1 - errorFunction x)) :=
          mul_le_mul_of_nonneg_left hE (by linarith)
      _ = √π * ((i - 6) * (x + 1)) * (1 - errorFunction x) := by ring
      _ ≤ 480 * (1 - errorFunction x) := by
          refine mul_le_mul_of_nonneg_right ?_ hp.le
          have h3 : 0 ≤ (i - 6 : ℝ) * (x + 1) := mul_nonneg (by linarith) (by linarith)
          nlinarith
  have : 3.6e-13 * (1 - errorFunction x) + 2e-16 * (i - 6 : ℝ) * exp (-x ^ 2) ≤
      3.6e-13 * (1 - errorFunction x) + 2e-16 * (480 * (1 - errorFunction x)) := by
    rw [mul_assoc]
    have := mul_le_mul_of_nonneg_left h2 (by norm_num : (0:ℝ) ≤ 2e-16)
    linarith
  refine this.trans ?_
  norm_num
  linarith

theorem errorFunction_nonneg {x : ℝ} (hx : 0 ≤ x) : 0 ≤ errorFunction x := by
  have h := (errorFunction_tail hx).2
  have : exp (-x ^ 2) ≤ 1 := exp_le_one_iff.2 (by nlinarith)
  linarith

/-- C10: for every argument from -26.7 up, the complement of the error function is right to five parts in `10¹³` of its value,
however small that is. -/
theorem C10_erfc_relative {x : ℝ} (h : -26.7 ≤ x) :
    |math.erfc x - (1 - errorFunction x)| ≤ 5e-13 * (1 - errorFunction x) := by
  have nonneg : ∀ y : ℝ, 0 ≤ y → |math.erfc y - (1 - errorFunction y)| ≤ 5e-13 * (1 - errorFunction y) := fun y hy => by
    rcases lt_or_ge y 50 with h50 | h50
    · exact erfc_relative_table hy h50
    · exact (erfc_relative_far h50).trans (mul_le_mul_of_nonneg_right (by norm_num) (complement_pos hy).le)
  rcases le_or_gt 0 x with h0 | h0
  · exact nonneg x h0
  have e' := errorFunction_neg (-x)
  rw [neg_neg] at e'
  have hx : 0 ≤ -x := by linarith
  obtain ⟨c, d⟩ := errorFunction_tail hx
  rcases le_or_gt (-6.1) x with h6 | h6
  · have e := C10_erf_odd (x := -x) (by rw [abs_of_nonneg hx]; linarith)
    rw [neg_neg] at e
    have h1 := C10_erf_add_erfc x
    have h2 := C10_erf_add_erfc (-x)
    have h3 := nonneg (-x) hx
    have h4 : math.erfc x - (1 - errorFunction x) = -(math.erfc (-x) - (1 - errorFunction (-x))) := by linarith
    rw [h4, abs_neg]
    refine h3.trans (mul_le_mul_of_nonneg_left ?_ (by norm_num))
    have := errorFunction_nonneg hx
    linarith
  · have e : math.erfcx x = 2 * exp (x ^ 2) := by
      unfold math.erfcx
      rw [if_neg (by simp only [model_real]; linarith), if_neg (by simp only [model_real]; linarith),
        if_pos (by simp only [model_real]; linarith)]
      simp only [model_real]
    have e1 : math.erfc x = 2 := by
      rw [erfc_eq e, exp_neg]
      field_simp
    have h36 : exp (-(-x) ^ 2) ≤ exp (-36) := exp_le_exp.2 (by norm_num at h6 ⊢; nlinarith)
    have h36' : exp (-36 : ℝ) ≤ 2.1e-15 := by
      have e : exp (-36 : ℝ) = exp (-39) * exp 1 ^ 3 := by rw [← exp_nat_mul, ← exp_add]; norm_num
      have h3 := exp_one_lt_d9
      have : exp 1 ^ 3 ≤ 2.72 ^ 3 := by gcongr; linarith
      rw [e]
      calc exp (-39) * exp 1 ^ 3 ≤ 1e-16 * 2.72 ^ 3 := mul_le_mul exp_neg_39 this (by positivity) (by norm_num)
        _ ≤ 2.1e-15 := by norm_num
    have h36 := h36.trans h36'
    have := errorFunction_nonneg hx
    rw [e1, e', abs_le]
    norm_num at *
    constructor <;> linarith

/-- At 10 the complement is about `2e-45`: an absolute bound would say nothing of it, the relative one gives twelve digits. -/
example : |math.erfc (10 : ℝ) - (1 - errorFunction 10)| ≤ 5e-13 * (1 - errorFunction 10) ∧ 0 < 1 - errorFunction 10 :=
  ⟨C10_erfc_relative (by norm_num), complement_pos (by norm_num)⟩

/-- C10: from 50 on it is right to three parts in `10¹⁶`. -/
theorem C10_erfc_relative_far {x : ℝ} (hx : 50 ≤ x) :
    |math.erfc x - (1 - errorFunction x)| ≤ 3e-16 * (1 - errorFunction x) := erfc_relative_far hx

/-- C10: the scaled complement is right to five parts in `10¹³` for every argument from -26.7 up. -/
theorem C10_erfcx_relative {x : ℝ} (h : -26.7 ≤ x) :
    |math.erfcx x - exp (x ^ 2) * (1 - errorFunction x)| ≤ 5e-13 * (exp (x ^ 2) * (1 - errorFunction x)) := by
  have h1 := C10_erfc_relative h
  rw [erfc_eq rfl, exp_neg] at h1
  have hE := exp_pos (x ^ 2)
  have e : math.erfcx x - exp (x ^ 2) * (1 - errorFunction x) =
      exp (x ^ 2) * ((exp (x ^ 2))⁻¹ * math.erfcx x - (1 - errorFunction x)) := by
    field_simp
  rw [e, abs_mul, abs_of_pos hE]
  calc _ ≤ exp (x ^ 2) * (5e-13 * (1 - errorFunction x)) := mul_le_mul_of_nonneg_left h1 hE.le
    _ = _ := by ring

end Polymers.Props
