import Verif.Lemmas.Langevin
import Mathlib.Analysis.Convex.Deriv
import Mathlib.Analysis.SpecialFunctions.ExpDeriv
import Mathlib.Analysis.Calculus.Deriv.Inv
import Mathlib.Tactic.NormNum

/-!
Convergence of Newton's method for the Langevin function: `L` is concave and `1 / (1 - L)` is convex on the positive half
line, so one Newton step squares the relative error of `1 / (1 - L)`.
-/

namespace Polymers

open Real Set Filter Topology

/-- A function nonnegative at zero with nonnegative derivative on the right is nonnegative there. -/
theorem nonneg_of_deriv_nonneg {f f' : ℝ → ℝ} (h0 : 0 ≤ f 0) (hd : ∀ x, HasDerivAt f (f' x) x)
    (hpos : ∀ x, 0 ≤ x → 0 ≤ f' x) {x : ℝ} (hx : 0 ≤ x) : 0 ≤ f x := by
  have hm : MonotoneOn f (Ici 0) := by
    apply monotoneOn_of_deriv_nonneg (convex_Ici 0)
    · exact fun y _ => (hd y).continuousAt.continuousWithinAt
    · exact fun y _ => (hd y).differentiableAt.differentiableWithinAt
    · intro y hy
      rw [interior_Ici] at hy
      rw [(hd y).deriv]; exact hpos y (le_of_lt hy)
  exact h0.trans (hm (show (0:ℝ) ∈ Ici 0 by simp) (show x ∈ Ici 0 from hx) hx)

/-- Derivative of `q e^{2t} + p e^t + c` with quadratic `q` and cubic `p`. -/
theorem hasDerivAt_expPoly (q2 q1 q0 p3 p2 p1 p0 c t : ℝ) :
    HasDerivAt (fun t => exp (2 * t) * (q2 * t ^ 2 + q1 * t + q0) + exp t * (p3 * t ^ 3 + p2 * t ^ 2 + p1 * t + p0) + c)
      (exp (2 * t) * (2 * q2 * t ^ 2 + (2 * q1 + 2 * q2) * t + (2 * q0 + q1)) +
        exp t * (p3 * t ^ 3 + (p2 + 3 * p3) * t ^ 2 + (p1 + 2 * p2) * t + (p0 + p1)) + 0) t := by
  have h1 : HasDerivAt (fun t => exp (2 * t)) (exp (2 * t) * (2 * 1)) t := ((hasDerivAt_id t).const_mul 2).exp
  have h2 := hasDerivAt_exp t
  have hq : HasDerivAt (fun t => q2 * t ^ 2 + q1 * t + q0) (q2 * (2 * t) + q1) t := by
    refine ((((hasDerivAt_id t).pow 2).const_mul q2).add ((hasDerivAt_id t).const_mul q1)).add_const q0 |>.congr_deriv ?_
    simp
  have hp : HasDerivAt (fun t => p3 * t ^ 3 + p2 * t ^ 2 + p1 * t + p0) (p3 * (3 * t ^ 2) + p2 * (2 * t) + p1) t := by
    refine (((((hasDerivAt_id t).pow 3).const_mul p3).add (((hasDerivAt_id t).pow 2).const_mul p2)).add
      ((hasDerivAt_id t).const_mul p1)).add_const p0 |>.congr_deriv ?_
    simp
  refine (((h1.mul hq).add (h2.mul hp)).add_const c).congr_deriv ?_
  ring

theorem expPoly_step {q2 q1 q0 p3 p2 p1 p0 c : ℝ} (h0 : 0 ≤ q0 + p0 + c)
    (h : ∀ t : ℝ, 0 ≤ t → 0 ≤ exp (2 * t) * (2 * q2 * t ^ 2 + (2 * q1 + 2 * q2) * t + (2 * q0 + q1)) +
        exp t * (p3 * t ^ 3 + (p2 + 3 * p3) * t ^ 2 + (p1 + 2 * p2) * t + (p0 + p1)) + 0) :
    ∀ t : ℝ, 0 ≤ t →
      0 ≤ exp (2 * t) * (q2 * t ^ 2 + q1 * t + q0) + exp t * (p3 * t ^ 3 + p2 * t ^ 2 + p1 * t + p0) + c :=
  fun _ ht => nonneg_of_deriv_nonneg
    (f := fun t => exp (2 * t) * (q2 * t ^ 2 + q1 * t + q0) + exp t * (p3 * t ^ 3 + p2 * t ^ 2 + p1 * t + p0) + c)
    (by simpa using h0) (fun t => hasDerivAt_expPoly q2 q1 q0 p3 p2 p1 p0 c t) h ht

/-- The inequality behind the convexity of `1 / (1 - L)`. -/
theorem expPoly_nonneg {t : ℝ} (ht : 0 ≤ t) :
    0 ≤ exp (2 * t) * (1 / 2 * t ^ 2 + -2 * t + 1) + exp t * (1 / 2 * t ^ 3 + 1 / 2 * t ^ 2 + 2 * t + -2) + 1 := by
  refine expPoly_step (by norm_num) ?_ t ht
  refine expPoly_step (by norm_num) ?_
  refine expPoly_step (by norm_num) ?_
  refine expPoly_step (by norm_num) ?_
  refine expPoly_step (by norm_num) ?_
  refine expPoly_step (by norm_num) ?_
  refine expPoly_step (by norm_num) ?_
  refine expPoly_step (by norm_num) ?_
  intro t ht
  norm_num
  positivity

theorem one_add_sq_half_le_cosh {x : ℝ} (hx : 0 ≤ x) : 1 + x ^ 2 / 2 ≤ cosh x := by
  have := nonneg_of_deriv_nonneg (f := fun x => cosh x - (1 + x ^ 2 / 2)) (f' := fun x => sinh x - x) (by simp)
    (fun x => by
      refine ((hasDerivAt_cosh x).sub ((((hasDerivAt_id x).pow 2).div_const 2).const_add 1)).congr_deriv ?_
      simp) (fun x hx => sub_nonneg.2 (self_le_sinh_iff.2 hx)) hx
  simpa using this

/-- `x³ cosh x ≤ sinh³ x`. -/
theorem cube_mul_cosh_le {x : ℝ} (hx : 0 ≤ x) : x ^ 3 * cosh x ≤ sinh x ^ 3 := by
  have hsc : ∀ x : ℝ, 0 ≤ x → x ≤ sinh x := fun x hx => self_le_sinh_iff.2 hx
  have h3 : ∀ x : ℝ, 0 ≤ x → 0 ≤ 108 * cosh x * sinh x ^ 2 - 72 * x * sinh x - 36 * x ^ 2 * cosh x - 4 * x ^ 3 * sinh x := by
    intro x hx
    have hs := hsc x hx
    have hs0 : 0 ≤ sinh x := hx.trans hs
    have hc := one_add_sq_half_le_cosh hx
    have e1 : x ^ 2 ≤ sinh x ^ 2 := by gcongr
    have e2 : x + x ^ 3 / 2 ≤ cosh x * sinh x := by
      calc x + x ^ 3 / 2 = (1 + x ^ 2 / 2) * x := by ring
        _ ≤ cosh x * sinh x := by
          have : 0 ≤ cosh x := (cosh_pos x).le
          gcongr
    have e3 : (x + x ^ 3 / 2) * sinh x ≤ cosh x * sinh x * sinh x := by gcongr
    have e4 : x ^ 2 * cosh x ≤ sinh x ^ 2 * cosh x := by
      have : 0 ≤ cosh x := (cosh_pos x).le
      gcongr
    have e5 : 0 ≤ x ^ 3 * sinh x := by positivity
    nlinarith
  have d3 : ∀ x : ℝ, HasDerivAt (fun x => sinh (3 * x)) (cosh (3 * x) * (3 * 1)) x := fun x =>
    ((hasDerivAt_id x).const_mul 3).sinh
  have d3' : ∀ x : ℝ, HasDerivAt (fun x => cosh (3 * x)) (sinh (3 * x) * (3 * 1)) x := fun x =>
    ((hasDerivAt_id x).const_mul 3).cosh
  have h2 : ∀ x : ℝ, 0 ≤ x → 0 ≤ 9 * sinh (3 * x) - 3 * sinh x - 24 * (x * cosh x) - 24 * (x ^ 2 * sinh x) -
      4 * (x ^ 3 * cosh x) := fun x hx => nonneg_of_deriv_nonneg
    (f := fun x => 9 * sinh (3 * x) - 3 * sinh x - 24 * (x * cosh x) - 24 * (x ^ 2 * sinh x) - 4 * (x ^ 3 * cosh x))
    (by simp)
    (fun x => (((((d3 x).const_mul 9).sub ((hasDerivAt_sinh x).const_mul 3)).sub
      (((hasDerivAt_id x).mul (hasDerivAt_cosh x)).const_mul 24)).sub
      ((((hasDerivAt_id x).pow 2).mul (hasDerivAt_sinh x)).const_mul 24)).sub
      ((((hasDerivAt_id x).pow 3).mul (hasDerivAt_cosh x)).const_mul 4))
    (fun x hx => (h3 x hx).trans_eq (by
      simp only [id, Pi.pow_apply]
      rw [cosh_three_mul]
      have := cosh_sq x
      push_cast
      linear_combination (-108 * cosh x) * this)) hx
  have h1 : ∀ x : ℝ, 0 ≤ x → 0 ≤ 3 * cosh (3 * x) - 3 * cosh x - 12 * (x ^ 2 * cosh x) - 4 * (x ^ 3 * sinh x) :=
    fun x hx => nonneg_of_deriv_nonneg
    (f := fun x => 3 * cosh (3 * x) - 3 * cosh x - 12 * (x ^ 2 * cosh x) - 4 * (x ^ 3 * sinh x))
    (by simp)
    (fun x => ((((d3' x).const_mul 3).sub ((hasDerivAt_cosh x).const_mul 3)).sub
      ((((hasDerivAt_id x).pow 2).mul (hasDerivAt_cosh x)).const_mul 12)).sub
      ((((hasDerivAt_id x).pow 3).mul (hasDerivAt_sinh x)).const_mul 4))
    (fun x hx => (h2 x hx).trans_eq (by
      simp only [id, Pi.pow_apply]
      push_cast
      ring)) hx
  have h0 : 0 ≤ sinh (3 * x) - 3 * sinh x - 4 * (x ^ 3 * cosh x) := nonneg_of_deriv_nonneg
    (f := fun x => sinh (3 * x) - 3 * sinh x - 4 * (x ^ 3 * cosh x))
    (by simp)
    (fun x => ((d3 x).sub ((hasDerivAt_sinh x).const_mul 3)).sub
      ((((hasDerivAt_id x).pow 3).mul (hasDerivAt_cosh x)).const_mul 4))
    (fun x hx => (h1 x hx).trans_eq (by
      simp only [id, Pi.pow_apply]
      push_cast
      ring)) hx
  rw [sinh_three_mul] at h0
  linarith

theorem langevin_zero : langevin 0 = 0 := by simp [langevin]

theorem langevin_continuousOn : ContinuousOn langevin (Ici 0) := by
  intro x hx
  rcases eq_or_lt_of_le (show (0:ℝ) ≤ x from hx) with h | h
  · subst h
    refine (continuousAt_iff_punctured_nhds.2 ?_).continuousWithinAt
    rw [langevin_zero]; exact langevin_tendsto_zero
  · exact (hasDerivAt_langevin h.ne').continuousAt.continuousWithinAt

/-- The second derivative of the Langevin function. -/
theorem hasDerivAt_langevin_deriv {x : ℝ} (hx : 0 < x) :
    HasDerivAt (fun x => 1 / x ^ 2 - 1 / sinh x ^ 2) (-2 / x ^ 3 + 2 * cosh x / sinh x ^ 3) x := by
  have hs : 0 < sinh x := sinh_pos_iff.2 hx
  have h1 := ((hasDerivAt_id x).pow 2).inv (by simp only [Pi.pow_apply, id]; positivity)
  have h2 := ((hasDerivAt_sinh x).pow 2).inv (by simp only [Pi.pow_apply]; positivity)
  have e : (fun x : ℝ => 1 / x ^ 2 - 1 / sinh x ^ 2) = fun x => ((id ^ 2)⁻¹ : ℝ → ℝ) x - ((sinh ^ 2)⁻¹ : ℝ → ℝ) x := by
    funext y; simp
  rw [e]
  refine (h1.sub h2).congr_deriv ?_
  simp only [Pi.pow_apply, id, Nat.cast_ofNat, show 2 - 1 = 1 from rfl, pow_one, mul_one]
  field_simp
  ring

theorem langevin_concave : ConcaveOn ℝ (Ici 0) langevin := by
  refine concaveOn_of_hasDerivWithinAt2_nonpos (convex_Ici 0) langevin_continuousOn
    (f' := fun x => 1 / x ^ 2 - 1 / sinh x ^ 2) (f'' := fun x => -2 / x ^ 3 + 2 * cosh x / sinh x ^ 3)
    (fun x hx => ?_) (fun x hx => ?_) fun x hx => ?_
  all_goals rw [interior_Ici] at hx
  · exact (hasDerivAt_langevin (ne_of_gt hx)).hasDerivWithinAt
  · exact (hasDerivAt_langevin_deriv hx).hasDerivWithinAt
  · have hx : 0 < x := hx
    have hs : 0 < sinh x := sinh_pos_iff.2 hx
    have h := cube_mul_cosh_le hx.le
    have : 2 * cosh x / sinh x ^ 3 ≤ 2 / x ^ 3 := by
      rw [div_le_div_iff₀ (by positivity) (by positivity)]
      linarith
    have e : -2 / x ^ 3 = -(2 / x ^ 3) := by ring
    rw [e]
    linarith

/-- `1 / (1 - L)`. -/
noncomputable def langevinU (x : ℝ) : ℝ := 1 / (1 - langevin x)

theorem langevin_lt_one' {x : ℝ} (hx : 0 ≤ x) : langevin x < 1 := by
  rcases eq_or_lt_of_le hx with h | h
  · rw [← h, langevin_zero]; norm_num
  · exact langevin_lt_one h

theorem langevin_second_order {x : ℝ} (hx : 0 < x) :
    0 ≤ (-2 / x ^ 3 + 2 * cosh x / sinh x ^ 3) * (1 - langevin x) + 2 * (1 / x ^ 2 - 1 / sinh x ^ 2) ^ 2 := by
  have hG := expPoly_nonneg (t := 2 * x) (by positivity)
  have ha : 1 < exp x := one_lt_exp_iff.2 hx
  have ha2 : 0 < exp x ^ 2 - 1 := by nlinarith
  have e4 : exp (2 * (2 * x)) = exp x ^ 4 := by rw [← exp_nat_mul]; ring_nf
  have e2 : exp (2 * x) = exp x ^ 2 := by rw [← exp_nat_mul]; ring_nf
  rw [e4, e2] at hG
  rw [langevin_eq hx.ne', sinh_eq, cosh_eq, exp_neg]
  have ha0 : 0 < exp x := exp_pos x
  generalize exp x = a at *
  have e : (-2 / x ^ 3 + 2 * ((a + a⁻¹) / 2) / ((a - a⁻¹) / 2) ^ 3) * (1 - (x * ((a + a⁻¹) / 2) - (a - a⁻¹) / 2) /
      (x * ((a - a⁻¹) / 2))) + 2 * (1 / x ^ 2 - 1 / ((a - a⁻¹) / 2) ^ 2) ^ 2 =
      4 * (a ^ 4 * (1 / 2 * (2 * x) ^ 2 + -2 * (2 * x) + 1) +
        a ^ 2 * (1 / 2 * (2 * x) ^ 3 + 1 / 2 * (2 * x) ^ 2 + 2 * (2 * x) + -2) + 1) / (x ^ 3 * (a ^ 2 - 1) ^ 3) := by
    have h1 : a - a⁻¹ = (a ^ 2 - 1) / a := by field_simp
    rw [h1]
    have := ha2.ne'
    field_simp
    ring
  rw [e]
  positivity

theorem hasDerivAt_langevinU {x : ℝ} (hx : 0 < x) :
    HasDerivAt langevinU ((1 / x ^ 2 - 1 / sinh x ^ 2) * langevinU x ^ 2) x := by
  have h1 : 0 < 1 - langevin x := sub_pos.2 (langevin_lt_one hx)
  have h := ((hasDerivAt_langevin hx.ne').const_sub 1).inv h1.ne'
  have e : langevinU = fun x => (1 - langevin x)⁻¹ := by funext y; simp [langevinU]
  rw [e]
  refine h.congr_deriv ?_
  simp only
  field_simp

theorem langevinU_convex : ConvexOn ℝ (Ici 0) langevinU := by
  refine convexOn_of_hasDerivWithinAt2_nonneg (convex_Ici 0) (f' := fun x => (1 / x ^ 2 - 1 / sinh x ^ 2) * langevinU x ^ 2)
    (f'' := fun x => ((-2 / x ^ 3 + 2 * cosh x / sinh x ^ 3) * (1 - langevin x) + 2 * (1 / x ^ 2 - 1 / sinh x ^ 2) ^ 2) *
      langevinU x ^ 3) ?_ (fun x hx => ?_) (fun x hx => ?_) fun x hx => ?_
  · exact continuousOn_const.div (continuousOn_const.sub langevin_continuousOn) fun x hx =>
      (sub_pos.2 (langevin_lt_one' hx)).ne'
  all_goals rw [interior_Ici] at hx
  all_goals have hx : 0 < x := hx
  all_goals have h1 : 0 < 1 - langevin x := sub_pos.2 (langevin_lt_one hx)
  · exact (hasDerivAt_langevinU hx).hasDerivWithinAt
  · refine ((hasDerivAt_langevin_deriv hx).mul ((hasDerivAt_langevinU hx).pow 2)).hasDerivWithinAt.congr_deriv ?_
    simp only [Pi.pow_apply, Nat.cast_ofNat, show 2 - 1 = 1 from rfl, pow_one]
    unfold langevinU
    generalize 1 / x ^ 2 - 1 / sinh x ^ 2 = A
    generalize -2 / x ^ 3 + 2 * cosh x / sinh x ^ 3 = B
    generalize 1 - langevin x = D at *
    field_simp
  · have := langevin_second_order hx
    have : 0 < langevinU x := by unfold langevinU; positivity
    positivity

theorem convex_tangent {S : Set ℝ} {f : ℝ → ℝ} {x z d : ℝ} (hf : ConvexOn ℝ S f) (hx : x ∈ S) (hz : z ∈ S)
    (hd : HasDerivAt f d x) : f x + d * (z - x) ≤ f z := by
  rcases lt_trichotomy x z with h | h | h
  · have := hf.le_slope_of_hasDerivAt hx hz h hd
    rw [slope_def_field, le_div_iff₀ (by linarith)] at this
    linarith
  · subst h; simp
  · have := hf.slope_le_of_hasDerivAt hz hx h hd
    rw [slope_def_field, div_le_iff₀ (by linarith)] at this
    linarith

theorem concave_tangent {S : Set ℝ} {f : ℝ → ℝ} {x z d : ℝ} (hf : ConcaveOn ℝ S f) (hx : x ∈ S) (hz : z ∈ S)
    (hd : HasDerivAt f d x) : f z ≤ f x + d * (z - x) := by
  have := convex_tangent hf.neg hx hz hd.neg
  simp only [Pi.neg_apply] at this
  linarith

/-- One Newton step for `L x = y`. -/
noncomputable def langevinStep (y x : ℝ) : ℝ := x + (y - langevin x) / (1 / x ^ 2 - 1 / sinh x ^ 2)

/-- Relative error of `1 / (1 - L)`. -/
noncomputable def langevinErr (y x : ℝ) : ℝ := 1 - (1 - y) * langevinU x

theorem langevinU_pos {x : ℝ} (hx : 0 ≤ x) : 0 < langevinU x :=
  one_div_pos.2 (sub_pos.2 (langevin_lt_one' hx))

theorem langevin_eq_of_U {x : ℝ} (hx : 0 ≤ x) : langevin x = 1 - 1 / langevinU x := by
  have := (sub_pos.2 (langevin_lt_one' hx)).ne'
  unfold langevinU; field_simp; ring

theorem langevinStep_below {y x : ℝ} (hx : 0 < x) (h : 0 ≤ langevinStep y x) : langevin (langevinStep y x) ≤ y := by
  refine (concave_tangent langevin_concave hx.le h (hasDerivAt_langevin hx.ne')).trans_eq ?_
  have := (langevin_deriv_pos hx.ne').ne'
  unfold langevinStep
  generalize 1 / x ^ 2 - 1 / sinh x ^ 2 = d at *
  field_simp
  ring

theorem langevinStep_err {y x : ℝ} (hy : y < 1) (hx : 0 < x) (h : 0 ≤ langevinStep y x) :
    langevinErr y (langevinStep y x) ≤ langevinErr y x ^ 2 := by
  have h1 := convex_tangent langevinU_convex hx.le h (hasDerivAt_langevinU hx)
  have hu := langevinU_pos hx.le
  have hd := (langevin_deriv_pos hx.ne').ne'
  have e : (1 / x ^ 2 - 1 / sinh x ^ 2) * langevinU x ^ 2 * (langevinStep y x - x) =
      langevinU x ^ 2 * (y - 1) + langevinU x := by
    unfold langevinStep
    rw [langevin_eq_of_U hx.le]
    generalize 1 / x ^ 2 - 1 / sinh x ^ 2 = d at *
    field_simp
    ring
  rw [e] at h1
  have := mul_le_mul_of_nonneg_left h1 (sub_pos.2 hy).le
  unfold langevinErr
  nlinarith

theorem langevinStep_pos_of_below {y x : ℝ} (hx : 0 < x) (h : langevin x ≤ y) : x ≤ langevinStep y x := by
  have := langevin_deriv_pos hx.ne'
  have : 0 ≤ (y - langevin x) / (1 / x ^ 2 - 1 / sinh x ^ 2) := div_nonneg (by linarith) this.le
  unfold langevinStep; linarith

theorem langevinStep_pos {y x : ℝ} (hy0 : 0 < y) (hx : 0 < x) (h : langevin x * (1 + y) ≤ 2 * y) :
    0 < langevinStep y x := by
  rcases le_or_gt (langevin x) y with hle | hgt
  · exact hx.trans_le (langevinStep_pos_of_below hx hle)
  have hL := langevin_lt_one hx
  have hu := langevinU_pos hx.le
  have hd := langevin_deriv_pos hx.ne'
  have h1 := convex_tangent langevinU_convex hx.le (show (0:ℝ) ∈ Ici 0 by simp) (hasDerivAt_langevinU hx)
  have h0 : langevinU 0 = 1 := by simp [langevinU, langevin_zero]
  rw [h0] at h1
  -- `u - 1 ≤ u' x`, hence `L (1 - L) ≤ L' x`
  have h2 : langevin x * (1 - langevin x) ≤ (1 / x ^ 2 - 1 / sinh x ^ 2) * x := by
    have e : langevinU x * (1 - langevin x) = 1 := by
      unfold langevinU; rw [one_div_mul_cancel (by linarith)]
    have h3 := mul_le_mul_of_nonneg_right h1 (sq_nonneg (1 - langevin x))
    have h4 : (langevinU x + (1 / x ^ 2 - 1 / sinh x ^ 2) * langevinU x ^ 2 * (0 - x)) * (1 - langevin x) ^ 2 =
        (langevinU x * (1 - langevin x)) * (1 - langevin x) -
          (1 / x ^ 2 - 1 / sinh x ^ 2) * x * (langevinU x * (1 - langevin x)) ^ 2 := by ring
    rw [h4, e] at h3
    nlinarith
  unfold langevinStep
  have h5 : (langevin x - y) / (1 / x ^ 2 - 1 / sinh x ^ 2) < x := by
    rw [div_lt_iff₀ hd, mul_comm]
    refine lt_of_lt_of_le ?_ h2
    nlinarith
  have h6 : (y - langevin x) / (1 / x ^ 2 - 1 / sinh x ^ 2) = -((langevin x - y) / (1 / x ^ 2 - 1 / sinh x ^ 2)) := by ring
  rw [h6]; linarith

/-- The residual does not grow in a step from a point whose error is at least `-1/2`. -/
theorem langevinStep_residual {y x : ℝ} (hy : y < 1) (hx : 0 < x) (h : 0 < langevinStep y x)
    (he : -(1 / 2) ≤ langevinErr y x) : y - langevin (langevinStep y x) ≤ |y - langevin x| := by
  rcases le_or_gt (langevin x) y with hle | hgt
  · have h1 := langevinStep_pos_of_below hx hle
    have h2 := langevin_strictMonoOn.monotoneOn (show x ∈ Ioi 0 from hx) (show langevinStep y x ∈ Ioi 0 from h) h1
    rw [abs_of_nonneg (by linarith)]; linarith
  · rw [abs_of_neg (by linarith)]
    have h1 := langevinStep_err hy hx h.le
    have hu := langevinU_pos hx.le
    have hu' := langevinU_pos h.le
    rw [langevin_eq_of_U h.le, langevin_eq_of_U hx.le]
    rw [langevin_eq_of_U hx.le] at hgt
    unfold langevinErr at he h1
    generalize langevinU x = u at *
    generalize langevinU (langevinStep y x) = w at *
    have hz : 0 < 1 - y := by linarith
    -- `1/w ≤ (1-y) / (1 - e²)`
    have hgt' : 1 < (1 - y) * u := by
      have : 1 / u < 1 - y := by linarith
      rwa [div_lt_iff₀ hu] at this
    have h3 : u * (2 - (1 - y) * u) ≤ w := by nlinarith
    have h4 : 0 < 2 - (1 - y) * u := by linarith
    have h5 : 1 / w ≤ 1 / (u * (2 - (1 - y) * u)) := one_div_le_one_div_of_le (by positivity) h3
    have h6 : 1 / (u * (2 - (1 - y) * u)) + 1 / u ≤ 2 * (1 - y) := by
      rw [div_add_div _ _ (by positivity) hu.ne', div_le_iff₀ (by positivity)]
      have h7 : 0 ≤ u * (((1 - y) * u - 1) * (3 - 2 * ((1 - y) * u))) :=
        mul_nonneg hu.le (mul_nonneg (by linarith) (by linarith))
      linarith [show 2 * (1 - y) * (u * (2 - (1 - y) * u) * u) = u * (2 * ((1 - y) * u) * (2 - (1 - y) * u)) by ring,
        show u * (((1 - y) * u - 1) * (3 - 2 * ((1 - y) * u))) =
          u * (2 * ((1 - y) * u) * (2 - (1 - y) * u)) - (1 * u + u * (2 - (1 - y) * u) * 1) by ring]
    linarith

/-- The rational starting guess. -/
noncomputable def langevinGuess (y : ℝ) : ℝ :=
  (107117 / 50000 * y ^ 3 - 84557 / 20000 * y ^ 2 + 3 * y) / (1 - y) /
    (17929 / 25000 * y ^ 3 - 41103 / 100000 * y ^ 2 - 7833 / 20000 * y + 1)

theorem langevinGuess_den {y : ℝ} (h0 : 0 ≤ y) (h1 : y ≤ 1) :
    1 / 2 < 17929 / 25000 * y ^ 3 - 41103 / 100000 * y ^ 2 - 7833 / 20000 * y + 1 := by
  nlinarith [mul_nonneg h0 (sq_nonneg (y - 7 / 10)), mul_nonneg h0 (sub_nonneg.2 h1), sq_nonneg (y - 7 / 10)]

theorem langevinU_le {x : ℝ} (hx : 0 < x) : langevinU x ≤ 1 + x := by
  have h : langevin x ≤ x / (1 + x) := by
    have hq := quadratic_le_exp_of_nonneg (show 0 ≤ 2 * x by positivity)
    have e2 : exp (2 * x) = exp x ^ 2 := by rw [← exp_nat_mul]; ring_nf
    rw [e2] at hq
    rw [langevin_eq hx.ne', sinh_eq, cosh_eq, exp_neg]
    have ha : 1 < exp x := one_lt_exp_iff.2 hx
    generalize exp x = a at *
    have h1 : a - a⁻¹ = (a ^ 2 - 1) / a := by field_simp
    have h2 : a + a⁻¹ = (a ^ 2 + 1) / a := by field_simp
    have h3 : 0 < a ^ 2 - 1 := by nlinarith
    have e : (x * ((a + a⁻¹) / 2) - (a - a⁻¹) / 2) / (x * ((a - a⁻¹) / 2)) = (x * (a ^ 2 + 1) - (a ^ 2 - 1)) / (x * (a ^ 2 - 1)) := by
      rw [h1, h2]; field_simp
    rw [e, div_le_div_iff₀ (by positivity) (by positivity)]
    nlinarith
  have hl := langevin_lt_one hx
  unfold langevinU
  rw [div_le_iff₀ (by linarith)]
  rw [le_div_iff₀ (by linarith)] at h
  linarith

theorem le_langevinU {x : ℝ} (hx : 0 < x) : x ≤ langevinU x ∧ 1 ≤ langevinU x := by
  have hl := langevin_lt_one hx
  have h1 := one_sub_inv_lt_langevin hx
  have h2 := langevin_pos hx
  unfold langevinU
  constructor
  · rw [le_div_iff₀ (by linarith)]
    have : 1 - langevin x ≤ 1 / x := by linarith
    calc x * (1 - langevin x) ≤ x * (1 / x) := by gcongr
      _ = 1 := by field_simp
  · rw [le_div_iff₀ (by linarith)]; linarith

theorem langevinGuess_facts {y : ℝ} (h0 : 0 < y) (h1 : y < 1) :
    0 < langevinGuess y ∧ langevin (langevinGuess y) * (1 + y) ≤ 2 * y ∧ |langevinErr y (langevinGuess y)| ≤ 12 / 25 := by
  have hB := langevinGuess_den h0.le h1.le
  have hz : 0 < 1 - y := by linarith
  set B := 17929 / 25000 * y ^ 3 - 41103 / 100000 * y ^ 2 - 7833 / 20000 * y + 1 with hBdef
  set A := 107117 / 50000 * y ^ 2 - 84557 / 20000 * y + 3 with hAdef
  have hA : 0 < A := by rw [hAdef]; nlinarith [sq_nonneg (y - 1)]
  have hB0 : 0 < B := by linarith
  have hg : langevinGuess y * ((1 - y) * B) = y * A := by
    unfold langevinGuess
    rw [← hBdef, hAdef]
    field_simp
  have hpos : 0 < langevinGuess y := by
    by_contra h
    have : langevinGuess y * ((1 - y) * B) ≤ 0 := mul_nonpos_of_nonpos_of_nonneg (not_lt.1 h) (by positivity)
    rw [hg] at this
    have : 0 < y * A := by positivity
    linarith
  have hP : (1 - y) * langevinGuess y = y * A / B := by
    rw [eq_div_iff hB0.ne', ← hg]; ring
  refine ⟨hpos, ?_, ?_⟩
  · rcases le_or_gt y (9 / 20) with h | h
    · have h3 : langevinGuess y * (1 + y) ≤ 6 * y := by
        have : y * A * (1 + y) ≤ 6 * y * ((1 - y) * B) := by
          have : A * (1 + y) ≤ 6 * ((1 - y) * B) := by
            rw [hAdef, hBdef]
            have hp : 0 ≤ y := h0.le
            have hq : 0 ≤ 9 / 20 - y := by linarith
            linarith [mul_nonneg (pow_nonneg hp 0) (pow_nonneg hq 5), mul_nonneg (pow_nonneg hp 1) (pow_nonneg hq 4), mul_nonneg (pow_nonneg hp 2) (pow_nonneg hq 3), mul_nonneg (pow_nonneg hp 3) (pow_nonneg hq 2), mul_nonneg (pow_nonneg hp 4) (pow_nonneg hq 1), mul_nonneg (pow_nonneg hp 5) (pow_nonneg hq 0)]
          nlinarith
        rw [← hg] at this
        have h4 : 0 < (1 - y) * B := by positivity
        have : (langevinGuess y * (1 + y)) * ((1 - y) * B) ≤ (6 * y) * ((1 - y) * B) := by linarith
        exact le_of_mul_le_mul_right this h4
      have := langevin_lt_third hpos
      nlinarith
    · have h3 : langevinGuess y * (1 - y) ≤ 2 * y := by
        rw [mul_comm, hP, div_le_iff₀ hB0]
        have : A ≤ 2 * B := by
          rw [hAdef, hBdef]
          have hp : 0 ≤ y - 9 / 20 := by linarith
          have hq : 0 ≤ 1 - y := by linarith
          linarith [mul_nonneg (pow_nonneg hp 0) (pow_nonneg hq 4), mul_nonneg (pow_nonneg hp 1) (pow_nonneg hq 3), mul_nonneg (pow_nonneg hp 2) (pow_nonneg hq 2), mul_nonneg (pow_nonneg hp 3) (pow_nonneg hq 1), mul_nonneg (pow_nonneg hp 4) (pow_nonneg hq 0)]
        nlinarith
      have h4 := langevinU_le hpos
      have hl := langevin_lt_one hpos
      unfold langevinU at h4
      rw [div_le_iff₀ (by linarith)] at h4
      nlinarith
  · rw [abs_le]
    unfold langevinErr
    have hup := langevinU_le hpos
    obtain ⟨hlo1, hlo2⟩ := le_langevinU hpos
    constructor
    · have : (1 - y) * langevinU (langevinGuess y) ≤ (1 - y) + y * A / B := by rw [← hP]; nlinarith
      have : y * A / B ≤ y + 12 / 25 := by
        rw [div_le_iff₀ hB0, hAdef, hBdef]
        have hp : 0 ≤ y := h0.le
        have hq : 0 ≤ 1 - y := by linarith
        linarith [mul_nonneg (pow_nonneg hp 0) (pow_nonneg hq 8), mul_nonneg (pow_nonneg hp 1) (pow_nonneg hq 7), mul_nonneg (pow_nonneg hp 2) (pow_nonneg hq 6), mul_nonneg (pow_nonneg hp 3) (pow_nonneg hq 5), mul_nonneg (pow_nonneg hp 4) (pow_nonneg hq 4), mul_nonneg (pow_nonneg hp 5) (pow_nonneg hq 3), mul_nonneg (pow_nonneg hp 6) (pow_nonneg hq 2), mul_nonneg (pow_nonneg hp 7) (pow_nonneg hq 1), mul_nonneg (pow_nonneg hp 8) (pow_nonneg hq 0)]
      linarith
    · rcases le_or_gt y (9 / 20) with h | h
      · nlinarith
      · have : y * A / B ≤ (1 - y) * langevinU (langevinGuess y) := by rw [← hP]; gcongr
        have : 11 / 20 ≤ y * A / B := by
          rw [le_div_iff₀ hB0, hAdef, hBdef]
          have hp : 0 ≤ y - 9 / 20 := by linarith
          have hq : 0 ≤ 1 - y := by linarith
          linarith [mul_nonneg (pow_nonneg hp 0) (pow_nonneg hq 4), mul_nonneg (pow_nonneg hp 1) (pow_nonneg hq 3), mul_nonneg (pow_nonneg hp 2) (pow_nonneg hq 2), mul_nonneg (pow_nonneg hp 3) (pow_nonneg hq 1), mul_nonneg (pow_nonneg hp 4) (pow_nonneg hq 0)]
        linarith

end Polymers
