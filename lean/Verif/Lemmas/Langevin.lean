import Mathlib.Analysis.SpecialFunctions.Trigonometric.DerivHyp
import Mathlib.Analysis.SpecialFunctions.Trigonometric.Series
import Mathlib.Analysis.SpecialFunctions.Log.Deriv
import Mathlib.Analysis.Calculus.Deriv.MeanValue
import Mathlib.Analysis.Calculus.Deriv.Slope
import Mathlib.Tactic.FieldSimp
import Mathlib.Tactic.Ring
import Mathlib.Tactic.Linarith
import Mathlib.Tactic.Positivity

/-! Analysis of the Langevin function `coth x - 1/x` and of `log (sinh x / x)`. -/

namespace Polymers

open Real Set Filter Topology

/-- The Langevin function. -/
noncomputable def langevin (x : ℝ) : ℝ := 1 / tanh x - 1 / x

theorem tanh_ne_zero {x : ℝ} (hx : x ≠ 0) : tanh x ≠ 0 := by
  rw [tanh_eq_sinh_div_cosh]
  exact div_ne_zero (sinh_ne_zero.2 hx) (cosh_pos x).ne'

theorem one_div_tanh (x : ℝ) : 1 / tanh x = cosh x / sinh x := by
  rw [tanh_eq_sinh_div_cosh, one_div_div]

theorem langevin_eq {x : ℝ} (hx : x ≠ 0) : langevin x = (x * cosh x - sinh x) / (x * sinh x) := by
  have := sinh_ne_zero.2 hx
  unfold langevin
  rw [one_div_tanh]
  field_simp

theorem langevin_neg (x : ℝ) : langevin (-x) = -langevin x := by
  unfold langevin
  rw [tanh_neg, div_neg, div_neg]; ring

theorem sinh_div_self_pos {x : ℝ} (hx : x ≠ 0) : 0 < sinh x / x := by
  rcases lt_or_gt_of_ne hx with h | h
  · exact div_pos_of_neg_of_neg (sinh_neg_iff.2 h) h
  · exact div_pos (sinh_pos_iff.2 h) h

theorem hasDerivAt_log_sinh_div {x : ℝ} (hx : x ≠ 0) :
    HasDerivAt (fun x => log (sinh x / x)) (langevin x) x := by
  have h1 : HasDerivAt (fun x => sinh x / x) ((cosh x * x - sinh x * 1) / x ^ 2) x :=
    (hasDerivAt_sinh x).div (hasDerivAt_id x) hx
  have h2 := h1.log (sinh_div_self_pos hx).ne'
  refine h2.congr_deriv ?_
  have := sinh_ne_zero.2 hx
  rw [langevin_eq hx]
  field_simp

theorem hasDerivAt_one_div_tanh {x : ℝ} (hx : x ≠ 0) : HasDerivAt (fun x => 1 / tanh x) (-(1 / sinh x ^ 2)) x := by
  have hs := sinh_ne_zero.2 hx
  have : (fun x : ℝ => 1 / tanh x) = fun x => cosh x / sinh x := by funext x; exact one_div_tanh x
  rw [this]
  refine ((hasDerivAt_cosh x).div (hasDerivAt_sinh x) hs).congr_deriv ?_
  have h := cosh_sq x
  field_simp
  linear_combination -h

theorem hasDerivAt_langevin {x : ℝ} (hx : x ≠ 0) :
    HasDerivAt langevin (1 / x ^ 2 - 1 / sinh x ^ 2) x := by
  have h2 : HasDerivAt (fun x : ℝ => 1 / x) (-(1 / x ^ 2)) x := by
    simpa [one_div] using hasDerivAt_inv hx
  exact ((hasDerivAt_one_div_tanh hx).sub h2).congr_deriv (by ring)

theorem self_lt_sinh' {x : ℝ} (hx : 0 < x) : x < sinh x := self_lt_sinh_iff.2 hx

theorem langevin_deriv_pos {x : ℝ} (hx : x ≠ 0) : 0 < 1 / x ^ 2 - 1 / sinh x ^ 2 := by
  rw [sub_pos]
  have hx2 : 0 < x ^ 2 := by positivity
  apply one_div_lt_one_div_of_lt hx2
  rcases lt_or_gt_of_ne hx with h | h
  · have := self_lt_sinh' (neg_pos.2 h)
    rw [sinh_neg] at this
    nlinarith
  · have := self_lt_sinh' h
    nlinarith

/-- A function vanishing at zero with positive derivative on the right is positive there. -/
theorem pos_of_deriv_pos {f f' : ℝ → ℝ} (h0 : f 0 = 0) (hd : ∀ x, HasDerivAt f (f' x) x)
    (hpos : ∀ x, 0 < x → 0 < f' x) {x : ℝ} (hx : 0 < x) : 0 < f x := by
  have hm : StrictMonoOn f (Ici 0) := by
    apply strictMonoOn_of_deriv_pos (convex_Ici 0)
    · exact fun y _ => (hd y).continuousAt.continuousWithinAt
    · intro y hy
      rw [interior_Ici] at hy
      rw [(hd y).deriv]; exact hpos y hy
  have := hm (show (0:ℝ) ∈ Ici 0 by simp) (show x ∈ Ici 0 from hx.le) hx
  rwa [h0] at this

/-- `sinh x < x cosh x`. -/
theorem sinh_lt_self_mul_cosh {x : ℝ} (hx : 0 < x) : sinh x < x * cosh x := by
  have := pos_of_deriv_pos (f := fun x => x * cosh x - sinh x) (f' := fun x => x * sinh x) (by simp)
    (fun x => by
      refine (((hasDerivAt_id x).mul (hasDerivAt_cosh x)).sub (hasDerivAt_sinh x)).congr_deriv ?_
      simp) (fun x hx => mul_pos hx (sinh_pos_iff.2 hx)) hx
  simpa using this

/-- `3 x cosh x - 3 sinh x < x² sinh x`. -/
theorem langevin_third_aux {x : ℝ} (hx : 0 < x) : 3 * (x * cosh x - sinh x) < x ^ 2 * sinh x := by
  have := pos_of_deriv_pos (f := fun x => x ^ 2 * sinh x - 3 * (x * cosh x - sinh x))
    (f' := fun x => x * (x * cosh x - sinh x)) (by simp)
    (fun x => by
      refine ((((hasDerivAt_id x).pow 2).mul (hasDerivAt_sinh x)).sub
        ((((hasDerivAt_id x).mul (hasDerivAt_cosh x)).sub (hasDerivAt_sinh x)).const_mul 3)).congr_deriv ?_
      simp; ring) (fun x hx => mul_pos hx (sub_pos.2 (sinh_lt_self_mul_cosh hx))) hx
  simpa using this

/-- The cubic lower bound in polynomial form:
`(15 x² - x⁴) sinh x < 45 (x cosh x - sinh x)`. -/
theorem langevin_cubic_aux {x : ℝ} (hx : 0 < x) :
    (15 * x ^ 2 - x ^ 4) * sinh x < 45 * (x * cosh x - sinh x) := by
  have := pos_of_deriv_pos (f := fun x => 45 * (x * cosh x - sinh x) - (15 * x ^ 2 - x ^ 4) * sinh x)
    (f' := fun x => x * ((15 + 4 * x ^ 2) * sinh x - (15 * x - x ^ 3) * cosh x)) (by simp)
    (fun x => by
      refine ((((hasDerivAt_id x).mul (hasDerivAt_cosh x)).sub (hasDerivAt_sinh x)).const_mul 45 |>.sub
        (((((hasDerivAt_id x).pow 2).const_mul 15).sub ((hasDerivAt_id x).pow 4)).mul (hasDerivAt_sinh x))).congr_deriv ?_
      simp; ring) ?_ hx
  · simpa using this
  · intro x hx
    refine mul_pos hx ?_
    have := pos_of_deriv_pos (f := fun x => (15 + 4 * x ^ 2) * sinh x - (15 * x - x ^ 3) * cosh x)
      (f' := fun x => x * ((x ^ 2 - 7) * sinh x + 7 * x * cosh x)) (by simp)
      (fun x => by
        refine ((((((hasDerivAt_id x).pow 2).const_mul 4).const_add 15).mul (hasDerivAt_sinh x)).sub
          ((((hasDerivAt_id x).const_mul 15).sub ((hasDerivAt_id x).pow 3)).mul (hasDerivAt_cosh x))).congr_deriv ?_
        simp; ring) ?_ hx
    · exact this
    · intro x hx
      refine mul_pos hx ?_
      have h1 := sinh_lt_self_mul_cosh hx
      have h2 := sinh_pos_iff.2 hx
      nlinarith [mul_pos (pow_pos hx 2) h2]

theorem langevin_pos {x : ℝ} (hx : 0 < x) : 0 < langevin x := by
  rw [langevin_eq hx.ne']
  exact div_pos (sub_pos.2 (sinh_lt_self_mul_cosh hx)) (mul_pos hx (sinh_pos_iff.2 hx))

theorem langevin_lt_third {x : ℝ} (hx : 0 < x) : langevin x < x / 3 := by
  have hs := sinh_pos_iff.2 hx
  rw [langevin_eq hx.ne', div_lt_div_iff₀ (mul_pos hx hs) (by norm_num)]
  nlinarith [langevin_third_aux hx]

/-- The Langevin function is above its cubic Taylor polynomial. -/
theorem langevin_gt_cubic {x : ℝ} (hx : 0 < x) : x / 3 - x ^ 3 / 45 < langevin x := by
  have hs := sinh_pos_iff.2 hx
  rw [langevin_eq hx.ne', lt_div_iff₀ (mul_pos hx hs)]
  nlinarith [langevin_cubic_aux hx]

/-- `coth x - 1/x < 1`. -/
theorem langevin_lt_one {x : ℝ} (hx : 0 < x) : langevin x < 1 := by
  have hs := sinh_pos_iff.2 hx
  rw [langevin_eq hx.ne', div_lt_one (mul_pos hx hs)]
  -- x (cosh x - sinh x) < sinh x, i.e. x exp(-x) < sinh x
  have h1 : cosh x - sinh x = exp (-x) := by rw [cosh_eq, sinh_eq]; ring
  have h2 : exp (-x) < 1 := by rw [exp_lt_one_iff]; linarith
  have h3 := self_lt_sinh' hx
  have : x * (cosh x - sinh x) < x * 1 := by rw [h1]; exact mul_lt_mul_of_pos_left h2 hx
  nlinarith

/-- `1 - 1/x < L(x)`. -/
theorem one_sub_inv_lt_langevin {x : ℝ} (hx : 0 < x) : 1 - 1 / x < langevin x := by
  unfold langevin
  have h : 1 < 1 / tanh x := by
    rw [one_div_tanh, one_lt_div (sinh_pos_iff.2 hx)]
    exact sinh_lt_cosh x
  linarith

theorem langevin_strictMonoOn : StrictMonoOn langevin (Ioi 0) := by
  apply strictMonoOn_of_deriv_pos (convex_Ioi 0)
  · exact fun y hy => (hasDerivAt_langevin (ne_of_gt hy)).continuousAt.continuousWithinAt
  · intro y hy
    rw [interior_Ioi] at hy
    rw [(hasDerivAt_langevin (ne_of_gt hy)).deriv]
    exact langevin_deriv_pos (ne_of_gt hy)

theorem langevin_strictMono_ne {x y : ℝ} (hx : x ≠ 0) (hy : y ≠ 0) (hxy : x < y) : langevin x < langevin y := by
  rcases lt_or_gt_of_ne hx with h | h
  · rcases lt_or_gt_of_ne hy with h' | h'
    · have := langevin_strictMonoOn (show -y ∈ Ioi (0:ℝ) from neg_pos.2 h') (show -x ∈ Ioi (0:ℝ) from neg_pos.2 h)
        (neg_lt_neg hxy)
      rw [langevin_neg, langevin_neg] at this; linarith
    · have h1 := langevin_pos (neg_pos.2 h)
      rw [langevin_neg] at h1
      have := langevin_pos h'; linarith
  · exact langevin_strictMonoOn h (h.trans hxy) hxy

theorem langevin_tendsto_one : Tendsto langevin atTop (𝓝 1) := by
  have h1 : Tendsto (fun x : ℝ => 1 - 1 / x) atTop (𝓝 (1 - 0)) :=
    tendsto_const_nhds.sub (tendsto_const_nhds.div_atTop tendsto_id)
  rw [sub_zero] at h1
  refine tendsto_of_tendsto_of_tendsto_of_le_of_le' h1 tendsto_const_nhds ?_ ?_
  · filter_upwards [eventually_gt_atTop 0] with x hx using (one_sub_inv_lt_langevin hx).le
  · filter_upwards [eventually_gt_atTop 0] with x hx using (langevin_lt_one hx).le

theorem abs_langevin_le {x : ℝ} (hx : x ≠ 0) : |langevin x| ≤ |x| / 3 := by
  rcases lt_or_gt_of_ne hx with h | h
  · have h1 := langevin_lt_third (neg_pos.2 h)
    have h2 := langevin_pos (neg_pos.2 h)
    rw [langevin_neg] at h1 h2
    rw [abs_of_neg (by linarith), abs_of_neg h]; exact h1.le
  · rw [abs_of_pos (langevin_pos h), abs_of_pos h]; exact (langevin_lt_third h).le

theorem langevin_tendsto_zero : Tendsto langevin (𝓝[≠] 0) (𝓝 0) := by
  have h : Tendsto (fun x : ℝ => |x| / 3) (𝓝[≠] 0) (𝓝 0) := by
    have : Continuous (fun x : ℝ => |x| / 3) := by fun_prop
    simpa using (this.tendsto 0).mono_left nhdsWithin_le_nhds
  refine squeeze_zero_norm' ?_ h
  filter_upwards [self_mem_nhdsWithin] with x hx using by simpa using abs_langevin_le hx

theorem sinh_div_tendsto_one : Tendsto (fun x : ℝ => sinh x / x) (𝓝[≠] 0) (𝓝 1) := by
  have h := (hasDerivAt_sinh 0).tendsto_slope_zero
  simp only [zero_add, sinh_zero, sub_zero, cosh_zero, smul_eq_mul] at h
  refine h.congr (fun x => ?_)
  rw [div_eq_inv_mul]

theorem log_sinh_div_tendsto_zero : Tendsto (fun x : ℝ => log (sinh x / x)) (𝓝[≠] 0) (𝓝 0) := by
  have := sinh_div_tendsto_one.log (by norm_num)
  simpa using this

theorem div_tanh_tendsto_one : Tendsto (fun x : ℝ => x / tanh x) (𝓝[≠] 0) (𝓝 1) := by
  have h1 : Tendsto (fun x : ℝ => cosh x) (𝓝[≠] 0) (𝓝 1) := by
    simpa using (continuous_cosh.tendsto 0).mono_left nhdsWithin_le_nhds
  have := h1.div sinh_div_tendsto_one one_ne_zero
  simp only [div_one] at this
  refine this.congr' ?_
  filter_upwards [self_mem_nhdsWithin] with x hx
  have hs := sinh_ne_zero.2 hx
  have hx' : x ≠ 0 := hx
  have hc := (cosh_pos x).ne'
  rw [tanh_eq_sinh_div_cosh]
  simp only [Pi.div_apply]
  field_simp

end Polymers
