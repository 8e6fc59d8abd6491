import Verif.Lemmas.SwfjcNewton

/-! The extension of a square-well link under a force is concave in the force, and the square of the force times the slope
of the extension increases.  A link of the square well is a mixture over `s` of points distributed evenly on `[-s, s]`, so
both claims are statements about the second and third cumulants of a mixture.  They are proved by comparing derivatives in
the upper end of the mixture. -/

namespace Polymers.Lemmas

open Real Set Filter Topology Polymers.Props

/-- A function which is at least minus something vanishing at `a` and has a non-negative derivative beyond `a`. -/
theorem nonneg_of_deriv_near {h h' c : ℝ → ℝ} {a b : ℝ} (hab : a < b) (hd : ∀ x, a < x → HasDerivAt h (h' x) x)
    (hpos : ∀ x, a < x → 0 ≤ h' x) (hc : ∀ x, a < x → -c x ≤ h x) (hc0 : ContinuousAt c a) (hca : c a = 0) : 0 ≤ h b := by
  have hm : MonotoneOn h (Ioi a) := by
    apply monotoneOn_of_deriv_nonneg (convex_Ioi a)
    · exact fun y hy => (hd y hy).continuousAt.continuousWithinAt
    · rw [interior_Ioi]; exact fun y hy => (hd y hy).differentiableAt.differentiableWithinAt
    · rw [interior_Ioi]; intro y hy; rw [(hd y hy).deriv]; exact hpos y hy
  have ht : Tendsto (fun x => -c x) (𝓝[>] a) (𝓝 0) := by
    have := hc0.neg.tendsto
    rw [Pi.neg_apply, hca, neg_zero] at this
    exact this.mono_left nhdsWithin_le_nhds
  refine le_of_tendsto ht ?_
  filter_upwards [Ioo_mem_nhdsGT hab] with x hx
  exact (hc x hx.1).trans (hm (mem_Ioi.2 hx.1) (mem_Ioi.2 hab) hx.2.le)

theorem nonneg_of_deriv_from {h h' : ℝ → ℝ} {a b : ℝ} (hab : a ≤ b) (h0 : 0 ≤ h a) (hd : ∀ x, a ≤ x → HasDerivAt h (h' x) x)
    (hpos : ∀ x, a < x → 0 ≤ h' x) : 0 ≤ h b := by
  have hm : MonotoneOn h (Ici a) := by
    apply monotoneOn_of_deriv_nonneg (convex_Ici a)
    · exact fun y hy => (hd y hy).continuousAt.continuousWithinAt
    · rw [interior_Ici]; exact fun y hy => (hd y (le_of_lt hy)).differentiableAt.differentiableWithinAt
    · rw [interior_Ici]; intro y hy; rw [(hd y (le_of_lt hy)).deriv]; exact hpos y hy
  exact h0.trans (hm (mem_Ici.2 le_rfl) (mem_Ici.2 hab) hab)

/-- Third moment: `x³ cosh x - 3 x² sinh x + 6 x cosh x - 6 sinh x`. -/
noncomputable def swK (x : ℝ) : ℝ := x ^ 3 * cosh x - 3 * x ^ 2 * sinh x + 6 * swG x

noncomputable def swE1 (x : ℝ) : ℝ := x ^ 2 * sinh x - 3 * swG x
noncomputable def swE2 (x : ℝ) : ℝ := x ^ 3 * cosh x - 5 * x ^ 2 * sinh x + 12 * swG x
noncomputable def swE3 (x : ℝ) : ℝ := x ^ 4 * sinh x - 7 * x ^ 3 * cosh x + 27 * x ^ 2 * sinh x - 60 * swG x

theorem hasDerivAt_swE1 (x : ℝ) : HasDerivAt swE1 (x * swG x) x := by
  unfold swE1
  refine (((hasDerivAt_pow 2 x).mul (hasDerivAt_sinh x)).sub ((hasDerivAt_swG x).const_mul 3)).congr_deriv ?_
  unfold swG; norm_num; ring

theorem hasDerivAt_swE2 (x : ℝ) : HasDerivAt swE2 (x * swH x) x := by
  unfold swE2
  refine ((((hasDerivAt_pow 3 x).mul (hasDerivAt_cosh x)).sub (((hasDerivAt_pow 2 x).const_mul 5).mul (hasDerivAt_sinh x))).add
    ((hasDerivAt_swG x).const_mul 12)).congr_deriv ?_
  unfold swH; norm_num; ring

theorem hasDerivAt_swE3 (x : ℝ) : HasDerivAt swE3 (x * swK x) x := by
  unfold swE3
  refine (((((hasDerivAt_pow 4 x).mul (hasDerivAt_sinh x)).sub (((hasDerivAt_pow 3 x).const_mul 7).mul (hasDerivAt_cosh x))).add
    (((hasDerivAt_pow 2 x).const_mul 27).mul (hasDerivAt_sinh x))).sub ((hasDerivAt_swG x).const_mul 60)).congr_deriv ?_
  unfold swK swG; norm_num; ring

/-- Mean and variance of the tilted even distribution on `[-x, x]`, and their derivatives. -/
noncomputable def swMean (x : ℝ) : ℝ := swG x / sinh x
noncomputable def swMean' (x : ℝ) : ℝ := (sinh x * cosh x - x) / sinh x ^ 2
noncomputable def swVar (x : ℝ) : ℝ := 1 - x ^ 2 / sinh x ^ 2
noncomputable def swVar' (x : ℝ) : ℝ := 2 * x * swG x / sinh x ^ 3

theorem hasDerivAt_swMean {x : ℝ} (hx : 0 < x) : HasDerivAt swMean (swMean' x) x := by
  have hs : 0 < sinh x := sinh_pos_iff.2 hx
  refine ((hasDerivAt_swG x).div (hasDerivAt_sinh x) hs.ne').congr_deriv ?_
  have := cosh_sq x
  unfold swG swMean'
  congr 1
  linear_combination (-x) * this

theorem hasDerivAt_swVar {x : ℝ} (hx : 0 < x) : HasDerivAt swVar (swVar' x) x := by
  have hs : 0 < sinh x := sinh_pos_iff.2 hx
  have h := (((hasDerivAt_pow 2 x).div ((hasDerivAt_sinh x).pow 2) (pow_ne_zero 2 hs.ne')).const_sub 1)
  refine h.congr_deriv ?_
  unfold swVar' swG
  norm_num
  field_simp
  ring

theorem swG_pos {x : ℝ} (hx : 0 < x) : 0 < swG x := by
  have := le_swG hx.le
  have : 0 < x ^ 3 / 3 := by positivity
  linarith

theorem swMean'_pos {x : ℝ} (hx : 0 < x) : 0 < swMean' x := by
  have hs : 0 < sinh x := sinh_pos_iff.2 hx
  have h1 := self_lt_sinh' hx
  have h2 := one_lt_cosh.2 hx.ne'
  refine div_pos ?_ (by positivity)
  nlinarith

theorem swMean_pos {x : ℝ} (hx : 0 < x) : 0 < swMean x := div_pos (swG_pos hx) (sinh_pos_iff.2 hx)

theorem swVar_pos {x : ℝ} (hx : 0 < x) : 0 < swVar x := by
  have hs : 0 < sinh x := sinh_pos_iff.2 hx
  unfold swVar
  rw [sub_pos, div_lt_one (by positivity)]
  exact pow_lt_pow_left₀ (self_lt_sinh' hx) hx.le (by norm_num)

theorem swVar'_pos {x : ℝ} (hx : 0 < x) : 0 < swVar' x :=
  div_pos (mul_pos (by positivity) (swG_pos hx)) (pow_pos (sinh_pos_iff.2 hx) 3)

theorem swMean'_le {x : ℝ} (hx : 0 < x) : swMean' x ≤ 2 / 3 * x := by
  have hs : 0 < sinh x := sinh_pos_iff.2 hx
  have := nonneg_of_deriv_nonneg (f := fun x => 2 * x * sinh x ^ 2 - 3 * (sinh x * cosh x) + 3 * x)
    (f' := fun x => 4 * sinh x * swG x) (by simp) (fun x => by
      refine (((((hasDerivAt_id x).const_mul 2).mul ((hasDerivAt_sinh x).pow 2)).sub
        (((hasDerivAt_sinh x).mul (hasDerivAt_cosh x)).const_mul 3)).add ((hasDerivAt_id x).const_mul 3)).congr_deriv ?_
      have := cosh_sq x
      unfold swG
      norm_num
      linear_combination (-3) * this) (fun x hx => by
      have := le_swG hx
      have h2 := sinh_nonneg_iff.2 hx
      have : 0 ≤ swG x := le_trans (by positivity) this
      positivity) hx.le
  unfold swMean'
  rw [div_le_iff₀ (by positivity)]
  linarith

theorem swMean'_le_one {x : ℝ} (hx : 0 < x) : swMean' x ≤ 1 := by
  have hs : 0 < sinh x := sinh_pos_iff.2 hx
  unfold swMean'
  rw [div_le_one (by positivity)]
  have h1 : sinh x * (cosh x - sinh x) ≤ x := by
    rw [cosh_sub_sinh, sinh_eq]
    have h2 := add_one_le_exp (-(2 * x))
    have e1 : exp x * exp (-x) = 1 := by rw [← exp_add]; simp
    have e2 : exp (-x) * exp (-x) = exp (-(2 * x)) := by rw [← exp_add]; ring_nf
    nlinarith
  linarith

theorem swG_le_mul_sinh {x : ℝ} (hx : 0 < x) : swG x ≤ x * sinh x := by
  have h1 := self_lt_sinh' hx
  have h2 : cosh x - sinh x ≤ 1 := by rw [cosh_sub_sinh]; exact exp_le_one_iff.2 (by linarith)
  unfold swG
  nlinarith

theorem swG_le_third {x : ℝ} (hx : 0 < x) : 3 * swG x ≤ x ^ 2 * sinh x := by
  have hs : 0 < sinh x := sinh_pos_iff.2 hx
  have h := langevin_lt_third hx
  rw [langevin_eq hx.ne', div_lt_div_iff₀ (by positivity) (by norm_num)] at h
  unfold swG
  nlinarith

theorem swVar'_le {x : ℝ} (hx : 0 < x) : x * swVar' x ≤ 2 * swVar x := by
  have hs : 0 < sinh x := sinh_pos_iff.2 hx
  have h := cube_mul_cosh_le hx.le
  unfold swVar' swVar swG
  have e : 2 * (1 - x ^ 2 / sinh x ^ 2) - x * (2 * x * (x * cosh x - sinh x) / sinh x ^ 3) =
      2 * (sinh x ^ 3 - x ^ 3 * cosh x) / sinh x ^ 3 := by field_simp; ring
  have : 0 ≤ 2 * (sinh x ^ 3 - x ^ 3 * cosh x) / sinh x ^ 3 := div_nonneg (by linarith) (by positivity)
  linarith

/-- The slope of the mean over the weight, and its derivative. -/
noncomputable def swR (x : ℝ) : ℝ := (sinh x * cosh x - x) / (x * sinh x ^ 3)
noncomputable def swR' (x : ℝ) : ℝ :=
  (2 * x * sinh x ^ 3 - (sinh x * cosh x - x) * (sinh x + 3 * x * cosh x)) / (x ^ 2 * sinh x ^ 4)

theorem hasDerivAt_swR {x : ℝ} (hx : 0 < x) : HasDerivAt swR (swR' x) x := by
  have hs : 0 < sinh x := sinh_pos_iff.2 hx
  have h := ((((hasDerivAt_sinh x).mul (hasDerivAt_cosh x)).sub (hasDerivAt_id x)).div
    ((hasDerivAt_id x).mul ((hasDerivAt_sinh x).pow 3)) (mul_ne_zero hx.ne' (pow_ne_zero 3 hs.ne')))
  refine h.congr_deriv ?_
  have := cosh_sq x
  unfold swR'
  simp
  field_simp
  rw [this]
  ring

theorem swR_mul {x : ℝ} (hx : 0 < x) : swR x * (x * sinh x) = swMean' x := by
  have hs : 0 < sinh x := sinh_pos_iff.2 hx
  unfold swR swMean'
  field_simp

theorem swR'_nonpos {x : ℝ} (hx : 0 < x) : swR' x ≤ 0 := by
  have hs : 0 < sinh x := sinh_pos_iff.2 hx
  have hc := cosh_pos x
  have hsq := cosh_sq x
  have h1 := self_lt_sinh' hx
  have h2 := nonneg_of_deriv_nonneg (f := fun x => sinh x ^ 3 + 2 * sinh x - 2 * x * cosh x)
    (f' := fun x => sinh x * (3 * (sinh x * cosh x) - 2 * x)) (by simp) (fun x => by
      refine ((((hasDerivAt_sinh x).pow 3).add ((hasDerivAt_sinh x).const_mul 2)).sub
        (((hasDerivAt_id x).const_mul 2).mul (hasDerivAt_cosh x))).congr_deriv ?_
      norm_num; ring) (fun x hx => by
      have h3 := self_le_sinh_iff.2 hx
      have h4 := one_le_cosh x
      refine mul_nonneg (by linarith) ?_
      nlinarith) hx.le
  unfold swR'
  refine div_nonpos_of_nonpos_of_nonneg ?_ (by positivity)
  have e : 2 * x * sinh x ^ 3 - (sinh x * cosh x - x) * (sinh x + 3 * x * cosh x) =
      -((sinh x ^ 2 - x ^ 2) * cosh x + x * (sinh x ^ 3 + 2 * sinh x - 2 * x * cosh x)) := by
    linear_combination (-3 * x * sinh x) * hsq
  rw [e]
  have h5 : 0 ≤ (sinh x ^ 2 - x ^ 2) * cosh x := mul_nonneg (by nlinarith) hc.le
  have h6 := mul_nonneg hx.le h2
  linarith

/-- The product of this ratio and the primitive of the weight increases. -/
theorem swR'_ge {x : ℝ} (hx : 0 < x) : 0 ≤ swR' x * swG x + swMean' x := by
  have hs : 0 < sinh x := sinh_pos_iff.2 hx
  have hsq := cosh_sq x
  have p4 : ∀ y : ℝ, 0 ≤ y → 0 ≤ y ^ 3 * cosh y + 7 * y ^ 2 * sinh y - 2 * y * cosh y - 30 * sinh y + 16 * sinh (2 * y) := by
    intro y hy
    rw [sinh_two_mul]
    have h1 := self_le_sinh_iff.2 hy
    have h2 := one_le_cosh y
    have h3 : 0 ≤ sinh y := by linarith
    have h4 : 0 ≤ y ^ 3 * cosh y := by positivity
    have h5 : 0 ≤ 7 * y ^ 2 * sinh y := by positivity
    nlinarith [mul_nonneg h3 (by linarith : 0 ≤ cosh y - 1), mul_nonneg (by linarith : 0 ≤ cosh y) (by linarith : 0 ≤ sinh y - y)]
  have d2 : ∀ y : ℝ, HasDerivAt (fun y : ℝ => 2 * y) 2 y := fun y => by simpa using (hasDerivAt_id y).const_mul 2
  have p3 : ∀ y : ℝ, 0 ≤ y → 0 ≤ y ^ 3 * sinh y + 4 * y ^ 2 * cosh y - 10 * y * sinh y - 20 * cosh y + 8 * cosh (2 * y) + 12 := by
    intro y hy
    refine nonneg_of_deriv_nonneg (f := fun y => y ^ 3 * sinh y + 4 * y ^ 2 * cosh y - 10 * y * sinh y - 20 * cosh y + 8 * cosh (2 * y) + 12)
      (f' := fun y => y ^ 3 * cosh y + 7 * y ^ 2 * sinh y - 2 * y * cosh y - 30 * sinh y + 16 * sinh (2 * y)) (by norm_num) (fun y => ?_) p4 hy
    refine (((((((hasDerivAt_pow 3 y).mul (hasDerivAt_sinh y)).add (((hasDerivAt_pow 2 y).const_mul 4).mul (hasDerivAt_cosh y))).sub
      (((hasDerivAt_id y).const_mul 10).mul (hasDerivAt_sinh y))).sub ((hasDerivAt_cosh y).const_mul 20)).add
      ((d2 y).cosh.const_mul 8)).add_const 12).congr_deriv ?_
    norm_num; ring
  have p2 : ∀ y : ℝ, 0 ≤ y → 0 ≤ y ^ 3 * cosh y + y ^ 2 * sinh y - 12 * y * cosh y - 8 * sinh y + 4 * sinh (2 * y) + 12 * y := by
    intro y hy
    refine nonneg_of_deriv_nonneg (f := fun y => y ^ 3 * cosh y + y ^ 2 * sinh y - 12 * y * cosh y - 8 * sinh y + 4 * sinh (2 * y) + 12 * y)
      (f' := fun y => y ^ 3 * sinh y + 4 * y ^ 2 * cosh y - 10 * y * sinh y - 20 * cosh y + 8 * cosh (2 * y) + 12) (by norm_num) (fun y => ?_) p3 hy
    refine (((((((hasDerivAt_pow 3 y).mul (hasDerivAt_cosh y)).add ((hasDerivAt_pow 2 y).mul (hasDerivAt_sinh y))).sub
      (((hasDerivAt_id y).const_mul 12).mul (hasDerivAt_cosh y))).sub ((hasDerivAt_sinh y).const_mul 8)).add
      ((d2 y).sinh.const_mul 4)).add ((hasDerivAt_id y).const_mul 12)).congr_deriv ?_
    norm_num; ring
  have p1 : ∀ y : ℝ, 0 ≤ y → 0 ≤ y ^ 3 * sinh y - 2 * y ^ 2 * cosh y - 8 * y * sinh y + 2 * cosh (2 * y) + 6 * y ^ 2 - 2 := by
    intro y hy
    refine nonneg_of_deriv_nonneg (f := fun y => y ^ 3 * sinh y - 2 * y ^ 2 * cosh y - 8 * y * sinh y + 2 * cosh (2 * y) + 6 * y ^ 2 - 2)
      (f' := fun y => y ^ 3 * cosh y + y ^ 2 * sinh y - 12 * y * cosh y - 8 * sinh y + 4 * sinh (2 * y) + 12 * y) (by norm_num) (fun y => ?_) p2 hy
    refine (((((((hasDerivAt_pow 3 y).mul (hasDerivAt_sinh y)).sub (((hasDerivAt_pow 2 y).const_mul 2).mul (hasDerivAt_cosh y))).sub
      (((hasDerivAt_id y).const_mul 8).mul (hasDerivAt_sinh y))).add
      ((d2 y).cosh.const_mul 2)).add ((hasDerivAt_pow 2 y).const_mul 6)).sub_const 2).congr_deriv ?_
    norm_num; ring
  have p0 : ∀ y : ℝ, 0 ≤ y → 0 ≤ y ^ 3 * cosh y + 2 * y * cosh y + sinh (2 * y) - 2 * sinh y - 5 * y ^ 2 * sinh y + 2 * y ^ 3 - 2 * y := by
    intro y hy
    refine nonneg_of_deriv_nonneg (f := fun y => y ^ 3 * cosh y + 2 * y * cosh y + sinh (2 * y) - 2 * sinh y - 5 * y ^ 2 * sinh y + 2 * y ^ 3 - 2 * y)
      (f' := fun y => y ^ 3 * sinh y - 2 * y ^ 2 * cosh y - 8 * y * sinh y + 2 * cosh (2 * y) + 6 * y ^ 2 - 2) (by norm_num) (fun y => ?_) p1 hy
    refine ((((((((hasDerivAt_pow 3 y).mul (hasDerivAt_cosh y)).add (((hasDerivAt_id y).const_mul 2).mul (hasDerivAt_cosh y))).add
      (d2 y).sinh).sub ((hasDerivAt_sinh y).const_mul 2)).sub (((hasDerivAt_pow 2 y).const_mul 5).mul (hasDerivAt_sinh y))).add
      ((hasDerivAt_pow 3 y).const_mul 2)).sub ((hasDerivAt_id y).const_mul 2)).congr_deriv ?_
    norm_num; ring
  have h := p0 (2 * x) (by linarith)
  rw [sinh_two_mul (2 * x), sinh_two_mul, cosh_two_mul, hsq] at h
  have key : 0 ≤ 2 * x ^ 3 * sinh x ^ 2 + x * sinh x ^ 2 + sinh x ^ 3 * cosh x - 5 * x ^ 2 * sinh x * cosh x + 3 * x ^ 3 := by
    linarith
  have e : swR' x * swG x + swMean' x =
      (2 * x ^ 3 * sinh x ^ 2 + x * sinh x ^ 2 + sinh x ^ 3 * cosh x - 5 * x ^ 2 * sinh x * cosh x + 3 * x ^ 3) / (x ^ 2 * sinh x ^ 4) := by
    unfold swR' swG swMean'
    rw [div_mul_eq_mul_div, div_add_div _ _ (by positivity) (by positivity), div_eq_div_iff (by positivity) (by positivity)]
    have : cosh x ^ 3 = cosh x * (sinh x ^ 2 + 1) := by rw [← hsq]; ring
    linear_combination (x ^ 2 * sinh x ^ 6) * ((-3 * x ^ 2 * sinh x) * this + (3 * x ^ 3 + 2 * x * sinh x ^ 2) * hsq)
  rw [e]
  exact div_nonneg key (by positivity)

end Polymers.Lemmas
