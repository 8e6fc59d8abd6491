import Verif.Lemmas.SwfjcShape
import Mathlib.Analysis.Complex.ExponentialBounds

/-! Cumulants of the mixture that describes one square-well link, over `[a, x]` with weight `s sinh s`. -/

namespace Polymers.Lemmas

open Real Set Filter Topology Polymers.Props

/-- Weight and moments of the mixture. -/
noncomputable def swM (a x : ℝ) : ℝ := swG x - swG a
noncomputable def swA1 (a x : ℝ) : ℝ := swE1 x - swE1 a
noncomputable def swA2 (a x : ℝ) : ℝ := swE2 x - swE2 a
noncomputable def swA3 (a x : ℝ) : ℝ := swE3 x - swE3 a
/-- How far the mean of the mixture lies below the mean at its upper end, times the weight. -/
noncomputable def swD (a x : ℝ) : ℝ := swMean x * swM a x - swA1 a x

section
variable {a x : ℝ}

theorem hasDerivAt_swM (a x : ℝ) : HasDerivAt (swM a) (x * sinh x) x := (hasDerivAt_swG x).sub_const _
theorem hasDerivAt_swA1 (a x : ℝ) : HasDerivAt (swA1 a) (x * swG x) x := (hasDerivAt_swE1 x).sub_const _
theorem hasDerivAt_swA2 (a x : ℝ) : HasDerivAt (swA2 a) (x * swH x) x := (hasDerivAt_swE2 x).sub_const _
theorem hasDerivAt_swA3 (a x : ℝ) : HasDerivAt (swA3 a) (x * swK x) x := (hasDerivAt_swE3 x).sub_const _

theorem swG_eq (hx : 0 < x) : swG x = sinh x * swMean x := by
  have hs : 0 < sinh x := sinh_pos_iff.2 hx
  unfold swMean; field_simp

theorem swH_eq (hx : 0 < x) : swH x = sinh x * (swVar x + swMean x ^ 2) := by
  have hs : 0 < sinh x := sinh_pos_iff.2 hx
  have hc := cosh_sq x
  unfold swMean swVar swH swG; field_simp
  linear_combination (-x ^ 2) * hc

theorem swVar'_eq (hx : 0 < x) : x * swVar' x = 2 * swMean x * (1 - swVar x) := by
  have hs : 0 < sinh x := sinh_pos_iff.2 hx
  unfold swMean swVar swVar'; field_simp; ring

theorem swK_eq (hx : 0 < x) :
    swK x = sinh x * (2 * swMean x * (1 - swVar x) - 2 * swVar x + 3 * swMean x * swVar x + swMean x ^ 3) := by
  have hs : 0 < sinh x := sinh_pos_iff.2 hx
  have hc := cosh_sq x
  unfold swMean swVar swK swG; field_simp
  linear_combination (-x ^ 3 * cosh x + 3 * x ^ 2 * sinh x) * hc

theorem hasDerivAt_swD (hx : 0 < x) : HasDerivAt (swD a) (swMean' x * swM a x) x := by
  refine (((hasDerivAt_swMean hx).mul (hasDerivAt_swM a x)).sub (hasDerivAt_swA1 a x)).congr_deriv ?_
  rw [swG_eq hx]; ring

theorem swM_self (a : ℝ) : swM a a = 0 := sub_self _
theorem swA1_self (a : ℝ) : swA1 a a = 0 := sub_self _
theorem swA2_self (a : ℝ) : swA2 a a = 0 := sub_self _
theorem swA3_self (a : ℝ) : swA3 a a = 0 := sub_self _
theorem swD_self (a : ℝ) : swD a a = 0 := by rw [swD, swM_self, swA1_self]; ring

theorem swM_pos (ha : 0 < a) (hx : a < x) : 0 < swM a x :=
  sub_pos.2 (swG_strictMonoOn (mem_Ici.2 ha.le) (mem_Ici.2 (ha.le.trans hx.le)) hx)

theorem swM_nonneg (ha : 0 < a) (hx : a ≤ x) : 0 ≤ swM a x := by
  rcases hx.eq_or_lt with rfl | h
  · exact (swM_self a).ge
  · exact (swM_pos ha h).le

theorem swM_le (ha : 0 < a) : swM a x ≤ swG x := sub_le_self _ (swG_pos ha).le

theorem swA1_nonneg (ha : 0 < a) (hx : a ≤ x) : 0 ≤ swA1 a x :=
  nonneg_of_deriv_from hx (swA1_self a).ge (fun y _ => hasDerivAt_swA1 a y) fun y hy =>
    (mul_pos (ha.trans hy) (swG_pos (ha.trans hy))).le

theorem swA2_nonneg (ha : 0 < a) (hx : a ≤ x) : 0 ≤ swA2 a x :=
  nonneg_of_deriv_from hx (swA2_self a).ge (fun y _ => hasDerivAt_swA2 a y) fun y hy => by
    have h := ha.trans hy
    have := swVar_pos h
    have := sinh_pos_iff.2 h
    rw [swH_eq h]; positivity

theorem swD_nonneg (ha : 0 < a) (hx : a ≤ x) : 0 ≤ swD a x :=
  nonneg_of_deriv_from hx (swD_self a).ge (fun _ hy => hasDerivAt_swD (ha.trans_le hy)) fun y hy =>
    (mul_pos (swMean'_pos (ha.trans hy)) (swM_pos ha hy)).le

theorem swA1_le (ha : 0 < a) (hx : a ≤ x) : swA1 a x ≤ swMean x * swM a x := by
  have := swD_nonneg ha hx
  unfold swD at this; linarith

theorem swD_le (ha : 0 < a) (hx : a ≤ x) : swD a x ≤ swM a x := by
  have := nonneg_of_deriv_from (h := fun x => swM a x - swD a x) hx (by rw [swM_self, swD_self]; simp)
    (fun y hy => (hasDerivAt_swM a y).sub (hasDerivAt_swD (ha.trans_le hy))) fun y hy => by
      have h := ha.trans hy
      have h1 := swM_le (a := a) (x := y) ha
      have h2 := swG_le_mul_sinh h
      have h3 := swMean'_le_one h
      have h4 := mul_le_mul_of_nonneg_right h3 (swM_pos ha hy).le
      linarith
  linarith

theorem swD_le_mean (ha : 0 < a) (hx : a ≤ x) : swD a x ≤ 2 / 5 * swMean x * swM a x := by
  have := nonneg_of_deriv_from (h := fun x => 2 / 5 * (swMean x * swM a x) - swD a x) hx (by rw [swM_self, swD_self]; simp)
    (fun y hy => (((hasDerivAt_swMean (ha.trans_le hy)).mul (hasDerivAt_swM a y)).const_mul (2 / 5)).sub
      (hasDerivAt_swD (ha.trans_le hy))) fun y hy => by
      have h := ha.trans hy
      have h1 := swM_le (a := a) (x := y) ha
      have h2 := swMean'_le h
      have h3 := swM_pos ha hy
      have h5 := swG_eq h
      have h4 : swMean' y * swM a y ≤ 2 / 3 * y * swG y :=
        mul_le_mul h2 h1 h3.le (by positivity)
      have h6 : y * swG y = swMean y * (y * sinh y) := by rw [h5]; ring
      linarith
  linarith

theorem swD_ge (ha : 0 < a) (hx : a ≤ x) : swMean' x * swM a x ^ 2 ≤ 2 * (x * sinh x) * swD a x := by
  have := nonneg_of_deriv_from (h := fun x => 2 * swD a x - swR x * swM a x ^ 2)
    (h' := fun y => -swR' y * swM a y ^ 2) hx (by rw [swM_self, swD_self]; simp)
    (fun y hy => by
      have h := ha.trans_le hy
      refine (((hasDerivAt_swD h).const_mul 2).sub ((hasDerivAt_swR h).mul ((hasDerivAt_swM a y).pow 2))).congr_deriv ?_
      have := swR_mul h
      norm_num
      linear_combination (-2 * swM a y) * this) fun y hy => by
      have := swR'_nonpos (ha.trans hy)
      have : 0 ≤ -swR' y := by linarith
      positivity
  have h := ha.trans_le hx
  have hs := sinh_pos_iff.2 h
  have h2 := mul_nonneg (show 0 ≤ x * sinh x by positivity) this
  have := swR_mul h
  nlinarith

theorem swD_le_slope (ha : 0 < a) (hx : a ≤ x) : (x * sinh x) * swD a x ≤ swMean' x * swM a x ^ 2 := by
  have := nonneg_of_deriv_from (h := fun x => swR x * swM a x ^ 2 - swD a x)
    (h' := fun y => swM a y * (swR' y * swM a y + swMean' y)) hx (by rw [swM_self, swD_self]; simp)
    (fun y hy => by
      have h := ha.trans_le hy
      refine (((hasDerivAt_swR h).mul ((hasDerivAt_swM a y).pow 2)).sub (hasDerivAt_swD h)).congr_deriv ?_
      have := swR_mul h
      norm_num
      linear_combination (2 * swM a y) * this) fun y hy => by
      have h := ha.trans hy
      have h1 := swR'_nonpos h
      have h2 := swR'_ge h
      have h3 := mul_le_mul_of_nonpos_left (swM_le (x := y) ha) h1
      exact mul_nonneg (swM_pos ha hy).le (by linarith)
  have h := ha.trans_le hx
  have hs := sinh_pos_iff.2 h
  have h2 := mul_nonneg (show 0 ≤ x * sinh x by positivity) this
  have := swR_mul h
  nlinarith

/-- Variance of the mixture, times its weight. -/
noncomputable def swS (a x : ℝ) : ℝ := swA2 a x - swA1 a x ^ 2 / swM a x
/-- Third cumulant of the mixture, times its weight. -/
noncomputable def swT (a x : ℝ) : ℝ :=
  swA3 a x - 3 * (swA1 a x * swA2 a x / swM a x) + 2 * (swA1 a x ^ 3 / swM a x ^ 2)

theorem hasDerivAt_swS (ha : 0 < a) (hx : a < x) :
    HasDerivAt (swS a) (x * sinh x * (swVar x + (swD a x / swM a x) ^ 2)) x := by
  have h := ha.trans hx
  have hM := swM_pos ha hx
  refine ((hasDerivAt_swA2 a x).sub (((hasDerivAt_swA1 a x).pow 2).div (hasDerivAt_swM a x) hM.ne')).congr_deriv ?_
  rw [swH_eq h, swG_eq h]
  have e : swA1 a x = swMean x * swM a x - swD a x := by unfold swD; ring
  norm_num
  rw [e]
  field_simp
  ring

theorem hasDerivAt_swT (ha : 0 < a) (hx : a < x) :
    HasDerivAt (swT a) (x * sinh x * (2 * swMean x * (1 - swVar x) - 2 * swVar x +
      3 * (swD a x / swM a x) * (swVar x - swS a x / swM a x) + (swD a x / swM a x) ^ 3)) x := by
  have h := ha.trans hx
  have hM := swM_pos ha hx
  refine (((hasDerivAt_swA3 a x).sub ((((hasDerivAt_swA1 a x).mul (hasDerivAt_swA2 a x)).div (hasDerivAt_swM a x) hM.ne').const_mul 3)).add
    ((((hasDerivAt_swA1 a x).pow 3).div ((hasDerivAt_swM a x).pow 2) (pow_ne_zero 2 hM.ne')).const_mul 2)).congr_deriv ?_
  rw [swK_eq h, swH_eq h, swG_eq h, swS]
  have e : swA1 a x = swMean x * swM a x - swD a x := by unfold swD; ring
  norm_num
  rw [e]
  field_simp
  ring

theorem hasDerivAt_swD_sq (ha : 0 < a) (hx : a < x) : HasDerivAt (fun x => swD a x ^ 2 / swM a x)
    (2 * (swD a x / swM a x) * (swMean' x * swM a x) - x * sinh x * (swD a x / swM a x) ^ 2) x := by
  have h := ha.trans hx
  have hM := swM_pos ha hx
  refine (((hasDerivAt_swD h).pow 2).div (hasDerivAt_swM a x) hM.ne').congr_deriv ?_
  norm_num
  field_simp

theorem swA1_sq_le (ha : 0 < a) (hx : a < x) : swA1 a x ^ 2 / swM a x ≤ swMean x * swA1 a x := by
  have hM := swM_pos ha hx
  rw [div_le_iff₀ hM]
  have := mul_le_mul_of_nonneg_left (swA1_le ha hx.le) (swA1_nonneg ha hx.le)
  linarith

/-- The variance of the mixture from below. -/
theorem swS_ge (ha : 0 < a) (hx : a < x) : 3 / 5 * swVar x * swM a x + swD a x ^ 2 / (3 * swM a x) ≤ swS a x := by
  have := nonneg_of_deriv_near (h := fun x => swS a x - 3 / 5 * (swVar x * swM a x) - 1 / 3 * (swD a x ^ 2 / swM a x))
    (h' := fun y => y * sinh y * (swVar y + (swD a y / swM a y) ^ 2) - 3 / 5 * (swVar' y * swM a y + swVar y * (y * sinh y)) -
      1 / 3 * (2 * (swD a y / swM a y) * (swMean' y * swM a y) - y * sinh y * (swD a y / swM a y) ^ 2))
    (c := fun y => swMean y * swA1 a y + 3 / 5 * (swVar y * swM a y) + 1 / 3 * (swMean y * swD a y)) hx
    (fun y hy => ((hasDerivAt_swS ha hy).sub (((hasDerivAt_swVar (ha.trans hy)).mul (hasDerivAt_swM a y)).const_mul (3 / 5))).sub
      ((hasDerivAt_swD_sq ha hy).const_mul (1 / 3)))
    (fun y hy => by
      have h := ha.trans hy
      have hM := swM_pos ha hy
      have hs := sinh_pos_iff.2 h
      have h1 := swVar'_le h
      have h2 := swG_le_third h
      have h3 := swM_le (x := y) ha
      have h4 := swD_ge ha hy.le
      have h5 := swD_nonneg ha hy.le
      have h6 := (swVar'_pos h).le
      have h7 := swVar_pos h
      have k1 : 3 * (swVar' y * swM a y) ≤ 2 * (swVar y * (y * sinh y)) := by
        have q1 : 3 * (swVar' y * swM a y) ≤ swVar' y * (y ^ 2 * sinh y) := by nlinarith
        have q2 : swVar' y * (y ^ 2 * sinh y) ≤ 2 * swVar y * (y * sinh y) := by
          have := mul_le_mul_of_nonneg_right h1 (show 0 ≤ y * sinh y by positivity)
          linarith
        linarith
      have hd : swMean' y * swM a y ≤ 2 * (y * sinh y) * (swD a y / swM a y) := by
        rw [mul_div_assoc', le_div_iff₀ hM]; linarith
      have hd0 : 0 ≤ swD a y / swM a y := by positivity
      have := mul_le_mul_of_nonneg_left hd hd0
      nlinarith)
    (fun y hy => by
      have hM := swM_pos ha hy
      have h1 := swA1_sq_le ha hy
      have h2 := swA2_nonneg ha hy.le
      have h3 := swD_nonneg ha hy.le
      have h4 := swA1_nonneg ha hy.le
      have h5 : swD a y ^ 2 / swM a y ≤ swMean y * swD a y := by
        rw [div_le_iff₀ hM]
        have : swD a y ≤ swMean y * swM a y := by unfold swD; linarith
        nlinarith
      unfold swS
      linarith)
    (by
      have := (hasDerivAt_swMean ha).continuousAt
      have := (hasDerivAt_swVar ha).continuousAt
      have := (hasDerivAt_swM a a).continuousAt
      have := (hasDerivAt_swA1 a a).continuousAt
      have := (hasDerivAt_swD (a := a) ha).continuousAt
      fun_prop)
    (by rw [swA1_self, swM_self, swD_self]; ring)
  have e : swD a x ^ 2 / (3 * swM a x) = 1 / 3 * (swD a x ^ 2 / swM a x) := by
    have := (swM_pos ha hx).ne'
    field_simp
  rw [e]; linarith

/-- The variance of the mixture from above. -/
theorem swS_le (ha : 0 < a) (hx : a < x) : swS a x ≤ swVar x * swM a x + (swD a x ^ 2 / swM a x + 2 * swD a x) / 3 := by
  have := nonneg_of_deriv_near (h := fun x => swVar x * swM a x + 1 / 3 * (swD a x ^ 2 / swM a x + 2 * swD a x) - swS a x)
    (h' := fun y => (swVar' y * swM a y + swVar y * (y * sinh y)) +
      1 / 3 * ((2 * (swD a y / swM a y) * (swMean' y * swM a y) - y * sinh y * (swD a y / swM a y) ^ 2) + 2 * (swMean' y * swM a y)) -
      y * sinh y * (swVar y + (swD a y / swM a y) ^ 2))
    (c := fun y => swA2 a y) hx
    (fun y hy => (((hasDerivAt_swVar (ha.trans hy)).mul (hasDerivAt_swM a y)).add
      (((hasDerivAt_swD_sq ha hy).add ((hasDerivAt_swD (ha.trans hy)).const_mul 2)).const_mul (1 / 3))).sub (hasDerivAt_swS ha hy))
    (fun y hy => by
      have h := ha.trans hy
      have hM := swM_pos ha hy
      have h4 := swD_le_slope ha hy.le
      have h5 := swD_nonneg ha hy.le
      have h6 := (swVar'_pos h).le
      have hd : y * sinh y * (swD a y / swM a y) ≤ swMean' y * swM a y := by
        rw [mul_div_assoc', div_le_iff₀ hM]; linarith
      have hd0 : 0 ≤ swD a y / swM a y := by positivity
      have hd1 : swD a y / swM a y ≤ 1 := by rw [div_le_one hM]; exact swD_le ha hy.le
      have h7 := mul_le_mul_of_nonneg_left hd hd0
      have h8 := mul_le_mul_of_nonneg_right hd1 (mul_pos (swMean'_pos h) hM).le
      have h9 := mul_nonneg h6 hM.le
      nlinarith)
    (fun y hy => by
      have hM := swM_pos ha hy
      have h3 := swD_nonneg ha hy.le
      have h4 := swVar_pos (ha.trans hy)
      have h5 : 0 ≤ swA1 a y ^ 2 / swM a y := by positivity
      have h6 : 0 ≤ swVar y * swM a y + 1 / 3 * (swD a y ^ 2 / swM a y + 2 * swD a y) := by positivity
      unfold swS
      linarith)
    (hasDerivAt_swA2 a a).continuousAt
    (swA2_self a)
  linarith

theorem sinh_ge_quintic (hx : 0 ≤ x) : x + x ^ 3 / 6 + x ^ 5 / 120 ≤ sinh x := by
  have p1 : ∀ y : ℝ, 0 ≤ y → 0 ≤ cosh y - (1 + y ^ 2 / 2) := fun y hy =>
    nonneg_of_deriv_nonneg (f := fun y => cosh y - (1 + y ^ 2 / 2)) (f' := fun y => sinh y - y) (by simp) (fun y => by
      refine ((hasDerivAt_cosh y).sub (((hasDerivAt_pow 2 y).div_const 2).const_add 1)).congr_deriv ?_
      norm_num) (fun y hy => by have := self_le_sinh_iff.2 hy; linarith) hy
  have p2 : ∀ y : ℝ, 0 ≤ y → 0 ≤ sinh y - (y + y ^ 3 / 6) := fun y hy =>
    nonneg_of_deriv_nonneg (f := fun y => sinh y - (y + y ^ 3 / 6)) (f' := fun y => cosh y - (1 + y ^ 2 / 2)) (by simp) (fun y => by
      refine ((hasDerivAt_sinh y).sub ((hasDerivAt_id y).add ((hasDerivAt_pow 3 y).div_const 6))).congr_deriv ?_
      norm_num; ring) p1 hy
  have p3 : ∀ y : ℝ, 0 ≤ y → 0 ≤ cosh y - (1 + y ^ 2 / 2 + y ^ 4 / 24) := fun y hy =>
    nonneg_of_deriv_nonneg (f := fun y => cosh y - (1 + y ^ 2 / 2 + y ^ 4 / 24)) (f' := fun y => sinh y - (y + y ^ 3 / 6)) (by simp) (fun y => by
      refine ((hasDerivAt_cosh y).sub ((((hasDerivAt_pow 2 y).div_const 2).const_add 1).add ((hasDerivAt_pow 4 y).div_const 24))).congr_deriv ?_
      norm_num; ring) p2 hy
  have := nonneg_of_deriv_nonneg (f := fun y => sinh y - (y + y ^ 3 / 6 + y ^ 5 / 120)) (f' := fun y => cosh y - (1 + y ^ 2 / 2 + y ^ 4 / 24))
    (by simp) (fun y => by
      refine ((hasDerivAt_sinh y).sub (((hasDerivAt_id y).add ((hasDerivAt_pow 3 y).div_const 6)).add
        ((hasDerivAt_pow 5 y).div_const 120))).congr_deriv ?_
      norm_num; ring) p3 hx
  linarith

/-- The third cumulant of the even distribution is negative enough. -/
theorem swMean_mul_le (hx : 0 < x) {e : ℝ} (h0 : 0 ≤ e) (h1 : e ≤ 2 / 5 * swMean x) (h2 : e ≤ 1) :
    swMean x * (1 - swVar x) ≤ swVar x * (1 - 3 / 5 * e) := by
  have hs := sinh_pos_iff.2 hx
  have hq := sinh_ge_quintic hx.le
  have hm0 := swMean_pos hx
  -- the claim in terms of `sinh`
  suffices h : swMean x * x ^ 2 ≤ (sinh x ^ 2 - x ^ 2) * (1 - 3 / 5 * e) by
    unfold swVar
    have e1 : swMean x * (1 - (1 - x ^ 2 / sinh x ^ 2)) = swMean x * x ^ 2 / sinh x ^ 2 := by ring
    have e2 : (1 - x ^ 2 / sinh x ^ 2) * (1 - 3 / 5 * e) = (sinh x ^ 2 - x ^ 2) * (1 - 3 / 5 * e) / sinh x ^ 2 := by
      field_simp
    rw [e1, e2]
    gcongr
  have hp : x * (1 + x ^ 2 / 6 + x ^ 4 / 120) ≤ sinh x := by nlinarith
  have hsq : (x * (1 + x ^ 2 / 6 + x ^ 4 / 120)) ^ 2 ≤ sinh x ^ 2 := by
    have : 0 ≤ x * (1 + x ^ 2 / 6 + x ^ 4 / 120) := by positivity
    gcongr
  rcases le_total x (13 / 5) with hc | hc
  · have hmX : swMean x ≤ x ^ 2 / 3 := by
      have := swG_le_third hx
      unfold swMean
      rw [div_le_iff₀ hs]; linarith
    obtain ⟨X, hX⟩ : ∃ X, X = x ^ 2 / 3 := ⟨_, rfl⟩
    have hX0 : 0 ≤ X := by rw [hX]; positivity
    have hX1 : X ≤ 169 / 75 := by rw [hX]; nlinarith
    rw [← hX] at hmX
    have hsub : x ^ 2 * (X + 2 / 5 * X ^ 2 + 3 / 40 * X ^ 3) ≤ sinh x ^ 2 - x ^ 2 := by
      have : x ^ 2 * (1 + X + 2 / 5 * X ^ 2 + 3 / 40 * X ^ 3) ≤ (x * (1 + x ^ 2 / 6 + x ^ 4 / 120)) ^ 2 := by
        have e3 : (x * (1 + x ^ 2 / 6 + x ^ 4 / 120)) ^ 2 = x ^ 2 * (1 + X + 2 / 5 * X ^ 2 + 3 / 40 * X ^ 3) + x ^ 10 / 14400 := by
          rw [hX]; ring
        have : 0 ≤ x ^ 10 / 14400 := by positivity
        linarith
      linarith
    have he : 1 - 6 / 25 * X ≤ 1 - 3 / 5 * e := by linarith
    have he0 : 0 ≤ 1 - 6 / 25 * X := by linarith
    have hpoly : X ≤ (X + 2 / 5 * X ^ 2 + 3 / 40 * X ^ 3) * (1 - 6 / 25 * X) := by
      have : 0 ≤ X ^ 2 * (4 / 25 - 21 / 1000 * X - 18 / 1000 * X ^ 2) := by
        have : 0 ≤ 4 / 25 - 21 / 1000 * X - 18 / 1000 * X ^ 2 := by nlinarith
        positivity
      nlinarith
    calc swMean x * x ^ 2 ≤ X * x ^ 2 := by gcongr
      _ ≤ (X + 2 / 5 * X ^ 2 + 3 / 40 * X ^ 3) * (1 - 6 / 25 * X) * x ^ 2 := by gcongr
      _ = x ^ 2 * (X + 2 / 5 * X ^ 2 + 3 / 40 * X ^ 3) * (1 - 6 / 25 * X) := by ring
      _ ≤ _ := by
        have : 0 ≤ x ^ 2 * (X + 2 / 5 * X ^ 2 + 3 / 40 * X ^ 3) := by positivity
        exact mul_le_mul hsub he he0 (this.trans hsub)
  · have h4 : 4 ≤ sinh x := by
      have : x ^ 3 ≥ (13 / 5) ^ 3 := by gcongr
      have : 0 ≤ x ^ 5 / 120 := by positivity
      norm_num at *; linarith
    have hm : swMean x ≤ x - 9 / 10 := by
      unfold swMean
      rw [div_le_iff₀ hs]
      have h5 : x * exp (-x) ≤ 2 / 5 := by
        have h6 := add_one_le_exp (x - 1)
        have h7 : exp (x - 1) * exp (-x) = exp (-1) := by rw [← exp_add]; ring_nf
        have h8 : exp (-1) < 2 / 5 := lt_trans exp_neg_one_lt_d9 (by norm_num)
        nlinarith [exp_pos (-x)]
      have h9 := cosh_sub_sinh x
      unfold swG
      nlinarith
    have hpoly : x - 1 / 2 ≤ 2 / 5 * (1 + x ^ 2 / 6 + x ^ 4 / 120) ^ 2 := by
      have h5 : 223 / 1000 * x ^ 2 ≤ x ^ 2 / 6 + x ^ 4 / 120 := by nlinarith [sq_nonneg x, mul_nonneg (sq_nonneg x) (by nlinarith : (0:ℝ) ≤ x ^ 2 - 169 / 25)]
      have h6 : (1 + 223 / 1000 * x ^ 2) ^ 2 ≤ (1 + x ^ 2 / 6 + x ^ 4 / 120) ^ 2 := by
        have : 0 ≤ 1 + 223 / 1000 * x ^ 2 := by positivity
        have : 1 + 223 / 1000 * x ^ 2 ≤ 1 + x ^ 2 / 6 + x ^ 4 / 120 := by linarith
        gcongr
      have h7 : x - 1 / 2 ≤ 2 / 5 * (1 + 223 / 1000 * x ^ 2) ^ 2 := by nlinarith [mul_nonneg (sq_nonneg x) (by nlinarith : (0:ℝ) ≤ x ^ 2 - 169 / 25)]
      linarith
    have he : 2 / 5 ≤ 1 - 3 / 5 * e := by linarith
    have hsub : 0 ≤ sinh x ^ 2 - x ^ 2 := by
      have := self_lt_sinh' hx
      nlinarith
    have h10 := mul_le_mul_of_nonneg_left he hsub
    have h11 := mul_le_mul_of_nonneg_right hm (sq_nonneg x)
    have h12 := mul_le_mul_of_nonneg_left hpoly (sq_nonneg x)
    nlinarith

/-- The third cumulant of the mixture is not positive. -/
theorem swT_nonpos (ha : 0 < a) (hx : a < x) : swT a x ≤ 0 := by
  have := nonneg_of_deriv_near (h := fun x => -swT a x)
    (c := fun y => swA3 a y + 2 * (swMean y ^ 2 * swA1 a y)) hx
    (fun y hy => (hasDerivAt_swT ha hy).neg)
    (fun y hy => by
      have h := ha.trans hy
      have hM := swM_pos ha hy
      have hs := sinh_pos_iff.2 h
      have hd0 : 0 ≤ swD a y / swM a y := div_nonneg (swD_nonneg ha hy.le) hM.le
      have hd1 : swD a y / swM a y ≤ 1 := by rw [div_le_one hM]; exact swD_le ha hy.le
      have hd2 : swD a y / swM a y ≤ 2 / 5 * swMean y := by rw [div_le_iff₀ hM]; exact swD_le_mean ha hy.le
      have hv := swMean_mul_le h hd0 hd2 hd1
      have hS : 3 / 5 * swVar y + (swD a y / swM a y) ^ 2 / 3 ≤ swS a y / swM a y := by
        rw [le_div_iff₀ hM]
        have := swS_ge ha hy
        have e : (3 / 5 * swVar y + (swD a y / swM a y) ^ 2 / 3) * swM a y = 3 / 5 * swVar y * swM a y + swD a y ^ 2 / (3 * swM a y) := by
          field_simp
        rw [e]; exact this
      have := mul_le_mul_of_nonneg_left hS hd0
      rw [← mul_neg]
      refine mul_nonneg (by positivity) ?_
      nlinarith)
    (fun y hy => by
      have hM := swM_pos ha hy
      have h2 := swA2_nonneg ha hy.le
      have h4 := swA1_nonneg ha hy.le
      have h5 := swA1_le ha hy.le
      have h6 : swA1 a y ^ 3 / swM a y ^ 2 ≤ swMean y ^ 2 * swA1 a y := by
        rw [div_le_iff₀ (by positivity)]
        have : swA1 a y ^ 2 ≤ (swMean y * swM a y) ^ 2 := by gcongr
        have := mul_le_mul_of_nonneg_left this h4
        linarith
      have h7 : 0 ≤ swA1 a y * swA2 a y / swM a y := by positivity
      unfold swT
      linarith)
    (by
      have := (hasDerivAt_swMean ha).continuousAt
      have := (hasDerivAt_swA1 a a).continuousAt
      have := (hasDerivAt_swA3 a a).continuousAt
      fun_prop)
    (by rw [swA1_self, swA3_self]; ring)
  linarith

/-- It is not below minus twice the variance. -/
theorem swT_ge (ha : 0 < a) (hx : a < x) : 0 ≤ swT a x + 2 * swS a x := by
  refine nonneg_of_deriv_near (h := fun x => swT a x + 2 * swS a x)
    (c := fun y => 3 * (swMean y * swA2 a y) + 2 * (swMean y * swA1 a y) - swA3 a y) hx
    (fun y hy => (hasDerivAt_swT ha hy).add ((hasDerivAt_swS ha hy).const_mul 2))
    (fun y hy => by
      have h := ha.trans hy
      have hM := swM_pos ha hy
      have hs := sinh_pos_iff.2 h
      have hd0 : 0 ≤ swD a y / swM a y := div_nonneg (swD_nonneg ha hy.le) hM.le
      have hv : 0 ≤ swMean y * (1 - swVar y) := by
        have h1 := swVar'_eq h
        have := mul_pos h (swVar'_pos h)
        linarith
      have hS : swS a y / swM a y ≤ swVar y + ((swD a y / swM a y) ^ 2 + 2 * (swD a y / swM a y)) / 3 := by
        rw [div_le_iff₀ hM]
        have := swS_le ha hy
        have e : (swVar y + ((swD a y / swM a y) ^ 2 + 2 * (swD a y / swM a y)) / 3) * swM a y =
            swVar y * swM a y + (swD a y ^ 2 / swM a y + 2 * swD a y) / 3 := by
          field_simp
        rw [e]; exact this
      have := mul_le_mul_of_nonneg_left hS hd0
      have e : y * sinh y * (2 * swMean y * (1 - swVar y) - 2 * swVar y +
          3 * (swD a y / swM a y) * (swVar y - swS a y / swM a y) + (swD a y / swM a y) ^ 3) +
          2 * (y * sinh y * (swVar y + (swD a y / swM a y) ^ 2)) = y * sinh y * (2 * swMean y * (1 - swVar y) +
          3 * (swD a y / swM a y) * (swVar y - swS a y / swM a y) + (swD a y / swM a y) ^ 3 + 2 * (swD a y / swM a y) ^ 2) := by ring
      rw [e]
      refine mul_nonneg (by positivity) ?_
      nlinarith)
    (fun y hy => by
      have hM := swM_pos ha hy
      have h2 := swA2_nonneg ha hy.le
      have h4 := swA1_nonneg ha hy.le
      have h5 := swA1_le ha hy.le
      have h1 := swA1_sq_le ha hy
      have h7 : swA1 a y * swA2 a y / swM a y ≤ swMean y * swA2 a y := by
        rw [div_le_iff₀ hM]
        have := mul_le_mul_of_nonneg_right h5 h2
        linarith
      have h8 : 0 ≤ swA1 a y ^ 3 / swM a y ^ 2 := by positivity
      unfold swT swS
      linarith)
    (by
      have := (hasDerivAt_swMean ha).continuousAt
      have := (hasDerivAt_swA1 a a).continuousAt
      have := (hasDerivAt_swA2 a a).continuousAt
      have := (hasDerivAt_swA3 a a).continuousAt
      fun_prop)
    (by rw [swA1_self, swA3_self, swA2_self]; ring)

end

end Polymers.Lemmas
