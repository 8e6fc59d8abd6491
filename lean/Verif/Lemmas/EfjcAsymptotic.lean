import Verif.Lemmas.EfjcAlternative
import Verif.Lemmas.Links

/-!
The correction `h x / (β + x coth x)` with `h x = coth x - x / sinh² x` in the extension of the asymptotic models of
extensible links, and Newton's method for `L x + h x / (κ + x coth x) + x / κ = y`.
-/

namespace Polymers.Lemmas

open Real Set Polymers.Props

/-- The correction. -/
noncomputable def asyC (β x : ℝ) : ℝ := altH x / (β + x / tanh x)
/-- Its derivative. -/
noncomputable def asyC' (β x : ℝ) : ℝ := altH' x / (β + x / tanh x) - altH x ^ 2 / (β + x / tanh x) ^ 2
/-- The Langevin function with the correction. -/
noncomputable def asyG (β x : ℝ) : ℝ := langevin x + asyC β x
/-- Its derivative. -/
noncomputable def asyG' (β x : ℝ) : ℝ := 1 / x ^ 2 - 1 / sinh x ^ 2 + asyC' β x

theorem div_tanh_pos {x : ℝ} (hx : 0 < x) : 0 < x / tanh x := one_pos.trans (one_le_div_tanh hx.ne')

theorem self_lt_div_tanh {x : ℝ} (hx : 0 < x) : x < x / tanh x := by
  have hs : 0 < sinh x := sinh_pos_iff.2 hx
  rw [div_tanh_eq]
  exact lt_mul_of_one_lt_right hx ((one_lt_div hs).2 (sinh_lt_cosh x))

theorem hasDerivAt_asyC {β x : ℝ} (hβ : 0 ≤ β) (hx : 0 < x) : HasDerivAt (asyC β) (asyC' β x) x := by
  have hp := div_tanh_pos hx
  have hB : β + x / tanh x ≠ 0 := by positivity
  refine ((hasDerivAt_altH hx).div ((hasDerivAt_div_tanh hx.ne').const_add β) hB).congr_deriv ?_
  rw [asyC', show 1 / tanh x - x / sinh x ^ 2 = altH x from rfl]
  field_simp

theorem hasDerivAt_asyG {β x : ℝ} (hβ : 0 ≤ β) (hx : 0 < x) : HasDerivAt (asyG β) (asyG' β x) x :=
  (hasDerivAt_langevin hx.ne').add (hasDerivAt_asyC hβ hx)

/-- The second derivative of the correction. -/
theorem hasDerivAt_asyC' {β x : ℝ} (hβ : 0 ≤ β) (hx : 0 < x) :
    HasDerivAt (asyC' β) (2 * (3 * (sinh x * cosh x) - x * (2 * cosh x ^ 2 + 1)) / sinh x ^ 4 / (β + x / tanh x) -
      3 * altH x * altH' x / (β + x / tanh x) ^ 2 + 2 * altH x ^ 3 / (β + x / tanh x) ^ 3) x := by
  have hp := div_tanh_pos hx
  have hB : β + x / tanh x ≠ 0 := by positivity
  have h1 := (hasDerivAt_div_tanh hx.ne').const_add β
  have h2 := (hasDerivAt_altH' hx).div h1 hB
  have h3 := ((hasDerivAt_altH hx).pow 2).div (h1.pow 2) (pow_ne_zero 2 hB)
  refine (h2.sub h3).congr_deriv ?_
  simp only [Pi.pow_apply, Nat.cast_ofNat, show 2 - 1 = 1 from rfl, pow_one]
  rw [show 1 / tanh x - x / sinh x ^ 2 = altH x from rfl]
  generalize 2 * (3 * (sinh x * cosh x) - x * (2 * cosh x ^ 2 + 1)) / sinh x ^ 4 = p
  field_simp
  ring

/-- With `β = 0` the corrected function is `tanh`; this is its second derivative. -/
theorem asy_zero_identity {x : ℝ} (hx : 0 < x) :
    (-2 / x ^ 3 + 2 * cosh x / sinh x ^ 3) * (x / tanh x) ^ 3 +
      2 * (3 * (sinh x * cosh x) - x * (2 * cosh x ^ 2 + 1)) / sinh x ^ 4 * (x / tanh x) ^ 2 -
      3 * altH x * altH' x * (x / tanh x) + 2 * altH x ^ 3 = -2 * x ^ 3 / sinh x ^ 2 := by
  have hs : 0 < sinh x := sinh_pos_iff.2 hx
  have hc : 0 < cosh x := cosh_pos x
  have hsq := cosh_sq x
  rw [altH_eq hx, altH'_eq hx, div_tanh_eq]
  generalize sinh x = s at *
  generalize cosh x = c at *
  field_simp
  linear_combination (-x ^ 3 * (c ^ 2 - 1 + s ^ 2)) * hsq

theorem asyG_concave {β : ℝ} (hβ : 0 ≤ β) : ConcaveOn ℝ (Ioi 0) (asyG β) := by
  refine concaveOn_of_hasDerivWithinAt2_nonpos (convex_Ioi 0)
    (fun x hx => (hasDerivAt_asyG hβ hx).continuousAt.continuousWithinAt) (f' := asyG' β)
    (f'' := fun x => (-2 / x ^ 3 + 2 * cosh x / sinh x ^ 3) +
      (2 * (3 * (sinh x * cosh x) - x * (2 * cosh x ^ 2 + 1)) / sinh x ^ 4 / (β + x / tanh x) -
      3 * altH x * altH' x / (β + x / tanh x) ^ 2 + 2 * altH x ^ 3 / (β + x / tanh x) ^ 3))
    (fun x hx => ?_) (fun x hx => ?_) fun x hx => ?_
  all_goals rw [interior_Ioi] at hx
  · exact (hasDerivAt_asyG hβ hx).hasDerivWithinAt
  · exact ((hasDerivAt_langevin_deriv hx).add (hasDerivAt_asyC' hβ hx)).hasDerivWithinAt
  · have hx : 0 < x := hx
    have hs : 0 < sinh x := sinh_pos_iff.2 hx
    have h1 : -2 / x ^ 3 + 2 * cosh x / sinh x ^ 3 ≤ 0 := by
      have h := cube_mul_cosh_le hx.le
      have : 2 * cosh x / sinh x ^ 3 ≤ 2 / x ^ 3 := by
        rw [div_le_div_iff₀ (by positivity) (by positivity)]
        linarith
      have e : -2 / x ^ 3 = -(2 / x ^ 3) := by ring
      rw [e]; linarith
    have h2 : 2 * (3 * (sinh x * cosh x) - x * (2 * cosh x ^ 2 + 1)) / sinh x ^ 4 ≤ 0 := by
      have := sinh_mul_cosh_le hx.le
      exact div_nonpos_of_nonpos_of_nonneg (by linarith) (by positivity)
    have h3 := altH_nonneg hx
    have h4 := (altH'_pos hx).le
    have h5 := asy_zero_identity hx
    have h6 : -2 * x ^ 3 / sinh x ^ 2 ≤ 0 := div_nonpos_of_nonpos_of_nonneg (by have := pow_pos hx 3; linarith) (by positivity)
    have hw := div_tanh_pos hx
    generalize 2 * (3 * (sinh x * cosh x) - x * (2 * cosh x ^ 2 + 1)) / sinh x ^ 4 = p at *
    generalize -2 / x ^ 3 + 2 * cosh x / sinh x ^ 3 = l at *
    generalize -2 * x ^ 3 / sinh x ^ 2 = t at *
    generalize x / tanh x = w at *
    generalize altH x = h at *
    generalize altH' x = h' at *
    have hB : 0 < β + w := by positivity
    have e : l + (p / (β + w) - 3 * h * h' / (β + w) ^ 2 + 2 * h ^ 3 / (β + w) ^ 3) =
        (l * (β + w) ^ 3 + p * (β + w) ^ 2 - 3 * h * h' * (β + w) + 2 * h ^ 3) / (β + w) ^ 3 := by
      field_simp
      ring
    rw [e]
    refine div_nonpos_of_nonpos_of_nonneg ?_ (by positivity)
    have a1 : l * ((β + w) ^ 3 - w ^ 3) ≤ 0 :=
      mul_nonpos_of_nonpos_of_nonneg h1 (sub_nonneg.2 (pow_le_pow_left₀ hw.le (by linarith) 3))
    have a2 : p * ((β + w) ^ 2 - w ^ 2) ≤ 0 :=
      mul_nonpos_of_nonpos_of_nonneg h2 (sub_nonneg.2 (pow_le_pow_left₀ hw.le (by linarith) 2))
    have a3 : 0 ≤ 3 * h * h' * β := by positivity
    linarith


theorem asyC_nonneg {β x : ℝ} (hβ : 0 ≤ β) (hx : 0 < x) : 0 ≤ asyC β x := by
  have := div_tanh_pos hx
  have := altH_nonneg hx
  unfold asyC; positivity

/-- The function increases. -/
theorem asyG'_nonneg {β x : ℝ} (hβ : 0 ≤ β) (hx : 0 < x) : 0 ≤ asyG' β x := by
  by_contra hc
  push Not at hc
  have hpos : ∀ z, 0 < z → 0 < asyG β z := fun z hz => by
    have := langevin_pos hz
    have := asyC_nonneg hβ hz
    unfold asyG; positivity
  have hz : 0 < x + asyG β x / -asyG' β x := by
    have := hpos x hx
    have : 0 < asyG β x / -asyG' β x := div_pos this (by linarith)
    linarith
  have h := concave_tangent (asyG_concave hβ) (show x ∈ Ioi 0 from hx) (show _ ∈ Ioi 0 from hz) (hasDerivAt_asyG hβ hx)
  have e : asyG' β x * (x + asyG β x / -asyG' β x - x) = -asyG β x := by
    have := hc.ne
    field_simp
    ring
  have := hpos _ hz
  linarith

/-- `sinh² x / x²` increases. -/
theorem sinh_div_mono {x z : ℝ} (hx : 0 < x) (h : x ≤ z) : z * sinh x ≤ x * sinh z := by
  have hz := hx.trans_le h
  have h1 : ConvexOn ℝ (Ici (0:ℝ)) sinh := by
    refine convexOn_of_hasDerivWithinAt2_nonneg (convex_Ici 0) continuous_sinh.continuousOn (f' := cosh) (f'' := sinh)
      (fun x _ => (hasDerivAt_sinh x).hasDerivWithinAt) (fun x _ => (hasDerivAt_cosh x).hasDerivWithinAt) fun x hx => ?_
    rw [interior_Ici] at hx
    exact (sinh_pos_iff.2 hx).le
  have h2 := h1.2 (show (0:ℝ) ∈ Ici 0 from self_mem_Ici) (show z ∈ Ici (0:ℝ) from hz.le)
    (show 0 ≤ 1 - x / z from sub_nonneg.2 ((div_le_one hz).2 h)) (show 0 ≤ x / z by positivity) (by ring)
  simp only [smul_eq_mul, mul_zero, zero_add, sinh_zero, div_mul_cancel₀ _ hz.ne'] at h2
  have h3 := mul_le_mul_of_nonneg_left h2 hz.le
  rwa [← mul_assoc, mul_div_cancel₀ _ hz.ne'] at h3

/-- `x² L'` increases. -/
theorem sq_langevin_deriv_mono {x z : ℝ} (hx : 0 < x) (h : x ≤ z) :
    x ^ 2 * (1 / x ^ 2 - 1 / sinh x ^ 2) ≤ z ^ 2 * (1 / z ^ 2 - 1 / sinh z ^ 2) := by
  have hz := hx.trans_le h
  have hs : 0 < sinh x := sinh_pos_iff.2 hx
  have hs' : 0 < sinh z := sinh_pos_iff.2 hz
  have h1 := sinh_div_mono hx h
  have e : ∀ t : ℝ, 0 < t → t ^ 2 * (1 / t ^ 2 - 1 / sinh t ^ 2) = 1 - (t / sinh t) ^ 2 := fun t ht => by field_simp
  rw [e x hx, e z hz]
  have h2 : z / sinh z ≤ x / sinh x := by rw [div_le_div_iff₀ hs' hs]; exact h1
  have := pow_le_pow_left₀ (by positivity) h2 2
  linarith

theorem langevin_deriv_anti {x z : ℝ} (hx : 0 < x) (h : x ≤ z) :
    1 / z ^ 2 - 1 / sinh z ^ 2 ≤ 1 / x ^ 2 - 1 / sinh x ^ 2 := by
  rcases eq_or_lt_of_le h with rfl | h
  · rfl
  have hz := hx.trans h
  have h1 := concave_tangent langevin_concave (show x ∈ Ici 0 from hx.le) (show z ∈ Ici 0 from hz.le) (hasDerivAt_langevin hx.ne')
  have h2 := concave_tangent langevin_concave (show z ∈ Ici 0 from hz.le) (show x ∈ Ici 0 from hx.le) (hasDerivAt_langevin hz.ne')
  have : 0 ≤ (1 / x ^ 2 - 1 / sinh x ^ 2 - (1 / z ^ 2 - 1 / sinh z ^ 2)) * (z - x) := by linarith
  exact sub_nonneg.1 (nonneg_of_mul_nonneg_left this (by linarith))

theorem sinh_three_halves : 9 / 2 ≤ sinh (3 / 2) ^ 2 := by
  have h1 : cosh 3 = 2 * sinh (3 / 2) ^ 2 + 1 := by
    rw [show (3:ℝ) = 2 * (3 / 2) by norm_num, cosh_two_mul, cosh_sq]; norm_num; ring
  have h2 : 10 ≤ cosh 3 := by
    have h3 : (20:ℝ) ≤ exp 3 := by
      have := sum_le_exp_of_nonneg (x := 3) (by norm_num) 10
      norm_num [Finset.sum_range_succ, Nat.factorial] at this
      linarith
    have := exp_pos (-3)
    rw [cosh_eq]; linarith
  linarith

/-- `h² ≤ 2 x² L'`. -/
theorem altH_sq_le {x : ℝ} (hx : 0 < x) : altH x ^ 2 ≤ 2 * (x ^ 2 * (1 / x ^ 2 - 1 / sinh x ^ 2)) := by
  have h0 := altH_nonneg hx
  have h3 := sinh_three_halves
  have hd : (2:ℝ) / 9 ≤ 1 / (3 / 2) ^ 2 - 1 / sinh (3 / 2) ^ 2 := by
    have : 1 / sinh (3 / 2) ^ 2 ≤ 1 / (9 / 2) := one_div_le_one_div_of_le (by norm_num) h3
    norm_num at this ⊢
    linarith
  rcases le_total x (3 / 2) with h | h
  · have h1 := altH_le hx
    have h2 := langevin_deriv_anti hx h
    have h4 := pow_le_pow_left₀ h0 h1 2
    have h5 : x ^ 2 * (2 / 9) ≤ x ^ 2 * (1 / x ^ 2 - 1 / sinh x ^ 2) :=
      mul_le_mul_of_nonneg_left (by linarith) (by positivity)
    nlinarith
  · have h1 := pow_le_pow_left₀ h0 (altH_le_one hx) 2
    have h2 := sq_langevin_deriv_mono (by norm_num) h
    linarith

/-- The inequality which keeps the iterates positive: below the parameter, the correction is at most `x` times the slope. -/
theorem asyC_key {β x : ℝ} (hx : 0 < x) (h : x ≤ β) : asyC β x < x * asyG' β x := by
  have hd := langevin_deriv_pos hx.ne'
  have h0 := altH_nonneg hx
  have h1 := altH_key hx
  have h2 := altH_sq_le hx
  have hw := self_lt_div_tanh hx
  unfold asyG' asyC' asyC
  generalize 1 / x ^ 2 - 1 / sinh x ^ 2 = d at *
  generalize altH x = a at *
  generalize altH' x = a' at *
  have hB : β + x < β + x / tanh x := by linarith
  generalize β + x / tanh x = B at *
  have hB0 : 0 < B := by linarith
  have e : x * (d + (a' / B - a ^ 2 / B ^ 2)) - a / B = (x * d * B ^ 2 - (a - x * a') * B - x * a ^ 2) / B ^ 2 := by
    field_simp; ring
  rw [← sub_pos, e]
  refine div_pos ?_ (by positivity)
  have h3 : (a - x * a') * B ≤ x ^ 2 * d * B := mul_le_mul_of_nonneg_right h1 hB0.le
  have h4 : x * a ^ 2 ≤ x * (2 * (x ^ 2 * d)) := mul_le_mul_of_nonneg_left h2 hx.le
  have h5 : 0 < x * d * (B ^ 2 - x * B - 2 * x ^ 2) := by
    have : B ^ 2 - x * B - 2 * x ^ 2 = (B - 2 * x) * (B + x) := by ring
    rw [this]
    have : 0 < B - 2 * x := by linarith
    positivity
  linarith

/-- The extension per link of the asymptotic model of extensible links. -/
noncomputable def asyF (κ x : ℝ) : ℝ := asyG κ x + x / κ
/-- Its derivative. -/
noncomputable def asyF' (κ x : ℝ) : ℝ := asyG' κ x + 1 / κ

theorem hasDerivAt_asyF {κ x : ℝ} (hκ : 0 < κ) (hx : 0 < x) : HasDerivAt (asyF κ) (asyF' κ x) x :=
  (hasDerivAt_asyG hκ.le hx).add ((hasDerivAt_id x).div_const κ)

theorem asyF'_pos {κ x : ℝ} (hκ : 0 < κ) (hx : 0 < x) : 0 < asyF' κ x := by
  have := asyG'_nonneg hκ.le hx
  unfold asyF'; positivity

theorem asyF_concave {κ : ℝ} (hκ : 0 < κ) : ConcaveOn ℝ (Ioi 0) (asyF κ) := by
  have h2 : ConcaveOn ℝ (Ioi 0) (fun x : ℝ => (1 / κ) * x) := (concaveOn_id (convex_Ioi 0)).smul (by positivity)
  refine ((asyG_concave hκ.le).add h2).congr fun x _ => ?_
  simp only [Pi.add_apply, asyF]; ring

/-- One Newton step. -/
noncomputable def asyStep (κ y x : ℝ) : ℝ := x + (y - asyF κ x) / asyF' κ x

theorem asyStep_eq {κ y x : ℝ} (hκ : 0 < κ) (hx : 0 < x) : (asyStep κ y x - x) * asyF' κ x = y - asyF κ x := by
  have := asyF'_pos hκ hx
  rw [asyStep, add_sub_cancel_left, div_mul_cancel₀ _ this.ne']

/-- The points from which Newton's step stays positive. -/
def AsyOk (κ y x : ℝ) : Prop := 0 < x ∧ asyF κ x - x * asyF' κ x < y

theorem asyStep_below {κ y x : ℝ} (hκ : 0 < κ) (h : AsyOk κ y x) : 0 < asyStep κ y x ∧ asyF κ (asyStep κ y x) ≤ y := by
  have hd := asyF'_pos hκ h.1
  have e := asyStep_eq (y := y) hκ h.1
  have hpos : 0 < asyStep κ y x := by
    refine pos_of_mul_pos_left ?_ hd.le
    have := h.2
    linarith
  refine ⟨hpos, ?_⟩
  have := concave_tangent (asyF_concave hκ) (show x ∈ Ioi 0 from h.1) (show _ ∈ Ioi 0 from hpos) (hasDerivAt_asyF hκ h.1)
  linarith

theorem AsyOk.of_below {κ y x : ℝ} (hκ : 0 < κ) (hx : 0 < x) (h : asyF κ x ≤ y) : AsyOk κ y x :=
  ⟨hx, by have := mul_pos hx (asyF'_pos hκ hx); linarith⟩

theorem AsyOk.step {κ y x : ℝ} (hκ : 0 < κ) (h : AsyOk κ y x) : AsyOk κ y (asyStep κ y x) :=
  .of_below hκ (asyStep_below hκ h).1 (asyStep_below hκ h).2

/-- A start whose Langevin value is below the target, below the stiffness. -/
theorem AsyOk.low {κ y x : ℝ} (hx : 0 < x) (hxκ : x < κ) (h : langevin x ≤ y) : AsyOk κ y x := by
  have hκ : 0 < κ := hx.trans hxκ
  refine ⟨hx, ?_⟩
  have hk := asyC_key hx hxκ.le
  have e : asyF κ x - x * asyF' κ x = langevin x + (asyC κ x - x * asyG' κ x) := by
    unfold asyF asyF' asyG; ring
  rw [e]
  linarith

/-- The start used beyond full extension. -/
theorem AsyOk.high {κ y : ℝ} (hκ : 0 < κ) (hy : 1 < y) : AsyOk κ y (κ * (y - 1)) := by
  have hx : 0 < κ * (y - 1) := mul_pos hκ (by linarith)
  have hxk : κ * (y - 1) / κ = y - 1 := by field_simp
  refine ⟨hx, ?_⟩
  generalize κ * (y - 1) = x at *
  have h1 := langevin_lt_one hx
  have h2 := asyG'_nonneg hκ.le hx
  have h3 : asyC κ x ≤ 2 / 3 * (x / κ) := by
    have hw := div_tanh_pos hx
    have := altH_le hx
    have h0 := altH_nonneg hx
    calc asyC κ x ≤ altH x / κ := by unfold asyC; gcongr; linarith
      _ ≤ 2 / 3 * x / κ := by gcongr
      _ = _ := by ring
  have h4 := mul_nonneg hx.le h2
  have h5 : 0 < x / κ := by positivity
  have e : asyF κ x - x * asyF' κ x = langevin x + asyC κ x - x * asyG' κ x := by
    unfold asyF asyF' asyG; ring
  rw [e]
  linarith

/-- Bounds for the correction and its slope, on the scale of the stiffness. -/
theorem asyC'_bounds {κ x : ℝ} (hκ : 0 < κ) (hx : 0 < x) :
    asyC' κ x ≤ 2 / 3 * (1 / κ) ∧ -(1 / 4 * (1 / κ)) ≤ asyC' κ x := by
  have h1 := altH'_le hx
  have h2 := (altH'_pos hx).le
  have h3 := altH_nonneg hx
  have h4 := altH_le_one hx
  have hw := one_le_div_tanh hx.ne'
  unfold asyC'
  have hB : κ + 1 < κ + x / tanh x := by linarith
  generalize κ + x / tanh x = B at *
  have hB0 : 0 < B := by linarith
  have e1 : altH' x / B ≤ 2 / 3 * (1 / κ) := by
    rw [mul_one_div]
    exact div_le_div₀ (by norm_num) h1 hκ (by linarith)
  have e2 : altH x ^ 2 / B ^ 2 ≤ 1 / 4 * (1 / κ) := by
    have a1 : altH x ^ 2 ≤ 1 := pow_le_one₀ h3 h4
    have a2 : 4 * κ ≤ B ^ 2 := by nlinarith [sq_nonneg (κ - 1)]
    rw [one_div_mul_one_div]
    exact div_le_div₀ (by norm_num) a1 (by positivity) a2
  have e3 : 0 ≤ altH' x / B := by positivity
  have e4 : 0 ≤ altH x ^ 2 / B ^ 2 := by positivity
  constructor <;> linarith

/-- Between two points the correction rises by at most two thirds, and falls by at most a quarter, of the distance on the
scale of the stiffness. -/
theorem asyC_sub_bounds {κ x z : ℝ} (hκ : 0 < κ) (hx : 0 < x) (h : x ≤ z) :
    asyC κ z - asyC κ x ≤ 2 / 3 * ((z - x) * (1 / κ)) ∧ -(1 / 4 * ((z - x) * (1 / κ))) ≤ asyC κ z - asyC κ x := by
  have hz := hx.trans_le h
  have hder : ∀ t ∈ Icc x z, HasDerivWithinAt (asyC κ) (asyC' κ t) (Icc x z) t := fun t ht =>
    (hasDerivAt_asyC hκ.le (hx.trans_le ht.1)).hasDerivWithinAt
  rcases eq_or_lt_of_le h with rfl | h'
  · simp
  obtain ⟨t, ht, e⟩ := exists_hasDerivAt_eq_slope (asyC κ) (asyC' κ) h' (fun t ht => (hder t ht).continuousWithinAt)
    (fun t ht => hasDerivAt_asyC hκ.le (hx.trans ht.1))
  rw [eq_div_iff (by linarith)] at e
  obtain ⟨b1, b2⟩ := asyC'_bounds hκ (hx.trans ht.1)
  rw [← e]
  constructor <;> nlinarith

/-- From below the root, a step reduces the error by a quarter at least. -/
theorem asyStep_reduces {κ y x : ℝ} (hκ : 0 < κ) (hx : 0 < x) (h : asyF κ x ≤ y) (h1 : y ≤ 1 + 3 * (x / κ)) :
    x ≤ asyStep κ y x ∧ y - asyF κ (asyStep κ y x) ≤ 3 / 4 * (y - asyF κ x) := by
  have hd := langevin_deriv_pos hx.ne'
  have hden := asyF'_pos hκ hx
  have e := asyStep_eq (y := y) hκ hx
  have hz : x ≤ asyStep κ y x := by
    have : 0 ≤ asyStep κ y x - x := nonneg_of_mul_nonneg_left (by rw [e]; linarith) hden
    linarith
  refine ⟨hz, ?_⟩
  have hu := convex_tangent langevinU_convex hx.le (show asyStep κ y x ∈ Ici 0 from hx.le.trans hz) (hasDerivAt_langevinU hx)
  have hU := langevinU_pos hx.le
  have hU' := langevinU_pos (hx.le.trans hz)
  have hL := langevin_eq_of_U hx.le
  have hL' := langevin_eq_of_U (hx.le.trans hz)
  obtain ⟨-, hm⟩ := asyC_sub_bounds hκ hx hz
  have hxd := langevin_deriv_mul_le hx
  have hh := asyC_nonneg hκ.le hx
  obtain ⟨hc1, hc2⟩ := asyC'_bounds hκ hx
  unfold asyF asyG asyF' asyG' at *
  generalize 1 / x ^ 2 - 1 / sinh x ^ 2 = d at *
  generalize asyStep κ y x = z at *
  rw [hL'] at *
  rw [hL] at *
  generalize langevinU x = u at *
  generalize langevinU z = v at *
  generalize asyC κ x = a at *
  generalize asyC κ z = b at *
  generalize asyC' κ x = c at *
  obtain ⟨s, hsd⟩ : ∃ s, s = z - x := ⟨_, rfl⟩
  rw [← hsd] at e hu hm
  have hs : 0 ≤ s := by linarith
  have ezx : z / κ = x * (1 / κ) + s * (1 / κ) := by rw [hsd]; ring
  rw [ezx]
  rw [show x / κ = x * (1 / κ) by ring] at *
  have hK : 0 < 1 / κ := by positivity
  generalize 1 / κ = K at *
  have hdx : d * u * x ≤ 1 := by
    have := mul_le_mul_of_nonneg_left hxd hU.le
    rw [sub_sub_cancel, mul_one_div_cancel hU.ne'] at this
    linarith
  have hsc : -(1 / 4 * (s * K)) ≤ s * c := by nlinarith
  -- `p ≤ 3`
  have hp3 : d * u * s ≤ 3 := by
    have h2 : s * (d + 3 / 4 * K) ≤ 1 / u + 2 * (x * K) := by nlinarith
    have h3 : d * u * (s * (d + 3 / 4 * K)) ≤ d * u * (1 / u + 2 * (x * K)) := mul_le_mul_of_nonneg_left h2 (by positivity)
    have h4 : d * u * (1 / u + 2 * (x * K)) = d + 2 * (d * u * x) * K := by field_simp
    have h5 : d * u * s * (d + 3 / 4 * K) ≤ 3 * (d + 3 / 4 * K) := by nlinarith
    exact le_of_mul_le_mul_right h5 (by positivity)
  have hp : 0 ≤ d * u * s := by positivity
  have hv : 1 / v ≤ 1 / (u * (1 + d * u * s)) :=
    one_div_le_one_div_of_le (by positivity) (by nlinarith)
  have hkey : 1 / (u * (1 + d * u * s)) ≤ 1 / u - d * s / 4 := by
    rw [div_le_iff₀ (by positivity)]
    have e2 : (1 / u - d * s / 4) * (u * (1 + d * u * s)) = 1 + d * u * s / 4 * (3 - d * u * s) := by
      field_simp; ring
    rw [e2]
    nlinarith [mul_nonneg hp (sub_nonneg.2 hp3)]
  have hsK : s * c ≤ 2 / 3 * (s * K) := by nlinarith
  have hsK0 : 0 ≤ s * K := by positivity
  linarith

/-- From above the root, when the step is not too long, the error at the next point is at most three times the error. -/
theorem asyStep_first {κ y x p : ℝ} (hκ : 0 < κ) (h : AsyOk κ y x) (h1 : y ≤ asyF κ x)
    (hp : (1 / x ^ 2 - 1 / sinh x ^ 2) * langevinU x * (x - asyStep κ y x) = p) (hp1 : p < 1)
    (hp2 : (1 / x ^ 2 - 1 / sinh x ^ 2) * p ≤ (3 * (1 / x ^ 2 - 1 / sinh x ^ 2) + 4 / 3 * (1 / κ)) * (1 - p)) :
    y - asyF κ (asyStep κ y x) ≤ 3 * (asyF κ x - y) := by
  have hx := h.1
  have hd := langevin_deriv_pos hx.ne'
  have hden := asyF'_pos hκ hx
  have e := asyStep_eq (y := y) hκ hx
  obtain ⟨hpos, hbelow⟩ := asyStep_below hκ h
  have hz : asyStep κ y x ≤ x := by
    have : 0 ≤ x - asyStep κ y x := nonneg_of_mul_nonneg_left (b := asyF' κ x) (by linarith) hden
    linarith
  have hu := convex_tangent langevinU_convex hx.le hpos.le (hasDerivAt_langevinU hx)
  have hU := langevinU_pos hx.le
  have hU' := langevinU_pos hpos.le
  have hL := langevin_eq_of_U hx.le
  have hL' := langevin_eq_of_U hpos.le
  obtain ⟨hm, -⟩ := asyC_sub_bounds hκ hpos hz
  obtain ⟨-, hc⟩ := asyC'_bounds hκ hx
  unfold asyF asyG asyF' asyG' at *
  generalize 1 / x ^ 2 - 1 / sinh x ^ 2 = d at *
  generalize asyStep κ y x = z at *
  rw [hL'] at *
  rw [hL] at *
  generalize langevinU x = u at *
  generalize langevinU z = v at *
  generalize asyC κ x = a at *
  generalize asyC κ z = b at *
  generalize asyC' κ x = c at *
  obtain ⟨s, hsd⟩ : ∃ s, s = x - z := ⟨_, rfl⟩
  rw [← hsd] at hm hp
  rw [show z - x = -s by rw [hsd]; ring] at e hu
  have hs : 0 ≤ s := by linarith
  have ezx : z / κ = x * (1 / κ) - s * (1 / κ) := by rw [hsd]; ring
  rw [ezx] at *
  rw [show x / κ = x * (1 / κ) by ring] at *
  have hK : 0 < 1 / κ := by positivity
  generalize 1 / κ = K at *
  have hcK : -(1 / 4 * (s * K)) ≤ s * c := by nlinarith
  have hsK0 : 0 ≤ s * K := by positivity
  have hp0 : 0 ≤ p := by rw [← hp]; positivity
  have hv : 1 / v ≤ 1 / (u * (1 - p)) :=
    one_div_le_one_div_of_le (mul_pos hU (by linarith)) (by nlinarith)
  have hkey : 1 / (u * (1 - p)) ≤ 1 / u + s * (d + (3 * d + 4 / 3 * K)) := by
    rw [div_le_iff₀ (mul_pos hU (by linarith))]
    have e2 : (1 / u + s * (d + (3 * d + 4 / 3 * K))) * (u * (1 - p)) =
        1 - p + d * u * s * (1 - p) + u * s * ((3 * d + 4 / 3 * K) * (1 - p)) := by
      field_simp; ring
    rw [e2, hp]
    have : u * s * (d * p) ≤ u * s * ((3 * d + 4 / 3 * K) * (1 - p)) := mul_le_mul_of_nonneg_left hp2 (by positivity)
    have e3 : u * s * (d * p) = p * p := by linear_combination p * hp
    rw [e3] at this
    linarith
  linarith

theorem langevin_deriv_mul_U_le {x : ℝ} (hx : 0 < x) : (1 / x ^ 2 - 1 / sinh x ^ 2) * langevinU x * x ≤ 1 := by
  have hU := langevinU_pos hx.le
  have := mul_le_mul_of_nonneg_left (langevin_deriv_mul_le hx) hU.le
  rw [langevin_eq_of_U hx.le, sub_sub_cancel, mul_one_div_cancel hU.ne'] at this
  linarith

/-- A first step from the start used beyond full extension. -/
theorem asyStep_high {κ y x : ℝ} (hκ : 0 < κ) (h : AsyOk κ y x) (h1 : y ≤ asyF κ x) (hy : y = 1 + x / κ) :
    y - asyF κ (asyStep κ y x) ≤ 3 * (asyF κ x - y) ∧ x - asyStep κ y x ≤ 2 / 3 * x := by
  have hx := h.1
  have hd := langevin_deriv_pos hx.ne'
  have hden := asyF'_pos hκ hx
  have e := asyStep_eq (y := y) hκ hx
  have hs0 : 0 ≤ x - asyStep κ y x := nonneg_of_mul_nonneg_left (b := asyF' κ x) (by linarith) hden
  have hs : x - asyStep κ y x ≤ 2 / 3 * x := by
    refine le_of_mul_le_mul_right ?_ hden
    have hL := langevin_lt_one hx
    have h2 : asyF κ x - y ≤ asyC κ x := by rw [hy]; unfold asyF asyG; linarith
    have h3 : asyC κ x ≤ 2 / 3 * x * (1 / κ + asyC' κ x) := by
      have a1 := altH_le hx
      have a2 := altH_nonneg hx
      have a3 := altH_le_one hx
      have a4 := (altH'_pos hx).le
      have hw := one_le_div_tanh hx.ne'
      unfold asyC asyC'
      have hB : κ + x / tanh x = κ + x / tanh x := rfl
      generalize x / tanh x = w at *
      have hB0 : 0 < κ + w := by linarith
      have b1 : altH x / (κ + w) ≤ 2 / 3 * x * (1 / (κ + w)) := by
        rw [mul_one_div]; gcongr
      have b2 : 1 / (κ + w) ≤ 1 / κ - altH x ^ 2 / (κ + w) ^ 2 := by
        have b3 : altH x ^ 2 ≤ 1 := pow_le_one₀ a2 a3
        have e3 : 1 / κ - altH x ^ 2 / (κ + w) ^ 2 - 1 / (κ + w) =
            (w * (κ + w) - κ * altH x ^ 2) / (κ * (κ + w) ^ 2) := by field_simp; ring
        rw [← sub_nonneg, e3]
        refine div_nonneg ?_ (by positivity)
        nlinarith
      have b4 : 0 ≤ altH' x / (κ + w) := by positivity
      refine b1.trans (mul_le_mul_of_nonneg_left (by linarith) (by positivity))
    have h4 : 0 ≤ 2 / 3 * x * (1 / x ^ 2 - 1 / sinh x ^ 2) := by positivity
    have e2 : 2 / 3 * x * asyF' κ x = 2 / 3 * x * (1 / x ^ 2 - 1 / sinh x ^ 2) + 2 / 3 * x * (1 / κ + asyC' κ x) := by
      unfold asyF' asyG'; ring
    linarith
  refine ⟨asyStep_first hκ h h1 rfl ?_ ?_, hs⟩
  all_goals
    have hu := langevin_deriv_mul_U_le hx
    have hU := langevinU_pos hx.le
    have hK : 0 < 1 / κ := by positivity
    have : (1 / x ^ 2 - 1 / sinh x ^ 2) * langevinU x * (x - asyStep κ y x) ≤ 2 / 3 := by
      have := mul_le_mul_of_nonneg_left hs (show 0 ≤ (1 / x ^ 2 - 1 / sinh x ^ 2) * langevinU x by positivity)
      linarith
  · linarith
  · generalize (1 / x ^ 2 - 1 / sinh x ^ 2) * langevinU x * (x - asyStep κ y x) = p at *
    generalize 1 / x ^ 2 - 1 / sinh x ^ 2 = d at *
    nlinarith

/-- `h' ≤ 2 L'`. -/
theorem altH'_le_deriv {x : ℝ} (hx : 0 < x) : altH' x ≤ 2 * (1 / x ^ 2 - 1 / sinh x ^ 2) := by
  have hs : 0 < sinh x := sinh_pos_iff.2 hx
  have := cube_mul_cosh_le hx.le
  rw [altH'_eq hx, ← sub_nonneg]
  have e : 2 * (1 / x ^ 2 - 1 / sinh x ^ 2) - 2 * (x * cosh x - sinh x) / sinh x ^ 3 =
      2 * (sinh x ^ 3 - x ^ 3 * cosh x) / (x ^ 2 * sinh x ^ 3) := by field_simp; ring
  rw [e]
  exact div_nonneg (by linarith) (by positivity)

set_option maxHeartbeats 1000000 in
/-- A first step from a start just above the root, for stiff links. -/
theorem asyStep_low {κ y x : ℝ} (hκ : 0 < κ) (h : AsyOk κ y x) (h1 : y ≤ asyF κ x) (hL : langevin x ≤ y)
    (hK1 : 1 / κ ≤ 1) (hxκ : x * (1 / κ) ≤ 1 / 100) : y - asyF κ (asyStep κ y x) ≤ 3 * (asyF κ x - y) := by
  have hx := h.1
  have hd := langevin_deriv_pos hx.ne'
  have hden := asyF'_pos hκ hx
  have e := asyStep_eq (y := y) hκ hx
  have hs0 : 0 ≤ x - asyStep κ y x := nonneg_of_mul_nonneg_left (b := asyF' κ x) (by linarith) hden
  have hu := langevin_deriv_mul_U_le hx
  have hU := langevinU_pos hx.le
  have hK : 0 < 1 / κ := by positivity
  have hw := self_lt_div_tanh hx
  have a1 := altH_key hx
  have a2 := altH_nonneg hx
  have a3 := altH_sq_le hx
  have a4 := (altH'_pos hx).le
  have a5 := altH'_le_deriv hx
  -- the two parts of the slope of the correction
  have c1 : altH' x / (κ + x / tanh x) ≤ 2 * (1 / x ^ 2 - 1 / sinh x ^ 2) := by
    have : altH' x / (κ + x / tanh x) ≤ altH' x * (1 / κ) := by
      rw [mul_one_div]
      exact div_le_div_of_nonneg_left a4 hκ (by linarith)
    nlinarith
  have hxB : x / (κ + x / tanh x) ≤ 1 / 100 := by
    refine le_trans ?_ hxκ
    rw [mul_one_div]
    exact div_le_div_of_nonneg_left hx.le hκ (by linarith)
  have hxB0 : 0 ≤ x / (κ + x / tanh x) := by
    have := div_tanh_pos hx
    positivity
  have c2 : altH x ^ 2 / (κ + x / tanh x) ^ 2 ≤ (1 / x ^ 2 - 1 / sinh x ^ 2) / 1000 := by
    have : altH x ^ 2 / (κ + x / tanh x) ^ 2 ≤
        2 * (1 / x ^ 2 - 1 / sinh x ^ 2) * (x / (κ + x / tanh x)) ^ 2 := by
      rw [div_pow, ← mul_div_assoc]
      gcongr
      linarith
    have h3 : (x / (κ + x / tanh x)) ^ 2 ≤ (1 / 100) ^ 2 := pow_le_pow_left₀ hxB0 hxB 2
    nlinarith
  have hpS : (1 / x ^ 2 - 1 / sinh x ^ 2) * langevinU x * (x - asyStep κ y x) *
      (1 / x ^ 2 - 1 / sinh x ^ 2 + (altH' x / (κ + x / tanh x) - altH x ^ 2 / (κ + x / tanh x) ^ 2) + 1 / κ) ≤
      1 / κ + altH' x / (κ + x / tanh x) + (1 / x ^ 2 - 1 / sinh x ^ 2) / 100 := by
    have b1 : (x - asyStep κ y x) * (1 / x ^ 2 - 1 / sinh x ^ 2 +
        (altH' x / (κ + x / tanh x) - altH x ^ 2 / (κ + x / tanh x) ^ 2) + 1 / κ) ≤
        x * (1 / κ) + altH x / (κ + x / tanh x) := by
      have : asyF κ x - y ≤ x * (1 / κ) + asyC κ x := by unfold asyF asyG; rw [mul_one_div]; linarith
      rw [show 1 / x ^ 2 - 1 / sinh x ^ 2 + (altH' x / (κ + x / tanh x) - altH x ^ 2 / (κ + x / tanh x) ^ 2) + 1 / κ =
        asyF' κ x from rfl, show altH x / (κ + x / tanh x) = asyC κ x from rfl]
      linarith
    have b2 : 0 ≤ (1 / x ^ 2 - 1 / sinh x ^ 2) * langevinU x := by positivity
    have b3 := mul_le_mul_of_nonneg_left b1 b2
    have b4 : (1 / x ^ 2 - 1 / sinh x ^ 2) * langevinU x * altH x ≤
        altH' x + x * (1 / x ^ 2 - 1 / sinh x ^ 2) := by
      have t1 : altH x ≤ x * (altH' x + x * (1 / x ^ 2 - 1 / sinh x ^ 2)) := by linarith
      have t2 : 0 ≤ altH' x + x * (1 / x ^ 2 - 1 / sinh x ^ 2) := by positivity
      calc _ ≤ (1 / x ^ 2 - 1 / sinh x ^ 2) * langevinU x * (x * (altH' x + x * (1 / x ^ 2 - 1 / sinh x ^ 2))) :=
            mul_le_mul_of_nonneg_left t1 b2
        _ = (1 / x ^ 2 - 1 / sinh x ^ 2) * langevinU x * x * (altH' x + x * (1 / x ^ 2 - 1 / sinh x ^ 2)) := by ring
        _ ≤ 1 * (altH' x + x * (1 / x ^ 2 - 1 / sinh x ^ 2)) := mul_le_mul_of_nonneg_right hu t2
        _ = _ := one_mul _
    have hB : 0 < κ + x / tanh x := by linarith
    have b5 : (1 / x ^ 2 - 1 / sinh x ^ 2) * langevinU x * (altH x / (κ + x / tanh x)) ≤
        altH' x / (κ + x / tanh x) + (1 / x ^ 2 - 1 / sinh x ^ 2) / 100 := by
      calc _ = (1 / x ^ 2 - 1 / sinh x ^ 2) * langevinU x * altH x / (κ + x / tanh x) := by ring
        _ ≤ (altH' x + x * (1 / x ^ 2 - 1 / sinh x ^ 2)) / (κ + x / tanh x) := by gcongr
        _ = altH' x / (κ + x / tanh x) + (1 / x ^ 2 - 1 / sinh x ^ 2) * (x / (κ + x / tanh x)) := by ring
        _ ≤ _ := by nlinarith
    have b6 : (1 / x ^ 2 - 1 / sinh x ^ 2) * langevinU x * (x * (1 / κ)) ≤ 1 / κ := by
      rw [← mul_assoc]; nlinarith
    linarith
  have hc0 : 0 ≤ altH' x / (κ + x / tanh x) := by
    have := div_tanh_pos hx
    positivity
  refine asyStep_first hκ h h1 rfl ?_ ?_
  all_goals
    have hp0 : 0 ≤ (1 / x ^ 2 - 1 / sinh x ^ 2) * langevinU x * (x - asyStep κ y x) := by positivity
    generalize (1 / x ^ 2 - 1 / sinh x ^ 2) * langevinU x * (x - asyStep κ y x) = p at *
    generalize 1 / x ^ 2 - 1 / sinh x ^ 2 = d at *
    generalize altH' x / (κ + x / tanh x) = q at *
    generalize altH x ^ 2 / (κ + x / tanh x) ^ 2 = r at *
    generalize 1 / κ = K at *
    clear * - hd hK hpS c1 c2 hc0 hp0
    have hS : p * (999 / 1000 * d + q + K) ≤ K + q + d / 100 := by nlinarith
  · by_contra hc
    nlinarith [not_lt.1 hc]
  · have : p * (4 * d + 4 / 3 * K) ≤ 3 * d + 4 / 3 * K := by
      refine le_of_mul_le_mul_right ?_ (show 0 < 999 / 1000 * d + q + K by positivity)
      have h2 := mul_le_mul_of_nonneg_right hS (show 0 ≤ 4 * d + 4 / 3 * K by positivity)
      have h3 : 0 ≤ d * (2 * d - q) := mul_nonneg hd.le (by linarith)
      have h4 : 0 ≤ d * K := by positivity
      have h5 : 0 ≤ d * d := by positivity
      nlinarith
    linarith

/-- The solver, from a point below the root. -/
theorem asy_loop {κ y : ℝ} (hκ : 0 < κ) (hy : 0 < y) {f fp : ℝ → ℝ} (hf : ∀ x, 0 < x → f x = asyF κ x)
    (hfp : ∀ x, 0 < x → fp x = asyF' κ x) (n : ℕ) : ∀ x res : ℝ, 0 < x → asyF κ x ≤ y → y ≤ 1 + 3 * (x / κ) →
      (res ≤ 1e-6 → y - asyF κ x ≤ 3e-6 * y) → (3 / 4) ^ n * (y - asyF κ x) ≤ 3e-6 * y →
      0 < math.inverse_newton_raphson_loop y f fp 1e-6 n x res ∧
      asyF κ (math.inverse_newton_raphson_loop y f fp 1e-6 n x res) ≤ y ∧
      y - asyF κ (math.inverse_newton_raphson_loop y f fp 1e-6 n x res) ≤ 3e-6 * y := by
  induction n with
  | zero =>
    intro x res hx h1 _ _ h4
    rw [math.inverse_newton_raphson_loop]
    exact ⟨hx, h1, by simpa using h4⟩
  | succ n ih =>
    intro x res hx h1 h2 h3 h4
    rw [math.inverse_newton_raphson_loop]
    split
    · have e : x + (y - f x) / fp x = asyStep κ y x := by rw [hf x hx, hfp x hx, asyStep]
      simp only [e]
      obtain ⟨ha, hb⟩ := asyStep_reduces hκ hx h1 h2
      refine ih _ _ (hx.trans_le ha) (asyStep_below hκ (.of_below hκ hx h1)).2 ?_ ?_ ?_
      · have : x / κ ≤ asyStep κ y x / κ := by gcongr
        linarith
      · simp only [elem_abs]
        rw [hf x hx, abs_div, abs_of_pos hy, div_le_iff₀ hy, abs_of_nonneg (by linarith)]
        intro h
        norm_num at h ⊢
        linarith
      · refine (mul_le_mul_of_nonneg_left hb (by positivity)).trans (le_trans (le_of_eq ?_) h4)
        rw [pow_succ]; ring
    · rename_i hres
      have : res ≤ 1e-6 := by
        simp only [model_real] at hres
        norm_num at hres ⊢
        exact hres
      exact ⟨hx, h1, h3 this⟩

end Polymers.Lemmas
