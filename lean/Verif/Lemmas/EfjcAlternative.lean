import Verif.Lemmas.EfjcNewton

/-!
Newton's method for `L x + (x + h x) / κ = y` with `h x = coth x - x / sinh² x`, the equation solved by the alternative
asymptotic model of extensible links.
-/

namespace Polymers.Lemmas

open Real Set Polymers.Props

/-- `coth x - x / sinh² x`. -/
noncomputable def altH (x : ℝ) : ℝ := 1 / tanh x - x / sinh x ^ 2
/-- Its derivative. -/
noncomputable def altH' (x : ℝ) : ℝ := 2 * (x / tanh x - 1) / sinh x ^ 2
/-- The extension per link. -/
noncomputable def altF (κ x : ℝ) : ℝ := langevin x + (x + altH x) / κ
/-- Its derivative. -/
noncomputable def altF' (κ x : ℝ) : ℝ := 1 / x ^ 2 - 1 / sinh x ^ 2 + (1 + altH' x) / κ

/-- `3 sinh t ≤ t (2 + cosh t)`. -/
theorem three_sinh_le {t : ℝ} (ht : 0 ≤ t) : 3 * sinh t ≤ t * (2 + cosh t) := by
  have s1 : ∀ t : ℝ, 0 ≤ t → 0 ≤ t * cosh t - sinh t := fun t ht =>
    nonneg_of_deriv_nonneg (f := fun t => t * cosh t - sinh t) (f' := fun t => t * sinh t) (by simp)
      (fun x => (((hasDerivAt_id x).mul (hasDerivAt_cosh x)).sub (hasDerivAt_sinh x)).congr_deriv (by simp))
      (fun x hx => mul_nonneg hx (sinh_nonneg_iff.2 hx)) ht
  have s2 : ∀ t : ℝ, 0 ≤ t → 0 ≤ 2 - 2 * cosh t + t * sinh t := fun t ht =>
    nonneg_of_deriv_nonneg (f := fun t => 2 - 2 * cosh t + t * sinh t) (f' := fun t => t * cosh t - sinh t) (by simp)
      (fun x => ((((hasDerivAt_cosh x).const_mul 2).const_sub 2).add
        ((hasDerivAt_id x).mul (hasDerivAt_sinh x))).congr_deriv (by simp; ring)) s1 ht
  have s3 := nonneg_of_deriv_nonneg (f := fun t => t * (2 + cosh t) - 3 * sinh t)
      (f' := fun t => 2 - 2 * cosh t + t * sinh t) (by simp)
      (fun x => (((hasDerivAt_id x).mul ((hasDerivAt_cosh x).const_add 2)).sub
        ((hasDerivAt_sinh x).const_mul 3)).congr_deriv (by simp; ring)) s2 ht
  linarith

theorem sinh_mul_cosh_le {x : ℝ} (hx : 0 ≤ x) : 3 * (sinh x * cosh x) ≤ x * (2 * cosh x ^ 2 + 1) := by
  have := three_sinh_le (t := 2 * x) (by linarith)
  rw [sinh_two_mul, cosh_two_mul, sinh_sq] at this
  linarith

theorem altH_eq {x : ℝ} (hx : 0 < x) : altH x = (cosh x * sinh x - x) / sinh x ^ 2 := by
  have hs : 0 < sinh x := sinh_pos_iff.2 hx
  rw [altH, one_div_tanh]; field_simp

theorem altH'_eq {x : ℝ} (hx : 0 < x) : altH' x = 2 * (x * cosh x - sinh x) / sinh x ^ 3 := by
  have hs : 0 < sinh x := sinh_pos_iff.2 hx
  have : x / tanh x = x * (cosh x / sinh x) := by rw [← one_div_tanh]; ring
  rw [altH', this]; field_simp

theorem hasDerivAt_altH {x : ℝ} (hx : 0 < x) : HasDerivAt altH (altH' x) x := by
  have hs : 0 < sinh x := sinh_pos_iff.2 hx
  refine ((hasDerivAt_one_div_tanh hx.ne').sub ((hasDerivAt_id x).div ((hasDerivAt_sinh x).pow 2)
    (by simp only [Pi.pow_apply]; positivity))).congr_deriv ?_
  rw [altH'_eq hx]
  simp only [Pi.pow_apply, id, Nat.cast_ofNat, show 2 - 1 = 1 from rfl, pow_one, one_mul]
  field_simp
  ring

theorem cosh_mul_sub_pos {x : ℝ} (hx : 0 < x) : 0 < x * cosh x - sinh x := by
  have := langevin_pos hx
  rw [langevin_eq hx.ne'] at this
  have hs : 0 < sinh x := sinh_pos_iff.2 hx
  exact (div_pos_iff_of_pos_right (by positivity)).1 this

theorem altH'_pos {x : ℝ} (hx : 0 < x) : 0 < altH' x := by
  have hs : 0 < sinh x := sinh_pos_iff.2 hx
  have := cosh_mul_sub_pos hx
  rw [altH'_eq hx]; positivity

theorem altH'_le {x : ℝ} (hx : 0 < x) : altH' x ≤ 2 / 3 := by
  have hs : 0 < sinh x := sinh_pos_iff.2 hx
  have h := nonneg_of_deriv_nonneg (f := fun x => sinh x ^ 3 - 3 * (x * cosh x - sinh x))
    (f' := fun x => 3 * sinh x * (sinh x * cosh x - x)) (by simp)
    (fun x => (((hasDerivAt_sinh x).pow 3).sub ((((hasDerivAt_id x).mul (hasDerivAt_cosh x)).sub
      (hasDerivAt_sinh x)).const_mul 3)).congr_deriv (by simp; ring))
    (fun x hx => by
      have h0 := sinh_nonneg_iff.2 hx
      have h1 := self_le_sinh_iff.2 hx
      have h2 := one_le_cosh x
      have : 0 ≤ sinh x * cosh x - x := by nlinarith
      positivity) hx.le
  rw [altH'_eq hx, div_le_iff₀ (by positivity)]
  linarith

theorem altH_nonneg {x : ℝ} (hx : 0 < x) : 0 ≤ altH x := by
  have hs : 0 < sinh x := sinh_pos_iff.2 hx
  have h1 := self_le_sinh_iff.2 hx.le
  have h2 := one_le_cosh x
  rw [altH_eq hx]
  exact div_nonneg (by nlinarith) (by positivity)

theorem altH_le {x : ℝ} (hx : 0 < x) : altH x ≤ 2 / 3 * x := by
  have hs : 0 < sinh x := sinh_pos_iff.2 hx
  have := sinh_mul_cosh_le hx.le
  rw [cosh_sq] at this
  rw [altH_eq hx, div_le_iff₀ (by positivity)]
  linarith

theorem altH_le_one {x : ℝ} (hx : 0 < x) : altH x ≤ 1 := by
  have hs : 0 < sinh x := sinh_pos_iff.2 hx
  have h1 : sinh x * exp (-x) ≤ x := by
    have h2 := add_one_le_exp (-(2 * x))
    have h3 : sinh x * exp (-x) = (1 - exp (-(2 * x))) / 2 := by
      rw [sinh_eq, show -(2 * x) = -x + -x by ring, exp_add, exp_neg]
      have := exp_pos x
      field_simp
    rw [h3]; linarith
  rw [← cosh_sub_sinh] at h1
  rw [altH_eq hx, div_le_iff₀ (by positivity)]
  linarith

theorem hasDerivAt_altH' {x : ℝ} (hx : 0 < x) :
    HasDerivAt altH' (2 * (3 * (sinh x * cosh x) - x * (2 * cosh x ^ 2 + 1)) / sinh x ^ 4) x := by
  have hs : 0 < sinh x := sinh_pos_iff.2 hx
  have h := ((((hasDerivAt_id x).mul (hasDerivAt_cosh x)).sub (hasDerivAt_sinh x)).const_mul 2).div ((hasDerivAt_sinh x).pow 3)
    (by simp only [Pi.pow_apply]; positivity)
  refine (h.congr_of_eventuallyEq (f₁ := altH') ?_).congr_deriv ?_
  · filter_upwards [lt_mem_nhds hx] with y hy
    rw [altH'_eq hy]; rfl
  · simp only [Pi.pow_apply, Pi.sub_apply, Pi.mul_apply, id, Nat.cast_ofNat, show 3 - 1 = 2 from rfl, one_mul]
    have e := cosh_sq x
    field_simp
    linear_combination (-x) * e

theorem altH_concave : ConcaveOn ℝ (Ioi 0) altH := by
  refine concaveOn_of_hasDerivWithinAt2_nonpos (convex_Ioi 0)
    (fun x hx => (hasDerivAt_altH hx).continuousAt.continuousWithinAt) (f' := altH')
    (f'' := fun x => 2 * (3 * (sinh x * cosh x) - x * (2 * cosh x ^ 2 + 1)) / sinh x ^ 4)
    (fun x hx => ?_) (fun x hx => ?_) fun x hx => ?_
  all_goals rw [interior_Ioi] at hx
  · exact (hasDerivAt_altH hx).hasDerivWithinAt
  · exact (hasDerivAt_altH' hx).hasDerivWithinAt
  · have hx : 0 < x := hx
    have := sinh_mul_cosh_le hx.le
    have hs : 0 < sinh x := sinh_pos_iff.2 hx
    exact div_nonpos_of_nonpos_of_nonneg (by linarith) (by positivity)

theorem altH_sub_le {x z : ℝ} (hz : 0 < z) (h : z ≤ x) : altH x - altH z ≤ 2 / 3 * (x - z) := by
  have := concave_tangent altH_concave (show z ∈ Ioi 0 from hz) (show x ∈ Ioi 0 from hz.trans_le h) (hasDerivAt_altH hz)
  have h2 := altH'_le hz
  nlinarith

/-- The inequality which keeps the first iterate positive. -/
theorem altH_key {x : ℝ} (hx : 0 < x) : altH x - x * altH' x ≤ x ^ 2 * (1 / x ^ 2 - 1 / sinh x ^ 2) := by
  have hs : 0 < sinh x := sinh_pos_iff.2 hx
  have h0 : ∀ t : ℝ, 0 ≤ t → 0 ≤ exp (2 * t) * (1 * t ^ 2 + -2 * t + -2) + exp t * (0 * t ^ 3 + 3 * t ^ 2 + 2 * t + 4) + -2 := by
    refine expPoly_step (by norm_num) ?_
    intro t ht
    have h1 : ∀ t : ℝ, 0 ≤ t → 0 ≤ exp (2 * t) * 0 + exp t * (0 * t ^ 3 + 2 * t ^ 2 + -2 * t + -6) + 0 → True := fun _ _ _ => trivial
    have a3 : ∀ t : ℝ, 0 ≤ t → 0 ≤ exp t * (2 * t ^ 2 + 6 * t - 6) + 6 := fun t ht =>
      nonneg_of_deriv_nonneg (f := fun t => exp t * (2 * t ^ 2 + 6 * t - 6) + 6) (f' := fun t => exp t * (2 * t ^ 2 + 10 * t))
        (by simp) (fun x => (((hasDerivAt_exp x).mul (((((hasDerivAt_id x).pow 2).const_mul 2).add
          ((hasDerivAt_id x).const_mul 6)).sub_const 6)).add_const 6).congr_deriv (by simp; ring))
        (fun x hx => by positivity) ht
    have a2 : ∀ t : ℝ, 0 ≤ t → 0 ≤ exp t * (2 * t ^ 2 + 2 * t - 8) + (6 * t + 8) := fun t ht =>
      nonneg_of_deriv_nonneg (f := fun t => exp t * (2 * t ^ 2 + 2 * t - 8) + (6 * t + 8))
        (f' := fun t => exp t * (2 * t ^ 2 + 6 * t - 6) + 6)
        (by simp) (fun x => (((hasDerivAt_exp x).mul (((((hasDerivAt_id x).pow 2).const_mul 2).add
          ((hasDerivAt_id x).const_mul 2)).sub_const 8)).add (((hasDerivAt_id x).const_mul 6).add_const 8)).congr_deriv (by simp; ring))
        a3 ht
    have a1 : 0 ≤ exp t * (2 * t ^ 2 - 2 * t - 6) + (3 * t ^ 2 + 8 * t + 6) :=
      nonneg_of_deriv_nonneg (f := fun t => exp t * (2 * t ^ 2 - 2 * t - 6) + (3 * t ^ 2 + 8 * t + 6))
        (f' := fun t => exp t * (2 * t ^ 2 + 2 * t - 8) + (6 * t + 8))
        (by simp) (fun x => (((hasDerivAt_exp x).mul (((((hasDerivAt_id x).pow 2).const_mul 2).sub
          ((hasDerivAt_id x).const_mul 2)).sub_const 6)).add (((((hasDerivAt_id x).pow 2).const_mul 3).add
          ((hasDerivAt_id x).const_mul 8)).add_const 6)).congr_deriv (by simp; ring))
        a2 ht
    have := mul_nonneg (exp_pos t).le a1
    rw [show exp (2 * t) = exp t * exp t by rw [← exp_add]; ring_nf]
    nlinarith
  have h := h0 (2 * x) (by linarith)
  rw [altH_eq hx, altH'_eq hx]
  have e : x ^ 2 * (1 / x ^ 2 - 1 / sinh x ^ 2) - ((cosh x * sinh x - x) / sinh x ^ 2 - x * (2 * (x * cosh x - sinh x) / sinh x ^ 3)) =
      (sinh x ^ 3 - sinh x ^ 2 * cosh x - x ^ 2 * sinh x - x * sinh x + 2 * x ^ 2 * cosh x) / sinh x ^ 3 := by
    field_simp; ring
  have : 0 ≤ sinh x ^ 3 - sinh x ^ 2 * cosh x - x ^ 2 * sinh x - x * sinh x + 2 * x ^ 2 * cosh x := by
    rw [show exp (2 * (2 * x)) = exp x ^ 4 by rw [← exp_nat_mul]; ring_nf,
      show exp (2 * x) = exp x ^ 2 by rw [← exp_nat_mul]; ring_nf] at h
    rw [sinh_eq, cosh_eq, exp_neg]
    have hE := exp_pos x
    generalize exp x = E at *
    have e2 : ((E - E⁻¹) / 2) ^ 3 - ((E - E⁻¹) / 2) ^ 2 * ((E + E⁻¹) / 2) - x ^ 2 * ((E - E⁻¹) / 2) - x * ((E - E⁻¹) / 2) +
        2 * x ^ 2 * ((E + E⁻¹) / 2) = (E ^ 4 * (1 * (2 * x) ^ 2 + -2 * (2 * x) + -2) +
          E ^ 2 * (0 * (2 * x) ^ 3 + 3 * (2 * x) ^ 2 + 2 * (2 * x) + 4) + -2) / (8 * E ^ 3) := by
      field_simp; ring
    rw [e2]; positivity
  have := div_nonneg this (show 0 ≤ sinh x ^ 3 by positivity)
  linarith

theorem altF_concave {κ : ℝ} (hκ : 0 < κ) : ConcaveOn ℝ (Ioi 0) (altF κ) := by
  have h1 : ConcaveOn ℝ (Ioi 0) langevin := langevin_concave.subset Ioi_subset_Ici_self (convex_Ioi 0)
  have h2 : ConcaveOn ℝ (Ioi 0) (fun x : ℝ => (1 / κ) * (x + altH x)) :=
    ((concaveOn_id (convex_Ioi 0)).add altH_concave).smul (by positivity)
  refine (h1.add h2).congr fun x _ => ?_
  simp only [Pi.add_apply, altF]; ring

theorem hasDerivAt_altF {κ x : ℝ} (hx : 0 < x) : HasDerivAt (altF κ) (altF' κ x) x :=
  (hasDerivAt_langevin hx.ne').add (((hasDerivAt_id x).add (hasDerivAt_altH hx)).div_const κ)

theorem altF'_pos {κ x : ℝ} (hκ : 0 < κ) (hx : 0 < x) : 0 < altF' κ x := by
  have := langevin_deriv_pos hx.ne'
  have := altH'_pos hx
  unfold altF'; positivity

/-- One Newton step. -/
noncomputable def altStep (κ y x : ℝ) : ℝ := x + (y - altF κ x) / altF' κ x

theorem altStep_eq {κ y x : ℝ} (hκ : 0 < κ) (hx : 0 < x) : (altStep κ y x - x) * altF' κ x = y - altF κ x := by
  have := altF'_pos hκ hx
  rw [altStep, add_sub_cancel_left, div_mul_cancel₀ _ this.ne']

/-- The points from which Newton's step stays positive. -/
def AltOk (κ y x : ℝ) : Prop := 0 < x ∧ altF κ x - x * altF' κ x < y

theorem altStep_below {κ y x : ℝ} (hκ : 0 < κ) (h : AltOk κ y x) : 0 < altStep κ y x ∧ altF κ (altStep κ y x) ≤ y := by
  have hd := altF'_pos hκ h.1
  have e := altStep_eq (y := y) hκ h.1
  have hpos : 0 < altStep κ y x := by
    refine pos_of_mul_pos_left ?_ hd.le
    have := h.2
    linarith
  refine ⟨hpos, ?_⟩
  have := concave_tangent (altF_concave hκ) (show x ∈ Ioi 0 from h.1) (show altStep κ y x ∈ Ioi 0 from hpos) (hasDerivAt_altF h.1)
  linarith

theorem AltOk.of_below {κ y x : ℝ} (hκ : 0 < κ) (hx : 0 < x) (h : altF κ x ≤ y) : AltOk κ y x :=
  ⟨hx, by have := mul_pos hx (altF'_pos hκ hx); linarith⟩

theorem AltOk.step {κ y x : ℝ} (hκ : 0 < κ) (h : AltOk κ y x) : AltOk κ y (altStep κ y x) :=
  .of_below hκ (altStep_below hκ h).1 (altStep_below hκ h).2

/-- A start whose Langevin value does not exceed the target, below the stiffness. -/
theorem AltOk.low {κ y x : ℝ} (hx : 0 < x) (hxκ : x < κ) (h : langevin x ≤ y) : AltOk κ y x := by
  have hκ : 0 < κ := hx.trans hxκ
  refine ⟨hx, ?_⟩
  have hd := langevin_deriv_pos hx.ne'
  have hk := altH_key hx
  have e : altF κ x - x * altF' κ x = langevin x - x * (1 / x ^ 2 - 1 / sinh x ^ 2) + (altH x - x * altH' x) / κ := by
    unfold altF altF'; ring
  rw [e]
  generalize 1 / x ^ 2 - 1 / sinh x ^ 2 = d at *
  have h1 : (altH x - x * altH' x) / κ ≤ x ^ 2 * d / κ := by gcongr
  have h2 : x ^ 2 * d / κ < x * d := by
    rw [div_lt_iff₀ hκ]
    have : 0 < x * d := by positivity
    nlinarith
  linarith

/-- The start for extensions beyond full extension. -/
theorem AltOk.high {κ y : ℝ} (hκ : 0 < κ) (hy : 1 < y) : AltOk κ y (κ * (y - 1)) := by
  have hx : 0 < κ * (y - 1) := mul_pos hκ (by linarith)
  have hxk : κ * (y - 1) / κ = y - 1 := by field_simp
  refine ⟨hx, ?_⟩
  generalize κ * (y - 1) = x at *
  have hd := langevin_deriv_pos hx.ne'
  have h1 := altH_le hx
  have h2 := altH'_pos hx
  have h3 := langevin_lt_one hx
  have e : altF κ x - x * altF' κ x = langevin x - x * (1 / x ^ 2 - 1 / sinh x ^ 2) + (altH x - x * altH' x) / κ := by
    unfold altF altF'; ring
  rw [e]
  have h4 : (altH x - x * altH' x) / κ ≤ (2 / 3 * x) / κ := by
    gcongr
    have : 0 < x * altH' x := by positivity
    linarith
  have h5 : 2 / 3 * x / κ = 2 / 3 * (y - 1) := by rw [← hxk]; ring
  have : 0 < x * (1 / x ^ 2 - 1 / sinh x ^ 2) := by positivity
  linarith

theorem altH_mono {x z : ℝ} (hx : 0 < x) (h : x ≤ z) : altH x ≤ altH z := by
  have h1 := concave_tangent altH_concave (show z ∈ Ioi 0 from hx.trans_le h) (show x ∈ Ioi 0 from hx)
    (hasDerivAt_altH (hx.trans_le h))
  have := altH'_pos (hx.trans_le h)
  nlinarith

/-- From below the root, a step reduces the error by a quarter at least. -/
theorem altStep_reduces {κ y x : ℝ} (hκ : 0 < κ) (hx : 0 < x) (h : altF κ x ≤ y) (h1 : y ≤ 1 + 3 * (x / κ)) :
    x ≤ altStep κ y x ∧ y - altF κ (altStep κ y x) ≤ 3 / 4 * (y - altF κ x) := by
  have hd := langevin_deriv_pos hx.ne'
  have hden := altF'_pos hκ hx
  have e := altStep_eq (y := y) hκ hx
  have hz : x ≤ altStep κ y x := by
    have : 0 ≤ altStep κ y x - x := nonneg_of_mul_nonneg_left (by rw [e]; linarith) hden
    linarith
  refine ⟨hz, ?_⟩
  have hu := convex_tangent langevinU_convex hx.le (show altStep κ y x ∈ Ici 0 from hx.le.trans hz) (hasDerivAt_langevinU hx)
  have hU := langevinU_pos hx.le
  have hU' := langevinU_pos (hx.le.trans hz)
  have hL := langevin_eq_of_U hx.le
  have hL' := langevin_eq_of_U (hx.le.trans hz)
  have hm := altH_mono hx hz
  have hxd := langevin_deriv_mul_le hx
  have hh := altH_nonneg hx
  have hh' := altH'_pos hx
  have hh2 := altH'_le hx
  unfold altF altF' at *
  generalize 1 / x ^ 2 - 1 / sinh x ^ 2 = d at *
  generalize altStep κ y x = z at *
  rw [hL'] at *
  rw [hL] at *
  generalize langevinU x = u at *
  generalize langevinU z = v at *
  generalize altH x = a at *
  generalize altH z = b at *
  generalize altH' x = c at *
  obtain ⟨s, hsd⟩ : ∃ s, s = z - x := ⟨_, rfl⟩
  rw [← hsd] at e hu
  have hs : 0 ≤ s := by linarith
  have ezx : (z + b) / κ = (x + a) * (1 / κ) + s * (1 / κ) + (b - a) * (1 / κ) := by rw [hsd]; ring
  rw [ezx]
  rw [show (x + a) / κ = (x + a) * (1 / κ) by ring] at *
  rw [show (1 + c) / κ = (1 + c) * (1 / κ) by ring] at *
  rw [show x / κ = x * (1 / κ) by ring] at *
  have hK : 0 < 1 / κ := by positivity
  generalize 1 / κ = K at *
  have hdx : d * u * x ≤ 1 := by
    have := mul_le_mul_of_nonneg_left hxd hU.le
    rw [sub_sub_cancel, mul_one_div_cancel hU.ne'] at this
    linarith
  have haK : 0 ≤ a * K := by positivity
  have hbK : 0 ≤ (b - a) * K := mul_nonneg (by linarith) hK.le
  have hcK : 0 ≤ s * (c * K) := by positivity
  -- `p ≤ 3`
  have hp3 : d * u * s ≤ 3 := by
    have h2 : s * (d + K) ≤ 1 / u + 2 * (x * K) := by nlinarith
    have h3 : d * u * (s * (d + K)) ≤ d * u * (1 / u + 2 * (x * K)) := mul_le_mul_of_nonneg_left h2 (by positivity)
    have h4 : d * u * (1 / u + 2 * (x * K)) = d + 2 * (d * u * x) * K := by field_simp
    have h5 : d * u * s * (d + K) ≤ 3 * (d + K) := by nlinarith
    exact le_of_mul_le_mul_right h5 (by positivity)
  have hp : 0 ≤ d * u * s := by positivity
  have hv : 1 / v ≤ 1 / (u * (1 + d * u * s)) :=
    one_div_le_one_div_of_le (by positivity) (by nlinarith)
  have hkey : 1 / (u * (1 + d * u * s)) ≤ 1 / u - d * s / 4 := by
    rw [div_le_iff₀ (by positivity)]
    have e2 : (1 / u - d * s / 4) * (u * (1 + d * u * s)) = 1 + d * u * s / 4 * (3 - d * u * s) := by
      field_simp; ring
    rw [e2]
    nlinarith [mul_nonneg hp (sub_nonneg.2 hp3)]
  have hsK : s * (c * K) ≤ 2 / 3 * (s * K) := by
    have : 0 ≤ s * K := by positivity
    nlinarith
  have hsK0 : 0 ≤ s * K := by positivity
  nlinarith

/-- From above the root, when the step is not too long, the error at the next point is at most three times the error. -/
theorem altStep_first {κ y x p : ℝ} (hκ : 0 < κ) (h : AltOk κ y x) (h1 : y ≤ altF κ x)
    (hp : (1 / x ^ 2 - 1 / sinh x ^ 2) * langevinU x * (x - altStep κ y x) = p) (hp1 : p < 1)
    (hp2 : (1 / x ^ 2 - 1 / sinh x ^ 2) * p ≤ 2 * (1 / x ^ 2 - 1 / sinh x ^ 2 + 1 / κ) * (1 - p)) :
    y - altF κ (altStep κ y x) ≤ 3 * (altF κ x - y) := by
  have hx := h.1
  have hd := langevin_deriv_pos hx.ne'
  have hden := altF'_pos hκ hx
  have e := altStep_eq (y := y) hκ hx
  obtain ⟨hpos, hbelow⟩ := altStep_below hκ h
  have hz : altStep κ y x ≤ x := by
    have : 0 ≤ x - altStep κ y x := nonneg_of_mul_nonneg_left (b := altF' κ x) (by linarith) hden
    linarith
  have hu := convex_tangent langevinU_convex hx.le hpos.le (hasDerivAt_langevinU hx)
  have hU := langevinU_pos hx.le
  have hU' := langevinU_pos hpos.le
  have hL := langevin_eq_of_U hx.le
  have hL' := langevin_eq_of_U hpos.le
  have hm := altH_sub_le hpos hz
  have hh' := altH'_pos hx
  unfold altF altF' at *
  generalize 1 / x ^ 2 - 1 / sinh x ^ 2 = d at *
  generalize altStep κ y x = z at *
  rw [hL'] at *
  rw [hL] at *
  generalize langevinU x = u at *
  generalize langevinU z = v at *
  generalize altH x = a at *
  generalize altH z = b at *
  generalize altH' x = c at *
  obtain ⟨s, hsd⟩ : ∃ s, s = x - z := ⟨_, rfl⟩
  rw [← hsd] at hm hp
  rw [show z - x = -s by rw [hsd]; ring] at e hu
  have hs : 0 ≤ s := by linarith
  have ezx : (z + b) / κ = (x + a) * (1 / κ) - s * (1 / κ) - (a - b) * (1 / κ) := by rw [hsd]; ring
  rw [ezx] at *
  rw [show (x + a) / κ = (x + a) * (1 / κ) by ring] at *
  rw [show (1 + c) / κ = (1 + c) * (1 / κ) by ring] at *
  have hK : 0 < 1 / κ := by positivity
  generalize 1 / κ = K at *
  have hbK : (a - b) * K ≤ 2 / 3 * (s * K) := by nlinarith
  have hcK : 0 ≤ s * (c * K) := by positivity
  have hsK0 : 0 ≤ s * K := by positivity
  have hp0 : 0 ≤ p := by rw [← hp]; positivity
  have hv : 1 / v ≤ 1 / (u * (1 - p)) :=
    one_div_le_one_div_of_le (mul_pos hU (by linarith)) (by nlinarith)
  have hkey : 1 / (u * (1 - p)) ≤ 1 / u + s * (d + 2 * (d + K)) := by
    rw [div_le_iff₀ (mul_pos hU (by linarith))]
    have e2 : (1 / u + s * (d + 2 * (d + K))) * (u * (1 - p)) =
        1 - p + d * u * s * (1 - p) + u * s * (2 * (d + K) * (1 - p)) := by
      field_simp; ring
    rw [e2, hp]
    have : u * s * (d * p) ≤ u * s * (2 * (d + K) * (1 - p)) := mul_le_mul_of_nonneg_left hp2 (by positivity)
    have e3 : u * s * (d * p) = p * p := by linear_combination p * hp
    rw [e3] at this
    linarith
  nlinarith

/-- The solver, from a point below the root. -/
theorem alt_loop {κ y : ℝ} (hκ : 0 < κ) (hy : 0 < y) {f fp : ℝ → ℝ} (hf : ∀ x, f x = altF κ x)
    (hfp : ∀ x, fp x = altF' κ x) (n : ℕ) : ∀ x res : ℝ, 0 < x → altF κ x ≤ y → y ≤ 1 + 3 * (x / κ) →
      (res ≤ 1e-6 → y - altF κ x ≤ 3e-6 * y) → (3 / 4) ^ n * (y - altF κ x) ≤ 3e-6 * y →
      0 < math.inverse_newton_raphson_loop y f fp 1e-6 n x res ∧
      altF κ (math.inverse_newton_raphson_loop y f fp 1e-6 n x res) ≤ y ∧
      y - altF κ (math.inverse_newton_raphson_loop y f fp 1e-6 n x res) ≤ 3e-6 * y := by
  induction n with
  | zero =>
    intro x res hx h1 _ _ h4
    rw [math.inverse_newton_raphson_loop]
    exact ⟨hx, h1, by simpa using h4⟩
  | succ n ih =>
    intro x res hx h1 h2 h3 h4
    rw [math.inverse_newton_raphson_loop]
    split
    · have e : x + (y - f x) / fp x = altStep κ y x := by rw [hf, hfp, altStep]
      simp only [e]
      obtain ⟨ha, hb⟩ := altStep_reduces hκ hx h1 h2
      refine ih _ _ (hx.trans_le ha) (altStep_below hκ (.of_below hκ hx h1)).2 ?_ ?_ ?_
      · have : x / κ ≤ altStep κ y x / κ := by gcongr
        linarith
      · simp only [elem_abs]
        rw [hf, abs_div, abs_of_pos hy, div_le_iff₀ hy, abs_of_nonneg (by linarith)]
        intro h
        norm_num at h ⊢
        linarith
      · refine (mul_le_mul_of_nonneg_left hb (by positivity)).trans (le_trans (le_of_eq ?_) h4)
        rw [pow_succ]; ring
    · rename_i hres
      have : res ≤ 1e-6 := by
        simp only [model_real] at hres
        norm_num at hres ⊢
        exact hres
      exact ⟨hx, h1, h3 this⟩

end Polymers.Lemmas
