import Verif.Lemmas.InverseLangevin
import Verif.Props.InverseLangevin

/-!
Newton's method for `L x + x / κ = y`, the equation solved by the reduced asymptotic model of extensible links.
-/

namespace Polymers.Lemmas

open Real Set Polymers.Props

/-- `L x + x / κ`. -/
noncomputable def extF (κ x : ℝ) : ℝ := langevin x + x / κ

/-- `x (1 - L x)` is increasing. -/
theorem langevin_deriv_mul_le {x : ℝ} (hx : 0 < x) : (1 / x ^ 2 - 1 / sinh x ^ 2) * x ≤ 1 - langevin x := by
  have hs : 0 < sinh x := sinh_pos_iff.2 hx
  have h1 : sinh x * exp (-x) ≤ x := by
    have h2 := add_one_le_exp (-(2 * x))
    have h3 : sinh x * exp (-x) = (1 - exp (-(2 * x))) / 2 := by
      rw [sinh_eq, show -(2 * x) = -x + -x by ring, exp_add, exp_neg]
      have := exp_pos x
      field_simp
    rw [h3]; linarith
  rw [langevin_eq hx.ne', ← cosh_sub_sinh] at *
  have e : 1 - (x * cosh x - sinh x) / (x * sinh x) - (1 / x ^ 2 - 1 / sinh x ^ 2) * x =
      (x - sinh x * (cosh x - sinh x)) / sinh x ^ 2 := by field_simp; ring
  have : 0 ≤ (x - sinh x * (cosh x - sinh x)) / sinh x ^ 2 := div_nonneg (by linarith) (by positivity)
  linarith

/-- One Newton step for `L x + x / κ = y`. -/
noncomputable def extStep (κ y x : ℝ) : ℝ := x + (y - extF κ x) / (1 / x ^ 2 - 1 / sinh x ^ 2 + 1 / κ)

theorem extStep_below {κ y x : ℝ} (hκ : 0 < κ) (hx : 0 < x) (h : 0 ≤ extStep κ y x) : extF κ (extStep κ y x) ≤ y := by
  have h1 := concave_tangent langevin_concave hx.le h (hasDerivAt_langevin hx.ne')
  have hd := langevin_deriv_pos hx.ne'
  have e : (1 / x ^ 2 - 1 / sinh x ^ 2 + 1 / κ) * (extStep κ y x - x) = y - extF κ x := by
    unfold extStep
    have : 1 / x ^ 2 - 1 / sinh x ^ 2 + 1 / κ ≠ 0 := by positivity
    rw [add_sub_cancel_left, mul_div_cancel₀ _ this]
  unfold extF at *
  generalize extStep κ y x = z at *
  have : 1 / κ * (z - x) = z / κ - x / κ := by ring
  nlinarith

/-- From below the root, a step halves the error. -/
theorem extStep_halves {κ y x : ℝ} (hκ : 0 < κ) (hx : 0 < x) (h : extF κ x ≤ y) (h1 : y - x / κ ≤ 1) :
    x ≤ extStep κ y x ∧ y - extF κ (extStep κ y x) ≤ (y - extF κ x) / 2 := by
  have hd := langevin_deriv_pos hx.ne'
  have hden : 0 < 1 / x ^ 2 - 1 / sinh x ^ 2 + 1 / κ := by positivity
  have hs : 0 ≤ (y - extF κ x) / (1 / x ^ 2 - 1 / sinh x ^ 2 + 1 / κ) := div_nonneg (by linarith) hden.le
  have e : (y - extF κ x) / (1 / x ^ 2 - 1 / sinh x ^ 2 + 1 / κ) * (1 / x ^ 2 - 1 / sinh x ^ 2 + 1 / κ) = y - extF κ x :=
    div_mul_cancel₀ _ hden.ne'
  have hz : x ≤ extStep κ y x := by unfold extStep; linarith
  refine ⟨hz, ?_⟩
  have hu := convex_tangent langevinU_convex hx.le (show extStep κ y x ∈ Ici 0 from hx.le.trans hz) (hasDerivAt_langevinU hx)
  have hs' : extStep κ y x - x = (y - extF κ x) / (1 / x ^ 2 - 1 / sinh x ^ 2 + 1 / κ) := by unfold extStep; ring
  have hU := langevinU_pos hx.le
  have hU' := langevinU_pos (hx.le.trans hz)
  have hL := langevin_eq_of_U hx.le
  have hL' := langevin_eq_of_U (hx.le.trans hz)
  rw [← hs'] at e hs
  unfold extF at *
  generalize 1 / x ^ 2 - 1 / sinh x ^ 2 = d at *
  generalize extStep κ y x = z at *
  rw [hL'] at *
  rw [hL] at *
  generalize langevinU x = u at *
  generalize langevinU z = v at *
  set s := z - x with hsd
  have ezx : z / κ = x / κ + s * (1 / κ) := by rw [hsd]; ring
  rw [ezx]
  have hsk : 0 ≤ s * (1 / κ) := by positivity
  -- `d s ≤ 1 / u`
  have hds : d * s ≤ 1 / u := by nlinarith
  have hds2 : d * u * s ≤ 1 := by
    have := mul_le_mul_of_nonneg_left hds hU.le
    rw [mul_one_div_cancel hU.ne'] at this
    linarith
  have hv : 1 / v ≤ 1 / (u * (1 + d * u * s)) :=
    one_div_le_one_div_of_le (by positivity) (by nlinarith)
  have hkey : 1 / (u * (1 + d * u * s)) ≤ 1 / u - d * s / 2 := by
    have hw : 0 ≤ d * u * s := by positivity
    rw [div_le_iff₀ (by positivity)]
    have e2 : (1 / u - d * s / 2) * (u * (1 + d * u * s)) = 1 + d * u * s / 2 * (1 - d * u * s) := by
      field_simp; ring
    rw [e2]
    nlinarith [mul_nonneg hw (sub_nonneg.2 hds2)]
  nlinarith

/-- From a point above the root whose Langevin value does not exceed the target, the next iterate is positive, below the
root, and its error is no larger. -/
theorem extStep_first {κ y x : ℝ} (hκ : 0 < κ) (hx : 0 < x) (h : y ≤ extF κ x) (hL : langevin x ≤ y) :
    0 < extStep κ y x ∧ y - extF κ (extStep κ y x) ≤ extF κ x - y := by
  have hd := langevin_deriv_pos hx.ne'
  have hden : 0 < 1 / x ^ 2 - 1 / sinh x ^ 2 + 1 / κ := by positivity
  have hs' : extStep κ y x - x = (y - extF κ x) / (1 / x ^ 2 - 1 / sinh x ^ 2 + 1 / κ) := by unfold extStep; ring
  have e : (y - extF κ x) / (1 / x ^ 2 - 1 / sinh x ^ 2 + 1 / κ) * (1 / x ^ 2 - 1 / sinh x ^ 2 + 1 / κ) = y - extF κ x :=
    div_mul_cancel₀ _ hden.ne'
  rw [← hs'] at e
  have hpos : 0 < extStep κ y x := by
    have : 0 < extStep κ y x * (1 / x ^ 2 - 1 / sinh x ^ 2 + 1 / κ) := by
      have : extStep κ y x * (1 / x ^ 2 - 1 / sinh x ^ 2 + 1 / κ) =
          (y - langevin x) + x * (1 / x ^ 2 - 1 / sinh x ^ 2) := by
        unfold extF at e
        linear_combination e
      rw [this]
      have : 0 < x * (1 / x ^ 2 - 1 / sinh x ^ 2) := by positivity
      linarith
    exact pos_of_mul_pos_left this hden.le
  refine ⟨hpos, ?_⟩
  have hu := convex_tangent langevinU_convex hx.le hpos.le (hasDerivAt_langevinU hx)
  have hxd := langevin_deriv_mul_le hx
  have hU := langevinU_pos hx.le
  have hU' := langevinU_pos hpos.le
  have hLx := langevin_eq_of_U hx.le
  have hLz := langevin_eq_of_U hpos.le
  unfold extF at *
  generalize 1 / x ^ 2 - 1 / sinh x ^ 2 = d at *
  generalize extStep κ y x = z at *
  rw [hLz]
  rw [hLx] at h hL e hxd ⊢
  generalize langevinU x = u at *
  generalize langevinU z = v at *
  obtain ⟨s, hsd⟩ : ∃ s, s = x - z := ⟨_, rfl⟩
  have ezx : z / κ = x / κ - s * (1 / κ) := by rw [hsd]; ring
  have e1 : z - x = -s := by rw [hsd]; ring
  rw [ezx]
  rw [e1] at e hu
  have hsn : 0 ≤ s := by
    have : 0 ≤ s * (d + 1 / κ) := by linarith
    exact nonneg_of_mul_nonneg_left this hden
  -- `d u s (d + 1/κ) ≤ 1/κ`
  have hdx : d * u * x ≤ 1 := by
    have := mul_le_mul_of_nonneg_left hxd hU.le
    rw [sub_sub_cancel, mul_one_div_cancel hU.ne'] at this
    linarith
  have hs2 : s * (d + 1 / κ) ≤ x * (1 / κ) := by
    have : x / κ = x * (1 / κ) := by ring
    linarith
  have hK : 0 < 1 / κ := by positivity
  generalize 1 / κ = K at *
  have ht : d * u * s * (d + K) ≤ K := by
    have := mul_le_mul_of_nonneg_left hs2 (show 0 ≤ d * u by positivity)
    nlinarith
  have ht1 : d * (1 / (d + K)) ≤ 1 - d * u * s := by
    rw [mul_one_div, div_le_iff₀ hden]
    nlinarith
  have hp : 0 < d * (1 / (d + K)) := by positivity
  have hv : 1 / v ≤ 1 / (u * (1 - d * u * s)) :=
    one_div_le_one_div_of_le (mul_pos hU (by linarith)) (by nlinarith)
  have hkey : 1 / (u * (1 - d * u * s)) ≤ 1 / u + s * (d + K) := by
    rw [div_le_iff₀ (mul_pos hU (by linarith))]
    have e2 : (1 / u + s * (d + K)) * (u * (1 - d * u * s)) = 1 + u * s * (K - d * u * s * (d + K)) := by
      field_simp; ring
    rw [e2]
    have : 0 ≤ u * s * (K - d * u * s * (d + K)) := mul_nonneg (by positivity) (by linarith)
    linarith
  have : 0 ≤ s * d := by positivity
  nlinarith

/-- The solver, from a point below the root. -/
theorem ext_loop {κ y : ℝ} (hκ : 0 < κ) (hy : 0 < y) {f fp : ℝ → ℝ} (hf : ∀ x, f x = extF κ x)
    (hfp : ∀ x, fp x = 1 / x ^ 2 - 1 / sinh x ^ 2 + 1 / κ) (n : ℕ) : ∀ x res : ℝ, 0 < x → extF κ x ≤ y → y - x / κ ≤ 1 →
      y - extF κ x ≤ res * y → y - extF κ x ≤ 2 ^ n * (1e-6 * y) →
      0 < math.inverse_newton_raphson_loop y f fp 1e-6 n x res ∧
      extF κ (math.inverse_newton_raphson_loop y f fp 1e-6 n x res) ≤ y ∧
      y - extF κ (math.inverse_newton_raphson_loop y f fp 1e-6 n x res) ≤ 1e-6 * y := by
  induction n with
  | zero =>
    intro x res hx h1 _ _ h4
    rw [math.inverse_newton_raphson_loop]
    exact ⟨hx, h1, by simpa using h4⟩
  | succ n ih =>
    intro x res hx h1 h2 h3 h4
    rw [math.inverse_newton_raphson_loop]
    split
    · have e : x + (y - f x) / fp x = extStep κ y x := by rw [hf, hfp, extStep]
      simp only [e]
      obtain ⟨ha, hb⟩ := extStep_halves hκ hx h1 h2
      refine ih _ _ (hx.trans_le ha) (extStep_below hκ hx (hx.le.trans ha)) ?_ ?_ ?_
      · have : x / κ ≤ extStep κ y x / κ := by gcongr
        linarith
      · simp only [elem_abs]
        rw [hf, abs_div, abs_of_pos hy, div_mul_cancel₀ _ hy.ne', abs_of_nonneg (by linarith)]
        linarith
      · rw [pow_succ] at h4; linarith
    · rename_i hres
      have : res ≤ 1e-6 := by
        simp only [model_real] at hres
        norm_num at hres ⊢
        exact hres
      refine ⟨hx, h1, h3.trans ?_⟩
      gcongr

end Polymers.Lemmas
