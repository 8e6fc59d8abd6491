import Verif.Lemmas.Langevin

/-! Derivatives of the link-stretching corrections shared by the EFJC and uFJC models. -/

namespace Polymers

open Real

theorem div_tanh_eq (x : ℝ) : x / tanh x = x * (cosh x / sinh x) := by
  rw [← one_div_tanh]; ring

theorem hasDerivAt_div_tanh {x : ℝ} (hx : x ≠ 0) :
    HasDerivAt (fun x => x / tanh x) (1 / tanh x - x / sinh x ^ 2) x := by
  have h := (hasDerivAt_id x).mul (hasDerivAt_one_div_tanh hx)
  have e : (fun x : ℝ => x / tanh x) = (id * fun x => 1 / tanh x) := by
    funext y; simp [div_eq_mul_inv]
  rw [e]
  refine h.congr_deriv ?_
  simp; ring

theorem one_le_div_tanh {x : ℝ} (hx : x ≠ 0) : 1 < x / tanh x := by
  have key : ∀ x : ℝ, 0 < x → 1 < x / tanh x := by
    intro x hx
    rw [div_tanh_eq, ← mul_div_assoc, one_lt_div (sinh_pos_iff.2 hx)]
    exact sinh_lt_self_mul_cosh hx
  rcases lt_or_gt_of_ne hx with h | h
  · have := key (-x) (neg_pos.2 h)
    rwa [tanh_neg, neg_div_neg_eq] at this
  · exact key x h

/-- The correction to the expected length, in the form the code has it, is the derivative of
`ln (1 + (η/tanh η)/(c κ))`. -/
theorem hasDerivAt_log_corr {c κ x : ℝ} (hc : 0 < c) (hκ : 0 < κ) (hx : x ≠ 0) :
    HasDerivAt (fun x => log (1 + x / tanh x / κ / c))
      (x / κ * ((tanh x - 1 / tanh x + 1 / x) / (c * tanh x + x / κ))) x := by
  have h1 := ((((hasDerivAt_div_tanh hx).div_const κ).div_const c).const_add 1)
  have hp : 0 < x / tanh x := lt_trans one_pos (one_le_div_tanh hx)
  have h2 := h1.log (by positivity)
  refine h2.congr_deriv ?_
  have hs := sinh_ne_zero.2 hx
  have hch := (cosh_pos x).ne'
  have hsq := cosh_sq x
  have hA : κ * c + x * (cosh x / sinh x) ≠ 0 := by
    rw [div_tanh_eq] at hp
    positivity
  rw [div_tanh_eq, one_div_tanh, tanh_eq_sinh_div_cosh]
  have e1 : 1 + x * (cosh x / sinh x) / κ / c = (κ * c + x * (cosh x / sinh x)) / (κ * c) := by
    field_simp
  have e2 : c * (sinh x / cosh x) + x / κ = (κ * c + x * (cosh x / sinh x)) * (sinh x / (cosh x * κ)) := by
    field_simp
  rw [e1, e2]
  have e3 : sinh x / cosh x - cosh x / sinh x + 1 / x = (sinh x * cosh x - x) / (x * (cosh x * sinh x)) := by
    field_simp
    rw [hsq]; ring
  rw [e3]
  field_simp

theorem hasDerivAt_one_div_sinh_sq {x : ℝ} (hx : x ≠ 0) :
    HasDerivAt (fun x : ℝ => 1 / sinh x ^ 2) (-2 * (1 / sinh x ^ 2) * (1 / tanh x)) x := by
  have hs := sinh_ne_zero.2 hx
  have hch := (cosh_pos x).ne'
  have h := (((hasDerivAt_sinh x).pow 2).inv (pow_ne_zero 2 hs))
  have e : (fun x : ℝ => 1 / sinh x ^ 2) = (sinh ^ 2)⁻¹ := by funext y; simp
  rw [e]
  refine h.congr_deriv ?_
  rw [one_div_tanh]
  simp only [Pi.pow_apply]
  field_simp
  ring

/-- Its derivative, in the form the code has it. -/
theorem hasDerivAt_corr {c κ x : ℝ} (hc : 0 < c) (hκ : 0 < κ) (hx : x ≠ 0) :
    HasDerivAt (fun x => x / κ * ((tanh x - 1 / tanh x + 1 / x) / (c * tanh x + x / κ)))
      (((2 * c * κ * x / tanh x - 2 * c * κ + 2 * x ^ 2 - 1) / sinh x ^ 2 + x ^ 2 / sinh x ^ 4 - 1) /
        (c * κ + x / tanh x) ^ 2) x := by
  have hev : (fun x => x / κ * ((tanh x - 1 / tanh x + 1 / x) / (c * tanh x + x / κ))) =ᶠ[nhds x]
      fun x => (1 / tanh x - x * (1 / sinh x ^ 2)) / (c * κ + x / tanh x) := by
    filter_upwards [isOpen_ne.mem_nhds hx] with y hy
    have hy : y ≠ 0 := hy
    have hs := sinh_ne_zero.2 hy
    have hch := (cosh_pos y).ne'
    have hsq := cosh_sq y
    have hp : 0 < y / tanh y := lt_trans one_pos (one_le_div_tanh hy)
    have hA : c * κ + y * (cosh y / sinh y) ≠ 0 := by
      rw [div_tanh_eq] at hp
      positivity
    rw [div_tanh_eq, one_div_tanh, tanh_eq_sinh_div_cosh]
    have e2 : c * (sinh y / cosh y) + y / κ = (c * κ + y * (cosh y / sinh y)) * (sinh y / (cosh y * κ)) := by
      field_simp
    have e3 : sinh y / cosh y - cosh y / sinh y + 1 / y = (sinh y * cosh y - y) / (y * (cosh y * sinh y)) := by
      field_simp
      rw [hsq]; ring
    rw [e2, e3]
    field_simp
  refine HasDerivAt.congr_of_eventuallyEq ?_ hev
  have hs := sinh_ne_zero.2 hx
  have hch := (cosh_pos x).ne'
  have hp : 0 < x / tanh x := lt_trans one_pos (one_le_div_tanh hx)
  have hA : c * κ + x / tanh x ≠ 0 := by positivity
  have hS := hasDerivAt_one_div_sinh_sq hx
  have h := ((hasDerivAt_one_div_tanh hx).sub ((hasDerivAt_id x).mul hS)).div
    ((hasDerivAt_div_tanh hx).const_add (c * κ)) hA
  refine h.congr_deriv ?_
  simp only [id, Pi.sub_apply, Pi.mul_apply]
  rw [div_left_inj' (pow_ne_zero 2 hA)]
  have hC : (1 / tanh x) ^ 2 = 1 + 1 / sinh x ^ 2 := by
    rw [one_div_tanh]
    field_simp
    rw [cosh_sq]
  have t1 : x / tanh x = x * (1 / tanh x) := by ring
  have t2 : 2 * c * κ * x / tanh x = 2 * c * κ * x * (1 / tanh x) := by ring
  have t3 : x ^ 2 / sinh x ^ 4 = x ^ 2 * (1 / sinh x ^ 2) ^ 2 := by
    field_simp
  have t4 : ∀ z, z / sinh x ^ 2 = z * (1 / sinh x ^ 2) := by intro z; ring
  rw [t1, t2, t3, t4 x, t4 (2 * c * κ * x * (1 / tanh x) - 2 * c * κ + 2 * x ^ 2 - 1)]
  generalize 1 / tanh x = C at *
  generalize 1 / sinh x ^ 2 = S at *
  linear_combination (2 * x ^ 2 * S - 1) * hC

end Polymers
