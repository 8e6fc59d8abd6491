import Verif.Lemmas.EfjcNewton
import Verif.Lemmas.EfjcAsymptotic
import Mathlib.Analysis.SpecialFunctions.Exponential

/-!
How much faster than proportionally the force of a chain of extensible links grows with its extension.
-/

namespace Polymers.Lemmas

open Real Set Polymers.Props

/-- The differential equation of the Langevin function. -/
theorem langevin_ode {x : ℝ} (hx : 0 < x) : 1 / x ^ 2 - 1 / sinh x ^ 2 = 1 - 2 * langevin x / x - langevin x ^ 2 := by
  have hs : 0 < sinh x := sinh_pos_iff.2 hx
  rw [langevin_eq hx.ne']
  have := cosh_sq x
  field_simp
  linear_combination x ^ 2 * this

theorem langevin_slope_lower {x : ℝ} (hx : 0 < x) : 1 / (3 + x ^ 2) ≤ 1 / x ^ 2 - 1 / sinh x ^ 2 := by
  have hs : 0 < sinh x := sinh_pos_iff.2 hx
  have h1 : x + x ^ 3 / 6 ≤ sinh x := by
    have := pos_of_deriv_pos (f := fun x => sinh x - (x + x ^ 3 / 6)) (f' := fun x => cosh x - (1 + x ^ 2 / 2)) (by simp)
      (fun x => by
        refine ((hasDerivAt_sinh x).sub ((hasDerivAt_id x).add (((hasDerivAt_id x).pow 3).div_const 6))).congr_deriv ?_
        simp; ring) (fun x hx => by
          have h1 := self_lt_sinh' (show 0 < x / 2 by linarith)
          have h2 : cosh x = 2 * sinh (x / 2) ^ 2 + 1 := by
            have := cosh_two_mul (x / 2)
            rw [mul_div_cancel₀ _ (two_ne_zero)] at this
            rw [this, cosh_sq]; ring
          rw [h2]
          nlinarith) hx
    linarith
  have h2 : x ^ 2 + x ^ 4 / 3 ≤ sinh x ^ 2 := by
    have := pow_le_pow_left₀ (by positivity) h1 2
    nlinarith [pow_pos hx 6]
  have h3 : 1 / sinh x ^ 2 ≤ 1 / (x ^ 2 + x ^ 4 / 3) := one_div_le_one_div_of_le (by positivity) h2
  have e : 1 / x ^ 2 - 1 / (x ^ 2 + x ^ 4 / 3) = 1 / (3 + x ^ 2) := by
    field_simp
    ring
  linarith

theorem exp_le_ratio {x : ℝ} (h0 : 0 ≤ x) : exp x * (2 - x) ≤ 2 + x := by
  have hm : MonotoneOn (fun x : ℝ => 2 + x - exp x * (2 - x)) (Ici 0) := by
    refine monotoneOn_of_deriv_nonneg (convex_Ici 0) (by fun_prop) (by fun_prop) ?_
    intro y hy
    rw [interior_Ici] at hy
    have hd : HasDerivAt (fun x : ℝ => 2 + x - exp x * (2 - x)) (1 - exp y * (1 - y)) y := by
      refine (((hasDerivAt_id y).const_add 2).sub ((hasDerivAt_exp y).mul ((hasDerivAt_id y).const_sub 2))).congr_deriv ?_
      simp; ring
    rw [hd.deriv]
    have h1 := one_sub_le_exp_neg y
    have h2 := mul_le_mul_of_nonneg_left h1 (exp_pos y).le
    rw [← exp_add, add_neg_cancel, exp_zero] at h2
    linarith
  have := hm (show (0:ℝ) ∈ Ici 0 by simp) (show x ∈ Ici 0 from h0) h0
  simp only [exp_zero] at this
  linarith

theorem tanh_aux {x : ℝ} (h0 : 0 ≤ x) (h2 : x ≤ 2) : (x ^ 2 + 4) * sinh x ≤ 4 * x * cosh x := by
  have h := exp_le_ratio h0
  have hp := exp_pos x
  have h3 : (exp x * (2 - x)) ^ 2 ≤ (2 + x) ^ 2 := pow_le_pow_left₀ (mul_nonneg hp.le (by linarith)) h 2
  rw [sinh_eq, cosh_eq, exp_neg]
  rw [← sub_nonneg]
  have e : 4 * x * ((exp x + (exp x)⁻¹) / 2) - (x ^ 2 + 4) * ((exp x - (exp x)⁻¹) / 2) =
      ((2 + x) ^ 2 - (exp x * (2 - x)) ^ 2) / (2 * exp x) := by
    field_simp
    ring
  rw [e]
  exact div_nonneg (by linarith) (by positivity)

theorem langevin_upper {x : ℝ} (h0 : 0 < x) (h2 : x ≤ 2) : langevin x ≤ 6 * x / (18 + x ^ 2) := by
  have hs : 0 < sinh x := sinh_pos_iff.2 h0
  have hm : MonotoneOn (fun x : ℝ => (7 * x ^ 2 + 18) * sinh x - (x ^ 3 + 18 * x) * cosh x) (Icc 0 2) := by
    refine monotoneOn_of_deriv_nonneg (convex_Icc 0 2) (by fun_prop) (by fun_prop) ?_
    intro y hy
    rw [interior_Icc] at hy
    have hd : HasDerivAt (fun x : ℝ => (7 * x ^ 2 + 18) * sinh x - (x ^ 3 + 18 * x) * cosh x)
        (y * (4 * y * cosh y - (y ^ 2 + 4) * sinh y)) y := by
      refine ((((((hasDerivAt_id y).pow 2).const_mul 7).add_const 18).mul (hasDerivAt_sinh y)).sub
        ((((hasDerivAt_id y).pow 3).add ((hasDerivAt_id y).const_mul 18)).mul (hasDerivAt_cosh y))).congr_deriv ?_
      simp; ring
    rw [hd.deriv]
    have := tanh_aux hy.1.le hy.2.le
    exact mul_nonneg hy.1.le (by linarith)
  have h := hm (show (0:ℝ) ∈ Icc 0 2 by norm_num) (show x ∈ Icc 0 2 from ⟨h0.le, h2⟩) h0.le
  norm_num at h
  rw [langevin_eq h0.ne', div_le_div_iff₀ (by positivity) (by positivity)]
  nlinarith

theorem shape_small {x : ℝ} (h0 : 0 < x) (h2 : x ≤ 2) :
    langevin x - x * (1 / x ^ 2 - 1 / sinh x ^ 2) ≤ x / 2 * langevin x ^ 2 := by
  have hu := langevin_upper h0 h2
  have hl := langevin_pos h0
  rw [langevin_ode h0]
  have e : langevin x - x * (1 - 2 * langevin x / x - langevin x ^ 2) = 3 * langevin x - x + x * langevin x ^ 2 := by
    field_simp
    ring
  rw [e]
  have h3 : 3 * langevin x + x / 2 * langevin x ^ 2 ≤ 3 * (6 * x / (18 + x ^ 2)) + x / 2 * (6 * x / (18 + x ^ 2)) ^ 2 := by
    gcongr
  have h4 : 3 * (6 * x / (18 + x ^ 2)) + x / 2 * (6 * x / (18 + x ^ 2)) ^ 2 = x - x ^ 5 / (18 + x ^ 2) ^ 2 := by
    field_simp
    ring
  have h5 : 0 ≤ x ^ 5 / (18 + x ^ 2) ^ 2 := by positivity
  linarith

theorem shape_large {x : ℝ} (h2 : 2 ≤ x) :
    langevin x - x * (1 / x ^ 2 - 1 / sinh x ^ 2) ≤ langevin x ^ 2 := by
  have h0 : 0 < x := by linarith
  rw [langevin_ode h0]
  have e : langevin x - x * (1 - 2 * langevin x / x - langevin x ^ 2) = 3 * langevin x - x + x * langevin x ^ 2 := by
    field_simp
    ring
  rw [e]
  set E := 2 * x + 2 * x ^ 2 + 4 / 3 * x ^ 3 + 2 / 3 * x ^ 4 + 4 / 15 * x ^ 5 with hE
  have hexp : 1 + E ≤ exp (2 * x) := by
    have := sum_le_exp_of_nonneg (show 0 ≤ 2 * x by linarith) 6
    simp only [Finset.sum_range_succ, Finset.sum_range_zero, Nat.factorial] at this
    push_cast at this
    refine le_trans (le_of_eq ?_) this
    rw [hE]; ring
  have hE0 : 0 < E := by positivity
  -- the hyperbolic cotangent
  have hc : langevin x = 1 - 1 / x + 2 / (exp (2 * x) - 1) := by
    rw [langevin, one_div_tanh, cosh_eq, sinh_eq, exp_neg, show 2 * x = x + x by ring, exp_add]
    have hp := exp_pos x
    have h1 : 1 < exp x := one_lt_exp_iff.2 h0
    have h3 : exp x * exp x - 1 ≠ 0 := by nlinarith
    have h4 : exp x - (exp x)⁻¹ ≠ 0 := by
      intro h
      apply h3
      field_simp at h
      nlinarith
    have h5 : exp x ^ 2 - 1 ≠ 0 := by rw [pow_two]; exact h3
    field_simp
    ring
  set d := 2 / (exp (2 * x) - 1) with hd
  have hd0 : 0 ≤ d := div_nonneg (by norm_num) (by linarith)
  have hdE : d ≤ 2 / E := div_le_div_of_nonneg_left (by norm_num) hE0 (by linarith)
  rw [hc]
  have hkey : (4 * x ^ 3 - 2 * x ^ 2 + 4 * x + 1) ≤ E := by
    rw [hE]
    nlinarith [pow_pos h0 2, pow_pos h0 3, mul_nonneg (sub_nonneg.2 h2) (pow_pos h0 2).le, mul_nonneg (sub_nonneg.2 h2) (pow_pos h0 3).le,
      mul_nonneg (sub_nonneg.2 h2) (pow_pos h0 4).le, mul_nonneg (sub_nonneg.2 h2) h0.le]
  have h1 : d * E ≤ 2 := by rwa [le_div_iff₀ hE0] at hdE
  have hfin : (2 * x ^ 3 - x ^ 2 + 2 * x) * d + (x - 1) * x ^ 2 * d ^ 2 ≤ 1 := by
    have a1 : d * (4 * x ^ 3 - 2 * x ^ 2 + 4 * x + 1) ≤ 2 := (mul_le_mul_of_nonneg_left hkey hd0).trans h1
    have a2 : 2 * (x - 1) * x ^ 2 * d ≤ 1 := by
      have : 4 * ((x - 1) * x ^ 2) ≤ E := by nlinarith [pow_pos h0 2]
      have := (mul_le_mul_of_nonneg_left this hd0).trans h1
      linarith
    have a3 : 2 * (x - 1) * x ^ 2 * d * d ≤ 1 * d := mul_le_mul_of_nonneg_right a2 hd0
    nlinarith
  have hx2 : 0 < x ^ 2 := by positivity
  have e2 : (1 - 1 / x + d) ^ 2 - (3 * (1 - 1 / x + d) - x + x * (1 - 1 / x + d) ^ 2) =
      (1 - ((2 * x ^ 3 - x ^ 2 + 2 * x) * d + (x - 1) * x ^ 2 * d ^ 2)) / x ^ 2 := by
    field_simp
    ring
  have : 0 ≤ (1 - ((2 * x ^ 3 - x ^ 2 + 2 * x) * d + (x - 1) * x ^ 2 * d ^ 2)) / x ^ 2 := div_nonneg (by linarith) hx2.le
  linarith

/-- For links of any stiffness. -/
theorem ext_shape {κ x : ℝ} (hκ : 0 < κ) (hx : 0 < x) :
    langevin x - x * (1 / x ^ 2 - 1 / sinh x ^ 2) ≤
      2 / 3 * √κ * langevin x ^ 2 * (x * (1 / x ^ 2 - 1 / sinh x ^ 2 + 1 / κ)) := by
  have hs : 0 < √κ := sqrt_pos.2 hκ
  have hκs : κ = √κ ^ 2 := (sq_sqrt hκ.le).symm
  have hl := langevin_slope_lower hx
  have hL : 0 ≤ langevin x ^ 2 := sq_nonneg _
  generalize √κ = s at *
  subst hκs
  rcases le_total x 2 with h2 | h2
  · have h1 := shape_small hx h2
    have h7 : (1:ℝ) / 7 ≤ 1 / (3 + x ^ 2) := one_div_le_one_div_of_le (by positivity) (by nlinarith)
    have h3 : x / 2 ≤ 2 / 3 * s * (x * (1 / x ^ 2 - 1 / sinh x ^ 2 + 1 / s ^ 2)) := by
      have h4 : 3 / 4 ≤ s * (1 / x ^ 2 - 1 / sinh x ^ 2 + 1 / s ^ 2) := by
        calc (3:ℝ) / 4 ≤ s * (1 / 7 + 1 / s ^ 2) := by
              have e : s * (1 / 7 + 1 / s ^ 2) - 3 / 4 = (s ^ 2 / 7 - 3 / 4 * s + 1) / s := by field_simp; ring
              have : 0 ≤ (s ^ 2 / 7 - 3 / 4 * s + 1) / s := div_nonneg (by nlinarith [sq_nonneg (s - 21 / 8)]) hs.le
              linarith
          _ ≤ _ := mul_le_mul_of_nonneg_left (by linarith) hs.le
      nlinarith
    calc _ ≤ _ := h1
      _ ≤ 2 / 3 * s * (x * (1 / x ^ 2 - 1 / sinh x ^ 2 + 1 / s ^ 2)) * langevin x ^ 2 := mul_le_mul_of_nonneg_right h3 hL
      _ = _ := by ring
  · have h1 := shape_large h2
    have h7 : (4:ℝ) / (7 * x ^ 2) ≤ 1 / (3 + x ^ 2) := by
      rw [div_le_div_iff₀ (by positivity) (by positivity)]
      nlinarith
    have h3 : 1 ≤ 2 / 3 * s * (x * (1 / x ^ 2 - 1 / sinh x ^ 2 + 1 / s ^ 2)) := by
      calc (1:ℝ) ≤ 2 / 3 * s * (x * (4 / (7 * x ^ 2) + 1 / s ^ 2)) := by
            have e : 2 / 3 * s * (x * (4 / (7 * x ^ 2) + 1 / s ^ 2)) - 1 =
                2 / 3 * (4 / 7 * s ^ 2 - 3 / 2 * (s * x) + x ^ 2) / (s * x) := by field_simp; ring
            have : 0 ≤ 2 / 3 * (4 / 7 * s ^ 2 - 3 / 2 * (s * x) + x ^ 2) / (s * x) :=
              div_nonneg (by nlinarith [sq_nonneg (x - 3 / 4 * s), sq_nonneg s]) (by positivity)
            linarith
        _ ≤ _ := by gcongr; linarith
    calc _ ≤ _ := h1
      _ ≤ 2 / 3 * s * (x * (1 / x ^ 2 - 1 / sinh x ^ 2 + 1 / s ^ 2)) * langevin x ^ 2 := le_mul_of_one_le_left hL h3
      _ = _ := by ring

end Polymers.Lemmas
