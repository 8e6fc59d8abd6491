import Verif.Lemmas.LinkStatistics
import Mathlib.Analysis.Calculus.ParametricIntegral
import Mathlib.MeasureTheory.Integral.Prod
import Mathlib.MeasureTheory.Integral.IntervalIntegral.Periodic
import Mathlib.Analysis.SpecialFunctions.Integrals.Basic

/-!
The direction which the Monte Carlo modules draw is uniform on the sphere: the mean of `exp (h · n)` over the two random numbers
depends on the length of `h` alone.
-/

namespace Polymers.Lemmas

open Polymers.Spec Real Set MeasureTheory Filter Topology

/-- The exponent for a vector in the plane of `x` and `z`, in polar coordinates. -/
noncomputable def sphE (m t : ℝ) (p : ℝ × ℝ) : ℝ := m * (sin t * (sin p.2 * cos (2 * π * p.1)) + cos t * cos p.2)

/-- The box of the two random numbers, the second one being an angle. -/
def sphBox : Set (ℝ × ℝ) := Icc 0 1 ×ˢ Icc 0 π

theorem sphBox_compact : IsCompact sphBox := isCompact_Icc.prod isCompact_Icc

theorem integrableOn_sphBox {f : ℝ × ℝ → ℝ} (hf : Continuous f) : IntegrableOn f sphBox (volume.prod volume) :=
  hf.continuousOn.integrableOn_compact sphBox_compact

theorem integral_sphBox {f : ℝ × ℝ → ℝ} (hf : Continuous f) :
    ∫ p in sphBox, f p ∂(volume.prod volume) = ∫ u in (0 : ℝ)..1, ∫ θ in (0 : ℝ)..π, f (u, θ) := by
  unfold sphBox
  rw [setIntegral_prod _ (integrableOn_sphBox hf), integral_Icc_eq_integral_Ioc, intervalIntegral.integral_of_le zero_le_one]
  refine integral_congr_ae (ae_of_all _ fun u => ?_)
  simp only
  rw [integral_Icc_eq_integral_Ioc, intervalIntegral.integral_of_le pi_pos.le]

theorem integral_sphBox' {f : ℝ × ℝ → ℝ} (hf : Continuous f) :
    ∫ p in sphBox, f p ∂(volume.prod volume) = ∫ θ in (0 : ℝ)..π, ∫ u in (0 : ℝ)..1, f (u, θ) := by
  unfold sphBox
  have hc : IntegrableOn (fun z : ℝ × ℝ => f z.swap) (Icc 0 π ×ˢ Icc 0 1) (volume.prod volume) :=
    (hf.comp continuous_swap).continuousOn.integrableOn_compact (isCompact_Icc.prod isCompact_Icc)
  rw [← setIntegral_prod_swap, setIntegral_prod _ hc, integral_Icc_eq_integral_Ioc, intervalIntegral.integral_of_le pi_pos.le]
  refine integral_congr_ae (ae_of_all _ fun u => ?_)
  simp only [Prod.swap_prod_mk]
  rw [integral_Icc_eq_integral_Ioc, intervalIntegral.integral_of_le zero_le_one]

/-- The derivative in the direction of the vector, and the two divergences of which it consists. -/
noncomputable def sphD (m t : ℝ) (p : ℝ × ℝ) : ℝ :=
  sin p.2 / 2 * (exp (sphE m t p) * (m * (cos t * (sin p.2 * cos (2 * π * p.1)) - sin t * cos p.2)))
noncomputable def sphA (m t : ℝ) (p : ℝ × ℝ) : ℝ :=
  cos (2 * π * p.1) * (cos p.2 * exp (sphE m t p) +
    sin p.2 * (exp (sphE m t p) * (m * (sin t * (cos p.2 * cos (2 * π * p.1)) - cos t * sin p.2))))
noncomputable def sphB (m t : ℝ) (p : ℝ × ℝ) : ℝ :=
  cos p.2 * (cos (2 * π * p.1) * exp (sphE m t p) +
    sin (2 * π * p.1) * (exp (sphE m t p) * (m * (sin t * (sin p.2 * -sin (2 * π * p.1))))))

theorem sphD_eq (m t : ℝ) (p : ℝ × ℝ) : sphD m t p = -(sphA m t p) / 2 + sphB m t p / 2 := by
  unfold sphD sphA sphB
  have h1 := sin_sq_add_cos_sq p.2
  have h2 := sin_sq_add_cos_sq (2 * π * p.1)
  generalize sin p.2 = s at *
  generalize cos p.2 = c at *
  generalize sin (2 * π * p.1) = S at *
  generalize cos (2 * π * p.1) = C at *
  generalize exp (sphE m t p) = W
  linear_combination (W * m * sin t * c * s / 2) * h2

theorem continuous_sphE (m t : ℝ) : Continuous (sphE m t) := by unfold sphE; fun_prop
theorem continuous_sphA (m t : ℝ) : Continuous (sphA m t) := by unfold sphA sphE; fun_prop
theorem continuous_sphB (m t : ℝ) : Continuous (sphB m t) := by unfold sphB sphE; fun_prop
theorem continuous_sphD (m t : ℝ) : Continuous (sphD m t) := by unfold sphD sphE; fun_prop

theorem integral_sphA (m t : ℝ) : ∫ p in sphBox, sphA m t p ∂(volume.prod volume) = 0 := by
  rw [integral_sphBox (continuous_sphA m t)]
  have h : ∀ u : ℝ, ∫ θ in (0 : ℝ)..π, sphA m t (u, θ) = 0 := fun u => by
    have hd : ∀ θ ∈ uIcc 0 π, HasDerivAt (fun θ => cos (2 * π * u) * (sin θ * exp (sphE m t (u, θ)))) (sphA m t (u, θ)) θ := fun θ _ => by
      have h1 : HasDerivAt (fun θ => sphE m t (u, θ)) (m * (sin t * (cos θ * cos (2 * π * u)) - cos t * sin θ)) θ := by
        unfold sphE
        have := ((((hasDerivAt_sin θ).mul_const (cos (2 * π * u))).const_mul (sin t)).fun_add
          ((hasDerivAt_cos θ).const_mul (cos t))).const_mul m
        refine this.congr_deriv ?_
        ring
      refine (((hasDerivAt_sin θ).fun_mul h1.exp).const_mul (cos (2 * π * u))).congr_deriv ?_
      unfold sphA
      ring
    rw [intervalIntegral.integral_eq_sub_of_hasDerivAt hd
      (((continuous_sphA m t).comp (by fun_prop : Continuous fun θ : ℝ => (u, θ))).intervalIntegrable _ _)]
    simp
  simp [h]

theorem integral_sphB (m t : ℝ) : ∫ p in sphBox, sphB m t p ∂(volume.prod volume) = 0 := by
  rw [integral_sphBox' (continuous_sphB m t)]
  have h : ∀ θ : ℝ, ∫ u in (0 : ℝ)..1, sphB m t (u, θ) = 0 := fun θ => by
    have hd : ∀ u ∈ uIcc (0 : ℝ) 1, HasDerivAt (fun u => cos θ / (2 * π) * (sin (2 * π * u) * exp (sphE m t (u, θ)))) (sphB m t (u, θ)) u := fun u _ => by
      have h0 : HasDerivAt (fun u : ℝ => 2 * π * u) (2 * π) u := by simpa using (hasDerivAt_id u).const_mul (2 * π)
      have h1 : HasDerivAt (fun u => sphE m t (u, θ)) (m * (sin t * (sin θ * -sin (2 * π * u))) * (2 * π)) u := by
        unfold sphE
        have := ((((h0.cos).const_mul (sin θ)).const_mul (sin t)).add_const (cos t * cos θ)).const_mul m
        refine this.congr_deriv ?_
        ring
      refine ((h0.sin.fun_mul h1.exp).const_mul (cos θ / (2 * π))).congr_deriv ?_
      have := pi_pos
      unfold sphB
      field_simp
    rw [intervalIntegral.integral_eq_sub_of_hasDerivAt hd
      (((continuous_sphB m t).comp (by fun_prop : Continuous fun u : ℝ => (u, θ))).intervalIntegrable _ _)]
    simp
  simp [h]

theorem integral_sphD (m t : ℝ) : ∫ p in sphBox, sphD m t p ∂(volume.prod volume) = 0 := by
  simp only [sphD_eq]
  rw [integral_add, integral_div, integral_div, integral_neg, integral_sphA, integral_sphB]
  · simp
  · exact integrableOn_sphBox (((continuous_sphA m t).neg).div_const 2)
  · exact integrableOn_sphBox ((continuous_sphB m t).div_const 2)

/-- The mean over the sphere, up to the order of the random numbers. -/
noncomputable def sphK (m t : ℝ) : ℝ := ∫ p in sphBox, sin p.2 / 2 * exp (sphE m t p) ∂(volume.prod volume)

theorem hasDerivAt_sphK (m t : ℝ) : HasDerivAt (sphK m) 0 t := by
  have hb : ∀ (s : ℝ) (p : ℝ × ℝ), |sphE m s p| ≤ 2 * |m| := fun s p => by
    unfold sphE
    rw [abs_mul, mul_comm]
    refine mul_le_mul_of_nonneg_right ((abs_add_le _ _).trans ?_) (abs_nonneg m)
    rw [abs_mul, abs_mul, abs_mul]
    have h1 := abs_sin_le_one s
    have h2 := abs_sin_le_one p.2
    have h3 := abs_cos_le_one (2 * π * p.1)
    have h4 := abs_cos_le_one s
    have h5 := abs_cos_le_one p.2
    have h6 : |sin s| * (|sin p.2| * |cos (2 * π * p.1)|) ≤ 1 * (1 * 1) := by gcongr
    have h7 : |cos s| * |cos p.2| ≤ 1 * 1 := by gcongr
    linarith
  have h := hasDerivAt_integral_of_dominated_loc_of_deriv_le (μ := (volume.prod volume).restrict sphBox)
    (F := fun t p => sin p.2 / 2 * exp (sphE m t p)) (F' := fun t p => sphD m t p) (x₀ := t) (s := univ)
    (bound := fun _ => exp (2 * |m|) * (|m| * 2)) univ_mem
    (Eventually.of_forall fun s => ?_) ?_ ?_ (ae_of_all _ fun p s _ => ?_) ?_ (ae_of_all _ fun p s _ => ?_)
  · have := h.2
    rw [integral_sphD] at this
    exact this
  · have := continuous_sphE m s
    exact Continuous.aestronglyMeasurable (by fun_prop)
  · have := continuous_sphE m t
    exact integrableOn_sphBox (by fun_prop)
  · exact (continuous_sphD m t).aestronglyMeasurable
  · unfold sphD
    rw [norm_eq_abs, abs_mul, abs_mul, abs_exp, abs_mul]
    have h1 : |sin p.2 / 2| ≤ 1 := by
      rw [abs_div, abs_two]; linarith [abs_sin_le_one p.2]
    have h2 : exp (sphE m s p) ≤ exp (2 * |m|) := exp_le_exp.2 ((le_abs_self _).trans (hb s p))
    have h3 : |cos s * (sin p.2 * cos (2 * π * p.1)) - sin s * cos p.2| ≤ 2 := by
      refine (abs_sub _ _).trans ?_
      rw [abs_mul, abs_mul, abs_mul]
      have h1 := abs_sin_le_one s
      have h2 := abs_sin_le_one p.2
      have h3 := abs_cos_le_one (2 * π * p.1)
      have h4 := abs_cos_le_one s
      have h5 := abs_cos_le_one p.2
      have h6 : |cos s| * (|sin p.2| * |cos (2 * π * p.1)|) ≤ 1 * (1 * 1) := by gcongr
      have h7 : |sin s| * |cos p.2| ≤ 1 * 1 := by gcongr
      linarith
    calc _ ≤ 1 * (exp (2 * |m|) * (|m| * 2)) := by gcongr
      _ = _ := one_mul _
  · exact integrableOn_sphBox continuous_const
  · have h1 : HasDerivAt (fun s => sphE m s p) (m * (cos s * (sin p.2 * cos (2 * π * p.1)) - sin s * cos p.2)) s := by
      unfold sphE
      have := (((hasDerivAt_sin s).mul_const (sin p.2 * cos (2 * π * p.1))).fun_add
        ((hasDerivAt_cos s).mul_const (cos p.2))).const_mul m
      refine this.congr_deriv ?_
      ring
    exact (h1.exp.const_mul (sin p.2 / 2))

theorem sphK_zero (m : ℝ) : sphK m 0 = directionAverage m := by
  unfold sphK
  have hc := continuous_sphE m 0
  rw [integral_sphBox (by fun_prop)]
  simp only [sphE, sin_zero, zero_mul, cos_zero, one_mul, zero_add, intervalIntegral.integral_const, sub_zero, one_smul]
  have h := intervalIntegral.integral_comp_mul_deriv (a := 0) (b := π) (f := fun θ => cos θ) (f' := fun θ => -sin θ)
    (g := fun x => exp (m * x)) (fun θ _ => hasDerivAt_cos θ) (by fun_prop) (by fun_prop)
  simp only [Function.comp, cos_zero, cos_pi] at h
  rw [intervalIntegral.integral_symm (-1) 1] at h
  unfold directionAverage
  have e : ∀ θ : ℝ, sin θ / 2 * exp (m * cos θ) = -(1 / 2) * (exp (m * cos θ) * -sin θ) := fun θ => by ring
  simp only [e]
  rw [intervalIntegral.integral_const_mul, h]
  ring

theorem sphK_eq (m t : ℝ) : sphK m t = directionAverage m := by
  rw [← sphK_zero]
  exact is_const_of_deriv_eq_zero (fun t => (hasDerivAt_sphK m t).differentiableAt) (fun t => (hasDerivAt_sphK m t).deriv) t 0

/-- The substitution of the angle for the random number. -/
theorem integral_acos {G : ℝ → ℝ → ℝ} (hG : Continuous (fun p : ℝ × ℝ => G p.1 p.2)) :
    ∫ v in (0 : ℝ)..1, G (cos (arccos (1 - 2 * v))) (sin (arccos (1 - 2 * v))) =
      ∫ θ in (0 : ℝ)..π, sin θ / 2 * G (cos θ) (sin θ) := by
  have hg : Continuous fun v : ℝ => G (cos (arccos (1 - 2 * v))) (sin (arccos (1 - 2 * v))) :=
    hG.comp (by fun_prop : Continuous fun v : ℝ => (cos (arccos (1 - 2 * v)), sin (arccos (1 - 2 * v))))
  have h := intervalIntegral.integral_comp_mul_deriv (a := 0) (b := π) (f := fun θ => (1 - cos θ) / 2) (f' := fun θ => sin θ / 2)
    (g := fun v => G (cos (arccos (1 - 2 * v))) (sin (arccos (1 - 2 * v))))
    (fun θ _ => by
      have := ((hasDerivAt_cos θ).const_sub 1).div_const 2
      refine this.congr_deriv ?_
      ring) (by fun_prop) hg
  simp only [Function.comp, cos_zero, cos_pi] at h
  norm_num at h
  rw [← h]
  refine intervalIntegral.integral_congr fun θ hθ => ?_
  rw [uIcc_of_le pi_pos.le] at hθ
  rw [show 1 - 2 * ((1 - cos θ) / 2) = cos θ by ring, arccos_cos hθ.1 hθ.2]
  ring

/-- Averaging over the first random number turns the vector into the plane of `x` and `z`. -/
theorem integral_turn {s a b ρ φ : ℝ} (ha : a = ρ * cos φ) (hb : b = ρ * sin φ) :
    ∫ u in (0 : ℝ)..1, exp (s * (a * cos (2 * π * u) + b * sin (2 * π * u))) = ∫ u in (0 : ℝ)..1, exp (s * (ρ * cos (2 * π * u))) := by
  have hp : Function.Periodic (fun u : ℝ => exp (s * (ρ * cos (2 * π * u)))) 1 := fun u => by
    simp only
    rw [mul_add, mul_one, cos_add_two_pi]
  have h := hp.intervalIntegral_add_eq (-(φ / (2 * π))) 0
  rw [zero_add] at h
  rw [← h]
  have h2 := intervalIntegral.integral_comp_sub_right (a := 0) (b := 1) (fun u : ℝ => exp (s * (ρ * cos (2 * π * u)))) (φ / (2 * π))
  rw [zero_sub, show (1 : ℝ) - φ / (2 * π) = -(φ / (2 * π)) + 1 by ring] at h2
  rw [← h2]
  refine intervalIntegral.integral_congr fun u _ => ?_
  have := pi_pos
  rw [show 2 * π * (u - φ / (2 * π)) = 2 * π * u - φ by field_simp, cos_sub, ha, hb]
  congr 2
  ring

/-- The mean of `exp (h · n)` over the two random numbers. -/
theorem sphere_average (a b c : ℝ) :
    ∫ u in (0 : ℝ)..1, ∫ v in (0 : ℝ)..1, exp (a * (sin (arccos (1 - 2 * v)) * cos (2 * π * u)) +
      b * (sin (arccos (1 - 2 * v)) * sin (2 * π * u)) + c * cos (arccos (1 - 2 * v))) = directionAverage (√(a ^ 2 + b ^ 2 + c ^ 2)) := by
  have h1 : ∀ u : ℝ, ∫ v in (0 : ℝ)..1, exp (a * (sin (arccos (1 - 2 * v)) * cos (2 * π * u)) +
      b * (sin (arccos (1 - 2 * v)) * sin (2 * π * u)) + c * cos (arccos (1 - 2 * v))) =
      ∫ θ in (0 : ℝ)..π, sin θ / 2 * exp (a * (sin θ * cos (2 * π * u)) + b * (sin θ * sin (2 * π * u)) + c * cos θ) := fun u =>
    integral_acos (G := fun x y => exp (a * (y * cos (2 * π * u)) + b * (y * sin (2 * π * u)) + c * x)) (by fun_prop)
  simp only [h1]
  have hc : ∀ a b : ℝ, Continuous fun p : ℝ × ℝ => sin p.2 / 2 *
      exp (a * (sin p.2 * cos (2 * π * p.1)) + b * (sin p.2 * sin (2 * π * p.1)) + c * cos p.2) := fun a b => by fun_prop
  rw [← integral_sphBox (hc a b), integral_sphBox' (hc a b)]
  -- polar coordinates in the plane of `x` and `y`, then in that of `x` and `z`
  obtain ⟨ρ, φ, ha, hb, hρ⟩ : ∃ ρ φ : ℝ, a = ρ * cos φ ∧ b = ρ * sin φ ∧ ρ ^ 2 = a ^ 2 + b ^ 2 := by
    refine ⟨‖(⟨a, b⟩ : ℂ)‖, Complex.arg ⟨a, b⟩, ?_, ?_, ?_⟩
    · rw [Complex.norm_mul_cos_arg]
    · rw [Complex.norm_mul_sin_arg]
    · rw [Complex.sq_norm, Complex.normSq_apply]; simp only; ring
  obtain ⟨m, t, hm, hmc, hms⟩ : ∃ m t : ℝ, m = √(a ^ 2 + b ^ 2 + c ^ 2) ∧ c = m * cos t ∧ ρ = m * sin t := by
    refine ⟨‖(⟨c, ρ⟩ : ℂ)‖, Complex.arg ⟨c, ρ⟩, ?_, ?_, ?_⟩
    · rw [Complex.norm_def, Complex.normSq_apply]
      congr 1
      simp only
      linear_combination hρ
    · rw [Complex.norm_mul_cos_arg]
    · rw [Complex.norm_mul_sin_arg]
  rw [← hm, ← sphK_eq m t, sphK]
  have hc' := continuous_sphE m t
  rw [integral_sphBox' (by fun_prop)]
  refine intervalIntegral.integral_congr fun θ _ => ?_
  simp only
  have e1 : ∀ u : ℝ, sin θ / 2 * exp (a * (sin θ * cos (2 * π * u)) + b * (sin θ * sin (2 * π * u)) + c * cos θ) =
      sin θ / 2 * exp (c * cos θ) * exp (sin θ * (a * cos (2 * π * u) + b * sin (2 * π * u))) := fun u => by
    rw [mul_assoc (sin θ / 2), ← exp_add]; congr 2; ring
  have e2 : ∀ u : ℝ, sin θ / 2 * exp (sphE m t (u, θ)) =
      sin θ / 2 * exp (c * cos θ) * exp (sin θ * (ρ * cos (2 * π * u))) := fun u => by
    rw [mul_assoc (sin θ / 2), ← exp_add, sphE, hmc, hms]; congr 2; ring
  simp only [e1, e2]
  rw [intervalIntegral.integral_const_mul, intervalIntegral.integral_const_mul, integral_turn ha hb]

end Polymers.Lemmas
