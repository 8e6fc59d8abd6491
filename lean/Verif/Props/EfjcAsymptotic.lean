import Verif.Lemmas.EfjcAsymptotic
import Verif.Props.EfjcAlternative

/-!
C26 and C54 for the asymptotic model of extensible links: the Newton solver for the force converges for extensions which
the Langevin function reaches below the link stiffness, and for all extensions beyond full extension.
-/

namespace Polymers.Props

open Polymers.Spec Polymers.Api Polymers.Lemmas Set Filter Topology

/-- The correction to the extension, in the form the code has it. -/
theorem corr_code {c κ x : ℝ} (hc : 0 < c) (hκ : 0 < κ) (hx : 0 < x) :
    x / κ * ((Real.tanh x - 1 / Real.tanh x + 1 / x) / (c * Real.tanh x + x / κ)) = asyC (c * κ) x := by
  have hs : 0 < Real.sinh x := Real.sinh_pos_iff.2 hx
  have hch := Real.cosh_pos x
  have hsq := Real.cosh_sq x
  have hp := div_tanh_pos hx
  have hA : 0 < c * κ + x * (Real.cosh x / Real.sinh x) := by
    rw [div_tanh_eq] at hp
    positivity
  rw [asyC, altH, div_tanh_eq, one_div_tanh, Real.tanh_eq_sinh_div_cosh]
  have e2 : c * (Real.sinh x / Real.cosh x) + x / κ =
      (c * κ + x * (Real.cosh x / Real.sinh x)) * (Real.sinh x / (Real.cosh x * κ)) := by
    field_simp
  have e3 : Real.sinh x / Real.cosh x - Real.cosh x / Real.sinh x + 1 / x =
      (Real.sinh x * Real.cosh x - x) / (x * (Real.cosh x * Real.sinh x)) := by
    field_simp
    rw [hsq]; ring
  rw [e2, e3]
  field_simp

/-- Its slope, in the form the code has it. -/
theorem corr_slope_code {c κ x : ℝ} (hc : 0 < c) (hκ : 0 < κ) (hx : 0 < x) :
    ((2 * c * κ * x / Real.tanh x - 2 * c * κ + 2 * x ^ 2 - 1) / Real.sinh x ^ 2 + x ^ 2 / Real.sinh x ^ 4 - 1) /
      (c * κ + x / Real.tanh x) ^ 2 = asyC' (c * κ) x := by
  refine (hasDerivAt_corr hc hκ hx.ne').unique ?_
  refine (hasDerivAt_asyC (by positivity) hx).congr_of_eventuallyEq ?_
  filter_upwards [lt_mem_nhds hx] with z hz
  exact corr_code hc hκ hz

theorem efjc_extension_code {κ x : ℝ} (hκ : 0 < κ) (hx : 0 < x) :
    langevin x + x / κ * (1 + (Real.tanh x - 1 / Real.tanh x + 1 / x) / (Real.tanh x + x / κ)) = asyF κ x := by
  have := corr_code one_pos hκ hx
  rw [one_mul, one_mul] at this
  rw [asyF, asyG, ← this]
  ring

theorem efjc_slope_code {κ x : ℝ} (hκ : 0 < κ) (hx : 0 < x) :
    1 / x ^ 2 - 1 / Real.sinh x ^ 2 + (κ * x ^ 2 / Real.sinh x ^ 4 - (2 * κ + 1) * (κ - x ^ 2) / Real.sinh x ^ 2 +
      2 * κ * x / Real.tanh x * (κ / Real.sinh x ^ 2 + 1) + (κ - 1) * κ + x ^ 2) / (κ + x / Real.tanh x) ^ 2 / κ =
    asyF' κ x := by
  have h := corr_slope_code one_pos hκ hx
  rw [one_mul] at h
  rw [asyF', asyG', ← h]
  have hp := div_tanh_pos hx
  have hs : 0 < Real.sinh x := Real.sinh_pos_iff.2 hx
  have hC : (1 / Real.tanh x) ^ 2 = 1 + 1 / Real.sinh x ^ 2 := by
    rw [one_div_tanh]
    field_simp
    rw [Real.cosh_sq]
  have hA : κ + x * (1 / Real.tanh x) ≠ 0 := by rw [mul_one_div]; positivity
  have t1 : ∀ z, z / Real.tanh x = z * (1 / Real.tanh x) := by intro z; ring
  have t3 : ∀ z, z / Real.sinh x ^ 4 = z * (1 / Real.sinh x ^ 2) ^ 2 := by
    intro z; field_simp
  have t4 : ∀ z, z / Real.sinh x ^ 2 = z * (1 / Real.sinh x ^ 2) := by intro z; ring
  simp only [mul_one]
  rw [t1 x, t1 (2 * κ * x), t3 (x ^ 2), t3 (κ * x ^ 2), t4 ((2 * κ + 1) * (κ - x ^ 2)), t4 κ,
    t4 (2 * κ * x * (1 / Real.tanh x) - 2 * κ + 2 * x ^ 2 - 1)]
  generalize 1 / Real.tanh x = C at *
  generalize 1 / Real.sinh x ^ 2 = S at *
  field_simp
  linear_combination (-x ^ 4) * hC

theorem efjc_asymptotic_solver {κ γ : ℝ} (hκ : 0 < κ) (hγ : 0 < γ) (hγ1 : γ < langevin κ ∨ 1 < γ) :
    0 < efjc.thermodynamics.isometric.asymptotic.legendre.nondimensional_force κ γ ∧
    asyF κ (efjc.thermodynamics.isometric.asymptotic.legendre.nondimensional_force κ γ) ≤ γ ∧
    γ - asyF κ (efjc.thermodynamics.isometric.asymptotic.legendre.nondimensional_force κ γ) ≤ 3e-6 * γ := by
  have h100 : ∀ c : ℝ, c ≤ γ → (3 / 4) ^ 99 * c ≤ 3e-6 * γ := by
    intro c hc
    have : ((3:ℝ) / 4) ^ 99 ≤ 3e-6 := by norm_num
    have h2 : (0:ℝ) ≤ (3 / 4) ^ 99 := by positivity
    generalize ((3:ℝ) / 4) ^ 99 = q at *
    nlinarith
  have hpos : ∀ z, 0 < z → 0 < asyF κ z := fun z hz => by
    have := langevin_pos hz
    have := asyC_nonneg hκ.le hz
    unfold asyF asyG; positivity
  simp only [efjc.thermodynamics.isometric.asymptotic.legendre.nondimensional_force, math.inverse_newton_raphson]
  have hlt1 : Elem.lt (1e-6 : ℝ) 1.0 = true := by simp only [model_real]; norm_num
  generalize hfd : (fun η : ℝ => _) = f
  generalize hfpd : (fun η : ℝ => _) = fp
  have hf : ∀ x, 0 < x → f x = asyF κ x := by
    intro x hx; rw [← hfd, ← efjc_extension_code hκ hx]; simp only [model_real, langevin]
  have hfp : ∀ x, 0 < x → fp x = asyF' κ x := by
    intro x hx; rw [← hfpd, ← efjc_slope_code hκ hx]; simp only [model_real]
  -- the first step
  have first : ∀ x, AsyOk κ γ x → γ ≤ 1 + 3 * (asyStep κ γ x / κ) →
      (|γ - asyF κ x| / |γ| ≤ 1e-6 → γ - asyF κ (asyStep κ γ x) ≤ 3e-6 * γ) →
      0 < math.inverse_newton_raphson_loop γ f fp 1e-6 100 x 1.0 ∧
      asyF κ (math.inverse_newton_raphson_loop γ f fp 1e-6 100 x 1.0) ≤ γ ∧
      γ - asyF κ (math.inverse_newton_raphson_loop γ f fp 1e-6 100 x 1.0) ≤ 3e-6 * γ := by
    intro x hx h1 h2
    rw [math.inverse_newton_raphson_loop, if_pos hlt1]
    have e : x + (γ - asyF κ x) / fp x = asyStep κ γ x := by rw [hfp x hx.1, asyStep]
    simp only [hf x hx.1, e, elem_abs]
    obtain ⟨ha, hb⟩ := asyStep_below hκ hx
    refine asy_loop hκ hγ hf hfp _ _ _ ha hb h1 ?_ (h100 _ ?_)
    · rw [abs_div]; exact h2
    · linarith [hpos _ ha]
  -- a step from below
  have below : ∀ x, 0 < x → asyF κ x ≤ γ → γ ≤ 1 + 3 * (x / κ) →
      0 < math.inverse_newton_raphson_loop γ f fp 1e-6 100 x 1.0 ∧
      asyF κ (math.inverse_newton_raphson_loop γ f fp 1e-6 100 x 1.0) ≤ γ ∧
      γ - asyF κ (math.inverse_newton_raphson_loop γ f fp 1e-6 100 x 1.0) ≤ 3e-6 * γ := by
    intro x hx h1 h2
    obtain ⟨ha, hb⟩ := asyStep_reduces hκ hx h1 h2
    refine first x (.of_below hκ hx h1) ?_ ?_
    · have : x / κ ≤ asyStep κ γ x / κ := by gcongr
      linarith
    · rw [abs_of_pos hγ, div_le_iff₀ hγ, abs_of_nonneg (by linarith)]
      intro h
      norm_num at h ⊢
      linarith
  clear hfd hfpd
  by_cases h : γ < 1
  · have h' : γ < langevin κ := hγ1.resolve_right (by linarith)
    have hg : Elem.lt γ (1.0 : ℝ) = true := by simp only [model_real]; exact h
    rw [if_pos hg]
    obtain ⟨hx, hacc⟩ := inverse_langevin_spec hγ h
    have hL := inverse_langevin_below hγ h
    have hxκ := inverse_langevin_lt_stiffness hκ hγ h'
    set x := math.inverse_langevin γ with hxd
    clear_value x
    have hxk : 0 < x / κ := by positivity
    rcases le_total (asyF κ x) γ with hc | hc
    · exact below x hx hc (by linarith)
    have hok : AsyOk κ γ x := .low hx hxκ hL
    obtain ⟨ha, _⟩ := asyStep_below hκ hok
    have : 0 < asyStep κ γ x / κ := by positivity
    refine first x hok (by linarith) fun hstop => ?_
    rw [abs_of_pos hγ, div_le_iff₀ hγ, abs_of_nonpos (by linarith)] at hstop
    have hxs : x * (1 / κ) ≤ 2e-6 * γ := by
      rw [abs_of_nonpos (by linarith)] at hacc
      have h3 := asyC_nonneg hκ.le hx
      unfold asyF asyG at hstop
      rw [mul_one_div]
      norm_num at hstop hacc ⊢
      linarith
    refine (asyStep_low hκ hok hc hL ?_ ?_).trans ?_
    · have h3 := langevin_lt_third hx
      rw [abs_of_nonpos (by linarith)] at hacc
      refine le_of_mul_le_mul_left ?_ hx
      norm_num at hacc hxs ⊢
      linarith
    · norm_num at hxs ⊢
      linarith
    · norm_num at hstop ⊢
      linarith
  · have h1 : 1 < γ := hγ1.resolve_left fun h2 => h (h2.trans (langevin_lt_one hκ))
    have hg : ¬ Elem.lt γ (1.0 : ℝ) = true := by simp only [model_real]; norm_num; exact h1.le
    rw [if_neg hg]
    have e1 : κ * (γ - 1.0) = κ * (γ - 1) := by norm_num
    rw [e1]
    have hx : 0 < κ * (γ - 1) := mul_pos hκ (by linarith)
    have hxk : κ * (γ - 1) / κ = γ - 1 := by field_simp
    have hok := AsyOk.high hκ h1
    set x := κ * (γ - 1) with hxd
    clear_value x
    rcases le_total (asyF κ x) γ with hc | hc
    · exact below x hx hc (by rw [hxk]; linarith)
    obtain ⟨ha, hb⟩ := asyStep_high hκ hok hc (by rw [hxk]; ring)
    refine first x hok ?_ fun hstop => ?_
    · have : x / 3 / κ ≤ asyStep κ γ x / κ := by gcongr; linarith
      have : x / 3 / κ = (γ - 1) / 3 := by rw [← hxk]; ring
      linarith
    · rw [abs_of_pos hγ, div_le_iff₀ hγ, abs_of_nonpos (by linarith)] at hstop
      refine ha.trans ?_
      norm_num at hstop ⊢
      linarith

/-- C26: for extensible links under the asymptotic approach, the force returned for an extension which the Langevin function
reaches below the link stiffness, or for any extension beyond full extension, applied to the chain gives the extension back
to three parts in a million. -/
theorem C26_efjc_asymptotic (N : ℕ) (ℓ m k : ℝ) (hN : 0 < N) (hℓ : 0 < ℓ) (hk : 0 < k) :
    (efjc_isometric_asymptotic_legendre_forces N ℓ m k).RoundTrip
      (efjc_isotensional_asymptotic_lengths N ℓ m k) N ℓ 3e-6
      (fun γ T => 0 < γ ∧ (γ < langevin (ndStiffness k ℓ T) ∨ 1 < γ)) := by
  refine .of_nd hN hℓ (C15_efjc_isometric_asymptotic_legendre_forces N ℓ m k hN hℓ)
    (C15_efjc_isotensional_asymptotic_lengths N ℓ m k hN hℓ) ?_
  intro γ T hT hγ
  have hκ := ndStiffness_pos hk hℓ hT
  obtain ⟨h1, h2, h3⟩ := efjc_asymptotic_solver hκ hγ.1 hγ.2
  have e : (efjc_isometric_asymptotic_legendre_forces N ℓ m k).nd_force γ T =
      efjc.thermodynamics.isometric.asymptotic.legendre.nondimensional_force (ndStiffness k ℓ T) γ := by
    simp only [api_core]
  rw [efjc_asymptotic_length, abs_of_pos hγ.1, e, efjc_extension_code hκ h1, abs_of_nonpos (by linarith)]
  linarith

example : (efjc_isometric_asymptotic_legendre_forces 8 1 1 500).RoundTrip
      (efjc_isotensional_asymptotic_lengths 8 1 1 500) 8 1 3e-6
      (fun γ T => 0 < γ ∧ (γ < langevin (ndStiffness 500 1 T) ∨ 1 < γ)) :=
  C26_efjc_asymptotic 8 1 1 500 (by norm_num) (by norm_num) (by norm_num)

/-- C54: for extensible links under the asymptotic approach, the returned force makes Gibbs energy plus force times extension
largest. -/
theorem C54_efjc_asymptotic (N : ℕ) (ℓ m k : ℝ) (hN : 0 < N) (hℓ : 0 < ℓ) (hk : 0 < k) :
    (efjc_isometric_asymptotic_legendre_forces N ℓ m k).Maximises
      (efjc_isotensional_asymptotic_gibbs N ℓ m k) 3e-6
      (fun γ T => 0 < γ ∧ (γ < langevin (ndStiffness k ℓ T) ∨ 1 < γ)) := by
  intro γ T hT hγ η hη
  have hκ := ndStiffness_pos hk hℓ hT
  have hg : ∀ x : ℝ, 0 < x → HasDerivAt
      (fun η => (efjc_isotensional_asymptotic_gibbs N ℓ m k).nd_energy_per_link η T)
      (-asyF (ndStiffness k ℓ T) x) x := by
    intro x hx
    refine ((C22_efjc_asymptotic_length_is_gradient N ℓ m k hN hℓ hk).nd_length_per_link x T hT hx.ne').congr_deriv ?_
    rw [efjc_asymptotic_length, efjc_extension_code hκ hx]
  have hc : ConcaveOn ℝ (Ioi 0)
      (fun η => (efjc_isotensional_asymptotic_gibbs N ℓ m k).nd_energy_per_link η T) := by
    refine concaveOn_of_hasDerivWithinAt2_nonpos (convex_Ioi 0)
      (fun x hx => (hg x hx).continuousAt.continuousWithinAt) (f' := fun x => -asyF (ndStiffness k ℓ T) x)
      (f'' := fun x => -asyF' (ndStiffness k ℓ T) x) (fun x hx => ?_) (fun x hx => ?_) fun x hx => ?_
    all_goals rw [interior_Ioi] at hx
    · exact (hg x hx).hasDerivWithinAt
    · exact (hasDerivAt_asyF hκ hx).neg.hasDerivWithinAt
    · exact neg_nonpos.2 (asyF'_pos hκ hx).le
  obtain ⟨hx, h2, h3⟩ := efjc_asymptotic_solver hκ hγ.1 hγ.2
  have e : (efjc_isometric_asymptotic_legendre_forces N ℓ m k).nd_force γ T =
      efjc.thermodynamics.isometric.asymptotic.legendre.nondimensional_force (ndStiffness k ℓ T) γ := by
    simp only [api_core]
  rw [e]
  generalize efjc.thermodynamics.isometric.asymptotic.legendre.nondimensional_force (ndStiffness k ℓ T) γ = x at *
  have ht := concave_tangent hc (mem_Ioi.2 hx) (mem_Ioi.2 hη) (hg x hx)
  have h4 : (γ - asyF (ndStiffness k ℓ T) x) * (η - x) ≤ 3e-6 * γ * |η - x| := by
    refine (le_abs_self _).trans ?_
    rw [abs_mul, abs_of_nonneg (by linarith : 0 ≤ γ - asyF (ndStiffness k ℓ T) x)]
    exact mul_le_mul_of_nonneg_right h3 (abs_nonneg _)
  linarith

example : (efjc_isometric_asymptotic_legendre_forces 8 1 1 500).Maximises
      (efjc_isotensional_asymptotic_gibbs 8 1 1 500) 3e-6
      (fun γ T => 0 < γ ∧ (γ < langevin (ndStiffness 500 1 T) ∨ 1 < γ)) :=
  C54_efjc_asymptotic 8 1 1 500 (by norm_num) (by norm_num) (by norm_num)

end Polymers.Props
