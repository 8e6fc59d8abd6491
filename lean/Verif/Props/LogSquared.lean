import Verif.Props.ScalingLogSquared
import Verif.Props.Newton
import Verif.Props.LambertW
import Verif.Spec.Links
import Verif.Lemmas.ApiCore
import Verif.Lemmas.Gradient
import Verif.Lemmas.Links
import Mathlib.Analysis.Calculus.InverseFunctionTheorem.Deriv

/-! Properties C25, C31 and C32 (log-squared part): the freely jointed chain with log-squared links. -/

namespace Polymers.Props

open Polymers.Spec Polymers.Api Set Filter Topology

/-- The link stretch as the code computes it. -/
noncomputable def logSquaredStretch (κ η : ℝ) : ℝ := 1 / Real.exp (math.lambert_w (-η / κ))

theorem log_squared_reduced_length (N : ℕ) (ℓ m k η T : ℝ) :
    (log_squared_isotensional_asymptotic_reduced_lengths N ℓ m k).nd_length_per_link η T =
      langevin η + logSquaredStretch (ndStiffness k ℓ T) η - 1 := by
  simp only [api_core,
    ufjc.log_squared.thermodynamics.isotensional.asymptotic.reduced.nondimensional_end_to_end_length_per_link,
    model_real, langevin, logSquaredStretch]

theorem log_squared_asymptotic_length (N : ℕ) (ℓ m k η T : ℝ) :
    (log_squared_isotensional_asymptotic_lengths N ℓ m k).nd_length_per_link η T =
      langevin η + η / ndStiffness k ℓ T * ((Real.tanh η - 1 / Real.tanh η + 1 / η) /
        (2 / 5 * Real.tanh η + η / ndStiffness k ℓ T)) + logSquaredStretch (ndStiffness k ℓ T) η - 1 := by
  simp only [api_core,
    ufjc.log_squared.thermodynamics.isotensional.asymptotic.nondimensional_end_to_end_length_per_link,
    model_real, langevin, logSquaredStretch]

theorem hasDerivAt_logSquaredEnergy {κ x : ℝ} (hx : x ≠ 0) :
    HasDerivAt (logSquaredEnergy κ) (κ * Real.log x / x) x := by
  unfold logSquaredEnergy
  refine (((Real.hasDerivAt_log hx).pow 2).const_mul (κ / 2)).congr_deriv ?_
  push_cast
  ring

/-- The negative solution of `w e^w = -η/κ` for a force below the maximum `κ/e`. -/
theorem exists_lambert_of_force {κ η : ℝ} (hκ : 0 < κ) (hη : 0 < η) (hη' : η < κ / Real.exp 1) :
    ∃ w, -1 < w ∧ w < 0 ∧ w * Real.exp w = -η / κ := by
  have hx : -Real.exp (-1) < -η / κ := by
    rw [neg_div, neg_lt_neg_iff, Real.exp_neg, div_lt_iff₀ hκ, inv_mul_eq_div]; exact hη'
  obtain ⟨w, ⟨h1, h2⟩, -⟩ := exists_unique_lambert hx
  refine ⟨w, h1, ?_, h2⟩
  by_contra h
  have : 0 ≤ w * Real.exp w := mul_nonneg (not_lt.1 h) (Real.exp_pos w).le
  have h3 : 0 < η / κ := by positivity
  rw [h2, neg_div] at this
  linarith

/-- C31: for a force below the maximum `κ/e` there is exactly one stretch on the increasing branch `(1, e)` at which the
derivative of the log-squared potential is the force.  The stretch contained in the returned extension is above one and
never above that exact one, and the derivative of the potential there never exceeds the force. -/
theorem C31_log_squared_stretch (N : ℕ) (ℓ m k : ℝ) {η T : ℝ} (hℓ : 0 < ℓ) (hk : 0 < k) (hT : 0 < T)
    (hη : 0 < η) (hη' : η < ndStiffness k ℓ T / Real.exp 1) :
    ∃ x x', 1 < x' ∧ x' ≤ x ∧ x < Real.exp 1 ∧
      HasDerivAt (logSquaredEnergy (ndStiffness k ℓ T)) η x ∧
      (∀ y, 1 ≤ y → y < Real.exp 1 → HasDerivAt (logSquaredEnergy (ndStiffness k ℓ T)) η y → y = x) ∧
      deriv (logSquaredEnergy (ndStiffness k ℓ T)) x' ≤ η ∧
      (log_squared_isotensional_asymptotic_reduced_lengths N ℓ m k).nd_length_per_link η T =
        (1 / Real.tanh η - 1 / η) + (x' - 1) := by
  have hκ := ndStiffness_pos hk hℓ hT
  rw [log_squared_reduced_length]
  generalize ndStiffness k ℓ T = κ at *
  obtain ⟨w, hw1, hw0, hw⟩ := exists_lambert_of_force hκ hη hη'
  obtain ⟨h1, h2, h3⟩ := C08_lambert_w_negative_side hw1 hw0 hw
  have e : ∀ v, κ * Real.log (Real.exp (-v)) / Real.exp (-v) = -κ * (v * Real.exp v) := by
    intro v
    rw [Real.log_exp, Real.exp_neg]
    field_simp
  have es : logSquaredStretch κ η = Real.exp (-math.lambert_w (-η / κ)) := by
    unfold logSquaredStretch; rw [Real.exp_neg, one_div]
  have hη0 : η = -κ * (w * Real.exp w) := by rw [hw]; field_simp
  refine ⟨Real.exp (-w), Real.exp (-math.lambert_w (-η / κ)), Real.one_lt_exp_iff.2 (by linarith),
    Real.exp_le_exp.2 (by linarith), Real.exp_lt_exp.2 (by linarith), ?_, ?_, ?_, by rw [es, langevin]; ring⟩
  · refine (hasDerivAt_logSquaredEnergy (Real.exp_pos _).ne').congr_deriv ?_
    rw [e]; exact hη0.symm
  · intro y hy hye hd
    have hy0 : 0 < y := by linarith
    have h4 := (hasDerivAt_logSquaredEnergy hy0.ne').unique hd
    have hly : Real.log y < 1 := by rw [← Real.exp_lt_exp, Real.exp_log hy0]; exact hye
    have h5 : (-Real.log y) * Real.exp (-Real.log y) = w * Real.exp w := by
      rw [Real.exp_neg, Real.exp_log hy0, hw, ← h4]
      field_simp
    have := strictMonoOn_mul_exp.injOn (mem_Ici.2 (by linarith)) (mem_Ici.2 hw1.le) h5
    rw [← this, neg_neg, Real.exp_log hy0]
  · rw [(hasDerivAt_logSquaredEnergy (Real.exp_pos _).ne').deriv, e]
    have h4 := strictMonoOn_mul_exp.monotoneOn (mem_Ici.2 hw1.le) (mem_Ici.2 (hw1.le.trans h1)) h1
    nlinarith

example : ∃ x x', 1 < x' ∧ x' ≤ x ∧ x < Real.exp 1 ∧
    HasDerivAt (logSquaredEnergy (ndStiffness 500 1 300)) (1 / 100) x ∧
    (∀ y, 1 ≤ y → y < Real.exp 1 → HasDerivAt (logSquaredEnergy (ndStiffness 500 1 300)) (1 / 100) y → y = x) ∧
    deriv (logSquaredEnergy (ndStiffness 500 1 300)) x' ≤ 1 / 100 ∧
    (log_squared_isotensional_asymptotic_reduced_lengths 8 1 1 500).nd_length_per_link (1 / 100) 300 =
      (1 / Real.tanh (1 / 100) - 1 / (1 / 100)) + (x' - 1) := by
  refine C31_log_squared_stretch 8 1 1 500 (by norm_num) (by norm_num) (by norm_num) (by norm_num) ?_
  rw [lt_div_iff₀ (Real.exp_pos 1)]
  have := Real.exp_one_lt_d9
  unfold ndStiffness kT
  norm_num
  linarith

theorem differentiableAt_logSquaredStretch {κ η : ℝ} (hκ : 0 < κ) (hη : 0 < η) (hη' : η < κ / Real.exp 1) :
    DifferentiableAt ℝ (logSquaredStretch κ) η := by
  obtain ⟨w, hw1, hw0, hw⟩ := exists_lambert_of_force hκ hη hη'
  have h := (lambert_w_neg hw1 hw0).2.2
  rw [hw] at h
  unfold logSquaredStretch
  have h2 : DifferentiableAt ℝ (fun η => math.lambert_w (-η / κ)) η :=
    DifferentiableAt.comp η (g := math.lambert_w) h (by fun_prop)
  have h3 : Real.exp (math.lambert_w (-η / κ)) ≠ 0 := (Real.exp_pos _).ne'
  fun_prop (disch := assumption)

/-- The derivative of the link part of the Gibbs energy, in terms of that of the computed stretch. -/
theorem hasDerivAt_log_squared_part {κ η s' : ℝ} (hs : HasDerivAt (logSquaredStretch κ) s' η) :
    HasDerivAt (fun η => 1 / 2 * κ * Real.log (logSquaredStretch κ η) ^ 2 - η * (logSquaredStretch κ η - 1))
      (-(logSquaredStretch κ η - 1) + (deriv (logSquaredEnergy κ) (logSquaredStretch κ η) - η) * s') η := by
  have hpos : 0 < logSquaredStretch κ η := by unfold logSquaredStretch; positivity
  have h1 := (hasDerivAt_logSquaredEnergy (κ := κ) hpos.ne').comp η hs
  rw [(hasDerivAt_logSquaredEnergy (κ := κ) hpos.ne').deriv]
  refine hasDerivAt_of_eq (h1.sub ((hasDerivAt_id η).mul (hs.sub_const 1))) (fun x => ?_) ?_
  · simp only [Pi.sub_apply, Pi.mul_apply, Function.comp, logSquaredEnergy, id]; ring
  · simp only [id]; ring

/-- C31: for a force below the maximum, the computed stretch `s` is differentiable in the force, and the gradient of the
reduced asymptotic Gibbs energy is minus the extension up to exactly `(u'(s) - η) s'`, where `u` is the log-squared
potential.  The error vanishes where the computed stretch balances the force exactly. -/
theorem C31_log_squared_reduced_gradient (N : ℕ) (ℓ m k : ℝ) {η T : ℝ} (hℓ : 0 < ℓ) (hk : 0 < k) (hT : 0 < T)
    (hη : 0 < η) (hη' : η < ndStiffness k ℓ T / Real.exp 1) :
    let γ := fun η => (log_squared_isotensional_asymptotic_reduced_lengths N ℓ m k).nd_length_per_link η T
    let s := fun η => γ η - (1 / Real.tanh η - 1 / η) + 1
    ∃ s', HasDerivAt s s' η ∧
      HasDerivAt (fun η => (log_squared_isotensional_asymptotic_reduced_gibbs N ℓ m k).nd_energy_per_link η T)
        (-γ η + (deriv (logSquaredEnergy (ndStiffness k ℓ T)) (s η) - η) * s') η := by
  have hκ := ndStiffness_pos hk hℓ hT
  simp only [log_squared_reduced_length]
  simp only [api_core,
    ufjc.log_squared.thermodynamics.isotensional.asymptotic.reduced.nondimensional_gibbs_free_energy_per_link, model_real]
  generalize ndStiffness k ℓ T = κ at *
  generalize Real.log (8 * Real.pi ^ 2 * m * ℓ ^ 2 * BOLTZMANN_CONSTANT * T / PLANCK_CONSTANT ^ 2) = C
  have hs := (differentiableAt_logSquaredStretch hκ hη hη').hasDerivAt
  have es : ∀ η, langevin η + logSquaredStretch κ η - 1 - (1 / Real.tanh η - 1 / η) + 1 = logSquaredStretch κ η := by
    intro η; rw [langevin]; ring
  refine ⟨_, hasDerivAt_of_eq hs es rfl, ?_⟩
  rw [es]
  refine hasDerivAt_of_eq ((((hasDerivAt_log_sinh_div hη.ne').neg.add (hasDerivAt_log_squared_part hs)).sub_const
    (1 / 2 * Real.log (2 * Real.pi * ℓ ^ 2 / κ))).sub_const C) (fun x => ?_) (by ring)
  simp only [Pi.add_apply, Pi.neg_apply, logSquaredStretch]
  ring

/-- C31: the same for the asymptotic Gibbs energy; `s` is the stretch contained in the reduced extension. -/
theorem C31_log_squared_asymptotic_gradient (N : ℕ) (ℓ m k : ℝ) {η T : ℝ} (hℓ : 0 < ℓ) (hk : 0 < k) (hT : 0 < T)
    (hη : 0 < η) (hη' : η < ndStiffness k ℓ T / Real.exp 1) :
    let s := fun η => (log_squared_isotensional_asymptotic_reduced_lengths N ℓ m k).nd_length_per_link η T -
      (1 / Real.tanh η - 1 / η) + 1
    ∃ s', HasDerivAt s s' η ∧
      HasDerivAt (fun η => (log_squared_isotensional_asymptotic_gibbs N ℓ m k).nd_energy_per_link η T)
        (-(log_squared_isotensional_asymptotic_lengths N ℓ m k).nd_length_per_link η T +
          (deriv (logSquaredEnergy (ndStiffness k ℓ T)) (s η) - η) * s') η := by
  have hκ := ndStiffness_pos hk hℓ hT
  simp only [log_squared_reduced_length, log_squared_asymptotic_length]
  simp only [api_core,
    ufjc.log_squared.thermodynamics.isotensional.asymptotic.nondimensional_gibbs_free_energy_per_link, model_real]
  generalize ndStiffness k ℓ T = κ at *
  generalize Real.log (8 * Real.pi ^ 2 * m * ℓ ^ 2 * BOLTZMANN_CONSTANT * T / PLANCK_CONSTANT ^ 2) = C
  have hs := (differentiableAt_logSquaredStretch hκ hη hη').hasDerivAt
  have es : ∀ η, langevin η + logSquaredStretch κ η - 1 - (1 / Real.tanh η - 1 / η) + 1 = logSquaredStretch κ η := by
    intro η; rw [langevin]; ring
  refine ⟨_, hasDerivAt_of_eq hs es rfl, ?_⟩
  rw [es]
  have hc : (0 : ℝ) < 2 / 5 := by norm_num
  refine hasDerivAt_of_eq (((((hasDerivAt_log_sinh_div hη.ne').neg.sub (hasDerivAt_log_corr hc hκ hη.ne')).add
    (hasDerivAt_log_squared_part hs)).sub_const
    (1 / 2 * Real.log (2 * Real.pi * ℓ ^ 2 / κ))).sub_const C) (fun x => ?_) (by ring)
  simp only [Pi.add_apply, Pi.neg_apply, Pi.sub_apply, logSquaredStretch]
  ring

/-- C32: the largest force the log-squared link can carry is `κ/e`, carried at the stretch `e`. -/
theorem C32_log_squared_max_force {κ : ℝ} (hκ : 0 < κ) :
    IsGreatest (deriv (logSquaredEnergy κ) '' Ioi 0) (κ / Real.exp 1) ∧
      deriv (logSquaredEnergy κ) (Real.exp 1) = κ / Real.exp 1 := by
  have h1 : deriv (logSquaredEnergy κ) (Real.exp 1) = κ / Real.exp 1 := by
    rw [(hasDerivAt_logSquaredEnergy (Real.exp_pos 1).ne').deriv, Real.log_exp, mul_one]
  refine ⟨⟨⟨_, Real.exp_pos 1, h1⟩, ?_⟩, h1⟩
  rintro _ ⟨x, hx, rfl⟩
  have hx : 0 < x := hx
  rw [(hasDerivAt_logSquaredEnergy hx.ne').deriv, div_le_div_iff₀ hx (Real.exp_pos 1)]
  have h2 : Real.log x * Real.exp 1 ≤ x := by
    have h3 := Real.add_one_le_exp (Real.log x - 1)
    rw [Real.exp_sub, Real.exp_log hx, le_div_iff₀ (Real.exp_pos 1)] at h3
    linarith
  nlinarith

/-- A stretch solving the force balance `u' x = η` in an interval where the solution is unique has the slope `1/u''`. -/
theorem hasDerivAt_exact_stretch {u' : ℝ → ℝ} {u'' a b η : ℝ} {x : ℝ → ℝ} (hd : HasStrictDerivAt u' u'' (x η))
    (h0 : u'' ≠ 0) (hinj : InjOn u' (Ioo a b)) (hx : ∀ᶠ η' in 𝓝 η, x η' ∈ Ioo a b ∧ u' (x η') = η') :
    HasDerivAt x u''⁻¹ η := by
  have h1 := HasStrictDerivAt.to_localInverse hd h0
  have hη := hx.self_of_nhds
  have h2 := HasStrictDerivAt.eventually_right_inverse hd h0
  have hv := HasStrictFDerivAt.localInverse_apply_image (HasStrictDerivAt.hasStrictFDerivAt_equiv hd h0)
  change HasStrictDerivAt.localInverse u' u'' (x η) hd h0 (u' (x η)) = x η at hv
  rw [hη.2] at h1 h2 hv
  have h3 : ∀ᶠ y in 𝓝 η, HasStrictDerivAt.localInverse u' u'' (x η) hd h0 y ∈ Ioo a b :=
    h1.hasDerivAt.continuousAt.eventually_mem (by rw [hv]; exact isOpen_Ioo.mem_nhds hη.1)
  refine h1.hasDerivAt.congr_of_eventuallyEq ?_
  filter_upwards [hx, h2, h3] with y hy h2 h3
  exact hinj hy.1 h3 (hy.2.trans h2.symm)

theorem hasStrictDerivAt_log_div {κ x : ℝ} (hx : 0 < x) :
    HasStrictDerivAt (fun x => κ * Real.log x / x) (κ * (1 - Real.log x) / x ^ 2) x := by
  refine (((Real.hasStrictDerivAt_log hx.ne').const_mul κ).div (hasStrictDerivAt_id x) hx.ne').congr_deriv ?_
  simp only [id]
  field_simp

theorem log_div_injOn {κ : ℝ} (hκ : 0 < κ) : InjOn (fun x => κ * Real.log x / x) (Ioo 1 (Real.exp 1)) := by
  have key : ∀ x ∈ Ioo 1 (Real.exp 1), -1 < -Real.log x ∧
      κ * Real.log x / x = -κ * ((-Real.log x) * Real.exp (-Real.log x)) := by
    intro x hx
    have hx0 : 0 < x := by linarith [hx.1]
    refine ⟨?_, ?_⟩
    · have : Real.log x < 1 := by rw [← Real.exp_lt_exp, Real.exp_log hx0]; exact hx.2
      linarith
    · rw [Real.exp_neg, Real.exp_log hx0]; ring
  intro x hx y hy h
  obtain ⟨h1, h2⟩ := key x hx
  obtain ⟨h3, h4⟩ := key y hy
  simp only [h2, h4] at h
  have := strictMonoOn_mul_exp.injOn (mem_Ici.2 h1.le) (mem_Ici.2 h3.le) (mul_left_cancel₀ (by linarith) h)
  exact Real.log_injOn_pos (by simp only [mem_Ioi]; linarith [hx.1]) (by simp only [mem_Ioi]; linarith [hy.1]) (by linarith)

/-- Where the computed stretch solves the force balance, the slope expression of the code is the slope of the exact
stretch. -/
theorem hasDerivAt_logSquared_exact {κ η : ℝ} (hκ : 0 < κ) (x : ℝ → ℝ)
    (hx : ∀ᶠ η' in 𝓝 η, HasDerivAt (logSquaredEnergy κ) η' (x η') ∧ 1 < x η' ∧ x η' < Real.exp 1)
    (he : x η = logSquaredStretch κ η) :
    HasDerivAt x (κ / η ^ 2 * math.lambert_w (-η / κ) ^ 2 / (math.lambert_w (-η / κ) + 1)) η := by
  have hη := hx.self_of_nhds
  have hx0 : 0 < x η := by linarith [hη.2.1]
  have hb : κ * Real.log (x η) / x η = η := (hasDerivAt_logSquaredEnergy hx0.ne').unique hη.1
  have hl1 : Real.log (x η) < 1 := by rw [← Real.exp_lt_exp, Real.exp_log hx0]; exact hη.2.2
  have hl0 : 0 < Real.log (x η) := Real.log_pos hη.2.1
  have hw : math.lambert_w (-η / κ) = -Real.log (x η) := by
    rw [he, logSquaredStretch, one_div, Real.log_inv, Real.log_exp, neg_neg]
  refine (hasDerivAt_exact_stretch (hasStrictDerivAt_log_div (κ := κ) hx0)
    (div_ne_zero (mul_ne_zero hκ.ne' (by linarith)) (by positivity)) (log_div_injOn hκ) ?_).congr_deriv ?_
  · filter_upwards [hx] with y hy
    have hy0 : 0 < x y := by linarith [hy.2.1]
    exact ⟨hy.2, (hasDerivAt_logSquaredEnergy hy0.ne').unique hy.1⟩
  · rw [hw]
    generalize x η = s at *
    subst hb
    have : 1 - Real.log s ≠ 0 := by linarith
    have h3 : -Real.log s + 1 ≠ 0 := by linarith
    have h4 : Real.log s ≠ 0 := hl0.ne'
    field_simp
    ring

/-- C57: the solver runs damped Newton steps on the isotensional extension, starting below the maximum force
`κ/e`; the slope it uses is the derivative of the extension with the exact link stretch `x`, wherever the computed stretch
is exact. -/
theorem C57_log_squared_reduced (N : ℕ) (ℓ m k T : ℝ) (hℓ : 0 < ℓ) (hk : 0 < k) (hT : 0 < T) :
    let γ := fun η => (log_squared_isotensional_asymptotic_reduced_lengths N ℓ m k).nd_length_per_link η T
    ∃ slope : ℝ → ℝ,
      (∀ (η : ℝ) (x : ℝ → ℝ), η ≠ 0 →
        (∀ᶠ η' in 𝓝 η, HasDerivAt (logSquaredEnergy (ndStiffness k ℓ T)) η' (x η') ∧ 1 < x η' ∧ x η' < Real.exp 1) →
        γ η = (1 / Real.tanh η - 1 / η) + x η - 1 →
        HasDerivAt (fun η => (1 / Real.tanh η - 1 / η) + x η - 1) (slope η) η) ∧
      DampedNewtonRun 4 (fun γ => (log_squared_isometric_asymptotic_reduced_legendre_forces N ℓ m k).nd_force γ T) γ slope
        (fun _ => True) (fun η => η ≤ ndStiffness k ℓ T / Real.exp 1) := by
  have hκ := ndStiffness_pos hk hℓ hT
  simp only [log_squared_reduced_length]
  simp only [api_core, ufjc.log_squared.thermodynamics.isometric.asymptotic.reduced.legendre.nondimensional_force,
    model_real, langevin, logSquaredStretch]
  generalize ndStiffness k ℓ T = κ at *
  refine ⟨_, ?_, dampedNewtonRun_of_code _ _ _ fun γ _ => ?_⟩
  · intro η x hη hx he
    have he : x η = logSquaredStretch κ η := by unfold logSquaredStretch; linarith
    refine ((hasDerivAt_langevin hη).add ((hasDerivAt_logSquared_exact hκ x hx he))).sub_const 1
  · have hM : 0 < κ / Real.exp 1 := by positivity
    split_ifs <;> linarith

/-- C57: asymptotic approach. -/
theorem C57_log_squared_asymptotic (N : ℕ) (ℓ m k T : ℝ) (hℓ : 0 < ℓ) (hk : 0 < k) (hT : 0 < T) :
    let γ := fun η => (log_squared_isotensional_asymptotic_lengths N ℓ m k).nd_length_per_link η T
    let γ' := fun (x : ℝ → ℝ) η => (1 / Real.tanh η - 1 / η) + η / ndStiffness k ℓ T *
      ((Real.tanh η - 1 / Real.tanh η + 1 / η) / (2 / 5 * Real.tanh η + η / ndStiffness k ℓ T)) + x η - 1
    ∃ slope : ℝ → ℝ,
      (∀ (η : ℝ) (x : ℝ → ℝ), η ≠ 0 →
        (∀ᶠ η' in 𝓝 η, HasDerivAt (logSquaredEnergy (ndStiffness k ℓ T)) η' (x η') ∧ 1 < x η' ∧ x η' < Real.exp 1) →
        γ η = γ' x η → HasDerivAt (γ' x) (slope η) η) ∧
      DampedNewtonRun 4 (fun γ => (log_squared_isometric_asymptotic_legendre_forces N ℓ m k).nd_force γ T) γ slope
        (fun _ => True) (fun η => η ≤ ndStiffness k ℓ T / Real.exp 1) := by
  have hκ := ndStiffness_pos hk hℓ hT
  simp only [log_squared_asymptotic_length]
  simp only [api_core, ufjc.log_squared.thermodynamics.isometric.asymptotic.legendre.nondimensional_force,
    model_real, langevin, logSquaredStretch]
  generalize ndStiffness k ℓ T = κ at *
  refine ⟨_, ?_, dampedNewtonRun_of_code _ _ _ fun γ _ => ?_⟩
  · intro η x hη hx he
    have he : x η = logSquaredStretch κ η := by unfold logSquaredStretch; linarith
    refine (((hasDerivAt_langevin hη).add (hasDerivAt_corr (by norm_num) hκ hη)).add
      ((hasDerivAt_logSquared_exact hκ x hx he))).sub_const 1
  · have hM : 0 < κ / Real.exp 1 := by positivity
    split_ifs <;> linarith

end Polymers.Props
