import Verif.Props.ScalingEfjc
import Verif.Props.ScalingFjc
import Verif.Props.Newton
import Verif.Lemmas.ApiCore
import Verif.Lemmas.Gradient
import Verif.Lemmas.Links

/-! Properties C22, C23 and C25 (EFJC part): the asymptotic approaches to the freely jointed chain with harmonic
links. -/

namespace Polymers.Props

open Polymers.Spec Polymers.Api Set Filter Topology

theorem efjc_reduced_length (N : ℕ) (ℓ m k η T : ℝ) :
    (efjc_isotensional_asymptotic_reduced_lengths N ℓ m k).nd_length_per_link η T =
      langevin η + η / ndStiffness k ℓ T := by
  simp only [api_core, efjc.thermodynamics.isotensional.asymptotic.reduced.nondimensional_end_to_end_length_per_link,
    model_real, langevin]

theorem efjc_alternative_length (N : ℕ) (ℓ m k η T : ℝ) :
    (efjc_isotensional_asymptotic_alternative_lengths N ℓ m k).nd_length_per_link η T =
      langevin η + (η + 1 / Real.tanh η - η / Real.sinh η ^ 2) / ndStiffness k ℓ T := by
  simp only [api_core,
    efjc.thermodynamics.isotensional.asymptotic.alternative.nondimensional_end_to_end_length_per_link, model_real,
    langevin]

theorem efjc_asymptotic_length (N : ℕ) (ℓ m k η T : ℝ) :
    (efjc_isotensional_asymptotic_lengths N ℓ m k).nd_length_per_link η T =
      langevin η + η / ndStiffness k ℓ T * (1 + (Real.tanh η - 1 / Real.tanh η + 1 / η) /
        (Real.tanh η + η / ndStiffness k ℓ T)) := by
  simp only [api_core, efjc.thermodynamics.isotensional.asymptotic.nondimensional_end_to_end_length_per_link,
    model_real, langevin]

theorem hasDerivAt_half_sq_div (η κ : ℝ) : HasDerivAt (fun η => 1 / 2 * η ^ 2 / κ) (η / κ) η := by
  refine (((hasDerivAt_pow 2 η).const_mul (1 / 2)).div_const κ).congr_deriv ?_
  simp

/-- C22: reduced asymptotic approach. -/
theorem C22_efjc_reduced_length_is_gradient (N : ℕ) (ℓ m k : ℝ) (hN : 0 < N) (hℓ : 0 < ℓ) :
    (efjc_isotensional_asymptotic_reduced_lengths N ℓ m k).IsMinusGradient
      (efjc_isotensional_asymptotic_reduced_gibbs N ℓ m k) ℓ (fun η _ => η ≠ 0) := by
  refine .of_nd (C15_efjc_isotensional_asymptotic_reduced_gibbs N ℓ m k hN hℓ)
    (C15_efjc_isotensional_asymptotic_reduced_lengths N ℓ m k hN hℓ) ?_
  intro η T hT hη
  rw [efjc_reduced_length]
  simp only [api_core, efjc.thermodynamics.isotensional.asymptotic.reduced.nondimensional_gibbs_free_energy_per_link,
    model_real]
  refine ((((hasDerivAt_log_sinh_div hη).neg.sub (hasDerivAt_half_sq_div η _)).sub_const _).sub_const _).congr_deriv ?_
  ring

/-- C22: alternative asymptotic approach. -/
theorem C22_efjc_alternative_length_is_gradient (N : ℕ) (ℓ m k : ℝ) (hN : 0 < N) (hℓ : 0 < ℓ) :
    (efjc_isotensional_asymptotic_alternative_lengths N ℓ m k).IsMinusGradient
      (efjc_isotensional_asymptotic_alternative_gibbs N ℓ m k) ℓ (fun η _ => η ≠ 0) := by
  refine .of_nd (C15_efjc_isotensional_asymptotic_alternative_gibbs N ℓ m k hN hℓ)
    (C15_efjc_isotensional_asymptotic_alternative_lengths N ℓ m k hN hℓ) ?_
  intro η T hT hη
  rw [efjc_alternative_length]
  simp only [api_core,
    efjc.thermodynamics.isotensional.asymptotic.alternative.nondimensional_gibbs_free_energy_per_link, model_real]
  have h : HasDerivAt (fun η : ℝ => 1 / 2 * η ^ 2) η η := by
    refine ((hasDerivAt_pow 2 η).const_mul (1 / 2)).congr_deriv ?_
    simp
  refine ((((hasDerivAt_log_sinh_div hη).neg.sub
    ((h.add (hasDerivAt_div_tanh hη)).div_const (ndStiffness k ℓ T))).sub_const _).sub_const _).congr_deriv ?_
  ring

/-- C22: asymptotic approach. -/
theorem C22_efjc_asymptotic_length_is_gradient (N : ℕ) (ℓ m k : ℝ) (hN : 0 < N) (hℓ : 0 < ℓ) (hk : 0 < k) :
    (efjc_isotensional_asymptotic_lengths N ℓ m k).IsMinusGradient
      (efjc_isotensional_asymptotic_gibbs N ℓ m k) ℓ (fun η _ => η ≠ 0) := by
  refine .of_nd (C15_efjc_isotensional_asymptotic_gibbs N ℓ m k hN hℓ)
    (C15_efjc_isotensional_asymptotic_lengths N ℓ m k hN hℓ) ?_
  intro η T hT hη
  rw [efjc_asymptotic_length]
  simp only [api_core,
    efjc.thermodynamics.isotensional.asymptotic.nondimensional_gibbs_free_energy_per_link, model_real]
  have hc := hasDerivAt_log_corr one_pos (ndStiffness_pos hk hℓ hT) hη
  simp only [div_one, one_mul] at hc
  refine (((((hasDerivAt_log_sinh_div hη).neg.sub (hasDerivAt_half_sq_div η (ndStiffness k ℓ T))).sub hc).sub_const
    _).sub_const _).congr_deriv ?_
  ring

example : (efjc_isotensional_asymptotic_lengths 8 1 1 500).IsMinusGradient
    (efjc_isotensional_asymptotic_gibbs 8 1 1 500) 1 (fun η _ => η ≠ 0) :=
  C22_efjc_asymptotic_length_is_gradient 8 1 1 500 (by norm_num) (by norm_num) (by norm_num)

/-- C23: in the reduced approach the links add exactly `η/κ` to the extension of the freely jointed chain. -/
theorem C23_efjc_reduced_excess (N : ℕ) (ℓ m k η T : ℝ) :
    (efjc_isotensional_asymptotic_reduced_lengths N ℓ m k).nd_length_per_link η T =
      (fjc_isotensional_lengths N ℓ m).nd_length_per_link η T + η / ndStiffness k ℓ T := by
  rw [efjc_reduced_length]
  simp only [api_core, fjc.thermodynamics.isotensional.nondimensional_end_to_end_length_per_link,
    model_real, langevin]

/-- C23: dimensionally, the links add `N f / k` to the extension. -/
theorem C23_efjc_reduced_excess_length (N : ℕ) (ℓ m : ℝ) {k T : ℝ} (f : ℝ) (hN : 0 < N) (hℓ : 0 < ℓ) (hk : 0 < k)
    (hT : 0 < T) :
    (efjc_isotensional_asymptotic_reduced_lengths N ℓ m k).length f T =
      (fjc_isotensional_lengths N ℓ m).length f T + N * f / k := by
  have h1 := C15_efjc_isotensional_asymptotic_reduced_lengths N ℓ m k hN hℓ
  have h2 := C15_fjc_isotensional_lengths N ℓ m hN hℓ
  rw [h1.length f T hT, h1.nd_total _ T hT, h2.length f T hT, h2.nd_total _ T hT, C23_efjc_reduced_excess]
  have := (kT_pos hT).ne'
  unfold ndForce ndStiffness
  field_simp

/-- C23: in the reduced approach the extension is strictly increasing in the force. -/
theorem C23_efjc_reduced_strictMono (N : ℕ) (ℓ m : ℝ) {k T η η' : ℝ} (hℓ : 0 < ℓ) (hk : 0 < k) (hT : 0 < T)
    (hη : η ≠ 0) (hη' : η' ≠ 0) (h : η < η') :
    (efjc_isotensional_asymptotic_reduced_lengths N ℓ m k).nd_length_per_link η T <
      (efjc_isotensional_asymptotic_reduced_lengths N ℓ m k).nd_length_per_link η' T := by
  rw [efjc_reduced_length, efjc_reduced_length]
  have hκ := ndStiffness_pos hk hℓ hT
  have := langevin_strictMono_ne hη hη' h
  have h2 := div_lt_div_of_pos_right h hκ
  linarith

example : (efjc_isotensional_asymptotic_reduced_lengths 8 1 1 500).nd_length_per_link 1 300 <
    (efjc_isotensional_asymptotic_reduced_lengths 8 1 1 500).nd_length_per_link 2 300 :=
  C23_efjc_reduced_strictMono 8 1 1 (by norm_num) (by norm_num) (by norm_num) (by norm_num) (by norm_num) (by norm_num)

theorem ndStiffness_tendsto {ℓ T : ℝ} (hℓ : 0 < ℓ) (hT : 0 < T) :
    Tendsto (fun k => ndStiffness k ℓ T) atTop atTop := by
  unfold ndStiffness
  have : 0 < ℓ ^ 2 / kT T := div_pos (by positivity) (kT_pos hT)
  simp_rw [mul_div_assoc]
  exact tendsto_id.atTop_mul_const this

/-- C23: in the limit of stiff links every asymptotic approach recovers the freely jointed chain. -/
theorem C23_efjc_stiff_limit (N : ℕ) (ℓ m : ℝ) {T η : ℝ} (hℓ : 0 < ℓ) (hT : 0 < T) (hη : η ≠ 0) :
    Tendsto (fun k => (efjc_isotensional_asymptotic_reduced_lengths N ℓ m k).nd_length_per_link η T) atTop
        (𝓝 ((fjc_isotensional_lengths N ℓ m).nd_length_per_link η T)) ∧
      Tendsto (fun k => (efjc_isotensional_asymptotic_alternative_lengths N ℓ m k).nd_length_per_link η T) atTop
        (𝓝 ((fjc_isotensional_lengths N ℓ m).nd_length_per_link η T)) ∧
      Tendsto (fun k => (efjc_isotensional_asymptotic_lengths N ℓ m k).nd_length_per_link η T) atTop
        (𝓝 ((fjc_isotensional_lengths N ℓ m).nd_length_per_link η T)) := by
  have hf : (fjc_isotensional_lengths N ℓ m).nd_length_per_link η T = langevin η := by
    simp only [api_core, fjc.thermodynamics.isotensional.nondimensional_end_to_end_length_per_link,
      model_real, langevin]
  rw [hf]
  simp only [efjc_reduced_length, efjc_alternative_length, efjc_asymptotic_length]
  have hz : ∀ c : ℝ, Tendsto (fun k => c / ndStiffness k ℓ T) atTop (𝓝 0) := fun c =>
    tendsto_const_nhds.div_atTop (ndStiffness_tendsto hℓ hT)
  have ht := tanh_ne_zero hη
  refine ⟨?_, ?_, ?_⟩
  · simpa using (tendsto_const_nhds (x := langevin η)).add (hz η)
  · simpa using (tendsto_const_nhds (x := langevin η)).add (hz _)
  · have h1 := (tendsto_const_nhds (x := Real.tanh η)).add (hz η)
    rw [add_zero] at h1
    have h2 := ((tendsto_const_nhds (x := Real.tanh η - 1 / Real.tanh η + 1 / η)).div h1 ht)
    have h3 := (hz η).mul ((tendsto_const_nhds (x := (1 : ℝ))).add h2)
    simpa using (tendsto_const_nhds (x := langevin η)).add h3

theorem hasDerivAt_div_sinh_sq {x : ℝ} (hx : x ≠ 0) :
    HasDerivAt (fun x : ℝ => x / Real.sinh x ^ 2) (1 / Real.sinh x ^ 2 - 2 * (x / Real.tanh x) / Real.sinh x ^ 2) x := by
  have h := (hasDerivAt_id x).mul (hasDerivAt_one_div_sinh_sq hx)
  have e : (fun x : ℝ => x / Real.sinh x ^ 2) = (id * fun x => 1 / Real.sinh x ^ 2) := by
    funext y; simp [div_eq_mul_inv]
  rw [e]
  refine h.congr_deriv ?_
  simp only [id]
  ring

/-- C25: reduced asymptotic approach: the isometric force is found by Newton's method for the isotensional extension,
with its true derivative. -/
theorem C25_efjc_reduced (N : ℕ) (ℓ m k T : ℝ) :
    NewtonInverse (fun γ => (efjc_isometric_asymptotic_reduced_legendre_forces N ℓ m k).nd_force γ T)
      (fun η => (efjc_isotensional_asymptotic_reduced_lengths N ℓ m k).nd_length_per_link η T)
      (fun _ => True) (fun η => η ≠ 0) := by
  refine ⟨fun η => 1 / η ^ 2 - 1 / Real.sinh η ^ 2 + 1 / ndStiffness k ℓ T, ?_, ?_⟩
  · intro η hη
    simp only [efjc_reduced_length]
    exact ((hasDerivAt_langevin hη).add ((hasDerivAt_id η).div_const _))
  · intro γ _
    simp only [efjc_reduced_length]
    simp only [api_core, efjc.thermodynamics.isometric.asymptotic.reduced.legendre.nondimensional_force, model_real, langevin]
    exact ⟨_, inverse_newton_raphson_run _ _ _ _⟩

/-- C25: alternative asymptotic approach. -/
theorem C25_efjc_alternative (N : ℕ) (ℓ m k T : ℝ) :
    NewtonInverse (fun γ => (efjc_isometric_asymptotic_alternative_legendre_forces N ℓ m k).nd_force γ T)
      (fun η => (efjc_isotensional_asymptotic_alternative_lengths N ℓ m k).nd_length_per_link η T)
      (fun _ => True) (fun η => η ≠ 0) := by
  refine ⟨fun η => 1 / η ^ 2 - 1 / Real.sinh η ^ 2 + (1 + 2 * (η / Real.tanh η - 1) / Real.sinh η ^ 2) /
    ndStiffness k ℓ T, ?_, ?_⟩
  · intro η hη
    simp only [efjc_alternative_length]
    refine ((hasDerivAt_langevin hη).add ((((hasDerivAt_id η).add (hasDerivAt_one_div_tanh hη)).sub
      (hasDerivAt_div_sinh_sq hη)).div_const _)).congr_deriv ?_
    ring
  · intro γ _
    simp only [efjc_alternative_length]
    simp only [api_core, efjc.thermodynamics.isometric.asymptotic.alternative.legendre.nondimensional_force, model_real, langevin]
    exact ⟨_, inverse_newton_raphson_run _ _ _ _⟩

/-- C25: asymptotic approach. -/
theorem C25_efjc_asymptotic (N : ℕ) (ℓ m k T : ℝ) (hℓ : 0 < ℓ) (hk : 0 < k) (hT : 0 < T) :
    NewtonInverse (fun γ => (efjc_isometric_asymptotic_legendre_forces N ℓ m k).nd_force γ T)
      (fun η => (efjc_isotensional_asymptotic_lengths N ℓ m k).nd_length_per_link η T)
      (fun _ => True) (fun η => η ≠ 0) := by
  have hκ := ndStiffness_pos hk hℓ hT
  simp only [efjc_asymptotic_length]
  simp only [api_core, efjc.thermodynamics.isometric.asymptotic.legendre.nondimensional_force, model_real]
  generalize ndStiffness k ℓ T = κ at *
  refine ⟨_, ?_, fun γ _ => ⟨_, inverse_newton_raphson_run _ _ _ _⟩⟩
  intro η hη
  have h1 := hasDerivAt_corr one_pos hκ hη
  have h2 : HasDerivAt (fun η => langevin η + η / κ + η / κ * ((Real.tanh η - 1 / Real.tanh η + 1 / η) /
      (1 * Real.tanh η + η / κ))) _ η := ((hasDerivAt_langevin hη).add ((hasDerivAt_id η).div_const κ)).add h1
  have e : (fun η => langevin η + η / κ * (1 + (Real.tanh η - 1 / Real.tanh η + 1 / η) / (Real.tanh η + η / κ))) =
      fun η => langevin η + η / κ + η / κ * ((Real.tanh η - 1 / Real.tanh η + 1 / η) / (1 * Real.tanh η + η / κ)) := by
    funext η; rw [one_mul]; ring
  rw [e]
  refine h2.congr_deriv ?_
  have hp : 0 < η / Real.tanh η := lt_trans one_pos (one_le_div_tanh hη)
  have hs := Real.sinh_ne_zero.2 hη
  have hC : (1 / Real.tanh η) ^ 2 = 1 + 1 / Real.sinh η ^ 2 := by
    rw [one_div_tanh]
    field_simp
    rw [Real.cosh_sq]
  have hA : κ + η * (1 / Real.tanh η) ≠ 0 := by rw [mul_one_div]; positivity
  have t1 : ∀ z, z / Real.tanh η = z * (1 / Real.tanh η) := by intro z; ring
  have t3 : ∀ z, z / Real.sinh η ^ 4 = z * (1 / Real.sinh η ^ 2) ^ 2 := by
    intro z; field_simp
  have t4 : ∀ z, z / Real.sinh η ^ 2 = z * (1 / Real.sinh η ^ 2) := by intro z; ring
  simp only [one_mul, mul_one]
  rw [t1 η, t1 (2 * κ * η), t3 (η ^ 2), t3 (κ * η ^ 2), t4 ((2 * κ + 1) * (κ - η ^ 2)), t4 κ,
    t4 (2 * κ * η * (1 / Real.tanh η) - 2 * κ + 2 * η ^ 2 - 1)]
  generalize 1 / Real.tanh η = C at *
  generalize 1 / Real.sinh η ^ 2 = S at *
  field_simp
  linear_combination η ^ 4 * hC

end Polymers.Props
