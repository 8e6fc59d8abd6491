import Verif.Props.StrongPotential

/-! Property C65: how the weak-potential asymptotics of the freely jointed chain differ from the ensemble they approximate. -/

namespace Polymers.Props

open Polymers.Spec Polymers.Api Polymers.Lemmas Set Filter Topology MeasureTheory

/-- The Gibbs free energy of a chain in a harmonic potential, from the exact distribution of its extension: minus the logarithm of
the partition function without the energy `c d²/2` of the potential at zero extension, and the momentum term the code adds to
every Gibbs free energy. -/
noncomputable def exactPotentialGibbs (N : ℕ) (ℓ m K d T : ℝ) : ℝ :=
  -Real.log (potentialPartition (fjc_isometric_distribution N ℓ m).nd_radial ((N : ℝ) ^ 2 * ndStiffness K ℓ T) d *
      Real.exp ((N : ℝ) ^ 2 * ndStiffness K ℓ T * d ^ 2 / 2)) -
    N * Real.log (8 * Real.pi ^ 2 * m * ℓ ^ 2 * BOLTZMANN_CONSTANT * T / PLANCK_CONSTANT ^ 2)

/-- The partition function in a weak potential which exerts the force `η`, to first order in its stiffness. -/
theorem fjc_potentialPartition_weak {N : ℕ} (ℓ m : ℝ) (hN2 : 2 ≤ N) (hN : N ≤ 26) {η : ℝ} (hη : 0 < η) :
    Tendsto (fun c : ℝ => (-Real.log (potentialPartition (fjc_isometric_distribution N ℓ m).nd_radial c (N * η / c) *
        Real.exp (c * (N * η / c) ^ 2 / 2)) + N * Real.log (Real.sinh η / η)) / c) (𝓝[>] 0)
      (𝓝 ((langevin η ^ 2 + (1 / η ^ 2 - 1 / Real.sinh η ^ 2) / N + 2 * langevin η / (N * η)) / 2)) := by
  have hN0 : (0 : ℝ) < N := by positivity
  obtain ⟨F, hF, hS, -⟩ := treloar_transform hN2 (by omega : N ≤ 34)
  set R := (fjc_isometric_distribution N ℓ m).nd_radial with hR
  set k := 4 * Real.pi * treloarFactor N / (N * η) with hk
  set E := langevin η ^ 2 + (1 / η ^ 2 - 1 / Real.sinh η ^ 2) / N + 2 * langevin η / (N * η) with hE
  have hw : ∀ γ ∈ Ioo (0 : ℝ) 1, forceWeight R N η γ = k * (F γ * Real.sinh (N * η * γ)) := by
    intro γ hγ
    have h0 : 0 < γ := hγ.1
    simp only [forceWeight, hR, fjc_nd_radial hN2 hN ℓ m h0, hS γ hγ, hk]
    field_simp
  set H : ℝ → ℝ := fun c => ∫ γ in (0 : ℝ)..1, k * (F γ * Real.sinh (N * η * γ)) * Real.exp (-(c * γ ^ 2 / 2)) with hH
  have dH : HasDerivAt H (∫ γ in (0 : ℝ)..1, k * (F γ * Real.sinh (N * η * γ)) * (Real.exp (-(0 * γ ^ 2 / 2)) * -(γ ^ 2 / 2))) 0 :=
    hasDerivAt_param (g := fun c γ => k * (F γ * Real.sinh (N * η * γ)) * Real.exp (-(c * γ ^ 2 / 2)))
      (g' := fun c γ => k * (F γ * Real.sinh (N * η * γ)) * (Real.exp (-(c * γ ^ 2 / 2)) * -(γ ^ 2 / 2)))
      (by simp only [Function.uncurry_def]; fun_prop) (by simp only [Function.uncurry_def]; fun_prop)
      (fun c γ => by
        have h1 : HasDerivAt (fun c : ℝ => -(c * γ ^ 2 / 2)) (-(γ ^ 2 / 2)) c :=
          ((((hasDerivAt_id c).mul_const (γ ^ 2)).div_const 2).neg).congr_deriv (by ring)
        exact h1.exp.const_mul _) 0
  have hZ0 : H 0 = (Real.sinh η / η) ^ N := by
    rw [← C66_fjc_partition N ℓ m hN2 hN hη.ne', forcePartition,
      intervalIntegral.integral_congr_Ioo_of_le zero_le_one (fun γ hγ => hw γ hγ)]
    simp only [hH, zero_mul, zero_div, neg_zero, Real.exp_zero, mul_one]
  have hZp : 0 < H 0 := by
    rw [hZ0]
    have := Real.sinh_pos_iff.2 hη
    positivity
  have hd0 : (∫ γ in (0 : ℝ)..1, k * (F γ * Real.sinh (N * η * γ)) * (Real.exp (-(0 * γ ^ 2 / 2)) * -(γ ^ 2 / 2))) =
      -(H 0 * E / 2) := by
    have h2 := (fjc_force_moments ℓ m hN2 hN hη).2
    rw [C66_fjc_partition N ℓ m hN2 hN hη.ne', ← hZ0, ← hE] at h2
    have e : EqOn (fun γ => γ ^ 2 * forceWeight R N η γ) (fun γ => γ ^ 2 * (k * (F γ * Real.sinh (N * η * γ)))) (Ioo 0 1) :=
      fun γ hγ => by simp only [hw γ hγ]
    rw [intervalIntegral.integral_congr_Ioo_of_le zero_le_one e] at h2
    rw [← h2, ← neg_div, ← intervalIntegral.integral_neg, ← intervalIntegral.integral_div]
    refine intervalIntegral.integral_congr fun γ _ => ?_
    simp only [zero_mul, zero_div, neg_zero, Real.exp_zero]
    ring
  rw [hd0] at dH
  have dL := (dH.log hZp.ne').neg
  have ht := dL.tendsto_slope
  rw [show -(-(H 0 * E / 2) / H 0) = E / 2 by field_simp] at ht
  refine (ht.mono_left (nhdsWithin_mono 0 fun x hx => (ne_of_gt hx))).congr' ?_
  filter_upwards [self_mem_nhdsWithin] with c hc
  have hc : 0 < c := hc
  have hHc : potentialPartition R c (N * η / c) * Real.exp (c * (N * η / c) ^ 2 / 2) = H c := by
    rw [potentialPartition, ← intervalIntegral.integral_mul_const]
    refine intervalIntegral.integral_congr_Ioo_of_le zero_le_one fun γ hγ => ?_
    have h0 : 0 < γ := hγ.1
    have h1 := hw γ hγ
    rw [← h1]
    simp only [potentialWeight, forceWeight]
    have e1 : c * (N * η / c) * γ = N * η * γ := by field_simp
    have e2 : Real.exp (-(c * ((N * η / c) ^ 2 + γ ^ 2) / 2)) * Real.exp (c * (N * η / c) ^ 2 / 2) = Real.exp (-(c * γ ^ 2 / 2)) := by
      rw [← Real.exp_add]; ring_nf
    rw [e1, ← e2]
    ring
  have hl : (N : ℝ) * Real.log (Real.sinh η / η) = Real.log (H 0) := by rw [hZ0, Real.log_pow]
  rw [hHc, hl, slope_def_field]
  simp only [Pi.neg_apply, sub_zero]
  ring

/-- C65: as the potential weakens while exerting the force `η`, the weak-potential free energy and that of the chain in the
potential differ to first order in the stiffness `c = N² K ℓ²/(kT)`: the asymptotics use the square of the mean extension, where
the ensemble has the mean of its square. The error is `-(L'(η) + 2 L(η)/η)/(2N)` times `c`, with `L` the extension at fixed
force. -/
theorem C65_weak_potential_error (N : ℕ) (ℓ m : ℝ) (hN2 : 2 ≤ N) (hN : N ≤ 26) (hℓ : 0 < ℓ) {η T : ℝ} (hT : 0 < T) (hη : 0 < η) :
    let L := fun η => (fjc_isotensional_lengths N ℓ m).nd_length_per_link η T
    Tendsto (fun K => ((fjc_weak_potential_gibbs N ℓ m K).nd_energy (η / (N * ndStiffness K ℓ T)) T -
        exactPotentialGibbs N ℓ m K (η / (N * ndStiffness K ℓ T)) T) / ((N : ℝ) ^ 2 * ndStiffness K ℓ T)) (𝓝[>] 0)
      (𝓝 (-((deriv L η + 2 * L η / η) / (2 * N)))) := by
  intro L
  have hN0 : (0 : ℝ) < N := by positivity
  have eL : L = langevin := by
    funext η
    have e1 : L η = fjc.thermodynamics.isotensional.nondimensional_end_to_end_length_per_link η := rfl
    rw [e1]
    simp only [fjc.thermodynamics.isotensional.nondimensional_end_to_end_length_per_link, model_real, langevin]
  have hκ : Tendsto (fun K => (N : ℝ) ^ 2 * ndStiffness K ℓ T) (𝓝[>] 0) (𝓝[>] 0) := by
    refine tendsto_nhdsWithin_iff.2 ⟨?_, eventually_mem_nhdsWithin.mono fun K hK => ?_⟩
    · have : Tendsto (fun K => (N : ℝ) ^ 2 * ndStiffness K ℓ T) (𝓝 0) (𝓝 ((N : ℝ) ^ 2 * ndStiffness 0 ℓ T)) := by
        refine Continuous.tendsto ?_ 0
        unfold ndStiffness; fun_prop
      refine (this.mono_left nhdsWithin_le_nhds).trans_eq ?_
      unfold ndStiffness; simp
    · have := ndStiffness_pos hK hℓ hT
      exact (by positivity : (0 : ℝ) < (N : ℝ) ^ 2 * ndStiffness K ℓ T)
  have W := (fjc_potentialPartition_weak ℓ m hN2 hN hη).comp hκ
  have W2 := (tendsto_const_nhds (x := langevin η ^ 2 / 2) (f := 𝓝[>] (0 : ℝ))).sub W
  refine (W2.congr' ?_).trans_eq ?_
  · filter_upwards [self_mem_nhdsWithin] with K hK
    have hκ' := ndStiffness_pos hK hℓ hT
    have e1 : (fjc_weak_potential_gibbs N ℓ m K).nd_energy (η / (N * ndStiffness K ℓ T)) T =
      fjc.thermodynamics.modified_canonical.asymptotic.weak_potential.nondimensional_gibbs_free_energy N ℓ m
        (η / (N * ndStiffness K ℓ T)) (ndStiffness K ℓ T) T := rfl
    have e : (N : ℝ) * ndStiffness K ℓ T * (η / (N * ndStiffness K ℓ T)) = η := by field_simp
    have e2 : (N : ℝ) * η / ((N : ℝ) ^ 2 * ndStiffness K ℓ T) = η / (N * ndStiffness K ℓ T) := by field_simp
    rw [e1]
    simp only [fjc.thermodynamics.modified_canonical.asymptotic.weak_potential.nondimensional_gibbs_free_energy, model_real,
      Function.comp, e, e2, exactPotentialGibbs, langevin]
    field_simp
    ring
  · rw [eL, (hasDerivAt_langevin hη.ne').deriv]
    congr 1
    field_simp
    ring

/-- C65: this error does not vanish. -/
theorem C65_weak_error_pos (N : ℕ) (ℓ m : ℝ) (hN : 0 < N) {η T : ℝ} (hη : 0 < η) :
    let L := fun η => (fjc_isotensional_lengths N ℓ m).nd_length_per_link η T
    0 < (deriv L η + 2 * L η / η) / (2 * N) := by
  intro L
  have eL : L = langevin := by
    funext η
    have e1 : L η = fjc.thermodynamics.isotensional.nondimensional_end_to_end_length_per_link η := rfl
    rw [e1]
    simp only [fjc.thermodynamics.isotensional.nondimensional_end_to_end_length_per_link, model_real, langevin]
  rw [eL, (hasDerivAt_langevin hη.ne').deriv]
  have := langevin_deriv_pos hη.ne'
  have := langevin_pos hη
  positivity

example : Tendsto (fun K => ((fjc_weak_potential_gibbs 8 1 1 K).nd_energy (3 / ((8 : ℕ) * ndStiffness K 1 300)) 300 -
    exactPotentialGibbs 8 1 1 K (3 / ((8 : ℕ) * ndStiffness K 1 300)) 300) / (((8 : ℕ) : ℝ) ^ 2 * ndStiffness K 1 300)) (𝓝[>] 0)
    (𝓝 (-((deriv (fun η => (fjc_isotensional_lengths 8 1 1).nd_length_per_link η 300) 3 +
      2 * (fjc_isotensional_lengths 8 1 1).nd_length_per_link 3 300 / 3) / (2 * (8 : ℕ))))) :=
  C65_weak_potential_error 8 1 1 (by norm_num) (by norm_num) (by norm_num) (by norm_num) (by norm_num)

end Polymers.Props
