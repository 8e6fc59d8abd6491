import Verif.Props.FjcAsymptoticPotential

/-! Property C64: the asymptotics of the modified canonical ensemble recover the isometric ensemble for a strong potential and
the isotensional ensemble for a weak one. -/

namespace Polymers.Props

open Polymers.Spec Polymers.Api Polymers.Lemmas Set Filter Topology

/-- C64: in a strong potential the force differs from that at fixed extension by a term inversely proportional to the stiffness of
the potential. -/
theorem C64_strong_potential_nd_force (N : ℕ) (ℓ m : ℝ) {T : ℝ} (d : ℝ) (hℓ : 0 < ℓ) (hT : 0 < T) :
    ∃ c, ∀ K, 0 < K → (fjc_strong_potential_forces N ℓ m K).nd_force d T = (fjc_isometric_forces N ℓ m).nd_force d T + c / K := by
  have key : ∀ A : ℝ, ∃ c, ∀ K : ℝ, 0 < K → 1 / 2 / ndStiffness K ℓ T / (N : ℝ) ^ 3 * A = c / K := by
    intro A
    refine ⟨1 / 2 * (kT T / ℓ ^ 2) / (N : ℝ) ^ 3 * A, fun K hK => ?_⟩
    have := (kT_pos hT).ne'
    unfold ndStiffness
    field_simp
  have e1 : (fjc_isometric_forces N ℓ m).nd_force d T = fjc.thermodynamics.isometric.nondimensional_force N d := rfl
  simp only [sp_nd_force, e1, fjc.thermodynamics.modified_canonical.asymptotic.strong_potential.nondimensional_force,
    fjc.thermodynamics.isometric.nondimensional_force, fjc.thermodynamics.treloar_sums, model_real, List.map_cons, List.map_nil,
    List.getD_cons_zero, List.getD_cons_succ]
  exact (key _).imp fun c hc K hK => congrArg _ (hc K hK)

/-- C64: the same for the force in newtons. -/
theorem C64_strong_potential_force (N : ℕ) (ℓ m : ℝ) {T : ℝ} (ξ : ℝ) (hN : 0 < N) (hℓ : 0 < ℓ) (hT : 0 < T) :
    ∃ c, ∀ K, 0 < K → (fjc_strong_potential_forces N ℓ m K).force ξ T = (fjc_isometric_forces N ℓ m).force ξ T + c / K := by
  obtain ⟨c, hc⟩ := C64_strong_potential_nd_force N ℓ m (ndLength N ℓ ξ T) hℓ hT
  refine ⟨kT T / ℓ * c, fun K hK => ?_⟩
  rw [C15_fjc_strong_potential_forces N ℓ m K ξ T hT, C15_fjc_isometric_forces N ℓ m hN hℓ ξ T hT, hc K hK]
  ring

/-- The coefficient of `1/(2 N² κ)` in the strong-potential free energy. -/
noncomputable def strongCorrection (N : ℕ) (d : ℝ) : ℝ :=
  (1 / 2 * N - 1) * ((1 / 2 * N - 1) * (fjc.thermodynamics.treloar_sum N d ((N : ℤ) - 2 - 1) /
      fjc.thermodynamics.treloar_sum N d ((N : ℤ) - 2)) ^ 2 -
    (1 / 2 * N - 3 / 2) * fjc.thermodynamics.treloar_sum N d ((N : ℤ) - 2 - 2) / fjc.thermodynamics.treloar_sum N d ((N : ℤ) - 2)) -
    d ^ (-2 : ℤ) - ((1 / 2 * N - 1) * fjc.thermodynamics.treloar_sum N d ((N : ℤ) - 2 - 1) /
      fjc.thermodynamics.treloar_sum N d ((N : ℤ) - 2) + d ^ (-1 : ℤ)) ^ 2

theorem strong_nd_helmholtz {N : ℕ} (hN2 : 2 ≤ N) (ℓ m d κ T : ℝ) :
    fjc.thermodynamics.modified_canonical.asymptotic.strong_potential.nondimensional_helmholtz_free_energy N ℓ m d κ T =
      -Real.log (fjc.thermodynamics.treloar_sum_0_with_prefactor N d / (N * ℓ) ^ 3) -
        ((N : ℝ) - 1) * Real.log (8 * Real.pi ^ 2 * m * ℓ ^ 2 * BOLTZMANN_CONSTANT * T / PLANCK_CONSTANT ^ 2) -
        3 / 2 * Real.log (2 * Real.pi / κ / (N : ℝ) ^ 2) - 3 * Real.log (N * ℓ) + 1 / 2 / κ / (N : ℝ) ^ 2 * strongCorrection N d := by
  simp only [fjc.thermodynamics.modified_canonical.asymptotic.strong_potential.nondimensional_helmholtz_free_energy,
    treloar_sums_eq hN2, List.map_cons, List.map_nil, List.getD_cons_succ, List.getD_cons_zero, sub_zero, strongCorrection, model_real]

/-- C64: and for the Helmholtz free energy relative to the reference extension. -/
theorem C64_strong_potential_nd_relative (N : ℕ) (ℓ m : ℝ) {T d : ℝ} (hN2 : 2 ≤ N) (hN : N ≤ 26) (hℓ : 0 < ℓ) (hT : 0 < T)
    (h0 : 0 < d) (h1 : d < 1) :
    ∃ c, ∀ K, 0 < K → (fjc_strong_potential_helmholtz N ℓ m K).nd_relative d T =
      (fjc_isometric_helmholtz N ℓ m).nd_relative d T + c / K := by
  refine ⟨1 / 2 * (kT T / ℓ ^ 2) / (N : ℝ) ^ 2 * (strongCorrection N d - strongCorrection N ZERO), fun K hK => ?_⟩
  have e1 : (fjc_isometric_helmholtz N ℓ m).nd_relative d T =
    Real.log (fjc.thermodynamics.treloar_sum_0_with_prefactor N ZERO / fjc.thermodynamics.treloar_sum_0_with_prefactor N d) := rfl
  have p1 := treloar_density_pos hN2 hN h0 h1
  have p2 := treloar_density_pos hN2 hN zero_pos' (by rw [zero_eq]; norm_num)
  have hN0 : (0 : ℝ) < N := by positivity
  have hk := (kT_pos hT).ne'
  rw [sp_nd_relative, strong_nd_helmholtz hN2, strong_nd_helmholtz hN2, e1, Real.log_div p2.ne' p1.ne',
    Real.log_div p2.ne' (by positivity), Real.log_div p1.ne' (by positivity)]
  unfold ndStiffness
  field_simp
  ring

/-- C64: and in joules. -/
theorem C64_strong_potential_relative (N : ℕ) (ℓ m : ℝ) {T ξ : ℝ} (hN2 : 2 ≤ N) (hN : N ≤ 26) (hℓ : 0 < ℓ) (hT : 0 < T)
    (h0 : 0 < ξ) (h1 : ξ < N * ℓ) :
    ∃ c, ∀ K, 0 < K → (fjc_strong_potential_helmholtz N ℓ m K).relative ξ T =
      (fjc_isometric_helmholtz N ℓ m).relative ξ T + c / K := by
  have hN0 : (0 : ℝ) < N := by positivity
  have hL : 0 < (N : ℝ) * ℓ := by positivity
  obtain ⟨c, hc⟩ := C64_strong_potential_nd_relative N ℓ m (d := ndLength N ℓ ξ T) hN2 hN hℓ hT
    (by unfold ndLength; positivity) (by unfold ndLength; rw [div_lt_one hL]; exact h1)
  refine ⟨kT T * c, fun K hK => ?_⟩
  have s1 := (C15_fjc_strong_potential_helmholtz N ℓ m K hN2 hN hℓ).relative ξ T hT
    ⟨by unfold ndLength; positivity, by unfold ndLength; rw [div_lt_one hL]; exact h1⟩
  have s2 := (C15_fjc_isometric_helmholtz N ℓ m (by omega) hℓ).relative ξ T hT
  rw [s1, s2, hc K hK]
  ring

example : ∃ c, ∀ K, 0 < K → (fjc_strong_potential_helmholtz 8 1 1 K).relative 4 300 =
    (fjc_isometric_helmholtz 8 1 1).relative 4 300 + c / K :=
  C64_strong_potential_relative 8 1 1 (by norm_num) (by norm_num) (by norm_num) (by norm_num) (by norm_num) (by norm_num)

/-- C64: in a weak potential which exerts the force `f` on the chain at zero extension, that is whose distance is `f/K`, the
expected extension differs from that under the force `f` by a term proportional to the stiffness of the potential. -/
theorem C64_weak_potential_length (N : ℕ) (ℓ m : ℝ) (f T : ℝ) :
    ∃ c c', ∀ K, 0 < K →
      (fjc_weak_potential_lengths N ℓ m K).length (f / K) T = (fjc_isotensional_lengths N ℓ m).length f T + c * K ∧
      (fjc_weak_potential_lengths N ℓ m K).length_per_link (f / K) T =
        (fjc_isotensional_lengths N ℓ m).length_per_link f T + c' * K := by
  set η := f / (BOLTZMANN_CONSTANT : ℝ) / T * ℓ with hη
  set A := N * ℓ ^ 2 / (BOLTZMANN_CONSTANT : ℝ) / T * (η ^ (-2 : ℤ) - Real.sinh η ^ (-2 : ℤ)) * (1 / Real.tanh η - 1 / η) with hA
  refine ⟨-(N * ℓ * A), -(ℓ * A), fun K hK => ?_⟩
  have e : K * (f / K) * ℓ / (BOLTZMANN_CONSTANT : ℝ) / T = η := by
    rw [mul_div_cancel₀ _ hK.ne', hη]; ring
  have e1 : (fjc_weak_potential_lengths N ℓ m K).length (f / K) T =
    fjc.thermodynamics.modified_canonical.asymptotic.weak_potential.end_to_end_length N ℓ (f / K) K T := rfl
  have e2 : (fjc_weak_potential_lengths N ℓ m K).length_per_link (f / K) T =
    fjc.thermodynamics.modified_canonical.asymptotic.weak_potential.end_to_end_length_per_link N ℓ (f / K) K T := rfl
  have e3 : (fjc_isotensional_lengths N ℓ m).length f T = fjc.thermodynamics.isotensional.end_to_end_length N ℓ f T := rfl
  have e4 : (fjc_isotensional_lengths N ℓ m).length_per_link f T =
    fjc.thermodynamics.isotensional.end_to_end_length_per_link ℓ f T := rfl
  rw [e1, e2, e3, e4]
  simp only [fjc.thermodynamics.modified_canonical.asymptotic.weak_potential.end_to_end_length,
    fjc.thermodynamics.modified_canonical.asymptotic.weak_potential.end_to_end_length_per_link,
    fjc.thermodynamics.isotensional.end_to_end_length, fjc.thermodynamics.isotensional.end_to_end_length_per_link, model_real, e, ← hη]
  rw [hA]
  constructor <;> ring

/-- C64: the same for the Gibbs free energy. -/
theorem C64_weak_potential_energy (N : ℕ) (ℓ m : ℝ) (f T : ℝ) :
    ∃ c c', ∀ K, 0 < K →
      (fjc_weak_potential_gibbs N ℓ m K).energy (f / K) T = (fjc_isotensional_gibbs N ℓ m).energy f T + c * K ∧
      (fjc_weak_potential_gibbs N ℓ m K).energy_per_link (f / K) T =
        (fjc_isotensional_gibbs N ℓ m).energy_per_link f T + c' * K := by
  set η := f / (BOLTZMANN_CONSTANT : ℝ) / T * ℓ with hη
  refine ⟨1 / 2 * (N * ℓ) ^ 2 * (1 / Real.tanh η - 1 / η) ^ 2, 1 / 2 * (N * ℓ) ^ 2 / N * (1 / Real.tanh η - 1 / η) ^ 2,
    fun K hK => ?_⟩
  have e : K * (f / K) * ℓ / (BOLTZMANN_CONSTANT : ℝ) / T = η := by
    rw [mul_div_cancel₀ _ hK.ne', hη]; ring
  have e1 : (fjc_weak_potential_gibbs N ℓ m K).energy (f / K) T =
    fjc.thermodynamics.modified_canonical.asymptotic.weak_potential.gibbs_free_energy N ℓ m (f / K) K T := rfl
  have e2 : (fjc_weak_potential_gibbs N ℓ m K).energy_per_link (f / K) T =
    fjc.thermodynamics.modified_canonical.asymptotic.weak_potential.gibbs_free_energy_per_link N ℓ m (f / K) K T := rfl
  have e3 : (fjc_isotensional_gibbs N ℓ m).energy f T = fjc.thermodynamics.isotensional.gibbs_free_energy N ℓ m f T := rfl
  have e4 : (fjc_isotensional_gibbs N ℓ m).energy_per_link f T =
    fjc.thermodynamics.isotensional.gibbs_free_energy_per_link ℓ m f T := rfl
  rw [e1, e2, e3, e4]
  simp only [fjc.thermodynamics.modified_canonical.asymptotic.weak_potential.gibbs_free_energy,
    fjc.thermodynamics.modified_canonical.asymptotic.weak_potential.gibbs_free_energy_per_link,
    fjc.thermodynamics.isotensional.gibbs_free_energy, fjc.thermodynamics.isotensional.gibbs_free_energy_per_link,
    fjc.thermodynamics.isotensional.relative_gibbs_free_energy, fjc.thermodynamics.isotensional.relative_gibbs_free_energy_per_link,
    fjc.thermodynamics.isotensional.nondimensional_relative_gibbs_free_energy,
    fjc.thermodynamics.isotensional.nondimensional_relative_gibbs_free_energy_per_link, model_real, e, ← hη]
  constructor <;> ring

/-- C64: the Gibbs free energy relative to the reference distance of the potential tends to that relative to zero force as the
potential weakens. -/
theorem C64_weak_potential_nd_relative (N : ℕ) (ℓ m : ℝ) {T η : ℝ} (hN : 0 < N) (hℓ : 0 < ℓ) (hT : 0 < T) :
    Tendsto (fun K => (fjc_weak_potential_gibbs N ℓ m K).nd_relative (η / (N * ndStiffness K ℓ T)) T) (𝓝[>] 0)
      (𝓝 ((fjc_isotensional_gibbs N ℓ m).nd_relative η T)) := by
  have hN0 : (0 : ℝ) < N := by exact_mod_cast hN
  have hκ : Tendsto (fun K => ndStiffness K ℓ T) (𝓝[>] 0) (𝓝[>] 0) := by
    refine tendsto_nhdsWithin_iff.2 ⟨?_, eventually_mem_nhdsWithin.mono fun K hK => ndStiffness_pos hK hℓ hT⟩
    have : Tendsto (fun K => ndStiffness K ℓ T) (𝓝 0) (𝓝 (ndStiffness 0 ℓ T)) := by
      refine Continuous.tendsto ?_ 0
      unfold ndStiffness; fun_prop
    refine (this.mono_left nhdsWithin_le_nhds).trans_eq ?_
    unfold ndStiffness; simp
  have e3 : (fjc_isotensional_gibbs N ℓ m).nd_relative η T = -(N : ℝ) * Real.log (Real.sinh η / η) := rfl
  have hx : Tendsto (fun κ : ℝ => N * κ * ZERO) (𝓝[>] 0) (𝓝[≠] 0) := by
    refine tendsto_nhdsWithin_iff.2 ⟨?_, eventually_mem_nhdsWithin.mono fun κ hκ => ?_⟩
    · have : Tendsto (fun κ : ℝ => N * κ * (ZERO : ℝ)) (𝓝 0) (𝓝 (N * 0 * ZERO)) := Continuous.tendsto (by fun_prop) 0
      simpa using this.mono_left nhdsWithin_le_nhds
    · have := zero_pos'
      have h : (0 : ℝ) < κ := hκ
      exact (by positivity : (0 : ℝ) < N * κ * ZERO).ne'
  have r1 := ((sinh_div_tendsto_one.comp hx).log one_ne_zero).const_mul (-(N : ℝ))
  rw [Real.log_one, mul_zero] at r1
  have r2 : ∀ a : ℝ → ℝ, (∀ᶠ κ in 𝓝[>] (0 : ℝ), |a κ| ≤ 1) →
      Tendsto (fun κ : ℝ => 1 / 2 * κ * (N : ℝ) ^ 2 * a κ) (𝓝[>] 0) (𝓝 0) := by
    intro a ha
    have h0 : Tendsto (fun κ : ℝ => 1 / 2 * κ * (N : ℝ) ^ 2) (𝓝[>] 0) (𝓝 0) := by
      have : Tendsto (fun κ : ℝ => 1 / 2 * κ * (N : ℝ) ^ 2) (𝓝 0) (𝓝 (1 / 2 * 0 * (N : ℝ) ^ 2)) := Continuous.tendsto (by fun_prop) 0
      simpa using this.mono_left nhdsWithin_le_nhds
    exact bdd_le_mul_tendsto_zero' 1 (by simpa using ha) h0 |>.congr fun κ => by ring
  have sq1 : ∀ x : ℝ, |(1 / Real.tanh x - 1 / x) ^ 2| ≤ 1 := by
    intro x
    change |langevin x ^ 2| ≤ 1
    have h : |langevin x| ≤ 1 := by
      rcases lt_trichotomy x 0 with h | h | h
      · have h' : 0 < -x := by linarith
        rw [← abs_neg, ← langevin_neg x, abs_of_pos (langevin_pos h')]
        exact (langevin_lt_one h').le
      · rw [h]; norm_num [langevin]
      · rw [abs_of_pos (langevin_pos h)]
        exact (langevin_lt_one h).le
    rw [abs_pow]
    exact pow_le_one₀ (abs_nonneg _) h
  have key : Tendsto (fun κ => (-(N : ℝ) * Real.log (Real.sinh η / η) + 1 / 2 * κ * (N : ℝ) ^ 2 * (1 / Real.tanh η - 1 / η) ^ 2) -
      (-(N : ℝ) * Real.log (Real.sinh (N * κ * ZERO) / (N * κ * ZERO)) +
        1 / 2 * κ * (N : ℝ) ^ 2 * (1 / Real.tanh (N * κ * ZERO) - 1 / (N * κ * ZERO)) ^ 2)) (𝓝[>] 0)
      (𝓝 (-(N : ℝ) * Real.log (Real.sinh η / η))) := by
    have := (tendsto_const_nhds (x := -(N : ℝ) * Real.log (Real.sinh η / η))).add
      (r2 (fun κ => (1 / Real.tanh η - 1 / η) ^ 2) (.of_forall fun _ => sq1 η))
    have := this.sub (r1.add (r2 (fun κ => (1 / Real.tanh (N * κ * ZERO) - 1 / (N * κ * ZERO)) ^ 2) (.of_forall fun _ => sq1 _)))
    simpa using this
  rw [e3]
  refine (key.comp hκ).congr' (eventually_mem_nhdsWithin.mono fun K hK => ?_)
  have hκ' := (ndStiffness_pos hK hℓ hT).ne'
  have e1 : (fjc_weak_potential_gibbs N ℓ m K).nd_relative (η / (N * ndStiffness K ℓ T)) T =
    fjc.thermodynamics.modified_canonical.asymptotic.weak_potential.nondimensional_relative_gibbs_free_energy N
      (η / (N * ndStiffness K ℓ T)) (ndStiffness K ℓ T) := rfl
  have e : (N : ℝ) * ndStiffness K ℓ T * (η / (N * ndStiffness K ℓ T)) = η := by field_simp
  refine Eq.trans ?_ e1.symm
  simp only [fjc.thermodynamics.modified_canonical.asymptotic.weak_potential.nondimensional_relative_gibbs_free_energy,
    fjc.thermodynamics.modified_canonical.asymptotic.weak_potential.nondimensional_gibbs_free_energy, model_real, Function.comp, e]
  ring

example : Tendsto (fun K => (fjc_weak_potential_gibbs 8 1 1 K).nd_relative (3 / ((8 : ℕ) * ndStiffness K 1 300)) 300) (𝓝[>] 0)
    (𝓝 ((fjc_isotensional_gibbs 8 1 1).nd_relative 3 300)) :=
  C64_weak_potential_nd_relative 8 1 1 (by norm_num) (by norm_num) (by norm_num)

end Polymers.Props
