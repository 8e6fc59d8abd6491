import Verif.Props.ScalingMorse
import Verif.Props.Newton
import Verif.Spec.Links
import Verif.Lemmas.ApiCore
import Verif.Lemmas.Gradient
import Verif.Lemmas.Links

/-! Properties C25 (Morse part), C30 and C32 (Morse part): the freely jointed chain with Morse links. -/

namespace Polymers.Props

open Polymers.Spec Polymers.Api Set Filter Topology

/-- The steepness of the Morse potential, `√(κ/2ε)`. -/
noncomputable def morseA (κ ε : ℝ) : ℝ := √(κ / ε / 2)
/-- The largest force of the Morse potential, `√(εκ/8)`. -/
noncomputable def morseMax (κ ε : ℝ) : ℝ := √(ε * κ / 8)

theorem morseA_pos {κ ε : ℝ} (hκ : 0 < κ) (hε : 0 < ε) : 0 < morseA κ ε := Real.sqrt_pos.2 (by positivity)
theorem morseMax_pos {κ ε : ℝ} (hκ : 0 < κ) (hε : 0 < ε) : 0 < morseMax κ ε := Real.sqrt_pos.2 (by positivity)

theorem morseMax_eq {κ ε : ℝ} (hκ : 0 < κ) (hε : 0 < ε) : morseMax κ ε = ε * morseA κ ε / 2 := by
  unfold morseMax morseA
  have h : 0 < √(κ / ε / 2) := Real.sqrt_pos.2 (by positivity)
  refine (Real.sqrt_eq_iff_mul_self_eq_of_pos (by positivity)).2 ?_
  have := Real.sq_sqrt (show 0 ≤ κ / ε / 2 by positivity)
  have e : ε * √(κ / ε / 2) / 2 * (ε * √(κ / ε / 2) / 2) = ε ^ 2 / 4 * √(κ / ε / 2) ^ 2 := by ring
  rw [e, this]
  field_simp
  norm_num

theorem morse_sqrt_inv {κ ε : ℝ} : √(2 * ε / κ) = 1 / morseA κ ε := by
  unfold morseA
  rw [one_div, ← Real.sqrt_inv]
  congr 1
  rw [div_div, inv_div, mul_comm]

/-- `√(1 - η/M)` for `0 < η < M`. -/
theorem morse_s {M η : ℝ} (hM : 0 < M) (hη : η < M) : 0 < √(1 - η / M) ∧ √(1 - η / M) ^ 2 = 1 - η / M := by
  have h : 0 < 1 - η / M := by
    rw [sub_pos, div_lt_one hM]; exact hη
  exact ⟨Real.sqrt_pos.2 h, Real.sq_sqrt h.le⟩

theorem hasDerivAt_morse_s {M η : ℝ} (hM : 0 < M) (hη : η < M) :
    HasDerivAt (fun η => √(1 - η / M)) (-(1 / (2 * M * √(1 - η / M)))) η := by
  obtain ⟨h1, h2⟩ := morse_s hM hη
  have h : 0 < 1 - η / M := Real.sqrt_pos.1 h1
  refine ((((hasDerivAt_id η).div_const M).const_sub 1).sqrt h.ne').congr_deriv ?_
  simp only [id]
  field_simp

theorem hasDerivAt_morse_log {M η : ℝ} (hM : 0 < M) (hη : η < M) :
    HasDerivAt (fun η => Real.log (2 / (1 + √(1 - η / M)))) (1 / (2 * M * √(1 - η / M) * (1 + √(1 - η / M)))) η := by
  obtain ⟨h1, h2⟩ := morse_s hM hη
  have h3 := ((hasDerivAt_morse_s hM hη).const_add 1).log (by positivity)
  have e : (fun η => Real.log (2 / (1 + √(1 - η / M)))) = fun η => Real.log 2 - Real.log (1 + √(1 - η / M)) := by
    funext x
    have : 0 < 1 + √(1 - x / M) := by have := Real.sqrt_nonneg (1 - x / M); linarith
    rw [Real.log_div two_ne_zero this.ne']
  rw [e]
  refine (h3.const_sub (Real.log 2)).congr_deriv ?_
  field_simp

theorem morse_reduced_length (N : ℕ) (ℓ m k ε η T : ℝ) :
    (morse_isotensional_asymptotic_reduced_lengths N ℓ m k ε).nd_length_per_link η T =
      langevin η + Real.log (2 / (1 + √(1 - η / morseMax (ndStiffness k ℓ T) (ndEnergy ε T)))) /
        morseA (ndStiffness k ℓ T) (ndEnergy ε T) := by
  simp only [api_core, ufjc.morse.thermodynamics.isotensional.asymptotic.reduced.nondimensional_end_to_end_length_per_link,
    model_real, langevin]
  rw [morse_sqrt_inv]
  unfold morseMax
  ring

theorem morse_asymptotic_length (N : ℕ) (ℓ m k ε η T : ℝ) :
    (morse_isotensional_asymptotic_lengths N ℓ m k ε).nd_length_per_link η T =
      langevin η + η / ndStiffness k ℓ T * ((Real.tanh η - 1 / Real.tanh η + 1 / η) /
        (1 / (1 + 3 / 2 * morseA (ndStiffness k ℓ T) (ndEnergy ε T)) * Real.tanh η + η / ndStiffness k ℓ T)) +
      Real.log (2 / (1 + √(1 - η / morseMax (ndStiffness k ℓ T) (ndEnergy ε T)))) /
        morseA (ndStiffness k ℓ T) (ndEnergy ε T) := by
  simp only [api_core, ufjc.morse.thermodynamics.isotensional.asymptotic.nondimensional_end_to_end_length_per_link,
    model_real, langevin]
  rw [show ∀ a : ℝ, Real.tanh η / (1 + 3 / 2 * a) = 1 / (1 + 3 / 2 * a) * Real.tanh η by intro a; ring]
  unfold morseMax morseA
  ring

/-- The derivative of the link part of the Gibbs energy. -/
theorem hasDerivAt_morse_part {κ ε η : ℝ} (hκ : 0 < κ) (hε : 0 < ε) (hη : η < morseMax κ ε) :
    HasDerivAt (fun η => ε * (1 - 1 / 2 * (1 + √(1 - η / morseMax κ ε))) ^ 2 -
        η * (Real.log (2 / (1 + √(1 - η / morseMax κ ε))) / morseA κ ε))
      (-(Real.log (2 / (1 + √(1 - η / morseMax κ ε))) / morseA κ ε)) η := by
  have ha := morseA_pos hκ hε
  have hM := morseMax_pos hκ hε
  have h1 := hasDerivAt_morse_s hM hη
  have h2 := hasDerivAt_morse_log hM hη
  obtain ⟨hs, hs2⟩ := morse_s hM hη
  refine ((((((h1.const_add 1).const_mul (1 / 2)).const_sub 1).pow 2).const_mul ε).sub
    ((hasDerivAt_id η).mul (h2.div_const (morseA κ ε)))).congr_deriv ?_
  simp only [id]
  have e : η = morseMax κ ε * (1 - √(1 - η / morseMax κ ε) ^ 2) := by
    rw [hs2]; field_simp; ring
  generalize √(1 - η / morseMax κ ε) = s at *
  rw [morseMax_eq hκ hε] at *
  generalize morseA κ ε = a at *
  generalize Real.log (2 / (1 + s)) = Λ at *
  subst e
  field_simp
  push_cast
  ring

/-- C30: reduced asymptotic approach, up to the maximum force. -/
theorem C30_morse_reduced_length_is_gradient (N : ℕ) (ℓ m k ε : ℝ) (hN : 0 < N) (hℓ : 0 < ℓ) (hk : 0 < k) (hε : 0 < ε) :
    (morse_isotensional_asymptotic_reduced_lengths N ℓ m k ε).IsMinusGradient
      (morse_isotensional_asymptotic_reduced_gibbs N ℓ m k ε) ℓ
      (fun η T => η ≠ 0 ∧ η < √(ndEnergy ε T * ndStiffness k ℓ T / 8)) := by
  refine .of_nd (C15_morse_isotensional_asymptotic_reduced_gibbs N ℓ m k ε hN hℓ)
    (C15_morse_isotensional_asymptotic_reduced_lengths N ℓ m k ε hN hℓ) ?_
  rintro η T hT ⟨hη, hη'⟩
  have hκ := ndStiffness_pos hk hℓ hT
  have hε := ndEnergy_pos hε hT
  rw [morse_reduced_length]
  simp only [api_core, ufjc.morse.thermodynamics.isotensional.asymptotic.reduced.nondimensional_gibbs_free_energy_per_link,
    model_real, morse_sqrt_inv]
  generalize ndStiffness k ℓ T = κ at *
  generalize ndEnergy ε T = ε' at *
  generalize Real.log (8 * Real.pi ^ 2 * m * ℓ ^ 2 * BOLTZMANN_CONSTANT * T / PLANCK_CONSTANT ^ 2) = C
  refine hasDerivAt_of_eq ((((hasDerivAt_log_sinh_div hη).neg.add (hasDerivAt_morse_part hκ hε hη')).sub_const
      (1 / 2 * Real.log (2 * Real.pi * ℓ ^ 2 / κ))).sub_const C) (fun x => ?_) (by ring)
  simp only [morseMax, Pi.add_apply, Pi.neg_apply]
  ring

/-- C30: asymptotic approach, up to the maximum force. -/
theorem C30_morse_asymptotic_length_is_gradient (N : ℕ) (ℓ m k ε : ℝ) (hN : 0 < N) (hℓ : 0 < ℓ) (hk : 0 < k)
    (hε : 0 < ε) :
    (morse_isotensional_asymptotic_lengths N ℓ m k ε).IsMinusGradient
      (morse_isotensional_asymptotic_gibbs N ℓ m k ε) ℓ
      (fun η T => η ≠ 0 ∧ η < √(ndEnergy ε T * ndStiffness k ℓ T / 8)) := by
  refine .of_nd (C15_morse_isotensional_asymptotic_gibbs N ℓ m k ε hN hℓ)
    (C15_morse_isotensional_asymptotic_lengths N ℓ m k ε hN hℓ) ?_
  rintro η T hT ⟨hη, hη'⟩
  have hκ := ndStiffness_pos hk hℓ hT
  have hε := ndEnergy_pos hε hT
  rw [morse_asymptotic_length]
  simp only [api_core, ufjc.morse.thermodynamics.isotensional.asymptotic.nondimensional_gibbs_free_energy_per_link,
    model_real]
  generalize ndStiffness k ℓ T = κ at *
  generalize ndEnergy ε T = ε' at *
  have ha := morseA_pos hκ hε
  have hc : 0 < 1 / (1 + 3 / 2 * morseA κ ε') := by positivity
  generalize Real.log (8 * Real.pi ^ 2 * m * ℓ ^ 2 * BOLTZMANN_CONSTANT * T / PLANCK_CONSTANT ^ 2) = C
  refine hasDerivAt_of_eq (((((hasDerivAt_log_sinh_div hη).neg.sub (hasDerivAt_log_corr hc hκ hη)).add
    (hasDerivAt_morse_part hκ hε hη')).sub_const (1 / 2 * Real.log (2 * Real.pi * ℓ ^ 2 / κ))).sub_const C)
    (fun x => ?_) (by ring)
  simp only [morseMax, morseA, Pi.add_apply, Pi.sub_apply, Pi.neg_apply]
  rw [show ∀ b : ℝ, x / Real.tanh x / κ / (1 / b) = b * x / Real.tanh x / κ by intro b; field_simp]
  ring

example : (morse_isotensional_asymptotic_lengths 8 1 1 500 80).IsMinusGradient
    (morse_isotensional_asymptotic_gibbs 8 1 1 500 80) 1
    (fun η T => η ≠ 0 ∧ η < √(ndEnergy 80 T * ndStiffness 500 1 T / 8)) :=
  C30_morse_asymptotic_length_is_gradient 8 1 1 500 80 (by norm_num) (by norm_num) (by norm_num) (by norm_num)

theorem hasDerivAt_morseEnergy (κ ε x : ℝ) :
    HasDerivAt (morseEnergy κ ε) (2 * ε * √(κ / (2 * ε)) * Real.exp (-√(κ / (2 * ε)) * (x - 1)) *
      (1 - Real.exp (-√(κ / (2 * ε)) * (x - 1)))) x := by
  unfold morseEnergy
  refine ((((((hasDerivAt_id x).sub_const 1).const_mul (-√(κ / (2 * ε)))).exp.const_sub 1).pow 2).const_mul
    ε).congr_deriv ?_
  simp only [id]
  push_cast
  ring

theorem morseA_spec (κ ε : ℝ) : √(κ / (2 * ε)) = morseA κ ε := by
  unfold morseA
  rw [div_div, mul_comm]

/-- C30: the reduced extension is that of the freely jointed chain plus the link stretch at which the derivative of the
Morse potential is the force, on the branch where that derivative increases. -/
theorem C30_morse_force_balance (N : ℕ) (ℓ m k ε : ℝ) {η T : ℝ} (hℓ : 0 < ℓ) (hk : 0 < k) (hε : 0 < ε) (hT : 0 < T)
    (hη : 0 < η) (hη' : η < √(ndEnergy ε T * ndStiffness k ℓ T / 8)) :
    ∃ x, 1 < x ∧ x < 1 + Real.log 2 / √(ndStiffness k ℓ T / (2 * ndEnergy ε T)) ∧
      HasDerivAt (morseEnergy (ndStiffness k ℓ T) (ndEnergy ε T)) η x ∧
      (morse_isotensional_asymptotic_reduced_lengths N ℓ m k ε).nd_length_per_link η T =
        (1 / Real.tanh η - 1 / η) + (x - 1) := by
  have hκ := ndStiffness_pos hk hℓ hT
  have hε := ndEnergy_pos hε hT
  rw [morseA_spec, morse_reduced_length, langevin]
  have hη' : η < morseMax (ndStiffness k ℓ T) (ndEnergy ε T) := hη'
  generalize ndStiffness k ℓ T = κ at *
  generalize ndEnergy ε T = ε' at *
  have ha := morseA_pos hκ hε
  have hM := morseMax_pos hκ hε
  obtain ⟨hs, hs2⟩ := morse_s hM hη'
  have hs1 : √(1 - η / morseMax κ ε') < 1 := by
    have : 0 < η / morseMax κ ε' := by positivity
    nlinarith
  have e : η = morseMax κ ε' * (1 - √(1 - η / morseMax κ ε') ^ 2) := by
    rw [hs2]; field_simp; ring
  generalize √(1 - η / morseMax κ ε') = s at *
  refine ⟨1 + Real.log (2 / (1 + s)) / morseA κ ε', ?_, ?_, ?_, by ring⟩
  · have : 0 < Real.log (2 / (1 + s)) := Real.log_pos ((one_lt_div (by positivity)).2 (by linarith))
    have := div_pos this ha
    linarith
  · have : Real.log (2 / (1 + s)) < Real.log 2 := Real.log_lt_log (by positivity) (div_lt_self two_pos (by linarith))
    have := div_lt_div_of_pos_right this ha
    linarith
  · have h := hasDerivAt_morseEnergy κ ε' (1 + Real.log (2 / (1 + s)) / morseA κ ε')
    rw [morseA_spec] at h
    refine h.congr_deriv ?_
    have e2 : -morseA κ ε' * (1 + Real.log (2 / (1 + s)) / morseA κ ε' - 1) = Real.log ((1 + s) / 2) := by
      rw [← inv_div (1 + s) 2, Real.log_inv]
      field_simp
      ring
    rw [e2, Real.exp_log (by positivity), e, morseMax_eq hκ hε]
    ring

example : ∃ x, 1 < x ∧ x < 1 + Real.log 2 / √(ndStiffness 500 1 300 / (2 * ndEnergy 80 300)) ∧
    HasDerivAt (morseEnergy (ndStiffness 500 1 300) (ndEnergy 80 300)) (1 / 100) x ∧
    (morse_isotensional_asymptotic_reduced_lengths 8 1 1 500 80).nd_length_per_link (1 / 100) 300 =
      (1 / Real.tanh (1 / 100) - 1 / (1 / 100)) + (x - 1) := by
  refine C30_morse_force_balance 8 1 1 500 80 (by norm_num) (by norm_num) (by norm_num) (by norm_num) (by norm_num) ?_
  refine Real.lt_sqrt_of_sq_lt ?_
  unfold ndEnergy ndStiffness kT
  norm_num

/-- C32: the largest force the Morse link can carry is `√(εκ/8)`, carried at the stretch `1 + ln 2 / a`. -/
theorem C32_morse_max_force {κ ε : ℝ} (hκ : 0 < κ) (hε : 0 < ε) :
    IsGreatest (range (deriv (morseEnergy κ ε))) √(ε * κ / 8) ∧
      deriv (morseEnergy κ ε) (1 + Real.log 2 / √(κ / (2 * ε))) = √(ε * κ / 8) := by
  have ha := morseA_pos hκ hε
  have hd : ∀ x, deriv (morseEnergy κ ε) x = 2 * ε * morseA κ ε * Real.exp (-morseA κ ε * (x - 1)) *
      (1 - Real.exp (-morseA κ ε * (x - 1))) := by
    intro x; rw [(hasDerivAt_morseEnergy κ ε x).deriv, morseA_spec]
  have hM : √(ε * κ / 8) = ε * morseA κ ε / 2 := morseMax_eq hκ hε
  have h1 : deriv (morseEnergy κ ε) (1 + Real.log 2 / √(κ / (2 * ε))) = √(ε * κ / 8) := by
    rw [morseA_spec, hd, hM]
    have e2 : -morseA κ ε * (1 + Real.log 2 / morseA κ ε - 1) = Real.log (1 / 2) := by
      rw [one_div, Real.log_inv]
      field_simp
      ring
    rw [e2, Real.exp_log (by positivity)]
    ring
  refine ⟨⟨⟨_, h1⟩, ?_⟩, h1⟩
  rintro _ ⟨x, rfl⟩
  rw [hd, hM]
  generalize Real.exp (-morseA κ ε * (x - 1)) = y
  have : 0 < ε * morseA κ ε := by positivity
  nlinarith [mul_nonneg this.le (sq_nonneg (2 * y - 1))]

theorem morse_slope {M η : ℝ} (hM : 0 < M) (hη : η < M) (a : ℝ) :
    1 / (2 * M * √(1 - η / M) * (1 + √(1 - η / M))) / a = 1 / 2 / a / (M * (√(1 - η / M) + 1) - η) := by
  obtain ⟨hs, hs2⟩ := morse_s hM hη
  have e : η = M * (1 - √(1 - η / M) ^ 2) := by rw [hs2]; field_simp; ring
  generalize √(1 - η / M) = s at *
  have e2 : M * (s + 1) - η = M * s * (1 + s) := by rw [e]; ring
  rw [e2]
  by_cases ha : a = 0
  · simp [ha]
  · field_simp

/-- C25: reduced asymptotic approach: the isometric force is found by damped Newton steps (a quarter of a step each)
for the isotensional extension, with its true derivative, from a start not above the maximum force. -/
theorem C25_morse_reduced (N : ℕ) (ℓ m k ε T : ℝ) (hℓ : 0 < ℓ) (hk : 0 < k) (hε : 0 < ε) (hT : 0 < T) :
    DampedNewtonInverse 4 (fun γ => (morse_isometric_asymptotic_reduced_legendre_forces N ℓ m k ε).nd_force γ T)
      (fun η => (morse_isotensional_asymptotic_reduced_lengths N ℓ m k ε).nd_length_per_link η T)
      (fun _ => True) (fun η => η ≤ √(ndEnergy ε T * ndStiffness k ℓ T / 8))
      (fun η => η ≠ 0 ∧ η < √(ndEnergy ε T * ndStiffness k ℓ T / 8)) := by
  have hκ := ndStiffness_pos hk hℓ hT
  have hε := ndEnergy_pos hε hT
  simp only [morse_reduced_length]
  simp only [api_core, ufjc.morse.thermodynamics.isometric.asymptotic.reduced.legendre.nondimensional_force, model_real,
    langevin, morseMax, morseA]
  generalize ndStiffness k ℓ T = κ at *
  generalize ndEnergy ε T = ε' at *
  refine dampedNewtonInverse_of_code ?_ fun γ _ => ?_
  · rintro η ⟨hη, hη'⟩
    have hM := morseMax_pos hκ hε
    refine ((hasDerivAt_langevin hη).add ((hasDerivAt_morse_log hM hη').div_const (morseA κ ε'))).congr_deriv ?_
    rw [morse_slope hM hη']
    rfl
  · have hM : 0 < √(ε' * κ / 8) := morseMax_pos hκ hε
    split_ifs <;> linarith

/-- C25: asymptotic approach. -/
theorem C25_morse_asymptotic (N : ℕ) (ℓ m k ε T : ℝ) (hℓ : 0 < ℓ) (hk : 0 < k) (hε : 0 < ε) (hT : 0 < T) :
    DampedNewtonInverse 4 (fun γ => (morse_isometric_asymptotic_legendre_forces N ℓ m k ε).nd_force γ T)
      (fun η => (morse_isotensional_asymptotic_lengths N ℓ m k ε).nd_length_per_link η T)
      (fun _ => True) (fun η => η ≤ √(ndEnergy ε T * ndStiffness k ℓ T / 8))
      (fun η => η ≠ 0 ∧ η < √(ndEnergy ε T * ndStiffness k ℓ T / 8)) := by
  have hκ := ndStiffness_pos hk hℓ hT
  have hε := ndEnergy_pos hε hT
  simp only [morse_asymptotic_length]
  simp only [api_core, ufjc.morse.thermodynamics.isometric.asymptotic.legendre.nondimensional_force, model_real,
    langevin, morseMax, morseA]
  generalize ndStiffness k ℓ T = κ at *
  generalize ndEnergy ε T = ε' at *
  refine dampedNewtonInverse_of_code ?_ fun γ _ => ?_
  · rintro η ⟨hη, hη'⟩
    have hM := morseMax_pos hκ hε
    have ha := morseA_pos hκ hε
    have hc : 0 < 1 / (1 + 3 / 2 * morseA κ ε') := by positivity
    refine (((hasDerivAt_langevin hη).add (hasDerivAt_corr hc hκ hη)).add
      ((hasDerivAt_morse_log hM hη').div_const (morseA κ ε'))).congr_deriv ?_
    rw [morse_slope hM hη']
    rfl
  · have hM : 0 < √(ε' * κ / 8) := morseMax_pos hκ hε
    split_ifs <;> linarith

end Polymers.Props
