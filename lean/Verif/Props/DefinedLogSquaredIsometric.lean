import Verif.Lemmas.LogSquaredNewton
import Verif.Props.DefinedMorseIsometric
import Verif.Props.DefinedPotential

/-! Definedness (C56) of the log-squared-FJC model at fixed extension. -/

namespace Polymers.Props

open Polymers.Spec Polymers.SReal Polymers.Lemmas

set_option maxHeartbeats 1000000

theorem _root_.Polymers.Lemmas.StretchOk.step {C C' ψ ψ' f fp : ℝ → ℝ} {M γ x : ℝ} (hC : MildCorr C C' M) (hψ : GoodStretch ψ ψ' M)
    (h : StretchOk C ψ M γ x) (hf : f x = langevin x + C x + ψ x)
    (hfp : fp x = 1 / x ^ 2 - 1 / Real.sinh x ^ 2 + C' x + ψ' x) : StretchOk C ψ M γ (newtonStep γ f fp 4 x) := by
  obtain ⟨h1, h2, h3, h4⟩ := h
  obtain ⟨s1, s2, s3, s4, -⟩ := stretch_quarter_step hC hψ h1 h2 h3 h4 (z := newtonStep γ f fp 4 x)
    (by rw [newtonStep, hf, hfp])
  exact ⟨by linarith, by linarith, s3, s4⟩

theorem ls_max_pos {κ : ℝ} (hκ : 0 < κ) : 0 < κ / Real.exp 1 := by positivity

/-- The correction of the asymptotic approach for a log-squared link. -/
theorem ls_corr {κ : ℝ} (hκ : 0 < κ) : MildCorr (asyC (2 / 5 * κ)) (asyC' (2 / 5 * κ)) (κ / Real.exp 1) := by
  refine mildCorr_asy (ls_max_pos hκ) ?_
  have h := Real.exp_one_gt_d9
  rw [mul_div_assoc', div_le_iff₀ (Real.exp_pos 1)]
  norm_num at h
  nlinarith

theorem ls_zero_corr (M : ℝ) : MildCorr (fun _ => 0) (fun _ => 0) M := (goodCorr_zero M).mild

theorem ls_two_fifths : (0.4 : ℝ) = 2 / 5 := by norm_num

section leaves

variable {x κ' : SReal} {r κ : ℝ}

theorem ls_reduced_force_mem (hκ : 0 < κ) (h6 : κ ≤ 1000000) (h : StretchExt (κ / Real.exp 1)
      (langevin (19 / 20 * (κ / Real.exp 1)) + 0 + lsPsi κ (19 / 20 * (κ / Real.exp 1))) r) :
    StretchOk (fun _ => 0) (lsPsi κ) (κ / Real.exp 1) r (ufjc.log_squared.thermodynamics.isometric.asymptotic.reduced.legendre.nondimensional_force κ r) := by
  have hM := ls_max_pos hκ
  have hψ := goodStretch_ls hκ
  have hc : (0 : ℝ) < 2 / 5 := by norm_num
  simp only [ufjc.log_squared.thermodynamics.isometric.asymptotic.reduced.legendre.nondimensional_force, model_real]
  generalize hg : (if κ / Real.exp 1 < (if r < 1 then math.inverse_langevin r else 19 / 20 * (κ / Real.exp 1)) then
    19 / 20 * (κ / Real.exp 1) else if r < 1 then math.inverse_langevin r else 19 / 20 * (κ / Real.exp 1)) = x0
  have hok := (stretch_guess (ls_zero_corr _) hM hκ h6 (fun x hx hx' => (ls_slope_le hκ hx hx').2.2.2.2) h hg.symm).1
  refine powered_mem (fun z hz => ?_) (fun z hz => ?_) hok 100
  · have := hz.2.2.2
    simp only [langevin, lsPsi, logSquaredStretch, add_zero] at this ⊢
    refine ne_of_gt ?_
    linarith
  · refine hz.step (ls_zero_corr _) hψ ?_ ?_
    · simp only [langevin, lsPsi, logSquaredStretch, add_zero]; ring
    · simp only [lsPsi', add_zero]

theorem _root_.Polymers.SReal.Is.log_squared_reduced_force (hκ' : Is κ' κ) (hx : Is x r) (hκ : 0 < κ) (h6 : κ ≤ 1000000)
    (h : StretchExt (κ / Real.exp 1)
      (langevin (19 / 20 * (κ / Real.exp 1)) + 0 + lsPsi κ (19 / 20 * (κ / Real.exp 1))) r) :
    Is (ufjc.log_squared.thermodynamics.isometric.asymptotic.reduced.legendre.nondimensional_force κ' x) (ufjc.log_squared.thermodynamics.isometric.asymptotic.reduced.legendre.nondimensional_force κ r) := by
  have hM := ls_max_pos hκ
  have hψ := goodStretch_ls hκ
  have hc : (0 : ℝ) < 2 / 5 := by norm_num
  have e1 : (1.0 : ℝ) = 1 := by norm_num
  have hg1 : Is (if Elem.lt x 1.0 = true then math.inverse_langevin x else 0.95 * (κ' / Elem.exp 1.0))
      (if Elem.lt r 1.0 = true then math.inverse_langevin r else 0.95 * (κ / Elem.exp 1.0)) :=
    Is.ite_lt hx (Is.lit _ _ _) (fun h1 => Is.inverse_langevin hx ⟨h.1, by rwa [e1] at h1⟩) (fun _ => by defined [hx, hκ'])
  have hmax : Is (κ' / Elem.exp 1.0) (κ / Elem.exp 1.0) := by defined [hx, hκ']
  have hok := (stretch_guess (ls_zero_corr _) hM hκ h6 (fun x hx hx' => (ls_slope_le hκ hx hx').2.2.2.2) h rfl).1
  refine Is.newton_powered (S := StretchOk (fun _ => 0) (lsPsi κ) (κ / Real.exp 1) r) rfl rfl (by norm_num) hx h.1.ne'
    (Is.ite_lt hmax hg1 (fun _ => by defined [hx, hκ']) (fun _ => hg1)) (Is.lit _ _ _)
    (fun z hz => ?_) (fun z hz => ?_) (fun z hz => ?_) (fun z hz => ?_) (fun z hz => ?_) ?_
  · have hz0 := hz.1
    have hs := log_squared_arg hκ hz.2.1
    defined [hκ', is_lambert ?_ hs]
  · have hz0 := hz.1
    have hs := log_squared_arg hκ hz.2.1
    have hd : math.lambert_w (-z / κ) + 1.0 ≠ 0 := by
      have := (ls_lambert hκ hz.1 hz.2.1).1
      rw [e1]; linarith
    defined [hκ', is_lambert ?_ hs]
  · have hd := langevin_deriv_pos hz.1.ne'
    have h2 := (ls_zero_corr _).slope z hz.1 hz.2.1
    have h3 := hψ.slope_pos z hz.1 hz.2.1
    have h4 : 0 < 1 / z ^ 2 - 1 / Real.sinh z ^ 2 + 0 + lsPsi' κ z := by linarith
    simp only [lsPsi'] at h4
    simp only [model_real, add_zero]
    refine ne_of_gt ?_
    linarith
  · have := hz.2.2.2
    simp only [langevin, lsPsi, logSquaredStretch] at this
    simp only [model_real, add_zero]
    refine ne_of_gt ?_
    linarith
  · rw [powered_step_val]
    · refine hz.step (ls_zero_corr _) hψ ?_ ?_
      · simp only [model_real, langevin, lsPsi, logSquaredStretch, add_zero]; ring
      · simp only [model_real, lsPsi', add_zero]
    · have := hz.2.2.2
      simp only [langevin, lsPsi, logSquaredStretch] at this
      simp only [model_real, add_zero]
      refine ne_of_gt ?_
      linarith
  · simpa only [model_real] using hok

theorem _root_.Polymers.SReal.Is.log_squared_reduced_energy {N : ℕ} {ℓ m T : ℝ} {ℓ' m' T' : SReal} (hN : 0 < N)
    (Hℓ : Is ℓ' ℓ) (Hm : Is m' m) (HT : Is T' T) (hℓ : 0 < ℓ) (hm : 0 < m) (hT : 0 < T) (hκ' : Is κ' κ) (hx : Is x r)
    (hκ : 0 < κ) (h6 : κ ≤ 1000000) (h : StretchExt (κ / Real.exp 1)
      (langevin (19 / 20 * (κ / Real.exp 1)) + 0 + lsPsi κ (19 / 20 * (κ / Real.exp 1))) r) :
    Is (ufjc.log_squared.thermodynamics.isometric.asymptotic.reduced.legendre.nondimensional_helmholtz_free_energy_per_link N ℓ' m' κ' x T') (ufjc.log_squared.thermodynamics.isometric.asymptotic.reduced.legendre.nondimensional_helmholtz_free_energy_per_link N ℓ m κ r T) := by
  have hN' : (0 : ℝ) < N := Nat.cast_pos.2 hN
  obtain ⟨hp, hp', -, -⟩ := ls_reduced_force_mem hκ h6 h
  have hs := log_squared_arg hκ hp'
  defined [hx, hκ', Hℓ, Hm, HT, is_lambert ?_ hs, Is.log_squared_reduced_force hκ' hx hκ h6 h]

theorem ls_asymptotic_force_mem (hκ : 0 < κ) (h6 : κ ≤ 1000000) (h : StretchExt (κ / Real.exp 1)
      (langevin (19 / 20 * (κ / Real.exp 1)) + asyC (2 / 5 * κ) (19 / 20 * (κ / Real.exp 1)) + lsPsi κ (19 / 20 * (κ / Real.exp 1))) r) :
    StretchOk (asyC (2 / 5 * κ)) (lsPsi κ) (κ / Real.exp 1) r (ufjc.log_squared.thermodynamics.isometric.asymptotic.legendre.nondimensional_force κ r) := by
  have hM := ls_max_pos hκ
  have hψ := goodStretch_ls hκ
  have hc : (0 : ℝ) < 2 / 5 := by norm_num
  simp only [ufjc.log_squared.thermodynamics.isometric.asymptotic.legendre.nondimensional_force, model_real]
  generalize hg : (if κ / Real.exp 1 < (if r < 1 then math.inverse_langevin r else 19 / 20 * (κ / Real.exp 1)) then
    19 / 20 * (κ / Real.exp 1) else if r < 1 then math.inverse_langevin r else 19 / 20 * (κ / Real.exp 1)) = x0
  have hok := (stretch_guess (ls_corr hκ) hM hκ h6 (fun x hx hx' => (ls_slope_le hκ hx hx').2.2.2.2) h hg.symm).1
  refine powered_mem (fun z hz => ?_) (fun z hz => ?_) hok 100
  · have := hz.2.2.2
    simp only [langevin, lsPsi, logSquaredStretch, corr_code hc hκ hz.1] at this ⊢
    refine ne_of_gt ?_
    linarith
  · refine hz.step (ls_corr hκ) hψ ?_ ?_
    · simp only [langevin, lsPsi, logSquaredStretch, corr_code hc hκ hz.1]; ring
    · simp only [lsPsi', corr_slope_code hc hκ hz.1]

theorem _root_.Polymers.SReal.Is.log_squared_asymptotic_force (hκ' : Is κ' κ) (hx : Is x r) (hκ : 0 < κ) (h6 : κ ≤ 1000000)
    (h : StretchExt (κ / Real.exp 1)
      (langevin (19 / 20 * (κ / Real.exp 1)) + asyC (2 / 5 * κ) (19 / 20 * (κ / Real.exp 1)) + lsPsi κ (19 / 20 * (κ / Real.exp 1))) r) :
    Is (ufjc.log_squared.thermodynamics.isometric.asymptotic.legendre.nondimensional_force κ' x) (ufjc.log_squared.thermodynamics.isometric.asymptotic.legendre.nondimensional_force κ r) := by
  have hM := ls_max_pos hκ
  have hψ := goodStretch_ls hκ
  have hc : (0 : ℝ) < 2 / 5 := by norm_num
  have e1 : (1.0 : ℝ) = 1 := by norm_num
  have hg1 : Is (if Elem.lt x 1.0 = true then math.inverse_langevin x else 0.95 * (κ' / Elem.exp 1.0))
      (if Elem.lt r 1.0 = true then math.inverse_langevin r else 0.95 * (κ / Elem.exp 1.0)) :=
    Is.ite_lt hx (Is.lit _ _ _) (fun h1 => Is.inverse_langevin hx ⟨h.1, by rwa [e1] at h1⟩) (fun _ => by defined [hx, hκ'])
  have hmax : Is (κ' / Elem.exp 1.0) (κ / Elem.exp 1.0) := by defined [hx, hκ']
  have hok := (stretch_guess (ls_corr hκ) hM hκ h6 (fun x hx hx' => (ls_slope_le hκ hx hx').2.2.2.2) h rfl).1
  refine Is.newton_powered (S := StretchOk (asyC (2 / 5 * κ)) (lsPsi κ) (κ / Real.exp 1) r) rfl rfl (by norm_num) hx h.1.ne'
    (Is.ite_lt hmax hg1 (fun _ => by defined [hx, hκ']) (fun _ => hg1)) (Is.lit _ _ _)
    (fun z hz => ?_) (fun z hz => ?_) (fun z hz => ?_) (fun z hz => ?_) (fun z hz => ?_) ?_
  · have hz0 := hz.1
    have hs := log_squared_arg hκ hz.2.1
    defined [hκ', is_lambert ?_ hs]
  · have hz0 := hz.1
    have hs := log_squared_arg hκ hz.2.1
    have hd : math.lambert_w (-z / κ) + 1.0 ≠ 0 := by
      have := (ls_lambert hκ hz.1 hz.2.1).1
      rw [e1]; linarith
    defined [hκ', is_lambert ?_ hs]
  · have hd := langevin_deriv_pos hz.1.ne'
    have h2 := (ls_corr hκ).slope z hz.1 hz.2.1
    have h3 := hψ.slope_pos z hz.1 hz.2.1
    have h4 : 0 < 1 / z ^ 2 - 1 / Real.sinh z ^ 2 + asyC' (2 / 5 * κ) z + lsPsi' κ z := by linarith
    simp only [lsPsi'] at h4
    simp only [model_real, corr_slope_code hc hκ hz.1]
    refine ne_of_gt ?_
    linarith
  · have := hz.2.2.2
    simp only [langevin, lsPsi, logSquaredStretch] at this
    simp only [model_real, corr_code hc hκ hz.1]
    refine ne_of_gt ?_
    linarith
  · rw [powered_step_val]
    · refine hz.step (ls_corr hκ) hψ ?_ ?_
      · simp only [model_real, langevin, lsPsi, logSquaredStretch, corr_code hc hκ hz.1]; ring
      · simp only [model_real, lsPsi', corr_slope_code hc hκ hz.1]
    · have := hz.2.2.2
      simp only [langevin, lsPsi, logSquaredStretch] at this
      simp only [model_real, corr_code hc hκ hz.1]
      refine ne_of_gt ?_
      linarith
  · simpa only [model_real] using hok

theorem _root_.Polymers.SReal.Is.log_squared_asymptotic_energy {N : ℕ} {ℓ m T : ℝ} {ℓ' m' T' : SReal} (hN : 0 < N)
    (Hℓ : Is ℓ' ℓ) (Hm : Is m' m) (HT : Is T' T) (hℓ : 0 < ℓ) (hm : 0 < m) (hT : 0 < T) (hκ' : Is κ' κ) (hx : Is x r)
    (hκ : 0 < κ) (h6 : κ ≤ 1000000) (h : StretchExt (κ / Real.exp 1)
      (langevin (19 / 20 * (κ / Real.exp 1)) + asyC (2 / 5 * κ) (19 / 20 * (κ / Real.exp 1)) + lsPsi κ (19 / 20 * (κ / Real.exp 1))) r) :
    Is (ufjc.log_squared.thermodynamics.isometric.asymptotic.legendre.nondimensional_helmholtz_free_energy_per_link N ℓ' m' κ' x T') (ufjc.log_squared.thermodynamics.isometric.asymptotic.legendre.nondimensional_helmholtz_free_energy_per_link N ℓ m κ r T) := by
  have hN' : (0 : ℝ) < N := Nat.cast_pos.2 hN
  obtain ⟨hp, hp', -, -⟩ := ls_asymptotic_force_mem hκ h6 h
  have hs := log_squared_arg hκ hp'
  defined [hx, hκ', Hℓ, Hm, HT, is_lambert ?_ hs, Is.log_squared_asymptotic_force hκ' hx hκ h6 h]

end leaves

theorem ls_sample : ndStiffness 50000 1 300 ≤ 1000000 ∧ 1 / 2 < langevin (ndStiffness 50000 1 300 / Real.exp 1) := by
  constructor
  · norm_num [ndStiffness, kT, boltzmann_eq]
  · have hM : 3 ≤ ndStiffness 50000 1 300 / Real.exp 1 := by
      have h := Real.exp_one_lt_d9
      rw [le_div_iff₀ (Real.exp_pos 1)]
      have : (10 : ℝ) ≤ ndStiffness 50000 1 300 := by norm_num [ndStiffness, kT, boltzmann_eq]
      linarith
    have h2 : langevin 3 ≤ langevin (ndStiffness 50000 1 300 / Real.exp 1) :=
      langevin_strictMonoOn.monotoneOn (Set.mem_Ioi.2 three_pos) (Set.mem_Ioi.2 (by linarith)) hM
    refine lt_of_lt_of_le ?_ h2
    have h3 : 1 ≤ 1 / Real.tanh 3 := by
      have := self_lt_div_tanh three_pos
      rw [div_eq_mul_one_div] at this
      linarith
    unfold langevin
    linarith

/-- The parameters and extensions of the theorems below for the reduced asymptotic approach: the stiffness is at most a million, and the extension is
below what the Langevin function reaches at the largest force `κ/e`, or above that and below the extension at 95% of it. -/
def LogSquaredReducedDomain (N : ℕ) (ℓ m k y T : ℝ) : Prop :=
  ndStiffness k ℓ T ≤ 1000000 ∧ 1e-6 < langevin (ndStiffness k ℓ T / Real.exp 1) ∧
  StretchExt (ndStiffness k ℓ T / Real.exp 1)
    ((Api.log_squared_isotensional_asymptotic_reduced_lengths N ℓ m k).nd_length_per_link (19 / 20 * (ndStiffness k ℓ T / Real.exp 1)) T) y

theorem log_squared_reduced_length_eq (N : ℕ) {ℓ m k η T : ℝ} (hℓ : 0 < ℓ) (hk : 0 < k) (hT : 0 < T) (hη : 0 < η) :
    (Api.log_squared_isotensional_asymptotic_reduced_lengths N ℓ m k).nd_length_per_link η T =
      langevin η + 0 + lsPsi (ndStiffness k ℓ T) η := by
  have hκ := ndStiffness_pos hk hℓ hT
  have hc : (0 : ℝ) < 2 / 5 := by norm_num
  rw [log_squared_reduced_length, lsPsi, add_zero]
  ring

theorem LogSquaredReducedDomain.ext {N : ℕ} {ℓ m k y T : ℝ} (h : LogSquaredReducedDomain N ℓ m k y T) (hℓ : 0 < ℓ) (hk : 0 < k)
    (hT : 0 < T) {r : ℝ} (hr : r = y ∨ r = (ZERO : ℝ)) :
    StretchExt (ndStiffness k ℓ T / Real.exp 1)
      (langevin (19 / 20 * (ndStiffness k ℓ T / Real.exp 1)) + 0 +
        lsPsi (ndStiffness k ℓ T) (19 / 20 * (ndStiffness k ℓ T / Real.exp 1))) r := by
  rcases hr with rfl | rfl
  · have h4 := h.2.2
    rwa [log_squared_reduced_length_eq N hℓ hk hT (η := 19 / 20 * (ndStiffness k ℓ T / Real.exp 1))
      (mul_pos (by norm_num) (ls_max_pos (ndStiffness_pos hk hℓ hT)))] at h4
  · exact ⟨fjc_zero_mem.1, .inl h.2.1⟩

/-- A chain at 300 K and half extension is in the domain. -/
example : LogSquaredReducedDomain 8 1 1 50000 (1 / 2) 300 := by
  obtain ⟨h3, h7⟩ := ls_sample
  refine ⟨h3, ?_, by norm_num, .inl h7⟩
  refine lt_of_lt_of_le (by norm_num : (1e-6 : ℝ) < 1 / 2) h7.le

/-- C56: every method of the family is defined on the stated extensions. -/
theorem C56_log_squared_isometric_asymptotic_reduced_legendre_helmholtz {N : ℕ} (hN : 0 < N) {ℓ m k : ℝ} (hℓ : 0 < ℓ) (hm : 0 < m) (hk : 0 < k) :
    (ApiS.log_squared_isometric_asymptotic_reduced_legendre_helmholtz N ℓ m k).DefinedAs (Api.log_squared_isometric_asymptotic_reduced_legendre_helmholtz N ℓ m k) (fun ξ _ => ξ / (N * ℓ))
      (LogSquaredReducedDomain N ℓ m k) := by
  have hN' : (0 : ℝ) < N := Nat.cast_pos.2 (by omega)
  have eN : (ZERO : ℝ) * N * ℓ / (N * ℓ) = ZERO := by field_simp
  constructor <;> intro x T hT hD <;> refine (?_ : Is _ _)
  all_goals
    have h6 := hD.1
    have hE := fun r hr => hD.ext hℓ hk hT (r := r) hr
    rw [Props.ndStiffness_code] at h6
    simp only [Props.ndStiffness_code] at hE
    defined [Is.log_squared_reduced_energy (by first | exact hN | norm_num) ?_ ?_ ?_ ?_ ?_ ?_ ?_ ?_ ?_ h6 (hE _ (by first | exact .inl rfl | exact .inr rfl | exact .inr eN | (rw [div_div]; first | exact .inl rfl | exact .inr eN)))]

example : (ApiS.log_squared_isometric_asymptotic_reduced_legendre_helmholtz 8 1 1 50000).DefinedAs (Api.log_squared_isometric_asymptotic_reduced_legendre_helmholtz 8 1 1 50000) (fun ξ _ => ξ / ((8 : ℕ) * 1))
    (LogSquaredReducedDomain 8 1 1 50000) :=
  C56_log_squared_isometric_asymptotic_reduced_legendre_helmholtz (N := 8) (m := 1) (by norm_num) (by norm_num) (by norm_num) (by norm_num)

/-- C56: every method of the family is defined on the stated extensions. -/
theorem C56_log_squared_isometric_asymptotic_reduced_legendre_forces {N : ℕ} (hN : 0 < N) {ℓ m k : ℝ} (hℓ : 0 < ℓ) (hk : 0 < k) :
    (ApiS.log_squared_isometric_asymptotic_reduced_legendre_forces N ℓ m k).DefinedAs (Api.log_squared_isometric_asymptotic_reduced_legendre_forces N ℓ m k) (fun ξ _ => ξ / (N * ℓ))
      (LogSquaredReducedDomain N ℓ m k) := by
  have hN' : (0 : ℝ) < N := Nat.cast_pos.2 (by omega)
  have eN : (ZERO : ℝ) * N * ℓ / (N * ℓ) = ZERO := by field_simp
  constructor <;> intro x T hT hD <;> refine (?_ : Is _ _)
  all_goals
    have h6 := hD.1
    have hE := fun r hr => hD.ext hℓ hk hT (r := r) hr
    rw [Props.ndStiffness_code] at h6
    simp only [Props.ndStiffness_code] at hE
    defined [Is.log_squared_reduced_force ?_ ?_ ?_ h6 (hE _ (by first | exact .inl rfl | exact .inr rfl | exact .inr eN | (rw [div_div]; first | exact .inl rfl | exact .inr eN)))]

example : (ApiS.log_squared_isometric_asymptotic_reduced_legendre_forces 8 1 1 50000).DefinedAs (Api.log_squared_isometric_asymptotic_reduced_legendre_forces 8 1 1 50000) (fun ξ _ => ξ / ((8 : ℕ) * 1))
    (LogSquaredReducedDomain 8 1 1 50000) :=
  C56_log_squared_isometric_asymptotic_reduced_legendre_forces (N := 8) (m := 1) (by norm_num) (by norm_num) (by norm_num)

/-- The parameters and extensions of the theorems below for the asymptotic approach: the stiffness is at most a million, and the extension is
below what the Langevin function reaches at the largest force `κ/e`, or above that and below the extension at 95% of it. -/
def LogSquaredAsymptoticDomain (N : ℕ) (ℓ m k y T : ℝ) : Prop :=
  ndStiffness k ℓ T ≤ 1000000 ∧ 1e-6 < langevin (ndStiffness k ℓ T / Real.exp 1) ∧
  StretchExt (ndStiffness k ℓ T / Real.exp 1)
    ((Api.log_squared_isotensional_asymptotic_lengths N ℓ m k).nd_length_per_link (19 / 20 * (ndStiffness k ℓ T / Real.exp 1)) T) y

theorem log_squared_asymptotic_length_eq (N : ℕ) {ℓ m k η T : ℝ} (hℓ : 0 < ℓ) (hk : 0 < k) (hT : 0 < T) (hη : 0 < η) :
    (Api.log_squared_isotensional_asymptotic_lengths N ℓ m k).nd_length_per_link η T =
      langevin η + asyC (2 / 5 * ndStiffness k ℓ T) η + lsPsi (ndStiffness k ℓ T) η := by
  have hκ := ndStiffness_pos hk hℓ hT
  have hc : (0 : ℝ) < 2 / 5 := by norm_num
  rw [log_squared_asymptotic_length, lsPsi, corr_code hc hκ hη]
  ring

theorem LogSquaredAsymptoticDomain.ext {N : ℕ} {ℓ m k y T : ℝ} (h : LogSquaredAsymptoticDomain N ℓ m k y T) (hℓ : 0 < ℓ) (hk : 0 < k)
    (hT : 0 < T) {r : ℝ} (hr : r = y ∨ r = (ZERO : ℝ)) :
    StretchExt (ndStiffness k ℓ T / Real.exp 1)
      (langevin (19 / 20 * (ndStiffness k ℓ T / Real.exp 1)) + asyC (2 / 5 * ndStiffness k ℓ T) (19 / 20 * (ndStiffness k ℓ T / Real.exp 1)) +
        lsPsi (ndStiffness k ℓ T) (19 / 20 * (ndStiffness k ℓ T / Real.exp 1))) r := by
  rcases hr with rfl | rfl
  · have h4 := h.2.2
    rwa [log_squared_asymptotic_length_eq N hℓ hk hT (η := 19 / 20 * (ndStiffness k ℓ T / Real.exp 1))
      (mul_pos (by norm_num) (ls_max_pos (ndStiffness_pos hk hℓ hT)))] at h4
  · exact ⟨fjc_zero_mem.1, .inl h.2.1⟩

/-- A chain at 300 K and half extension is in the domain. -/
example : LogSquaredAsymptoticDomain 8 1 1 50000 (1 / 2) 300 := by
  obtain ⟨h3, h7⟩ := ls_sample
  refine ⟨h3, ?_, by norm_num, .inl h7⟩
  refine lt_of_lt_of_le (by norm_num : (1e-6 : ℝ) < 1 / 2) h7.le

/-- C56: every method of the family is defined on the stated extensions. -/
theorem C56_log_squared_isometric_asymptotic_legendre_helmholtz {N : ℕ} (hN : 0 < N) {ℓ m k : ℝ} (hℓ : 0 < ℓ) (hm : 0 < m) (hk : 0 < k) :
    (ApiS.log_squared_isometric_asymptotic_legendre_helmholtz N ℓ m k).DefinedAs (Api.log_squared_isometric_asymptotic_legendre_helmholtz N ℓ m k) (fun ξ _ => ξ / (N * ℓ))
      (LogSquaredAsymptoticDomain N ℓ m k) := by
  have hN' : (0 : ℝ) < N := Nat.cast_pos.2 (by omega)
  have eN : (ZERO : ℝ) * N * ℓ / (N * ℓ) = ZERO := by field_simp
  constructor <;> intro x T hT hD <;> refine (?_ : Is _ _)
  all_goals
    have h6 := hD.1
    have hE := fun r hr => hD.ext hℓ hk hT (r := r) hr
    rw [Props.ndStiffness_code] at h6
    simp only [Props.ndStiffness_code] at hE
    defined [Is.log_squared_asymptotic_energy (by first | exact hN | norm_num) ?_ ?_ ?_ ?_ ?_ ?_ ?_ ?_ ?_ h6 (hE _ (by first | exact .inl rfl | exact .inr rfl | exact .inr eN | (rw [div_div]; first | exact .inl rfl | exact .inr eN)))]

example : (ApiS.log_squared_isometric_asymptotic_legendre_helmholtz 8 1 1 50000).DefinedAs (Api.log_squared_isometric_asymptotic_legendre_helmholtz 8 1 1 50000) (fun ξ _ => ξ / ((8 : ℕ) * 1))
    (LogSquaredAsymptoticDomain 8 1 1 50000) :=
  C56_log_squared_isometric_asymptotic_legendre_helmholtz (N := 8) (m := 1) (by norm_num) (by norm_num) (by norm_num) (by norm_num)

/-- C56: every method of the family is defined on the stated extensions. -/
theorem C56_log_squared_isometric_asymptotic_legendre_forces {N : ℕ} (hN : 0 < N) {ℓ m k : ℝ} (hℓ : 0 < ℓ) (hk : 0 < k) :
    (ApiS.log_squared_isometric_asymptotic_legendre_forces N ℓ m k).DefinedAs (Api.log_squared_isometric_asymptotic_legendre_forces N ℓ m k) (fun ξ _ => ξ / (N * ℓ))
      (LogSquaredAsymptoticDomain N ℓ m k) := by
  have hN' : (0 : ℝ) < N := Nat.cast_pos.2 (by omega)
  have eN : (ZERO : ℝ) * N * ℓ / (N * ℓ) = ZERO := by field_simp
  constructor <;> intro x T hT hD <;> refine (?_ : Is _ _)
  all_goals
    have h6 := hD.1
    have hE := fun r hr => hD.ext hℓ hk hT (r := r) hr
    rw [Props.ndStiffness_code] at h6
    simp only [Props.ndStiffness_code] at hE
    defined [Is.log_squared_asymptotic_force ?_ ?_ ?_ h6 (hE _ (by first | exact .inl rfl | exact .inr rfl | exact .inr eN | (rw [div_div]; first | exact .inl rfl | exact .inr eN)))]

example : (ApiS.log_squared_isometric_asymptotic_legendre_forces 8 1 1 50000).DefinedAs (Api.log_squared_isometric_asymptotic_legendre_forces 8 1 1 50000) (fun ξ _ => ξ / ((8 : ℕ) * 1))
    (LogSquaredAsymptoticDomain 8 1 1 50000) :=
  C56_log_squared_isometric_asymptotic_legendre_forces (N := 8) (m := 1) (by norm_num) (by norm_num) (by norm_num)

end Polymers.Props
