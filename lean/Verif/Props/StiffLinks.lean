import Verif.Lemmas.StiffGibbs
import Verif.Props.Efjc
import Verif.Props.Morse
import Verif.Props.LogSquared
import Verif.Props.LennardJones

/-! C70: the asymptotic approaches are right to first order in the compliance of the link, the reduced ones are not. -/

namespace Polymers.Props

open Polymers.Spec Polymers.Api Polymers.Lemmas Real Set Filter Topology

variable {b : ℝ}

/-! ## Harmonic links -/

theorem stiff_harmonic (hb : 1 < b) : StiffLink (fun s => 1 / 2 * (s - 1) ^ 2) 0 b := by
  refine StiffLink.of_derivs (c := 1 / 2) (v1 := fun s => s - 1) (v2 := fun _ => 1) (v3 := fun _ => 0) (v4 := fun _ => 0) hb
    (by fun_prop) (by norm_num) (fun s _ => by norm_num) (fun s _ => ?_) (fun s _ => ?_) (fun s _ => hasDerivAt_const _ _)
    (fun s _ => hasDerivAt_const _ _) continuousOn_const (by norm_num) rfl rfl
  · refine ((((hasDerivAt_id s).sub_const 1).pow 2).const_mul (1 / 2)).congr_deriv ?_
    norm_num
    ring
  · exact (hasDerivAt_id s).sub_const 1

theorem harmonic_weight (κ : ℝ) : (fun s => exp (-harmonicEnergy κ s)) = fun s => exp (-(κ * (1 / 2 * (s - 1) ^ 2))) := by
  funext s; unfold harmonicEnergy; congr 1; ring

theorem stretch_harmonic (η : ℝ) : Tendsto (fun κ : ℝ => κ * ((1 + η / κ) - 1)) atTop (𝓝 η) := by
  simpa using tendsto_div_corr η

/-- The part of the Gibbs energies that does not depend on the force. -/
noncomputable def stiffConst (ℓ m T κ : ℝ) : ℝ := -(1 / 2 * log (2 * π * ℓ ^ 2 / κ)) -
  log (8 * π ^ 2 * m * ℓ ^ 2 * BOLTZMANN_CONSTANT * T / PLANCK_CONSTANT ^ 2)

theorem ndStiffness_eventually_pos {ℓ T : ℝ} (hℓ : 0 < ℓ) (hT : 0 < T) : ∀ᶠ k in atTop, 0 < ndStiffness k ℓ T := by
  filter_upwards [eventually_gt_atTop 0] with k hk using ndStiffness_pos hk hℓ hT

/-- C70: extensible freely jointed chain, asymptotic approach.  The difference of Gibbs energies between any two forces is that of
harmonic links, at whatever stretch `b` they break, up to an error that vanishes faster than the compliance. -/
theorem C70_efjc_asymptotic (N : ℕ) (ℓ m : ℝ) {T η η' : ℝ} (hb : 1 < b) (hℓ : 0 < ℓ) (hT : 0 < T) (hη : 0 < η) (hη' : 0 < η') :
    Tendsto (fun k => ndStiffness k ℓ T * gibbsError (fun η => (efjc_isotensional_asymptotic_gibbs N ℓ m k).nd_energy_per_link η T)
      (breakAt b fun s => exp (-harmonicEnergy (ndStiffness k ℓ T) s)) η η') atTop (𝓝 0) := by
  have h := stiff_error (stiff_harmonic hb) (ndStiffness_tendsto hℓ hT) (fun k => stiffConst ℓ m T (ndStiffness k ℓ T))
    (.of_forall fun k => harmonic_weight (ndStiffness k ℓ T)) (lam := fun κ η => 1 + η / κ) (e := 1)
    (G := fun k η => (efjc_isotensional_asymptotic_gibbs N ℓ m k).nd_energy_per_link η T)
    (fun η _ => stretch_harmonic η) (fun η _ => tendsto_log_corr _) (fun η _ => ?_) hη hη'
  · simpa using h
  · filter_upwards [ndStiffness_eventually_pos hℓ hT] with k hk
    simp only [api_core, efjc.thermodynamics.isotensional.asymptotic.nondimensional_gibbs_free_energy_per_link, model_real, stiffConst]
    field_simp
    ring

/-- C70: the same for the alternative asymptotic approach. -/
theorem C70_efjc_alternative (N : ℕ) (ℓ m : ℝ) {T η η' : ℝ} (hb : 1 < b) (hℓ : 0 < ℓ) (hT : 0 < T) (hη : 0 < η) (hη' : 0 < η') :
    Tendsto (fun k => ndStiffness k ℓ T * gibbsError
      (fun η => (efjc_isotensional_asymptotic_alternative_gibbs N ℓ m k).nd_energy_per_link η T)
      (breakAt b fun s => exp (-harmonicEnergy (ndStiffness k ℓ T) s)) η η') atTop (𝓝 0) := by
  have h := stiff_error (stiff_harmonic hb) (ndStiffness_tendsto hℓ hT) (fun k => stiffConst ℓ m T (ndStiffness k ℓ T))
    (.of_forall fun k => harmonic_weight (ndStiffness k ℓ T)) (lam := fun κ η => 1 + η / κ) (e := 1)
    (G := fun k η => (efjc_isotensional_asymptotic_alternative_gibbs N ℓ m k).nd_energy_per_link η T)
    (fun η _ => stretch_harmonic η) (fun η _ => tendsto_div_corr _) (fun η _ => ?_) hη hη'
  · simpa using h
  · filter_upwards [ndStiffness_eventually_pos hℓ hT] with k hk
    simp only [api_core, efjc.thermodynamics.isotensional.asymptotic.alternative.nondimensional_gibbs_free_energy_per_link, model_real,
      stiffConst]
    field_simp
    ring

/-- C70: the reduced asymptotic approach misses the first-order term `η coth η / κ`. -/
theorem C70_efjc_reduced (N : ℕ) (ℓ m : ℝ) {T η η' : ℝ} (hb : 1 < b) (hℓ : 0 < ℓ) (hT : 0 < T) (hη : 0 < η) (hη' : 0 < η') :
    Tendsto (fun k => ndStiffness k ℓ T * gibbsError
      (fun η => (efjc_isotensional_asymptotic_reduced_gibbs N ℓ m k).nd_energy_per_link η T)
      (breakAt b fun s => exp (-harmonicEnergy (ndStiffness k ℓ T) s)) η η') atTop (𝓝 (η / tanh η - η' / tanh η')) := by
  have h := stiff_error (stiff_harmonic hb) (ndStiffness_tendsto hℓ hT) (fun k => stiffConst ℓ m T (ndStiffness k ℓ T))
    (.of_forall fun k => harmonic_weight (ndStiffness k ℓ T)) (lam := fun κ η => 1 + η / κ) (e := 0) (L := fun _ _ => 0)
    (G := fun k η => (efjc_isotensional_asymptotic_reduced_gibbs N ℓ m k).nd_energy_per_link η T)
    (fun η _ => stretch_harmonic η) (fun η _ => by simp) (fun η _ => ?_) hη hη'
  · simpa using h
  · filter_upwards [ndStiffness_eventually_pos hℓ hT] with k hk
    simp only [api_core, efjc.thermodynamics.isotensional.asymptotic.reduced.nondimensional_gibbs_free_energy_per_link, model_real,
      stiffConst]
    field_simp
    ring

/-! ## Log-squared links -/

theorem stiff_log_squared (hb : 1 < b) : StiffLink (fun s => 1 / 2 * log s ^ 2) (-3) b := by
  have hpos : ∀ s ∈ Icc (1 / 2) b, s ≠ 0 := fun s hs => by linarith [hs.1]
  have hp : ∀ (s : ℝ) (n : ℕ), s ≠ 0 → HasDerivAt (fun s : ℝ => s ^ (n + 1)) ((n + 1) * s ^ n) s := fun s n _ => by
    simpa using hasDerivAt_pow (n + 1) s
  refine StiffLink.of_derivs (c := 1 / (2 * b ^ 2)) (v1 := fun s => log s / s) (v2 := fun s => (1 - log s) / s ^ 2)
    (v3 := fun s => (2 * log s - 3) / s ^ 3) (v4 := fun s => (11 - 6 * log s) / s ^ 4) hb ?_ (by positivity) (fun s hs => ?_)
    (fun s hs => ?_) (fun s hs => ?_) (fun s hs => ?_) (fun s hs => ?_) ?_ (by norm_num) (by norm_num) (by norm_num)
  · exact continuousOn_const.mul ((continuousOn_log.mono fun s hs => hs.1.ne').pow 2)
  · have hs0 := hs.1
    have key : (s - 1) ^ 2 ≤ (b * log s) ^ 2 := by
      rw [sq_le_sq]
      rcases le_total 1 s with h | h
      · have h1 := one_sub_inv_le_log_of_pos hs0
        rw [abs_of_nonneg (by linarith), abs_of_nonneg (mul_nonneg (by linarith) (log_nonneg h))]
        have h2 : s - 1 = s * (1 - s⁻¹) := by field_simp
        rw [h2]
        exact (mul_le_mul_of_nonneg_left h1 hs0.le).trans (mul_le_mul_of_nonneg_right hs.2 (log_nonneg h))
      · have h1 := log_le_sub_one_of_pos hs0
        rw [abs_of_nonpos (by linarith), abs_of_nonpos (mul_nonpos_of_nonneg_of_nonpos (by linarith) (by linarith))]
        nlinarith
    rw [log_one, mul_pow] at *
    rw [div_mul_eq_mul_div, div_le_iff₀ (by positivity)]
    nlinarith
  · have h0 := hpos s hs
    refine (((hasDerivAt_log h0).pow 2).const_mul (1 / 2)).congr_deriv ?_
    norm_num
    field_simp
  · have h0 := hpos s hs
    refine ((hasDerivAt_log h0).div (hasDerivAt_id s) h0).congr_deriv ?_
    simp only [id]
    field_simp
  · have h0 := hpos s hs
    refine (((hasDerivAt_log h0).const_sub 1).div (hasDerivAt_pow 2 s) (pow_ne_zero 2 h0)).congr_deriv ?_
    push_cast
    field_simp
    ring
  · have h0 := hpos s hs
    refine ((((hasDerivAt_log h0).const_mul 2).sub_const 3).div (hasDerivAt_pow 3 s) (pow_ne_zero 3 h0)).congr_deriv ?_
    push_cast
    field_simp
    ring
  · refine ContinuousOn.div (continuousOn_const.sub (continuousOn_const.mul (continuousOn_log.mono fun s hs => hpos s hs))) (by fun_prop)
      fun s hs => pow_ne_zero 4 (hpos s hs)

theorem hasDerivAt_lambert_w_zero : HasDerivAt math.lambert_w 1 (0 : ℝ) := by
  -- every update maps a start of value zero and any slope to value zero and slope one
  have step : ∀ (v : ℝ → ℝ) (v' : ℝ), v 0 = 0 → HasDerivAt v v' 0 → HasDerivAt (fun x => math.lambert_w_update x (v x)) 1 0 := by
    intro v v' h0 hv
    simp only [lambert_w_update_real]
    have hN : HasDerivAt (fun x => v x * exp (v x) - x) (v' - 1) 0 := by
      refine ((hv.mul hv.exp).sub (hasDerivAt_id 0)).congr_deriv ?_
      rw [h0]; simp
    have hc : DifferentiableAt ℝ (fun x => exp (v x) * (v x + 1) - (v x + 2) * (v x * exp (v x) - x) / (2 * v x + 2)) 0 := by
      have := hv.differentiableAt
      have h2 : 2 * v 0 + 2 ≠ 0 := by rw [h0]; norm_num
      fun_prop (disch := assumption)
    refine (hv.sub (hN.div hc.hasDerivAt (by simp [h0]))).congr_deriv ?_
    simp [h0]
  have loop : ∀ (n : ℕ) (v : ℝ → ℝ) (v' : ℝ), v 0 = 0 → HasDerivAt v v' 0 →
      HasDerivAt (fun x => math.lambert_w_loop x (n + 1) (v x)) 1 0 := by
    intro n
    induction n with
    | zero => intro v v' h0 hv; exact step v v' h0 hv
    | succ n ih =>
      intro v v' h0 hv
      refine ih (fun x => math.lambert_w_update x (v x)) 1 ?_ (step v v' h0 hv)
      rw [h0]
      exact C08_lambert_w_fixed_of_solution (by simp)
  have hlog : HasDerivAt (fun x : ℝ => 3 / 4 * log (x + 1)) (3 / 4 * (1 / (0 + 1))) 0 :=
    ((((hasDerivAt_id 0).add_const 1)).log (by norm_num)).const_mul _
  refine (loop 3 _ _ (by simp) hlog).congr_of_eventuallyEq ?_
  filter_upwards [Icc_mem_nhds (show (-1 : ℝ) < 0 by norm_num) one_pos] with x hx
  rw [lambert_w_real, (C08_lambert_w_updates x).2]
  refine (abs_le.2 hx).trans (by norm_num)

theorem stretch_log_squared (η : ℝ) : Tendsto (fun κ : ℝ => κ * (logSquaredStretch κ η - 1)) atTop (𝓝 η) := by
  have hd : HasDerivAt (fun x : ℝ => 1 / exp (math.lambert_w x)) (-1) 0 := by
    refine ((hasDerivAt_const _ (1 : ℝ)).div hasDerivAt_lambert_w_zero.exp (exp_pos _).ne').congr_deriv ?_
    rw [C08_lambert_w_zero]; simp
  have hx : Tendsto (fun κ : ℝ => κ * (-η / κ - 0)) atTop (𝓝 (-η)) := by simpa using tendsto_div_corr (-η)
  have := tendsto_mul_comp_sub hd hx
  rw [C08_lambert_w_zero] at this
  simpa [logSquaredStretch] using this

theorem log_squared_weight (κ : ℝ) : (fun s => exp (-logSquaredEnergy κ s)) = fun s => exp (-(κ * (1 / 2 * log s ^ 2))) := by
  funext s; unfold logSquaredEnergy; congr 1; ring

/-- C70: log-squared links, asymptotic approach. -/
theorem C70_log_squared_asymptotic (N : ℕ) (ℓ m : ℝ) {T η η' : ℝ} (hb : 1 < b) (hℓ : 0 < ℓ) (hT : 0 < T) (hη : 0 < η)
    (hη' : 0 < η') :
    Tendsto (fun k => ndStiffness k ℓ T * gibbsError
      (fun η => (log_squared_isotensional_asymptotic_gibbs N ℓ m k).nd_energy_per_link η T)
      (breakAt b fun s => exp (-logSquaredEnergy (ndStiffness k ℓ T) s)) η η') atTop (𝓝 0) := by
  have h := stiff_error (stiff_log_squared hb) (ndStiffness_tendsto hℓ hT) (fun k => stiffConst ℓ m T (ndStiffness k ℓ T))
    (.of_forall fun k => log_squared_weight (ndStiffness k ℓ T)) (lam := logSquaredStretch) (e := 5 / 2)
    (G := fun k η => (log_squared_isotensional_asymptotic_gibbs N ℓ m k).nd_energy_per_link η T)
    (fun η _ => stretch_log_squared η) (fun η _ => tendsto_log_corr _) (fun η _ => ?_) hη hη'
  · norm_num at h; exact h
  · filter_upwards [ndStiffness_eventually_pos hℓ hT] with k hk
    simp only [api_core, ufjc.log_squared.thermodynamics.isotensional.asymptotic.nondimensional_gibbs_free_energy_per_link, model_real,
      stiffConst, logSquaredStretch, log_one]
    rw [show 5 / 2 * (η / tanh η) / ndStiffness k ℓ T = η / tanh η / ndStiffness k ℓ T / (2 / 5) by ring]
    ring

/-- C70: the reduced approach misses `5/2 η coth η / κ`. -/
theorem C70_log_squared_reduced (N : ℕ) (ℓ m : ℝ) {T η η' : ℝ} (hb : 1 < b) (hℓ : 0 < ℓ) (hT : 0 < T) (hη : 0 < η)
    (hη' : 0 < η') :
    Tendsto (fun k => ndStiffness k ℓ T * gibbsError
      (fun η => (log_squared_isotensional_asymptotic_reduced_gibbs N ℓ m k).nd_energy_per_link η T)
      (breakAt b fun s => exp (-logSquaredEnergy (ndStiffness k ℓ T) s)) η η') atTop
      (𝓝 (5 / 2 * (η / tanh η - η' / tanh η'))) := by
  have h := stiff_error (stiff_log_squared hb) (ndStiffness_tendsto hℓ hT) (fun k => stiffConst ℓ m T (ndStiffness k ℓ T))
    (.of_forall fun k => log_squared_weight (ndStiffness k ℓ T)) (lam := logSquaredStretch) (e := 0) (L := fun _ _ => 0)
    (G := fun k η => (log_squared_isotensional_asymptotic_reduced_gibbs N ℓ m k).nd_energy_per_link η T)
    (fun η _ => stretch_log_squared η) (fun η _ => by simp) (fun η _ => ?_) hη hη'
  · norm_num at h; norm_num; exact h
  · filter_upwards [ndStiffness_eventually_pos hℓ hT] with k hk
    simp only [api_core, ufjc.log_squared.thermodynamics.isotensional.asymptotic.reduced.nondimensional_gibbs_free_energy_per_link,
      model_real, stiffConst, logSquaredStretch, log_one]
    ring

/-! ## Lennard-Jones links -/

theorem stiff_lennard_jones (hb : 1 < b) : StiffLink (fun s => 1 / 72 * (1 / s ^ 12 - 2 / s ^ 6)) (-21) b := by
  have hpos : ∀ s ∈ Icc (1 / 2) b, s ≠ 0 := fun s hs => by linarith [hs.1]
  have hp : ∀ (s : ℝ) (n : ℕ), s ≠ 0 → HasDerivAt (fun s : ℝ => 1 / s ^ n) (-(n : ℝ) / s ^ (n + 1)) s := fun s n h0 => by
    rcases n with _ | n
    · simpa using hasDerivAt_const s (1 : ℝ)
    · refine ((hasDerivAt_const s (1 : ℝ)).div (hasDerivAt_pow (n + 1) s) (pow_ne_zero _ h0)).congr_deriv ?_
      simp only [Nat.add_sub_cancel]
      field_simp
      ring
  refine StiffLink.of_derivs (c := 1 / (72 * b ^ 12)) (v1 := fun s => 1 / 6 * (1 / s ^ 7 - 1 / s ^ 13))
    (v2 := fun s => 1 / 6 * (13 * (1 / s ^ 14) - 7 * (1 / s ^ 8))) (v3 := fun s => 1 / 6 * (56 * (1 / s ^ 9) - 182 * (1 / s ^ 15)))
    (v4 := fun s => 1 / 6 * (2730 * (1 / s ^ 16) - 504 * (1 / s ^ 10))) hb ?_ (by positivity) (fun s hs => ?_)
    (fun s hs => ?_) (fun s hs => ?_) (fun s hs => ?_) (fun s hs => ?_) ?_ (by norm_num) (by norm_num) (by norm_num)
  · refine continuousOn_const.mul ((continuousOn_const.div (by fun_prop) fun s hs => pow_ne_zero _ hs.1.ne').sub
      (continuousOn_const.div (by fun_prop) fun s hs => pow_ne_zero _ hs.1.ne'))
  · have hs0 := hs.1
    have h6 : s ^ 6 ≤ b ^ 6 := pow_le_pow_left₀ hs0.le hs.2 6
    have key : (s - 1) ^ 2 ≤ (b ^ 6 * (1 / s ^ 6 - 1)) ^ 2 := by
      rw [sq_le_sq, abs_mul, abs_of_pos (show 0 < b ^ 6 by positivity)]
      have e : 1 / s ^ 6 - 1 = -((s - 1) * ((1 + s + s ^ 2 + s ^ 3 + s ^ 4 + s ^ 5) / s ^ 6)) := by field_simp; ring
      have h1 : 1 ≤ b ^ 6 * ((1 + s + s ^ 2 + s ^ 3 + s ^ 4 + s ^ 5) / s ^ 6) := by
        rw [mul_div_assoc', one_le_div (by positivity)]
        have h2 : 1 ≤ 1 + s + s ^ 2 + s ^ 3 + s ^ 4 + s ^ 5 := by
          have : 0 ≤ s + s ^ 2 + s ^ 3 + s ^ 4 + s ^ 5 := by positivity
          linarith
        nlinarith [show 0 < b ^ 6 by positivity]
      rw [e, abs_neg, abs_mul, abs_of_pos (show 0 < (1 + s + s ^ 2 + s ^ 3 + s ^ 4 + s ^ 5) / s ^ 6 by positivity), mul_left_comm]
      exact le_mul_of_one_le_right (abs_nonneg _) h1
    have e : 1 / 72 * (1 / s ^ 12 - 2 / s ^ 6) - 1 / 72 * (1 / 1 ^ 12 - 2 / 1 ^ 6) = 1 / 72 * (1 / s ^ 6 - 1) ^ 2 := by
      field_simp; ring
    rw [e, div_mul_eq_mul_div, div_le_iff₀ (by positivity)]
    have e2 : (b ^ 6 * (1 / s ^ 6 - 1)) ^ 2 = 1 / 72 * (1 / s ^ 6 - 1) ^ 2 * (72 * b ^ 12) := by ring
    linarith
  · have h0 := hpos s hs
    refine hasDerivAt_of_eq (((hp s 12 h0).sub ((hp s 6 h0).const_mul 2)).const_mul (1 / 72)) (fun x => ?_) ?_
    · simp only [Pi.sub_apply]; ring
    · push_cast; ring
  · have h0 := hpos s hs
    refine (((hp s 7 h0).sub (hp s 13 h0)).const_mul (1 / 6)).congr_deriv ?_
    push_cast; ring
  · have h0 := hpos s hs
    refine ((((hp s 14 h0).const_mul 13).sub ((hp s 8 h0).const_mul 7)).const_mul (1 / 6)).congr_deriv ?_
    push_cast; ring
  · have h0 := hpos s hs
    refine ((((hp s 9 h0).const_mul 56).sub ((hp s 15 h0).const_mul 182)).const_mul (1 / 6)).congr_deriv ?_
    push_cast; ring
  · refine continuousOn_const.mul ((continuousOn_const.mul (continuousOn_const.div (by fun_prop) fun s hs => pow_ne_zero _ (hpos s hs))).sub
      (continuousOn_const.mul (continuousOn_const.div (by fun_prop) fun s hs => pow_ne_zero _ (hpos s hs))))

theorem ljStretch_ge {κ η s : ℝ} (hκ : 0 < κ) (hs1 : 1 < s) (hs : s < ljMax) (hb : κ / 6 * ljF s = η) :
    1 + η / κ ≤ ljStretch κ η := by
  have hfs : ljF s = 6 * η / κ := by rw [← hb]; field_simp
  have h0 : ∀ x ∈ Icc 1 s, 0 < x := fun x hx => by linarith [hx.1]
  have hd : ∀ x ∈ Icc 1 s, HasDerivAt ljF (ljF' x) x := fun x hx => hasDerivAt_ljF (h0 x hx).ne'
  have hp : ∀ x ∈ Icc 1 s, 0 < ljF' x := fun x hx => ljF'_pos (h0 x hx) (hx.2.trans_lt hs)
  obtain ⟨hmono, -, -, -, -⟩ := C05_newton_concave hs1.le hfs hd hp (ljF_concave hs.le) (1 / 1000000) 100
  obtain ⟨k, hk1, -, hk2, -⟩ := inverse_newton_raphson_run (6 * η / κ) ljF ljF' 1
  have hes : ljStretch κ η = newtonIterate (6 * η / κ) ljF ljF' 1 1 k := hk2
  rw [hes]
  refine le_trans (le_of_eq ?_) (hmono hk1)
  rw [newtonIterate_succ]
  simp only [newtonStep, newtonIterate, Function.iterate_zero, id, ljF_one, div_one]
  have e : ljF' 1 = 6 := by norm_num [ljF']
  rw [e]
  ring

theorem stretch_lennard_jones {η : ℝ} (hη : 0 < η) : Tendsto (fun κ : ℝ => κ * (ljStretch κ η - 1)) atTop (𝓝 η) := by
  have hL := one_lt_ljMax
  have hF : 0 < ljF ljMax := by
    have := ljF_strictMonoOn (left_mem_Icc.2 hL.le) (right_mem_Icc.2 hL.le) hL
    rwa [ljF_one] at this
  have hup : Tendsto (fun κ : ℝ => η * (1 + ljMax ^ 13 * η / κ) ^ 13) atTop (𝓝 η) := by
    have h1 : Tendsto (fun κ : ℝ => ljMax ^ 13 * η / κ) atTop (𝓝 0) := tendsto_const_nhds.div_atTop tendsto_id
    simpa using ((h1.const_add 1).pow 13).const_mul η
  refine tendsto_of_tendsto_of_tendsto_of_le_of_le' tendsto_const_nhds hup ?_ ?_
  all_goals
    filter_upwards [eventually_gt_atTop (6 * η / ljF ljMax)] with κ hκ'
    have hκ : 0 < κ := lt_trans (by positivity) hκ'
    obtain ⟨s, hs, hfs⟩ := exists_lj_root (y := 6 * η / κ) (by positivity) (by
      rw [div_lt_iff₀ hF] at hκ'
      rw [div_lt_iff₀ hκ]; linarith)
    have hb : κ / 6 * ljF s = η := by rw [hfs]; field_simp
  · have h1 := ljStretch_ge hκ hs.1 hs.2 hb
    have : κ * (η / κ) ≤ κ * (ljStretch κ η - 1) := mul_le_mul_of_nonneg_left (by linarith) hκ.le
    rwa [mul_div_cancel₀ _ hκ.ne'] at this
  · obtain ⟨-, h2, -, -⟩ := ljStretch_bounds hκ hη hs.1 hs.2 hb
    have hs0 : 0 < s := by linarith [hs.1]
    have h3 : κ * (s - 1) ≤ η * s ^ 13 := by
      rw [← hb]
      have e : κ / 6 * ljF s * s ^ 13 = κ / 6 * (s ^ 6 - 1) := by
        unfold ljF; field_simp
      rw [e]
      have := one_add_mul_le_pow (show (-2 : ℝ) ≤ s - 1 by linarith) 6
      rw [show 1 + (s - 1) = s by ring] at this
      push_cast at this
      nlinarith
    have h4 : s ≤ 1 + ljMax ^ 13 * η / κ := by
      have h5 : s ^ 13 ≤ ljMax ^ 13 := pow_le_pow_left₀ hs0.le hs.2.le 13
      have h6 : s - 1 ≤ ljMax ^ 13 * η / κ := by
        rw [le_div_iff₀ hκ]
        nlinarith
      linarith
    calc κ * (ljStretch κ η - 1) ≤ κ * (s - 1) := mul_le_mul_of_nonneg_left (by linarith) hκ.le
      _ ≤ η * s ^ 13 := h3
      _ ≤ _ := mul_le_mul_of_nonneg_left (pow_le_pow_left₀ hs0.le h4 13) hη.le

theorem lennard_jones_weight (κ : ℝ) :
    (fun s => exp (-lennardJonesEnergy κ s)) = fun s => exp (-(κ * (1 / 72 * (1 / s ^ 12 - 2 / s ^ 6)))) := by
  funext s; unfold lennardJonesEnergy; congr 1; ring

theorem lj_powi (x : ℝ) : x ^ (-12 : ℤ) - 2 * x ^ (-6 : ℤ) = 1 / x ^ 12 - 2 / x ^ 6 := by
  rw [zpow_neg, zpow_neg]
  norm_cast
  ring

/-- C70: Lennard-Jones links, asymptotic approach. -/
theorem C70_lennard_jones_asymptotic (N : ℕ) (ℓ m : ℝ) {T η η' : ℝ} (hb : 1 < b) (hℓ : 0 < ℓ) (hT : 0 < T) (hη : 0 < η)
    (hη' : 0 < η') :
    Tendsto (fun k => ndStiffness k ℓ T * gibbsError
      (fun η => (lennard_jones_isotensional_asymptotic_gibbs N ℓ m k).nd_energy_per_link η T)
      (breakAt b fun s => exp (-lennardJonesEnergy (ndStiffness k ℓ T) s)) η η') atTop (𝓝 0) := by
  have h := stiff_error (stiff_lennard_jones hb) (ndStiffness_tendsto hℓ hT)
    (fun k => stiffConst ℓ m T (ndStiffness k ℓ T) - ndStiffness k ℓ T / 72)
    (.of_forall fun k => lennard_jones_weight (ndStiffness k ℓ T)) (lam := ljStretch) (e := 23 / 2)
    (G := fun k η => (lennard_jones_isotensional_asymptotic_gibbs N ℓ m k).nd_energy_per_link η T)
    (fun η hη => stretch_lennard_jones hη) (fun η _ => tendsto_log_corr _) (fun η _ => ?_) hη hη'
  · norm_num at h; exact h
  · filter_upwards [ndStiffness_eventually_pos hℓ hT] with k hk
    simp only [api_core, ufjc.lennard_jones.thermodynamics.isotensional.asymptotic.nondimensional_gibbs_free_energy_per_link, model_real,
      stiffConst, lj_stretch_eq, lj_powi]
    rw [show 23 / 2 * (η / tanh η) / ndStiffness k ℓ T = 23 / 2 * η / tanh η / ndStiffness k ℓ T by ring]
    ring

/-- C70: the reduced approach misses `23/2 η coth η / κ`. -/
theorem C70_lennard_jones_reduced (N : ℕ) (ℓ m : ℝ) {T η η' : ℝ} (hb : 1 < b) (hℓ : 0 < ℓ) (hT : 0 < T) (hη : 0 < η)
    (hη' : 0 < η') :
    Tendsto (fun k => ndStiffness k ℓ T * gibbsError
      (fun η => (lennard_jones_isotensional_asymptotic_reduced_gibbs N ℓ m k).nd_energy_per_link η T)
      (breakAt b fun s => exp (-lennardJonesEnergy (ndStiffness k ℓ T) s)) η η') atTop
      (𝓝 (23 / 2 * (η / tanh η - η' / tanh η'))) := by
  have h := stiff_error (stiff_lennard_jones hb) (ndStiffness_tendsto hℓ hT)
    (fun k => stiffConst ℓ m T (ndStiffness k ℓ T) - ndStiffness k ℓ T / 72)
    (.of_forall fun k => lennard_jones_weight (ndStiffness k ℓ T)) (lam := ljStretch) (e := 0) (L := fun _ _ => 0)
    (G := fun k η => (lennard_jones_isotensional_asymptotic_reduced_gibbs N ℓ m k).nd_energy_per_link η T)
    (fun η hη => stretch_lennard_jones hη) (fun η _ => by simp) (fun η _ => ?_) hη hη'
  · norm_num at h; norm_num; exact h
  · filter_upwards [ndStiffness_eventually_pos hℓ hT] with k hk
    simp only [api_core, ufjc.lennard_jones.thermodynamics.isotensional.asymptotic.reduced.nondimensional_gibbs_free_energy_per_link,
      model_real, stiffConst, lj_stretch_eq, lj_powi]
    ring

/-! ## Morse links -/

theorem stiff_morse {a : ℝ} (ha : 0 < a) (hb : 1 < b) : StiffLink (fun s => (1 - exp (-a * (s - 1))) ^ 2 / (2 * a ^ 2)) (-(3 * a)) b := by
  have hE : ∀ s, HasDerivAt (fun s => exp (-a * (s - 1))) (-a * exp (-a * (s - 1))) s := fun s => by
    refine (((hasDerivAt_id s).sub_const 1).const_mul (-a)).exp.congr_deriv ?_
    simp only [id]; ring
  refine StiffLink.of_derivs (c := exp (-(a * (b - 1))) ^ 2 / 2) (v1 := fun s => (exp (-a * (s - 1)) - exp (-a * (s - 1)) ^ 2) / a)
    (v2 := fun s => 2 * exp (-a * (s - 1)) ^ 2 - exp (-a * (s - 1))) (v3 := fun s => a * (exp (-a * (s - 1)) - 4 * exp (-a * (s - 1)) ^ 2))
    (v4 := fun s => a ^ 2 * (8 * exp (-a * (s - 1)) ^ 2 - exp (-a * (s - 1)))) hb (by fun_prop) (by positivity) (fun s hs => ?_)
    (fun s hs => ?_) (fun s hs => ?_) (fun s hs => ?_) (fun s hs => ?_) (by fun_prop) (by norm_num) (by norm_num) (by norm_num; ring)
  · have key : (a * (s - 1) * exp (-(a * (b - 1)))) ^ 2 ≤ (1 - exp (-a * (s - 1))) ^ 2 := by
      have hx : a * (s - 1) ≤ a * (b - 1) := mul_le_mul_of_nonneg_left (by linarith [hs.2]) ha.le
      rw [show -a * (s - 1) = -(a * (s - 1)) by ring]
      generalize a * (s - 1) = x at *
      have hy : exp (-(a * (b - 1))) ≤ exp (-x) := exp_le_exp.2 (by linarith)
      have hy1 : exp (-(a * (b - 1))) ≤ 1 := exp_le_one_iff.2 (by nlinarith)
      have hy0 := exp_pos (-(a * (b - 1)))
      generalize exp (-(a * (b - 1))) = y at *
      rw [sq_le_sq]
      rcases le_total 0 x with h | h
      · have h1 : x * exp (-x) ≤ 1 - exp (-x) := by
          have := add_one_le_exp x
          have h2 : exp (-x) * exp x = 1 := by rw [← exp_add]; simp
          nlinarith [exp_pos (-x)]
        rw [abs_of_nonneg (by positivity), abs_of_nonneg (by linarith [mul_nonneg h (exp_pos (-x)).le])]
        exact (mul_le_mul_of_nonneg_left hy h).trans h1
      · have h1 := add_one_le_exp (-x)
        rw [abs_of_nonpos (mul_nonpos_of_nonpos_of_nonneg h hy0.le), abs_of_nonpos (by linarith)]
        nlinarith
    simp only [sub_self, mul_zero, exp_zero, ne_eq, OfNat.ofNat_ne_zero, not_false_eq_true, zero_pow, zero_div, sub_zero]
    rw [le_div_iff₀ (by positivity)]
    refine le_trans (le_of_eq ?_) key
    ring
  · refine (((hE s).const_sub 1).pow 2 |>.div_const (2 * a ^ 2)).congr_deriv ?_
    norm_num
    field_simp
  · refine (((hE s).sub ((hE s).pow 2)).div_const a).congr_deriv ?_
    norm_num
    field_simp
    ring
  · refine ((((hE s).pow 2).const_mul 2).sub (hE s)).congr_deriv ?_
    norm_num
    ring
  · refine (((hE s).sub (((hE s).pow 2).const_mul 4)).const_mul a).congr_deriv ?_
    norm_num
    ring

/-- The stretch of a Morse link of parameter `a` under the force. -/
noncomputable def morseStretch (a κ η : ℝ) : ℝ := 1 + log (2 / (1 + √(1 - 4 * a * η / κ))) / a

theorem stretch_morse {a : ℝ} (ha : 0 < a) (η : ℝ) : Tendsto (fun κ : ℝ => κ * (morseStretch a κ η - 1)) atTop (𝓝 η) := by
  have hd : HasDerivAt (fun x : ℝ => log (2 / (1 + √(1 - 4 * a * x))) / a) 1 0 := by
    have h1 : HasDerivAt (fun x : ℝ => 1 - 4 * a * x) (-(4 * a)) 0 := by
      refine (((hasDerivAt_id (0 : ℝ)).const_mul (4 * a)).const_sub 1).congr_deriv ?_
      ring
    have h2 := (h1.sqrt (by norm_num)).const_add 1
    have h3 := ((hasDerivAt_const (0 : ℝ) (2 : ℝ)).div h2 (by norm_num)).log (by norm_num)
    refine (h3.div_const a).congr_deriv ?_
    norm_num
    field_simp
  have hx : Tendsto (fun κ : ℝ => κ * (η / κ - 0)) atTop (𝓝 η) := by simpa using tendsto_div_corr η
  have := tendsto_mul_comp_sub hd hx
  simp only [mul_zero, sub_zero, sqrt_one, one_mul] at this
  rw [show (1 : ℝ) + 1 = 2 by norm_num, div_self two_ne_zero, log_one, zero_div] at this
  refine this.congr fun κ => ?_
  unfold morseStretch
  rw [show 4 * a * (η / κ) = 4 * a * η / κ by ring]
  ring

/-- The link energy that gives the Morse potential the parameter `a` at every stiffness. -/
theorem ndEnergy_morse (k ℓ T a : ℝ) : ndEnergy (k * ℓ ^ 2 / (2 * a ^ 2)) T = ndStiffness k ℓ T / (2 * a ^ 2) := by
  unfold ndEnergy ndStiffness; ring

theorem morseA_stiff {a κ : ℝ} (ha : 0 < a) (hκ : 0 < κ) : √(κ / (κ / (2 * a ^ 2)) / 2) = a := by
  rw [show κ / (κ / (2 * a ^ 2)) / 2 = a ^ 2 by field_simp]
  exact sqrt_sq ha.le

theorem morseMax_stiff {a κ : ℝ} (ha : 0 < a) (hκ : 0 < κ) : √(κ / (2 * a ^ 2) * κ / 8) = κ / (4 * a) := by
  rw [show κ / (2 * a ^ 2) * κ / 8 = (κ / (4 * a)) ^ 2 by field_simp; ring]
  exact sqrt_sq (by positivity)

theorem morse_weight {a κ : ℝ} (ha : 0 < a) (hκ : 0 < κ) : (fun s => exp (-morseEnergy κ (κ / (2 * a ^ 2)) s)) =
    fun s => exp (-(κ * ((1 - exp (-a * (s - 1))) ^ 2 / (2 * a ^ 2)))) := by
  funext s
  unfold morseEnergy
  rw [show κ / (2 * (κ / (2 * a ^ 2))) = a ^ 2 by field_simp, sqrt_sq ha.le]
  congr 1
  ring

theorem morse_stretched {a κ η : ℝ} (ha : 0 < a) (hκ : 0 < κ) :
    κ * ((1 - exp (-a * (morseStretch a κ η - 1))) ^ 2 / (2 * a ^ 2)) =
      κ / (2 * a ^ 2) * (1 - 1 / 2 * (1 + √(1 - η / (κ / (4 * a))))) ^ 2 := by
  unfold morseStretch
  have h0 : 0 < 2 / (1 + √(1 - 4 * a * η / κ)) := by positivity
  rw [show -a * (1 + log (2 / (1 + √(1 - 4 * a * η / κ))) / a - 1) = -log (2 / (1 + √(1 - 4 * a * η / κ))) by field_simp; ring,
    exp_neg, exp_log h0, show η / (κ / (4 * a)) = 4 * a * η / κ by field_simp]
  have : 1 + √(1 - 4 * a * η / κ) ≠ 0 := by positivity
  field_simp

/-- C70: Morse links of parameter `a`, asymptotic approach.  The link energy grows with the stiffness so that the shape of the potential
stays the same. -/
theorem C70_morse_asymptotic (N : ℕ) (ℓ m : ℝ) {a T η η' : ℝ} (ha : 0 < a) (hb : 1 < b) (hℓ : 0 < ℓ) (hT : 0 < T) (hη : 0 < η)
    (hη' : 0 < η') :
    Tendsto (fun k => ndStiffness k ℓ T * gibbsError
      (fun η => (morse_isotensional_asymptotic_gibbs N ℓ m k (k * ℓ ^ 2 / (2 * a ^ 2))).nd_energy_per_link η T)
      (breakAt b fun s => exp (-morseEnergy (ndStiffness k ℓ T) (ndEnergy (k * ℓ ^ 2 / (2 * a ^ 2)) T) s)) η η') atTop
      (𝓝 0) := by
  simp only [ndEnergy_morse]
  have h := stiff_error (stiff_morse ha hb) (ndStiffness_tendsto hℓ hT) (fun k => stiffConst ℓ m T (ndStiffness k ℓ T))
    (u := fun k s => exp (-morseEnergy (ndStiffness k ℓ T) (ndStiffness k ℓ T / (2 * a ^ 2)) s))
    ((ndStiffness_eventually_pos hℓ hT).mono fun k hk => morse_weight ha hk) (lam := morseStretch a) (e := 1 + 3 / 2 * a)
    (G := fun k η => (morse_isotensional_asymptotic_gibbs N ℓ m k (k * ℓ ^ 2 / (2 * a ^ 2))).nd_energy_per_link η T)
    (fun η _ => stretch_morse ha η) (fun η _ => tendsto_log_corr _) (fun η _ => ?_) hη hη'
  · rw [show 1 - -(3 * a) / 2 - (1 + 3 / 2 * a) = 0 by ring, zero_mul] at h
    exact h
  · filter_upwards [ndStiffness_eventually_pos hℓ hT] with k hk
    simp only [api_core, ufjc.morse.thermodynamics.isotensional.asymptotic.nondimensional_gibbs_free_energy_per_link, model_real,
      stiffConst, ndEnergy_morse]
    generalize log (8 * π ^ 2 * m * ℓ ^ 2 * BOLTZMANN_CONSTANT * T / PLANCK_CONSTANT ^ 2) = C
    rw [mul_sub, morse_stretched ha hk]
    generalize ndStiffness k ℓ T = κ at *
    rw [morseA_stiff ha hk, morseMax_stiff ha hk]
    have e2 : η * (morseStretch a κ η - 1) = η / a * log (2 / (1 + √(1 - η / (κ / (4 * a))))) := by
      unfold morseStretch
      rw [show η / (κ / (4 * a)) = 4 * a * η / κ by field_simp]
      ring
    rw [e2, show (1 + 3 / 2 * a) * (η / tanh η) / κ = (1 + 3 / 2 * a) * η / tanh η / κ by ring]
    norm_num
    ring

/-- C70: the reduced approach misses `(1 + 3/2 a) η coth η / κ`. -/
theorem C70_morse_reduced (N : ℕ) (ℓ m : ℝ) {a T η η' : ℝ} (ha : 0 < a) (hb : 1 < b) (hℓ : 0 < ℓ) (hT : 0 < T) (hη : 0 < η)
    (hη' : 0 < η') :
    Tendsto (fun k => ndStiffness k ℓ T * gibbsError
      (fun η => (morse_isotensional_asymptotic_reduced_gibbs N ℓ m k (k * ℓ ^ 2 / (2 * a ^ 2))).nd_energy_per_link η T)
      (breakAt b fun s => exp (-morseEnergy (ndStiffness k ℓ T) (ndEnergy (k * ℓ ^ 2 / (2 * a ^ 2)) T) s)) η η') atTop
      (𝓝 ((1 + 3 / 2 * a) * (η / tanh η - η' / tanh η'))) := by
  simp only [ndEnergy_morse]
  have h := stiff_error (stiff_morse ha hb) (ndStiffness_tendsto hℓ hT) (fun k => stiffConst ℓ m T (ndStiffness k ℓ T))
    (u := fun k s => exp (-morseEnergy (ndStiffness k ℓ T) (ndStiffness k ℓ T / (2 * a ^ 2)) s))
    ((ndStiffness_eventually_pos hℓ hT).mono fun k hk => morse_weight ha hk) (lam := morseStretch a) (e := 0) (L := fun _ _ => 0)
    (G := fun k η => (morse_isotensional_asymptotic_reduced_gibbs N ℓ m k (k * ℓ ^ 2 / (2 * a ^ 2))).nd_energy_per_link η T)
    (fun η _ => stretch_morse ha η) (fun η _ => by simp) (fun η _ => ?_) hη hη'
  · rw [show 1 - -(3 * a) / 2 - 0 = 1 + 3 / 2 * a by ring] at h
    exact h
  · filter_upwards [ndStiffness_eventually_pos hℓ hT] with k hk
    simp only [api_core, ufjc.morse.thermodynamics.isotensional.asymptotic.reduced.nondimensional_gibbs_free_energy_per_link, model_real,
      stiffConst, ndEnergy_morse]
    generalize log (8 * π ^ 2 * m * ℓ ^ 2 * BOLTZMANN_CONSTANT * T / PLANCK_CONSTANT ^ 2) = C
    rw [mul_sub, morse_stretched ha hk]
    generalize ndStiffness k ℓ T = κ at *
    rw [show 2 * (κ / (2 * a ^ 2)) / κ = (1 / a) ^ 2 by field_simp, sqrt_sq (by positivity), morseMax_stiff ha hk]
    have e2 : η * (morseStretch a κ η - 1) = η / a * log (2 / (1 + √(1 - η / (κ / (4 * a))))) := by
      unfold morseStretch
      rw [show η / (κ / (4 * a)) = 4 * a * η / κ by field_simp]
      ring
    rw [e2]
    norm_num
    ring

example : Tendsto (fun k => ndStiffness k 1 300 * gibbsError
    (fun η => (morse_isotensional_asymptotic_gibbs 8 1 1 k (k * 1 ^ 2 / (2 * 2 ^ 2))).nd_energy_per_link η 300)
    (breakAt 3 fun s => exp (-morseEnergy (ndStiffness k 1 300) (ndEnergy (k * 1 ^ 2 / (2 * 2 ^ 2)) 300) s)) 1 2) atTop (𝓝 0) :=
  C70_morse_asymptotic 8 1 1 (by norm_num) (by norm_num) (by norm_num) (by norm_num) (by norm_num) (by norm_num)

/-- C70: so the reduced approaches are wrong in the first order for every pair of different forces. -/
theorem C70_reduced_error_ne_zero {η η' : ℝ} (hη : 0 < η) (h : η < η') : η / tanh η - η' / tanh η' < 0 := by
  have hm : StrictMonoOn (fun x : ℝ => x / tanh x) (Ioi 0) := by
    refine strictMonoOn_of_deriv_pos (convex_Ioi 0) (fun x hx => (hasDerivAt_div_tanh (ne_of_gt hx)).continuousAt.continuousWithinAt)
      fun x hx => ?_
    rw [interior_Ioi] at hx
    have hx : 0 < x := hx
    rw [(hasDerivAt_div_tanh hx.ne').deriv]
    have hs : 0 < sinh x := sinh_pos_iff.2 hx
    have h1 : x < sinh x := self_lt_sinh_iff.2 hx
    have h2 : 1 ≤ cosh x := one_le_cosh x
    have h3 : 0 < cosh x * sinh x - x := by nlinarith
    rw [show 1 / tanh x - x / sinh x ^ 2 = (cosh x * sinh x - x) / sinh x ^ 2 by rw [tanh_eq_sinh_div_cosh]; field_simp]
    positivity
  have := hm hη (hη.trans h) h
  simp only at this
  linarith

end Polymers.Props
