import Verif.Lemmas.LogSquaredRun
import Verif.Props.DefinedLogSquaredIsometric
import Verif.Props.MorseLegendre

/-!
C26 for log-squared links, reduced and full asymptotic approaches: the solver for the force takes a quarter of a Newton step
at a time and converges for extensions up to the one at 95% of the largest force.
-/

namespace Polymers.Props

open Polymers.Spec Polymers.Api Polymers.Lemmas Set Filter Topology

/-- The whole run. -/
theorem ls_run {C C' : ℝ → ℝ} {κ γ x : ℝ} (hC : MildCorr C C' (κ / Real.exp 1)) (hC6 : C x ≤ x / 6) (hκ : 20 ≤ κ)
    (hx : 0 < x) (hxM : x ≤ 19 / 20 * (κ / Real.exp 1)) (hL : langevin x ≤ γ) (hlt : γ < langevin x + C x + lsPsi κ x)
    {f fp : ℝ → ℝ} {r : ℝ} (hr : r = math.inverse_newton_raphson_powered γ f fp x (1 / 1000000) 100 4)
    (hf : ∀ z, 0 < z → z < κ / Real.exp 1 → f z = langevin z + C z + lsPsi κ z)
    (hfp : ∀ z, 0 < z → z < κ / Real.exp 1 → fp z = 1 / z ^ 2 - 1 / Real.sinh z ^ 2 + C' z + lsPsi' κ z) :
    0 < r ∧ r < κ / Real.exp 1 ∧ γ < langevin r + C r + lsPsi κ r ∧ langevin r + C r + lsPsi κ r - γ ≤ 1e-6 * γ := by
  have hκ0 : 0 < κ := by linarith
  have hM := ls_max_pos hκ0
  have hψ := goodStretch_ls hκ0
  have hγ : 0 < γ := (langevin_pos hx).trans_le hL
  have inv : ∀ n, 0 < newtonIterate γ f fp 4 x n ∧ newtonIterate γ f fp 4 x n ≤ 19 / 20 * (κ / Real.exp 1) ∧
      langevin (newtonIterate γ f fp 4 x n) ≤ γ ∧ γ < f (newtonIterate γ f fp 4 x n) := by
    intro n
    induction n with
    | zero => exact ⟨hx, hxM, hL, by change γ < f x; rw [hf x hx (by linarith)]; exact hlt⟩
    | succ n ih =>
      obtain ⟨i1, i2, i3, i4⟩ := ih
      have hzM' : newtonIterate γ f fp 4 x n < κ / Real.exp 1 := by linarith
      rw [newtonIterate_succ]
      generalize newtonIterate γ f fp 4 x n = z at *
      rw [hf z i1 hzM'] at i4
      obtain ⟨s1, s2, s3, s4, -⟩ := stretch_quarter_step hC hψ i1 hzM' i3 i4 (z := newtonStep γ f fp 4 z)
        (by rw [newtonStep, hf z i1 hzM', hfp z i1 hzM'])
      exact ⟨by linarith, by linarith, s3, by rw [hf _ (by linarith) (by linarith)]; exact s4⟩
  have step : ∀ E α q : ℝ, 0 ≤ E → 0 ≤ α → min (357 / 500) (73 / 50 * E) / 4 ≤ 143 / 500 * α + α ^ 2 / 2 → 0 ≤ q → q ≤ 1 →
      q * (143 / 500 + (α + 3e-6)) ≤
        143 / 500 * (1 - 2 * (α + 3e-6) + (2 * (α + 3e-6)) ^ 2 / 2 - (2 * (α + 3e-6)) ^ 3 / 6) →
      ∀ n, f (newtonIterate γ f fp 4 x n) - γ ≤ E * γ →
        f (newtonIterate γ f fp 4 x (n + 1)) - γ ≤ (1 - q / 4) * (f (newtonIterate γ f fp 4 x n) - γ) := by
    intro E α q hE0 hα hm hq0 hq1 hq n hE
    obtain ⟨i1, i2, i3, i4⟩ := inv n
    have hzM' : newtonIterate γ f fp 4 x n < κ / Real.exp 1 := by linarith
    rw [newtonIterate_succ]
    generalize newtonIterate γ f fp 4 x n = z at *
    rw [hf z i1 hzM'] at i4 hE
    obtain ⟨s1, s2, s3, s4, s5⟩ := stretch_quarter_step hC hψ i1 hzM' i3 i4 (z := newtonStep γ f fp 4 z)
      (by rw [newtonStep, hf z i1 hzM', hfp z i1 hzM'])
    rw [hf z i1 hzM', hf _ (by linarith) (by linarith)]
    exact ls_step_gain hC hκ0 i1 i2 s1 s2 i4 s5 hE hE0 hα hm hq0 hq1 hq
  -- no step makes the residual larger
  have mono : ∀ n, f (newtonIterate γ f fp 4 x (n + 1)) - γ ≤ f (newtonIterate γ f fp 4 x n) - γ := fun n => by
    have := step ((f (newtonIterate γ f fp 4 x n) - γ) / γ) (19 / 50) 0
      (div_nonneg (by linarith [(inv n).2.2.2]) hγ.le) (by norm_num)
      ((div_le_div_of_nonneg_right (min_le_left _ _) (by norm_num)).trans (by norm_num)) le_rfl (by norm_num)
      (by norm_num) n
      (by rw [div_mul_cancel₀ _ hγ.ne'])
    linarith
  obtain ⟨k, hk1, hk2, e, hres⟩ := inverse_newton_raphson_powered_run_four γ f fp x fun j _ => (inv j).2.2.2.ne'
  obtain ⟨i1, i2, i3, i4⟩ := inv k
  rw [hr, e, ← hf _ i1 (by linarith)]
  refine ⟨i1, by linarith, i4, ?_⟩
  have e6 : (1e-6 : ℝ) = 1 / 1000000 := by norm_num
  rw [e6]
  rcases hk2.lt_or_eq with h | h
  · have hr := hres h
    obtain ⟨-, -, -, j4⟩ := inv (k - 1)
    have j6 := mono (k - 1)
    rw [Nat.sub_add_cancel hk1] at j6
    rw [relResidual, abs_div, abs_of_pos hγ, div_le_iff₀ hγ, abs_of_pos (by linarith)] at hr
    linarith
  · have h93 := ls_phases (e := fun n => f (newtonIterate γ f fp 4 x n) - γ) hγ.le
      (by
        show f x - γ ≤ _
        rw [hf x hx (by linarith)]
        exact ls_start hC hC6 hκ hx hxM hL) step
    have hanti : Antitone fun n => f (newtonIterate γ f fp 4 x n) - γ := antitone_nat_of_succ_le mono
    rw [h]
    exact (hanti (by norm_num : 93 ≤ 100)).trans h93

theorem ls_corr_le {κ : ℝ} (hκ : 20 ≤ κ) (x : ℝ) (hx : 0 < x) : asyC (2 / 5 * κ) x ≤ x / 6 := by
  have h1 := altH_le hx
  have h2 := one_le_div_tanh hx.ne'
  rw [asyC, div_le_iff₀ (by linarith)]
  nlinarith

/-- Where the solver starts. -/
theorem ls_range_guess {C C' : ℝ → ℝ} {κ γ : ℝ} (hC : MildCorr C C' (κ / Real.exp 1)) (hκ : 0 < κ) (h6 : κ ≤ 1000000)
    (h : MorseRange (κ / Real.exp 1) (langevin (19 / 20 * (κ / Real.exp 1)) + C (19 / 20 * (κ / Real.exp 1)) +
      lsPsi κ (19 / 20 * (κ / Real.exp 1))) γ) {x : ℝ}
    (hx : x = if κ / Real.exp 1 < (if γ < 1 then math.inverse_langevin γ else 19 / 20 * (κ / Real.exp 1)) then
      19 / 20 * (κ / Real.exp 1) else if γ < 1 then math.inverse_langevin γ else 19 / 20 * (κ / Real.exp 1)) :
    0 < x ∧ x ≤ 19 / 20 * (κ / Real.exp 1) ∧ langevin x ≤ γ ∧ γ < langevin x + C x + lsPsi κ x := by
  have hM := ls_max_pos hκ
  have hle : langevin (19 / 20 * (κ / Real.exp 1)) < langevin (κ / Real.exp 1) :=
    langevin_strictMonoOn (mem_Ioi.2 (by positivity)) (mem_Ioi.2 hM) (by linarith)
  obtain ⟨⟨g1, g2, g3, g4⟩, g5⟩ := stretch_guess hC hM hκ h6 (fun x hx hx' => (ls_slope_le hκ hx hx').2.2.2.2)
    ⟨h.1, h.2.imp (fun h => by linarith) id⟩ hx
  refine ⟨g1, g5 (h.2.imp id fun h => ?_), g3, g4⟩
  have := langevin_lt_one hM
  have := langevin_pos hM
  have e : (1.000002 : ℝ) = 1000002 / 1000000 := by norm_num
  rw [e] at h
  rcases h.1 with h | h <;> linarith

theorem ls_reduced_solver {κ γ : ℝ} (h2 : 20 ≤ κ) (h3 : κ ≤ 1000000)
    (h : MorseRange (κ / Real.exp 1) (langevin (19 / 20 * (κ / Real.exp 1)) + 0 + lsPsi κ (19 / 20 * (κ / Real.exp 1))) γ) {x : ℝ}
    (hx : x = ufjc.log_squared.thermodynamics.isometric.asymptotic.reduced.legendre.nondimensional_force κ γ) :
    0 < x ∧ x < κ / Real.exp 1 ∧ γ < langevin x + 0 + lsPsi κ x ∧ langevin x + 0 + lsPsi κ x - γ ≤ 1e-6 * γ := by
  have hκ : 0 < κ := by linarith
  simp only [ufjc.log_squared.thermodynamics.isometric.asymptotic.reduced.legendre.nondimensional_force, model_real] at hx
  generalize hg : (if κ / Real.exp 1 < (if γ < 1 then math.inverse_langevin γ else 19 / 20 * (κ / Real.exp 1)) then
    19 / 20 * (κ / Real.exp 1) else if γ < 1 then math.inverse_langevin γ else 19 / 20 * (κ / Real.exp 1)) = x0 at hx
  obtain ⟨g1, g2, g3, g4⟩ := ls_range_guess (ls_zero_corr _) hκ h3 h hg.symm
  refine ls_run (ls_zero_corr _) (by positivity) h2 g1 g2 g3 g4 hx (fun z _ _ => ?_) (fun z _ hz => ?_)
  · simp only [langevin, lsPsi, logSquaredStretch, add_zero]; ring
  · simp only [lsPsi', add_zero]

theorem ls_asymptotic_solver {κ γ : ℝ} (h2 : 20 ≤ κ) (h3 : κ ≤ 1000000)
    (h : MorseRange (κ / Real.exp 1) (langevin (19 / 20 * (κ / Real.exp 1)) + asyC (2 / 5 * κ) (19 / 20 * (κ / Real.exp 1)) +
      lsPsi κ (19 / 20 * (κ / Real.exp 1))) γ) {x : ℝ}
    (hx : x = ufjc.log_squared.thermodynamics.isometric.asymptotic.legendre.nondimensional_force κ γ) :
    0 < x ∧ x < κ / Real.exp 1 ∧ γ < langevin x + asyC (2 / 5 * κ) x + lsPsi κ x ∧
      langevin x + asyC (2 / 5 * κ) x + lsPsi κ x - γ ≤ 1e-6 * γ := by
  have hκ : 0 < κ := by linarith
  have hc : (0 : ℝ) < 2 / 5 := by norm_num
  simp only [ufjc.log_squared.thermodynamics.isometric.asymptotic.legendre.nondimensional_force, model_real] at hx
  generalize hg : (if κ / Real.exp 1 < (if γ < 1 then math.inverse_langevin γ else 19 / 20 * (κ / Real.exp 1)) then
    19 / 20 * (κ / Real.exp 1) else if γ < 1 then math.inverse_langevin γ else 19 / 20 * (κ / Real.exp 1)) = x0 at hx
  obtain ⟨g1, g2, g3, g4⟩ := ls_range_guess (ls_corr hκ) hκ h3 h hg.symm
  refine ls_run (ls_corr hκ) (ls_corr_le h2 _ g1) h2 g1 g2 g3 g4 hx (fun z hz _ => ?_) (fun z hz' hz => ?_)
  · simp only [langevin, lsPsi, logSquaredStretch, corr_code hc hκ hz]; ring
  · simp only [lsPsi', corr_slope_code hc hκ hz']

/-- The hypotheses of the theorems below hold for a chain at 300 K and half extension. -/
example (top : ℝ) : 20 ≤ ndStiffness 100000 1 300 ∧ ndStiffness 100000 1 300 ≤ 1000000 ∧
    MorseRange (ndStiffness 100000 1 300 / Real.exp 1) top (1 / 2) := by
  refine ⟨by norm_num [ndStiffness, kT, boltzmann_eq], by norm_num [ndStiffness, kT, boltzmann_eq], by norm_num, .inl ?_⟩
  have hM : 2 ≤ 19 / 20 * (ndStiffness 100000 1 300 / Real.exp 1) := by
    have h := Real.exp_one_lt_d9
    rw [mul_div_assoc', le_div_iff₀ (Real.exp_pos 1)]
    have : (20 : ℝ) ≤ ndStiffness 100000 1 300 := by norm_num [ndStiffness, kT, boltzmann_eq]
    norm_num at h
    linarith
  have h1 := langevin_ge_one_sub (x := 2) (by norm_num)
  have h2 := langevin_strictMonoOn.monotoneOn (mem_Ioi.2 two_pos) (mem_Ioi.2 (by linarith)) hM
  linarith

/-- C26: for log-squared links under the reduced asymptotic approach, of nondimensional stiffness between 20 and a million, the force
returned for an extension applied to the chain gives the extension back to one part in a million. -/
theorem C26_log_squared_reduced (N : ℕ) (ℓ m k : ℝ) (hN : 0 < N) (hℓ : 0 < ℓ) (hk : 0 < k) :
    (log_squared_isometric_asymptotic_reduced_legendre_forces N ℓ m k).RoundTrip
      (log_squared_isotensional_asymptotic_reduced_lengths N ℓ m k) N ℓ 1e-6
      (fun γ T => 20 ≤ ndStiffness k ℓ T ∧ ndStiffness k ℓ T ≤ 1000000 ∧
        MorseRange (ndStiffness k ℓ T / Real.exp 1)
          ((log_squared_isotensional_asymptotic_reduced_lengths N ℓ m k).nd_length_per_link
            (19 / 20 * (ndStiffness k ℓ T / Real.exp 1)) T) γ) := by
  refine .of_nd hN hℓ (C15_log_squared_isometric_asymptotic_reduced_legendre_forces N ℓ m k hN hℓ)
    (C15_log_squared_isotensional_asymptotic_reduced_lengths N ℓ m k hN hℓ) ?_
  rintro γ T hT ⟨h2, h3, h4⟩
  have hM := ls_max_pos (ndStiffness_pos hk hℓ hT)
  rw [log_squared_reduced_length_eq N hℓ hk hT (η := 19 / 20 * (ndStiffness k ℓ T / Real.exp 1)) (mul_pos (by norm_num) hM)] at h4
  obtain ⟨r1, r2, r3, r4⟩ := ls_reduced_solver h2 h3 h4 rfl
  have e : (log_squared_isometric_asymptotic_reduced_legendre_forces N ℓ m k).nd_force γ T =
      ufjc.log_squared.thermodynamics.isometric.asymptotic.reduced.legendre.nondimensional_force (ndStiffness k ℓ T) γ := by
    simp only [api_core]
  rw [e, log_squared_reduced_length_eq N hℓ hk hT r1, abs_of_pos h4.1, abs_of_pos (by linarith)]
  exact r4

example : (log_squared_isometric_asymptotic_reduced_legendre_forces 8 1 1 100000).RoundTrip
      (log_squared_isotensional_asymptotic_reduced_lengths 8 1 1 100000) 8 1 1e-6
      (fun γ T => 20 ≤ ndStiffness 100000 1 T ∧ ndStiffness 100000 1 T ≤ 1000000 ∧
        MorseRange (ndStiffness 100000 1 T / Real.exp 1)
          ((log_squared_isotensional_asymptotic_reduced_lengths 8 1 1 100000).nd_length_per_link
            (19 / 20 * (ndStiffness 100000 1 T / Real.exp 1)) T) γ) :=
  C26_log_squared_reduced 8 1 1 100000 (by norm_num) (by norm_num) (by norm_num)

/-- C26: for log-squared links under the asymptotic approach, of nondimensional stiffness between 20 and a million, the force
returned for an extension applied to the chain gives the extension back to one part in a million. -/
theorem C26_log_squared_asymptotic (N : ℕ) (ℓ m k : ℝ) (hN : 0 < N) (hℓ : 0 < ℓ) (hk : 0 < k) :
    (log_squared_isometric_asymptotic_legendre_forces N ℓ m k).RoundTrip
      (log_squared_isotensional_asymptotic_lengths N ℓ m k) N ℓ 1e-6
      (fun γ T => 20 ≤ ndStiffness k ℓ T ∧ ndStiffness k ℓ T ≤ 1000000 ∧
        MorseRange (ndStiffness k ℓ T / Real.exp 1)
          ((log_squared_isotensional_asymptotic_lengths N ℓ m k).nd_length_per_link
            (19 / 20 * (ndStiffness k ℓ T / Real.exp 1)) T) γ) := by
  refine .of_nd hN hℓ (C15_log_squared_isometric_asymptotic_legendre_forces N ℓ m k hN hℓ)
    (C15_log_squared_isotensional_asymptotic_lengths N ℓ m k hN hℓ) ?_
  rintro γ T hT ⟨h2, h3, h4⟩
  have hM := ls_max_pos (ndStiffness_pos hk hℓ hT)
  rw [log_squared_asymptotic_length_eq N hℓ hk hT (η := 19 / 20 * (ndStiffness k ℓ T / Real.exp 1)) (mul_pos (by norm_num) hM)] at h4
  obtain ⟨r1, r2, r3, r4⟩ := ls_asymptotic_solver h2 h3 h4 rfl
  have e : (log_squared_isometric_asymptotic_legendre_forces N ℓ m k).nd_force γ T =
      ufjc.log_squared.thermodynamics.isometric.asymptotic.legendre.nondimensional_force (ndStiffness k ℓ T) γ := by
    simp only [api_core]
  rw [e, log_squared_asymptotic_length_eq N hℓ hk hT r1, abs_of_pos h4.1, abs_of_pos (by linarith)]
  exact r4

example : (log_squared_isometric_asymptotic_legendre_forces 8 1 1 100000).RoundTrip
      (log_squared_isotensional_asymptotic_lengths 8 1 1 100000) 8 1 1e-6
      (fun γ T => 20 ≤ ndStiffness 100000 1 T ∧ ndStiffness 100000 1 T ≤ 1000000 ∧
        MorseRange (ndStiffness 100000 1 T / Real.exp 1)
          ((log_squared_isotensional_asymptotic_lengths 8 1 1 100000).nd_length_per_link
            (19 / 20 * (ndStiffness 100000 1 T / Real.exp 1)) T) γ) :=
  C26_log_squared_asymptotic 8 1 1 100000 (by norm_num) (by norm_num) (by norm_num)

end Polymers.Props
