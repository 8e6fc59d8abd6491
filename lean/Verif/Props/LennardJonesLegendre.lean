import Verif.Lemmas.LennardJonesRun
import Verif.Props.DefinedLennardJonesIsometric
import Verif.Props.MorseLegendre

/-!
C26 for Lennard-Jones links, reduced and full asymptotic approaches: the solver for the force takes a quarter of a Newton step
at a time, with a difference quotient for the slope, and converges for stiff links below somewhat more than half of the
largest force.
-/

namespace Polymers.Props

open Polymers.Spec Polymers.Api Polymers.Lemmas Set Filter Topology

/-- Points which have not met the tolerance after `j` steps are in `S j`, and the step after the tolerance has been met, or the
last one, lands in `Q`: so does the result. -/
theorem powered_stop_ind {S : ℕ → ℝ → Prop} {Q : ℝ → Prop} {f fp : ℝ → ℝ} {y tol : ℝ} {p n : ℕ}
    (hroot : ∀ j x, S j x → f x ≠ y)
    (hstep : ∀ j x, S j x → (tol < |(f x - y) / y| → S (j + 1) (newtonStep y f fp p x)) ∧
      (|(f x - y) / y| ≤ tol → Q (newtonStep y f fp p x)))
    (hend : ∀ x, S n x → Q x) {guess : ℝ} (h : S 0 guess) (ht : tol < 1) :
    Q (math.inverse_newton_raphson_powered y f fp guess tol n p) := by
  rw [math.inverse_newton_raphson_powered]
  have e : (1.0 : ℝ) = 1 := by norm_num
  rw [e]
  have key : ∀ n' j (x r : ℝ), j + n' = n → (tol < r → S j x) → (r ≤ tol → Q x) →
      Q (math.inverse_newton_raphson_powered_loop y f fp tol p n' x r) := by
    intro n'
    induction n' with
    | zero =>
      intro j x r hj h1 h2
      rw [math.inverse_newton_raphson_powered_loop]
      rcases lt_or_ge tol r with h | h
      · exact hend x (by rw [← hj]; exact h1 h)
      · exact h2 h
    | succ n' ih =>
      intro j x r hj h1 h2
      rw [math.inverse_newton_raphson_powered_loop]
      split_ifs with hr
      · replace hr : tol < r := by simpa only [elem_lt] using hr
        have hS := h1 hr
        simp only [powered_step y f fp p (hroot _ _ hS)]
        exact ih (j + 1) _ _ (by omega) (hstep _ _ hS).1 (hstep _ _ hS).2
      · refine h2 ?_
        simpa only [elem_lt, decide_eq_true_eq, not_lt] using hr
  exact key n 0 guess 1 (by omega) (fun _ => h) (fun h => by linarith)

/-- The whole run. -/
theorem lj_run {C C' : ℝ → ℝ} {κ γ x : ℝ} (hC : MildCorr C C' (κ / 46)) (hC6 : ∀ x, 0 < x → C x ≤ x / 6) (hκ : 40 ≤ κ)
    (h6 : κ ≤ 1000000) (hγ : 1 / 1000000 ≤ γ) (hx : LjOk C κ γ x)
    {f fp : ℝ → ℝ} {r : ℝ} (hr : r = math.inverse_newton_raphson_powered γ f fp x (1 / 1000000) 100 4)
    (hf : ∀ z, 0 < z → z < κ / 46 → f z = langevin z + C z + ljPsi κ z)
    (hfp : ∀ z, 0 < z → z < κ / 46 → fp z = 1 / z ^ 2 - 1 / Real.sinh z ^ 2 + C' z + ljPsi' κ z) :
    0 < r ∧ r < κ / 46 ∧ |langevin r + C r + ljPsi κ r - γ| ≤ 2e-6 * γ := by
  have hγ0 : 0 < γ := by linarith
  have e6 : (2e-6 : ℝ) = 2 / 1000000 := by norm_num
  rw [hr, e6]
  refine powered_stop_ind (S := fun j x => LjOk C κ γ x ∧ langevin x + C x + ljPsi κ x - γ ≤ (351 / 400) ^ j * (9 / 10 * γ))
    (Q := fun r => 0 < r ∧ r < κ / 46 ∧ |langevin r + C r + ljPsi κ r - γ| ≤ 2 / 1000000 * γ) ?_ ?_ ?_ ?_ (by norm_num)
  · rintro j x ⟨⟨h1, h2, h3, h4⟩, -⟩
    rw [hf x (by linarith) h2]
    exact h4.ne'
  · rintro j x ⟨hok, h5⟩
    obtain ⟨h1, h2, h3, h4⟩ := id hok
    have hx0 : 0 < x := by linarith
    obtain ⟨s1, s2, s3, s4, s5, s6⟩ := lj_quarter_step hC hC6 hκ hγ hok (z := newtonStep γ f fp 4 x)
      (by rw [newtonStep, hf x hx0 h2, hfp x hx0 h2])
    have s7 := lj_step_gain hC hκ h6 h1 h2 s1 s4 s5
    rw [abs_of_pos (div_pos (by rw [hf x hx0 h2]; linarith) hγ0), lt_div_iff₀ hγ0, div_le_iff₀ hγ0, hf x hx0 h2]
    refine ⟨fun h => ⟨s3 h, ?_⟩, fun h => ⟨s1, s2, ?_⟩⟩
    · rw [pow_succ]; linarith
    · rw [abs_le]; constructor <;> linarith
  · rintro x ⟨⟨h1, h2, h3, h4⟩, h5⟩
    refine ⟨by linarith, h2, ?_⟩
    rw [abs_of_pos (by linarith)]
    have : ((351 : ℝ) / 400) ^ 100 * (9 / 10) ≤ 2 / 1000000 := by norm_num
    calc _ ≤ _ := h5
      _ = (351 / 400) ^ 100 * (9 / 10) * γ := by ring
      _ ≤ _ := mul_le_mul_of_nonneg_right this hγ0.le
  · refine ⟨hx, ?_⟩
    rw [pow_zero, one_mul]
    have hx0 : 0 < x := by linarith [hx.1]
    exact lj_start hC (hC6 x hx0) hκ hx0 hx.2.1 hx.2.2.1

theorem lj_reduced_solver {κ γ : ℝ} (hκ : 40 ≤ κ) (h6 : κ ≤ 1000000) (h1 : 1 / 1000000 ≤ γ) (h2 : γ < langevin (κ / 46)) {x : ℝ}
    (hx : x = ufjc.lennard_jones.thermodynamics.isometric.asymptotic.reduced.legendre.nondimensional_force κ γ) :
    0 < x ∧ x < κ / 46 ∧ |langevin x + 0 + ljPsi κ x - γ| ≤ 2e-6 * γ := by
  have hκ0 : 0 < κ := by linarith
  simp only [ufjc.lennard_jones.thermodynamics.isometric.asymptotic.reduced.legendre.nondimensional_force, model_real, lj_stretch_eq,
    lj_max_code] at hx
  generalize hg : (if κ / 6 * ljF ljMax <
        (if γ < 1 then math.inverse_langevin γ else 19 / 20 * (κ / 6 * ljF ljMax)) then 19 / 20 * (κ / 6 * ljF ljMax) else
      if γ < 1 then math.inverse_langevin γ else 19 / 20 * (κ / 6 * ljF ljMax)) = x0 at hx
  have hok := lj_guess_code (C := (fun _ => 0)) (fun _ _ => le_rfl) hκ h6 h1 h2 hg.symm
  refine lj_run (ls_zero_corr _) (fun x hx => by linarith) hκ h6 h1 hok hx (fun z _ _ => ?_) (fun z _ _ => ?_)
  · simp only [langevin, ljPsi, add_zero]; ring
  · simp only [ljPsi', add_zero]; ring

theorem lj_asymptotic_solver {κ γ : ℝ} (hκ : 40 ≤ κ) (h6 : κ ≤ 1000000) (h1 : 1 / 1000000 ≤ γ) (h2 : γ < langevin (κ / 46)) {x : ℝ}
    (hx : x = ufjc.lennard_jones.thermodynamics.isometric.asymptotic.legendre.nondimensional_force κ γ) :
    0 < x ∧ x < κ / 46 ∧ |langevin x + asyC (2 / 23 * κ) x + ljPsi κ x - γ| ≤ 2e-6 * γ := by
  have hκ0 : 0 < κ := by linarith
  have hc : (0 : ℝ) < 2 / 23 := by norm_num
  simp only [ufjc.lennard_jones.thermodynamics.isometric.asymptotic.legendre.nondimensional_force, model_real, lj_stretch_eq,
    lj_max_code] at hx
  generalize hg : (if κ / 6 * ljF ljMax <
        (if γ < 1 then math.inverse_langevin γ else 19 / 20 * (κ / 6 * ljF ljMax)) then 19 / 20 * (κ / 6 * ljF ljMax) else
      if γ < 1 then math.inverse_langevin γ else 19 / 20 * (κ / 6 * ljF ljMax)) = x0 at hx
  have hok := lj_guess_code (C := (asyC (2 / 23 * κ))) (fun x hx => asyC_nonneg (by linarith) hx) hκ h6 h1 h2 hg.symm
  refine lj_run (lj_corr hκ0) (lj_corr_le hκ) hκ h6 h1 hok hx (fun z hz _ => ?_) (fun z hz _ => ?_)
  · simp only [langevin, ljPsi, corr_code hc hκ0 hz]; ring
  · simp only [ljPsi', corr_slope_code hc hκ0 hz]; ring

/-- C26: for Lennard-Jones links under the reduced asymptotic approach, of nondimensional stiffness between 40 and a million, the
force returned for an extension between a millionth and the one which a freely jointed chain has under 1/46 of the stiffness,
applied to the chain, gives the extension back to two parts in a million. -/
theorem C26_lennard_jones_reduced (N : ℕ) (ℓ m k : ℝ) (hN : 0 < N) (hℓ : 0 < ℓ) :
    (lennard_jones_isometric_asymptotic_reduced_legendre_forces N ℓ m k).RoundTrip
      (lennard_jones_isotensional_asymptotic_reduced_lengths N ℓ m k) N ℓ 2e-6
      (fun γ T => 40 ≤ ndStiffness k ℓ T ∧ ndStiffness k ℓ T ≤ 1000000 ∧ 1e-6 ≤ γ ∧ γ < langevin (ndStiffness k ℓ T / 46)) := by
  refine .of_nd hN hℓ (C15_lennard_jones_isometric_asymptotic_reduced_legendre_forces N ℓ m k hN hℓ)
    (C15_lennard_jones_isotensional_asymptotic_reduced_lengths N ℓ m k hN hℓ) ?_
  rintro γ T hT ⟨h2, h3, h4, h5⟩
  have e6 : (1e-6 : ℝ) = 1 / 1000000 := by norm_num
  rw [e6] at h4
  obtain ⟨r1, r2, r3⟩ := lj_reduced_solver h2 h3 h4 h5 rfl
  have e : (lennard_jones_isometric_asymptotic_reduced_legendre_forces N ℓ m k).nd_force γ T =
      ufjc.lennard_jones.thermodynamics.isometric.asymptotic.reduced.legendre.nondimensional_force (ndStiffness k ℓ T) γ := by
    simp only [api_core]
  rw [e, lj_reduced_length, abs_of_pos (show 0 < γ by linarith)]
  simpa only [ljPsi, add_zero, ← add_sub_assoc] using r3

/-- A chain at 300 K and half extension meets the hypotheses of C26 for Lennard-Jones links. -/
example : 40 ≤ ndStiffness 500000 1 300 ∧ ndStiffness 500000 1 300 ≤ 1000000 ∧ (1e-6 : ℝ) ≤ 1 / 2 ∧
    1 / 2 < langevin (ndStiffness 500000 1 300 / 46) := by
  refine ⟨by norm_num [ndStiffness, kT, boltzmann_eq], by norm_num [ndStiffness, kT, boltzmann_eq], by norm_num, ?_⟩
  have hM : 3 ≤ ndStiffness 500000 1 300 / 46 := by norm_num [ndStiffness, kT, boltzmann_eq]
  have h1 := langevin_gt_cubic (x := 2) (by norm_num)
  have h2 : langevin 3 ≤ langevin (ndStiffness 500000 1 300 / 46) :=
    langevin_strictMonoOn.monotoneOn (mem_Ioi.2 three_pos) (mem_Ioi.2 (by linarith)) hM
  have h3 : 1 ≤ 1 / Real.tanh 3 := by
    have := self_lt_div_tanh three_pos
    rw [div_eq_mul_one_div] at this
    linarith
  have h4 : 2 / 3 ≤ langevin 3 := by unfold langevin; linarith
  linarith

example : (lennard_jones_isometric_asymptotic_reduced_legendre_forces 8 1 1 500000).RoundTrip
      (lennard_jones_isotensional_asymptotic_reduced_lengths 8 1 1 500000) 8 1 2e-6
      (fun γ T => 40 ≤ ndStiffness 500000 1 T ∧ ndStiffness 500000 1 T ≤ 1000000 ∧ 1e-6 ≤ γ ∧
        γ < langevin (ndStiffness 500000 1 T / 46)) :=
  C26_lennard_jones_reduced 8 1 1 500000 (by norm_num) (by norm_num)

/-- C26: for Lennard-Jones links under the asymptotic approach, of nondimensional stiffness between 40 and a million, the
force returned for an extension between a millionth and the one which a freely jointed chain has under 1/46 of the stiffness,
applied to the chain, gives the extension back to two parts in a million. -/
theorem C26_lennard_jones_asymptotic (N : ℕ) (ℓ m k : ℝ) (hN : 0 < N) (hℓ : 0 < ℓ) :
    (lennard_jones_isometric_asymptotic_legendre_forces N ℓ m k).RoundTrip
      (lennard_jones_isotensional_asymptotic_lengths N ℓ m k) N ℓ 2e-6
      (fun γ T => 40 ≤ ndStiffness k ℓ T ∧ ndStiffness k ℓ T ≤ 1000000 ∧ 1e-6 ≤ γ ∧ γ < langevin (ndStiffness k ℓ T / 46)) := by
  refine .of_nd hN hℓ (C15_lennard_jones_isometric_asymptotic_legendre_forces N ℓ m k hN hℓ)
    (C15_lennard_jones_isotensional_asymptotic_lengths N ℓ m k hN hℓ) ?_
  rintro γ T hT ⟨h2, h3, h4, h5⟩
  have e6 : (1e-6 : ℝ) = 1 / 1000000 := by norm_num
  rw [e6] at h4
  obtain ⟨r1, r2, r3⟩ := lj_asymptotic_solver h2 h3 h4 h5 rfl
  have e : (lennard_jones_isometric_asymptotic_legendre_forces N ℓ m k).nd_force γ T =
      ufjc.lennard_jones.thermodynamics.isometric.asymptotic.legendre.nondimensional_force (ndStiffness k ℓ T) γ := by
    simp only [api_core]
  rw [e, lj_asymptotic_length, abs_of_pos (show 0 < γ by linarith), corr_code (by norm_num) (by linarith) r1]
  simpa only [ljPsi, ← add_sub_assoc] using r3

example : (lennard_jones_isometric_asymptotic_legendre_forces 8 1 1 500000).RoundTrip
      (lennard_jones_isotensional_asymptotic_lengths 8 1 1 500000) 8 1 2e-6
      (fun γ T => 40 ≤ ndStiffness 500000 1 T ∧ ndStiffness 500000 1 T ≤ 1000000 ∧ 1e-6 ≤ γ ∧
        γ < langevin (ndStiffness 500000 1 T / 46)) :=
  C26_lennard_jones_asymptotic 8 1 1 500000 (by norm_num) (by norm_num)

end Polymers.Props
