import Verif.Lemmas.EfjcNewton
import Verif.Lemmas.RoundTrip
import Verif.Props.Efjc
import Verif.Props.FjcLegendre
import Verif.Props.ScalingEfjc

/-!
C26 for the reduced asymptotic model of extensible links: the Newton solver for the force converges for every extension
other than full extension and every stiffness.
-/

namespace Polymers.Props

open Polymers.Spec Polymers.Api Polymers.Lemmas Set Filter Topology

theorem inverse_langevin_below {γ : ℝ} (h0 : 0 < γ) (h1 : γ < 1) : langevin (math.inverse_langevin γ) ≤ γ := by
  rcases le_or_gt γ 1e-3 with h | h
  · rw [C07_small γ h]
    have := langevin_lt_third (show 0 < 3 * γ by linarith)
    linarith
  · exact (inverse_langevin_newton h h1).2.1

theorem efjc_reduced_solver {κ γ : ℝ} (hκ : 0 < κ) (hγ : 0 < γ) (hγ1 : γ ≠ 1) :
    0 < efjc.thermodynamics.isometric.asymptotic.reduced.legendre.nondimensional_force κ γ ∧
    extF κ (efjc.thermodynamics.isometric.asymptotic.reduced.legendre.nondimensional_force κ γ) ≤ γ ∧
    γ - extF κ (efjc.thermodynamics.isometric.asymptotic.reduced.legendre.nondimensional_force κ γ) ≤ 1e-6 * γ := by
  have h100 : ∀ c : ℝ, c ≤ γ → c ≤ 2 ^ 99 * (1e-6 * γ) := by
    intro c hc
    have : (1:ℝ) ≤ 2 ^ 99 * 1e-6 := by norm_num
    nlinarith
  simp only [efjc.thermodynamics.isometric.asymptotic.reduced.legendre.nondimensional_force, math.inverse_newton_raphson]
  have hlt1 : Elem.lt (1e-6 : ℝ) 1.0 = true := by simp only [model_real]; norm_num
  set f : ℝ → ℝ := fun η => 1.0 / Elem.tanh η - 1.0 / η + η / κ with hfd
  set fp : ℝ → ℝ := fun η => 1.0 / Elem.powi η 2 - 1.0 / Elem.powi (Elem.sinh η) 2 + 1.0 / κ with hfpd
  have hf : ∀ x, f x = extF κ x := by intro x; simp only [hfd, model_real, extF, langevin]
  have hfp : ∀ x, fp x = 1 / x ^ 2 - 1 / Real.sinh x ^ 2 + 1 / κ := by intro x; simp only [hfpd, model_real]
  clear_value f fp
  rcases lt_or_gt_of_ne hγ1 with h | h
  · have hg : Elem.lt γ (1.0 : ℝ) = true := by simp only [model_real]; norm_num; exact h
    rw [if_pos hg]
    obtain ⟨hx, _⟩ := inverse_langevin_spec hγ h
    have hL := inverse_langevin_below hγ h
    set x := math.inverse_langevin γ with hxd
    rw [math.inverse_newton_raphson_loop, if_pos hlt1]
    have e : x + (γ - extF κ x) / fp x = extStep κ γ x := by rw [hfp, extStep]
    simp only [hf, e, elem_abs]
    have key : 0 < extStep κ γ x ∧ γ - extF κ (extStep κ γ x) ≤ |γ - extF κ x| := by
      rcases le_total (extF κ x) γ with hc | hc
      · have hpos : 0 < x / κ := by positivity
        obtain ⟨ha, hb⟩ := extStep_halves hκ hx hc (by linarith)
        refine ⟨hx.trans_le ha, hb.trans ?_⟩
        rw [abs_of_nonneg (by linarith)]; linarith
      · obtain ⟨ha, hb⟩ := extStep_first hκ hx hc hL
        refine ⟨ha, hb.trans_eq ?_⟩
        rw [abs_of_nonpos (by linarith)]; ring
    have hp : 0 < extStep κ γ x / κ := div_pos key.1 hκ
    refine ext_loop hκ hγ hf hfp _ _ _ key.1 (extStep_below hκ hx key.1.le) (by linarith) ?_ (h100 _ ?_)
    · rw [abs_div, abs_of_pos hγ, div_mul_cancel₀ _ hγ.ne']
      exact key.2
    · have := langevin_pos key.1
      unfold extF; linarith
  · have hg : ¬ Elem.lt γ (1.0 : ℝ) = true := by simp only [model_real]; norm_num; exact h.le
    rw [if_neg hg]
    have e1 : κ * (γ - 1.0) = κ * (γ - 1) := by norm_num
    rw [e1]
    have hx : 0 < κ * (γ - 1) := mul_pos hκ (by linarith)
    have hxk : κ * (γ - 1) / κ = γ - 1 := by field_simp
    have hl := langevin_lt_one hx
    have hl0 := langevin_pos hx
    refine ext_loop hκ hγ hf hfp _ _ _ hx ?_ ?_ ?_ ?_
    · unfold extF; rw [hxk]; linarith
    · rw [hxk]; linarith
    · unfold extF; rw [hxk]; norm_num; linarith
    · have : (1:ℝ) ≤ 2 ^ 100 * 1e-6 := by norm_num
      unfold extF; rw [hxk]; nlinarith

/-- C26: for extensible links under the reduced asymptotic approach, the force returned for any extension other than full
extension, below or above it, applied to the chain gives the extension back to one part in a million, whatever the
stiffness. -/
theorem C26_efjc_reduced (N : ℕ) (ℓ m k : ℝ) (hN : 0 < N) (hℓ : 0 < ℓ) (hk : 0 < k) :
    (efjc_isometric_asymptotic_reduced_legendre_forces N ℓ m k).RoundTrip
      (efjc_isotensional_asymptotic_reduced_lengths N ℓ m k) N ℓ 1e-6 (fun γ _ => 0 < γ ∧ γ ≠ 1) := by
  refine .of_nd hN hℓ (C15_efjc_isometric_asymptotic_reduced_legendre_forces N ℓ m k hN hℓ)
    (C15_efjc_isotensional_asymptotic_reduced_lengths N ℓ m k hN hℓ) ?_
  intro γ T hT hγ
  rw [efjc_reduced_length, abs_of_pos hγ.1]
  obtain ⟨_, h2, h3⟩ := efjc_reduced_solver (ndStiffness_pos hk hℓ hT) hγ.1 hγ.2
  have e : (efjc_isometric_asymptotic_reduced_legendre_forces N ℓ m k).nd_force γ T =
      efjc.thermodynamics.isometric.asymptotic.reduced.legendre.nondimensional_force (ndStiffness k ℓ T) γ := by
    simp only [api_core]
  rw [e]
  change |extF _ _ - γ| ≤ _
  rw [abs_of_nonpos (by linarith)]
  linarith

example : (efjc_isometric_asymptotic_reduced_legendre_forces 8 1 1 500).RoundTrip
      (efjc_isotensional_asymptotic_reduced_lengths 8 1 1 500) 8 1 1e-6 (fun γ _ => 0 < γ ∧ γ ≠ 1) :=
  C26_efjc_reduced 8 1 1 500 (by norm_num) (by norm_num) (by norm_num)

/-- C54: for extensible links under the reduced asymptotic approach, the returned force makes Gibbs energy plus force times
extension largest. -/
theorem C54_efjc_reduced (N : ℕ) (ℓ m k : ℝ) (hℓ : 0 < ℓ) (hk : 0 < k) :
    (efjc_isometric_asymptotic_reduced_legendre_forces N ℓ m k).Maximises
      (efjc_isotensional_asymptotic_reduced_gibbs N ℓ m k) 1e-6 (fun γ _ => 0 < γ ∧ γ ≠ 1) := by
  intro γ T hT hγ η hη
  have hκ := ndStiffness_pos hk hℓ hT
  obtain ⟨hx, h2, h3⟩ := efjc_reduced_solver hκ hγ.1 hγ.2
  have e : (efjc_isometric_asymptotic_reduced_legendre_forces N ℓ m k).nd_force γ T =
      efjc.thermodynamics.isometric.asymptotic.reduced.legendre.nondimensional_force (ndStiffness k ℓ T) γ := by
    simp only [api_core]
  rw [e]
  simp only [api_core, efjc.thermodynamics.isotensional.asymptotic.reduced.nondimensional_gibbs_free_energy_per_link]
  generalize efjc.thermodynamics.isometric.asymptotic.reduced.legendre.nondimensional_force (ndStiffness k ℓ T) γ = x at *
  simp only [model_real]
  generalize ndStiffness k ℓ T = κ at *
  have ht := convex_tangent log_sinh_div_convex (mem_Ioi.2 hx) (mem_Ioi.2 hη) (hasDerivAt_log_sinh_div hx.ne')
  have h4 : (γ - extF κ x) * (η - x) ≤ 1e-6 * γ * |η - x| := by
    refine (le_abs_self _).trans ?_
    rw [abs_mul, abs_of_nonneg (by linarith : 0 ≤ γ - extF κ x)]
    exact mul_le_mul_of_nonneg_right h3 (abs_nonneg _)
  unfold extF at h4
  have h5 : 0 ≤ (η - x) ^ 2 * (1 / 2 / κ) := by positivity
  have h6 : 1 / 2 * η ^ 2 / κ = 1 / 2 * x ^ 2 / κ + x / κ * (η - x) + (η - x) ^ 2 * (1 / 2 / κ) := by ring
  rw [h6]
  nlinarith [ht, h4, h5]

example : (efjc_isometric_asymptotic_reduced_legendre_forces 8 1 1 500).Maximises
      (efjc_isotensional_asymptotic_reduced_gibbs 8 1 1 500) 1e-6 (fun γ _ => 0 < γ ∧ γ ≠ 1) :=
  C54_efjc_reduced 8 1 1 500 (by norm_num) (by norm_num)

/-- A solver started at zero, where the function and its slope are undefined, returns an undefined number. -/
theorem newton_undef {y : ℝ} {f fp : SReal → SReal} (hf : f (.val 0) = .undef) (hp : fp (.val 0) = .undef) :
    math.inverse_newton_raphson (.val y) f fp (.val 0) 1e-6 100 = .undef := by
  have hlt : Elem.lt (1e-6 : SReal) (1.0 : SReal) = true := by
    rw [SReal.lit_val, SReal.lit_val, SReal.lt_val]; norm_num
  rw [math.inverse_newton_raphson, math.inverse_newton_raphson_loop, if_pos hlt]
  simp only [hf, hp, SReal.sub_undef, SReal.undef_div, SReal.undef_div_undef, SReal.add_undef, SReal.abs_undef]
  rw [math.inverse_newton_raphson_loop, SReal.lt_undef_right]
  simp

/-- C26: full extension is a real exception: the guess is a zero force there, where the length is undefined, so every
extensible-link model returns an undefined number although the equation has a solution. -/
theorem C26_efjc_full_extension (κ : ℝ) (hκ : 0 < κ) :
    efjc.thermodynamics.isometric.asymptotic.reduced.legendre.nondimensional_force (.val κ) (.val 1) = SReal.undef ∧
    efjc.thermodynamics.isometric.asymptotic.alternative.legendre.nondimensional_force (.val κ) (.val 1) = SReal.undef ∧
    efjc.thermodynamics.isometric.asymptotic.legendre.nondimensional_force (.val κ) (.val 1) = SReal.undef ∧
    ∃ η, 0 < η ∧ langevin η + η / κ = 1 := by
  have hg : Elem.lt (SReal.val 1) (1.0 : SReal) = false := by
    rw [SReal.lit_val, Bool.eq_false_iff, Ne, SReal.lt_val]; norm_num
  have e1 : (1.0 : SReal) = .val 1 := by rw [SReal.lit_val]; norm_num
  have h0 : SReal.val κ * (SReal.val 1 - 1.0) = .val 0 := by
    rw [e1, SReal.sub_val, SReal.mul_val]; norm_num
  have hd : ∀ x : ℝ, SReal.val x / SReal.val 0 = .undef := fun x => SReal.div_zero (x := x)
  refine ⟨?_, ?_, ?_, ?_⟩
  · simp only [efjc.thermodynamics.isometric.asymptotic.reduced.legendre.nondimensional_force, hg, h0, Bool.false_eq_true,
      if_false]
    apply newton_undef <;>
    simp [SReal.lit_val, Real.tanh_zero, Real.sinh_zero, hd, SReal.div_val _ hκ.ne']
  · simp only [efjc.thermodynamics.isometric.asymptotic.alternative.legendre.nondimensional_force, hg, h0, Bool.false_eq_true,
      if_false]
    apply newton_undef <;>
    simp [SReal.lit_val, Real.tanh_zero, Real.sinh_zero, hd, SReal.div_val _ hκ.ne']
  · simp only [efjc.thermodynamics.isometric.asymptotic.legendre.nondimensional_force, hg, h0, Bool.false_eq_true,
      if_false]
    apply newton_undef <;>
    simp [SReal.lit_val, Real.tanh_zero, Real.sinh_zero, hd, SReal.div_val _ hκ.ne']
  · have hc : ContinuousOn (fun η => langevin η + η / κ) (Icc 0 κ) :=
      (langevin_continuousOn.mono Icc_subset_Ici_self).add (continuousOn_id.div_const κ)
    have h1 : (1:ℝ) ∈ Icc (langevin 0 + 0 / κ) (langevin κ + κ / κ) := by
      rw [langevin_zero, div_self hκ.ne']
      have := langevin_pos hκ
      constructor <;> [norm_num; linarith]
    obtain ⟨η, hη, he⟩ := intermediate_value_Icc hκ.le hc h1
    refine ⟨η, lt_of_le_of_ne hη.1 ?_, he⟩
    rintro rfl
    simp [langevin_zero] at he

example : efjc.thermodynamics.isometric.asymptotic.reduced.legendre.nondimensional_force (.val 50) (.val 1) = SReal.undef :=
  (C26_efjc_full_extension 50 (by norm_num)).1

end Polymers.Props
