import Verif.Props.ScalingFjc
import Verif.Lemmas.Gradient
import Verif.Lemmas.Langevin

/-! Properties C14, C16 and C19 (isotensional part): the freely jointed chain under an applied force. -/

namespace Polymers.Props

open Polymers.Spec Polymers.Api Set Filter Topology

/-- The nondimensional extension per link computed by the code is the Langevin function. -/
theorem fjc_nd_length_per_link (N : ℕ) (ℓ m η T : ℝ) :
    (fjc_isotensional_lengths N ℓ m).nd_length_per_link η T = langevin η := by
  simp only [fjc_isotensional_lengths, fjc.FJC.init, fjc.thermodynamics.FJC.init,
    fjc.thermodynamics.isotensional.FJC.init,
    fjc.thermodynamics.isotensional.FJC.nondimensional_end_to_end_length_per_link,
    fjc.thermodynamics.isotensional.nondimensional_end_to_end_length_per_link, model_real, langevin]

/-- `ln (8 π² m ℓ² k T / h²)`, the kinetic part of the energies. -/
noncomputable def kinetic (ℓ m T : ℝ) : ℝ :=
  Real.log (8 * Real.pi ^ 2 * m * ℓ ^ 2 * BOLTZMANN_CONSTANT * T / PLANCK_CONSTANT ^ 2)

theorem fjc_nd_gibbs_per_link (N : ℕ) (ℓ m η T : ℝ) :
    (fjc_isotensional_gibbs N ℓ m).nd_energy_per_link η T = -Real.log (Real.sinh η / η) - kinetic ℓ m T := by
  simp only [fjc_isotensional_gibbs, fjc.FJC.init, fjc.thermodynamics.FJC.init,
    fjc.thermodynamics.isotensional.FJC.init,
    fjc.thermodynamics.isotensional.FJC.nondimensional_gibbs_free_energy_per_link,
    fjc.thermodynamics.isotensional.nondimensional_gibbs_free_energy_per_link, model_real, kinetic]

/-- C14: the extension is minus the derivative of the Gibbs free energy, at every non-zero force. -/
theorem C14_fjc_length_is_gradient (N : ℕ) (ℓ m : ℝ) (hN : 0 < N) (hℓ : 0 < ℓ) :
    (fjc_isotensional_lengths N ℓ m).IsMinusGradient (fjc_isotensional_gibbs N ℓ m) ℓ (fun η _ => η ≠ 0) := by
  refine .of_nd (C15_fjc_isotensional_gibbs N ℓ m hN hℓ) (C15_fjc_isotensional_lengths N ℓ m hN hℓ) ?_
  intro η T _ hη
  rw [fjc_nd_length_per_link]
  simp only [fjc_nd_gibbs_per_link]
  exact ((hasDerivAt_log_sinh_div hη).neg).sub_const _

example : (fjc_isotensional_lengths 8 1 1).IsMinusGradient (fjc_isotensional_gibbs 8 1 1) 1 (fun η _ => η ≠ 0) :=
  C14_fjc_length_is_gradient 8 1 1 (by norm_num) (by norm_num)

/-- C14: the extension per link at positive force is positive, below the contour length and below the ideal chain's
extension `η/3`, and above `η/3 - η³/45` and `1 - 1/η`. -/
theorem C14_fjc_bounds (N : ℕ) (ℓ m T : ℝ) {η : ℝ} (hη : 0 < η) :
    0 < (fjc_isotensional_lengths N ℓ m).nd_length_per_link η T ∧
      (fjc_isotensional_lengths N ℓ m).nd_length_per_link η T < 1 ∧
      (fjc_isotensional_lengths N ℓ m).nd_length_per_link η T < η / 3 ∧
      η / 3 - η ^ 3 / 45 < (fjc_isotensional_lengths N ℓ m).nd_length_per_link η T ∧
      1 - 1 / η < (fjc_isotensional_lengths N ℓ m).nd_length_per_link η T := by
  rw [fjc_nd_length_per_link]
  exact ⟨langevin_pos hη, langevin_lt_one hη, langevin_lt_third hη, langevin_gt_cubic hη, one_sub_inv_lt_langevin hη⟩

example : 1 / 2 < (fjc_isotensional_lengths 8 1 1).nd_length_per_link 2 300 ∧
    (fjc_isotensional_lengths 8 1 1).nd_length_per_link 2 300 < 2 / 3 := by
  have h := C14_fjc_bounds 8 1 1 300 (η := 2) (by norm_num)
  norm_num at h ⊢
  exact ⟨h.2.2.2.2, h.2.2.1⟩

/-- C14: the dimensional extension is between zero and the contour length. -/
theorem C14_fjc_length_lt_contour (N : ℕ) (ℓ m : ℝ) {f T : ℝ} (hN : 0 < N) (hℓ : 0 < ℓ) (hf : 0 < f) (hT : 0 < T) :
    0 < (fjc_isotensional_lengths N ℓ m).length f T ∧ (fjc_isotensional_lengths N ℓ m).length f T < N * ℓ := by
  have hs := C15_fjc_isotensional_lengths N ℓ m hN hℓ
  have hη : 0 < ndForce ℓ f T := div_pos (mul_pos hf hℓ) (kT_pos hT)
  have hN' := (Nat.cast_pos (α := ℝ)).2 hN
  obtain ⟨h0, h1, -⟩ := C14_fjc_bounds N ℓ m T hη
  rw [hs.length f T hT, hs.nd_total _ T hT]
  constructor
  · positivity
  · calc ℓ * (N * (fjc_isotensional_lengths N ℓ m).nd_length_per_link (ndForce ℓ f T) T)
        < ℓ * (N * 1) := by
          exact mul_lt_mul_of_pos_left (mul_lt_mul_of_pos_left h1 hN') hℓ
      _ = N * ℓ := by ring

example : (fjc_isotensional_lengths 8 1 1).length 5 300 < 8 := by
  have := (C14_fjc_length_lt_contour 8 1 1 (f := 5) (T := 300) (by norm_num) (by norm_num) (by norm_num) (by norm_num)).2
  norm_num at this ⊢; exact this

/-- C14: the extension is an odd function of the force. -/
theorem C14_fjc_odd (N : ℕ) (ℓ m η T : ℝ) :
    (fjc_isotensional_lengths N ℓ m).nd_length_per_link (-η) T =
      -(fjc_isotensional_lengths N ℓ m).nd_length_per_link η T := by
  rw [fjc_nd_length_per_link, fjc_nd_length_per_link, langevin_neg]

/-- C14: the extension is strictly increasing in the force. -/
theorem C14_fjc_strictMono (N : ℕ) (ℓ m T : ℝ) {η η' : ℝ} (hη : η ≠ 0) (hη' : η' ≠ 0) (h : η < η') :
    (fjc_isotensional_lengths N ℓ m).nd_length_per_link η T <
      (fjc_isotensional_lengths N ℓ m).nd_length_per_link η' T := by
  rw [fjc_nd_length_per_link, fjc_nd_length_per_link]
  exact langevin_strictMono_ne hη hη' h

example : (fjc_isotensional_lengths 8 1 1).nd_length_per_link (-1) 300 <
    (fjc_isotensional_lengths 8 1 1).nd_length_per_link 2 300 :=
  C14_fjc_strictMono 8 1 1 300 (by norm_num) (by norm_num) (by norm_num)

/-- C14: the extension per link tends to one at large force and to zero at small force. -/
theorem C14_fjc_limits (N : ℕ) (ℓ m T : ℝ) :
    Tendsto (fun η => (fjc_isotensional_lengths N ℓ m).nd_length_per_link η T) atTop (𝓝 1) ∧
      Tendsto (fun η => (fjc_isotensional_lengths N ℓ m).nd_length_per_link η T) (𝓝[≠] 0) (𝓝 0) := by
  simp only [fjc_nd_length_per_link]
  exact ⟨langevin_tendsto_one, langevin_tendsto_zero⟩

theorem fjc_nd_relative_gibbs_per_link (N : ℕ) (ℓ m η T : ℝ) :
    (fjc_isotensional_gibbs N ℓ m).nd_relative_per_link η T = -Real.log (Real.sinh η / η) := by
  simp only [fjc_isotensional_gibbs, fjc.FJC.init, fjc.thermodynamics.FJC.init,
    fjc.thermodynamics.isotensional.FJC.init,
    fjc.thermodynamics.isotensional.FJC.nondimensional_relative_gibbs_free_energy_per_link,
    fjc.thermodynamics.isotensional.nondimensional_relative_gibbs_free_energy_per_link, model_real]

/-- C16: the relative Gibbs free energy is the energy relative to its limit at vanishing force. -/
theorem C16_reference_fjc_isotensional_gibbs (N : ℕ) (ℓ m : ℝ) (hN : 0 < N) (hℓ : 0 < ℓ) :
    (fjc_isotensional_gibbs N ℓ m).RelativeToLimit N (𝓝[≠] 0) := by
  refine .of_nd (C15_fjc_isotensional_gibbs N ℓ m hN hℓ) ?_
  intro T _
  refine ⟨-kinetic ℓ m T, ?_, ?_⟩
  · simp only [fjc_nd_gibbs_per_link]
    simpa using log_sinh_div_tendsto_zero.neg.sub_const (kinetic ℓ m T)
  · intro η
    rw [fjc_nd_gibbs_per_link, fjc_nd_relative_gibbs_per_link]; ring

example : (fjc_isotensional_gibbs 8 1 1).RelativeToLimit 8 (𝓝[≠] 0) :=
  C16_reference_fjc_isotensional_gibbs 8 1 1 (by norm_num) (by norm_num)

theorem fjc_legendre_nd_helmholtz_per_link (N : ℕ) (ℓ m η T : ℝ) :
    (fjc_isotensional_legendre_helmholtz N ℓ m).nd_energy_per_link η T =
      η / Real.tanh η - 1 - Real.log (Real.sinh η / η) - kinetic ℓ m T := by
  simp only [fjc_isotensional_legendre_helmholtz, fjc.FJC.init, fjc.thermodynamics.FJC.init,
    fjc.thermodynamics.isotensional.FJC.init, fjc.thermodynamics.isotensional.legendre.FJC.init,
    fjc.thermodynamics.isotensional.legendre.FJC.nondimensional_helmholtz_free_energy_per_link,
    fjc.thermodynamics.isotensional.legendre.nondimensional_helmholtz_free_energy_per_link, model_real, kinetic]

/-- C16: the relative Helmholtz free energy of the Legendre approximation is relative to the limit at vanishing
force. -/
theorem C16_reference_fjc_isotensional_legendre_helmholtz (N : ℕ) (ℓ m : ℝ) (hN : 0 < N) (hℓ : 0 < ℓ) :
    (fjc_isotensional_legendre_helmholtz N ℓ m).RelativeToLimit N (𝓝[≠] 0) := by
  refine .of_nd (C15_fjc_isotensional_legendre_helmholtz N ℓ m hN hℓ) ?_
  intro T _
  refine ⟨-kinetic ℓ m T, ?_, ?_⟩
  · simp only [fjc_legendre_nd_helmholtz_per_link]
    have := ((div_tanh_tendsto_one.sub_const 1).sub log_sinh_div_tendsto_zero).sub_const (kinetic ℓ m T)
    simpa using this
  · intro η
    rw [fjc_legendre_nd_helmholtz_per_link]
    simp only [fjc_isotensional_legendre_helmholtz, fjc.FJC.init, fjc.thermodynamics.FJC.init,
      fjc.thermodynamics.isotensional.FJC.init, fjc.thermodynamics.isotensional.legendre.FJC.init,
      fjc.thermodynamics.isotensional.legendre.FJC.nondimensional_relative_helmholtz_free_energy_per_link,
      fjc.thermodynamics.isotensional.legendre.nondimensional_relative_helmholtz_free_energy_per_link, model_real]
    ring

end Polymers.Props
