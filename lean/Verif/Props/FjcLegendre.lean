import Verif.Props.InverseLangevin
import Verif.Props.FjcIsotensional
import Verif.Props.FjcIsometric
import Verif.Props.FjcPotential
import Verif.Props.Ideal
import Verif.Lemmas.RoundTrip
import Verif.Lemmas.Distribution
import Verif.Lemmas.Partition
import Verif.Lemmas.LinkPartition

/-! Properties C16, C26, C36, C53 and C54 of the freely jointed chain at a fixed end-to-end length (Legendre
approximation), and C53 for the ideal and the exact freely jointed chain. -/

namespace Polymers.Props

open Polymers.Spec Polymers.Api Polymers.Lemmas Set Filter Topology

theorem inverse_langevin_spec {γ : ℝ} (h0 : 0 < γ) (h1 : γ < 1) :
    0 < math.inverse_langevin γ ∧ |langevin (math.inverse_langevin γ) - γ| ≤ 1e-6 * γ := by
  have h := C07_inverse_langevin γ h0 h1
  rw [← one_div_tanh] at h
  exact h

/-- C26: the force returned for an extension below full extension, applied to the chain, gives the extension back to one
part in a million. -/
theorem C26_fjc (N : ℕ) (ℓ m : ℝ) (hN : 0 < N) (hℓ : 0 < ℓ) :
    (fjc_isometric_legendre_forces N ℓ m).RoundTrip (fjc_isotensional_lengths N ℓ m) N ℓ 1e-6
      (fun γ _ => 0 < γ ∧ γ < 1) := by
  refine .of_nd hN hℓ (C15_fjc_isometric_legendre_forces N ℓ m hN hℓ) (C15_fjc_isotensional_lengths N ℓ m hN hℓ) ?_
  intro γ T _ hγ
  rw [fjc_nd_length_per_link, abs_of_pos hγ.1]
  exact (inverse_langevin_spec hγ.1 hγ.2).2

example : (fjc_isometric_legendre_forces 8 1 1).RoundTrip (fjc_isotensional_lengths 8 1 1) 8 1 1e-6
      (fun γ _ => 0 < γ ∧ γ < 1) :=
  C26_fjc 8 1 1 (by norm_num) (by norm_num)

theorem fjc_legendre_nd_relative (N : ℕ) (ℓ m γ T : ℝ) :
    (fjc_isometric_legendre_helmholtz N ℓ m).nd_relative_per_link γ T =
      math.inverse_langevin γ * γ - Real.log (Real.sinh (math.inverse_langevin γ) / math.inverse_langevin γ) := by
  simp only [fjc_isometric_legendre_helmholtz, fjc.FJC.init, fjc.thermodynamics.FJC.init,
    fjc.thermodynamics.isometric.FJC.init, fjc.thermodynamics.isometric.legendre.FJC.init,
    fjc.thermodynamics.isometric.legendre.FJC.nondimensional_relative_helmholtz_free_energy_per_link,
    fjc.thermodynamics.isometric.legendre.nondimensional_relative_helmholtz_free_energy_per_link,
    fjc.thermodynamics.isometric.legendre.nondimensional_force, model_real]

theorem fjc_legendre_nd_energy_per_link (N : ℕ) (ℓ m γ T : ℝ) :
    (fjc_isometric_legendre_helmholtz N ℓ m).nd_energy_per_link γ T =
      math.inverse_langevin γ * γ - Real.log (Real.sinh (math.inverse_langevin γ) / math.inverse_langevin γ) -
        (1 - 1 / (N : ℝ)) * kinetic ℓ m T := by
  simp only [fjc_isometric_legendre_helmholtz, fjc.FJC.init, fjc.thermodynamics.FJC.init,
    fjc.thermodynamics.isometric.FJC.init, fjc.thermodynamics.isometric.legendre.FJC.init,
    fjc.thermodynamics.isometric.legendre.FJC.nondimensional_helmholtz_free_energy_per_link,
    fjc.thermodynamics.isometric.legendre.nondimensional_helmholtz_free_energy_per_link,
    fjc.thermodynamics.isometric.legendre.nondimensional_relative_helmholtz_free_energy_per_link,
    fjc.thermodynamics.isometric.legendre.nondimensional_force, model_real, kinetic]

/-- C16: the relative Helmholtz free energy is relative to the limit at vanishing extension. -/
theorem C16_reference_fjc_isometric_legendre_helmholtz (N : ℕ) (ℓ m : ℝ) (hN : 0 < N) (hℓ : 0 < ℓ) :
    (fjc_isometric_legendre_helmholtz N ℓ m).RelativeToLimit N (𝓝[≠] 0) := by
  refine .of_nd (C15_fjc_isometric_legendre_helmholtz N ℓ m hN hℓ) ?_
  intro T _
  refine ⟨-((1 - 1 / (N : ℝ)) * kinetic ℓ m T), ?_, ?_⟩
  · simp only [fjc_legendre_nd_energy_per_link]
    have h3 : Tendsto (fun γ : ℝ => 3 * γ) (𝓝[≠] 0) (𝓝[≠] 0) := by
      refine tendsto_nhdsWithin_iff.2 ⟨?_, ?_⟩
      · have : Tendsto (fun γ : ℝ => 3 * γ) (𝓝 0) (𝓝 (3 * 0)) := (continuous_const.mul continuous_id).tendsto 0
        rw [mul_zero] at this
        exact this.mono_left nhdsWithin_le_nhds
      · filter_upwards [self_mem_nhdsWithin] with γ hγ
        simpa using hγ
    have hsq : Tendsto (fun γ : ℝ => 3 * γ * γ) (𝓝[≠] 0) (𝓝 0) := by
      have : Tendsto (fun γ : ℝ => 3 * γ * γ) (𝓝 0) (𝓝 (3 * 0 * 0)) :=
        ((continuous_const.mul continuous_id).mul continuous_id).tendsto 0
      rw [mul_zero] at this
      exact this.mono_left nhdsWithin_le_nhds
    have key := (hsq.sub (log_sinh_div_tendsto_zero.comp h3)).sub_const ((1 - 1 / (N : ℝ)) * kinetic ℓ m T)
    rw [sub_zero, zero_sub] at key
    refine key.congr' ?_
    have : ∀ᶠ γ : ℝ in 𝓝[≠] 0, γ < 1e-3 :=
      nhdsWithin_le_nhds (Iio_mem_nhds (by norm_num))
    filter_upwards [this] with γ hγ
    rw [C07_small γ hγ.le]
    rfl
  · intro γ
    rw [fjc_legendre_nd_relative, fjc_legendre_nd_energy_per_link]; ring

example : (fjc_isometric_legendre_helmholtz 8 1 1).RelativeToLimit 8 (𝓝[≠] 0) :=
  C16_reference_fjc_isometric_legendre_helmholtz 8 1 1 (by norm_num) (by norm_num)

theorem log_sinh_div_convex : ConvexOn ℝ (Ioi 0) (fun x : ℝ => Real.log (Real.sinh x / x)) := by
  refine MonotoneOn.convexOn_of_deriv (convex_Ioi 0)
    (fun x hx => (hasDerivAt_log_sinh_div (ne_of_gt hx)).continuousAt.continuousWithinAt)
    (fun x hx => ?_) ?_
  · rw [interior_Ioi] at hx
    exact (hasDerivAt_log_sinh_div (ne_of_gt hx)).differentiableAt.differentiableWithinAt
  · rw [interior_Ioi]
    refine langevin_strictMonoOn.monotoneOn.congr fun x hx => ?_
    exact (hasDerivAt_log_sinh_div (ne_of_gt hx)).deriv.symm

/-- C54: the relative Helmholtz free energy is, to the tolerance of the inversion, the largest value over all forces of the
Gibbs free energy plus force times extension. -/
theorem C54_fjc (N : ℕ) (ℓ m : ℝ) :
    (fjc_isometric_legendre_helmholtz N ℓ m).IsLargestLegendre (fjc_isotensional_gibbs N ℓ m)
      (fjc_isometric_legendre_forces N ℓ m) 1e-6 (fun γ _ => 0 < γ ∧ γ < 1) := by
  have hf : ∀ γ T, (fjc_isometric_legendre_forces N ℓ m).nd_force γ T = math.inverse_langevin γ := fun _ _ => rfl
  refine ⟨fun γ T _ hγ => ?_, fun γ T _ hγ η hη => ?_⟩
  · rw [fjc_legendre_nd_relative, fjc_nd_relative_gibbs_per_link, hf]; ring
  · obtain ⟨hx, hb⟩ := inverse_langevin_spec hγ.1 hγ.2
    rw [fjc_legendre_nd_relative, fjc_nd_relative_gibbs_per_link, hf]
    set x := math.inverse_langevin γ with hxd
    have ht := convex_tangent log_sinh_div_convex (mem_Ioi.2 hx) (mem_Ioi.2 hη) (hasDerivAt_log_sinh_div hx.ne')
    have h2 : (γ - langevin x) * (η - x) ≤ 1e-6 * γ * |η - x| := by
      refine (le_abs_self _).trans ?_
      rw [abs_mul, abs_sub_comm]
      exact mul_le_mul_of_nonneg_right hb (abs_nonneg _)
    nlinarith [ht, h2]

example : (fjc_isometric_legendre_helmholtz 8 1 1).IsLargestLegendre (fjc_isotensional_gibbs 8 1 1)
      (fjc_isometric_legendre_forces 8 1 1) 1e-6 (fun γ _ => 0 < γ ∧ γ < 1) :=
  C54_fjc 8 1 1

open fjc.thermodynamics

/-- The unnormalised density. -/
theorem fjc_legendre_density_pos {N : ℕ} {γ : ℝ} (c : ℝ) (hc : 0 < c) (h0 : 0 < γ) (h1 : γ < 1) :
    0 < isometric.legendre.nondimensional_equilibrium_distribution N c γ := by
  have hx := (inverse_langevin_spec h0 h1).1
  have hs := sinh_div_self_pos hx.ne'
  simp only [isometric.legendre.nondimensional_equilibrium_distribution, isometric.legendre.nondimensional_force, model_real]
  positivity

theorem fjc_legendre_normalization_pos (N : ℕ) :
    0 < math.integrate_1d (fun γ => isometric.legendre.nondimensional_equilibrium_radial_distribution N 1.0 γ) (ZERO : ℝ)
      ONE POINTS := by
  refine math.integrate_1d_pos zero_lt_one_grid (by norm_num [POINTS]) fun γ hγ => ?_
  have h0 : 0 < γ := zero_pos'.trans hγ.1
  have h1 : γ < 1 := hγ.2.trans_eq one_eq'
  have hπ := Real.pi_pos
  have := fjc_legendre_density_pos (N := N) (1.0 : ℝ) (by norm_num) h0 h1
  simp only [isometric.legendre.nondimensional_equilibrium_radial_distribution, model_real] at this ⊢
  positivity

/-- C53: the end-to-end density is positive strictly between zero and the contour length. -/
theorem C53_fjc_isometric_legendre_positive (N : ℕ) (ℓ m : ℝ) (hN : 0 < N) (hℓ : 0 < ℓ) :
    (fjc_isometric_legendre_distribution N ℓ m).PositiveInside N ℓ 1 :=
  .of_nd hN hℓ (C36_scales_fjc_isometric_legendre_distribution N ℓ m hN hℓ) fun _ h0 h1 =>
    fjc_legendre_density_pos _ (fjc_legendre_normalization_pos N) h0 h1

example : (fjc_isometric_legendre_distribution 8 1 1).PositiveInside 8 1 1 :=
  C53_fjc_isometric_legendre_positive 8 1 1 (by norm_num) (by norm_num)

/-- C36: the radial distribution sums to one on the grid used at construction. -/
theorem C36_sum_fjc_isometric_legendre_distribution (N : ℕ) (ℓ m : ℝ) (hN : 0 < N) (hℓ : 0 < ℓ) :
    (fjc_isometric_legendre_distribution N ℓ m).SumsToOne N ℓ 1e-6 1 64 := by
  refine .of_nd hN hℓ (C36_scales_fjc_isometric_legendre_distribution N ℓ m hN hℓ) ?_
  have hc := fjc_legendre_normalization_pos N
  have e : (fjc_isometric_legendre_distribution N ℓ m).nd_radial = fun γ =>
      isometric.legendre.nondimensional_equilibrium_radial_distribution N 1.0 γ /
        math.integrate_1d (fun γ => isometric.legendre.nondimensional_equilibrium_radial_distribution N 1.0 γ) (ZERO : ℝ)
          ONE POINTS := by
    funext γ
    change isometric.legendre.nondimensional_equilibrium_radial_distribution N (math.integrate_1d (fun γ =>
      isometric.legendre.nondimensional_equilibrium_radial_distribution N 1.0 γ) (ZERO : ℝ) ONE POINTS) γ = _
    generalize math.integrate_1d (fun γ => isometric.legendre.nondimensional_equilibrium_radial_distribution N 1.0 γ)
      (ZERO : ℝ) ONE POINTS = c
    simp only [isometric.legendre.nondimensional_equilibrium_radial_distribution,
      isometric.legendre.nondimensional_equilibrium_distribution, model_real]
    ring
  have h := math.integrate_1d_div_const (fun γ => isometric.legendre.nondimensional_equilibrium_radial_distribution N 1.0 γ)
    (math.integrate_1d (fun γ => isometric.legendre.nondimensional_equilibrium_radial_distribution N 1.0 γ) (ZERO : ℝ)
      ONE POINTS) (a := (ZERO : ℝ)) (b := ONE) (n := POINTS)
  rw [div_self hc.ne', integrate_1d_eq_midpointSum] at h
  rw [e]
  have hz : (ZERO : ℝ) = 1e-6 := zero_eq
  have ho : (ONE : ℝ) = 1 := one_eq'
  have hP : POINTS = 64 := rfl
  rw [hz, ho, hP] at h ⊢
  exact h

example : (fjc_isometric_legendre_distribution 8 1 1).SumsToOne 8 1 1e-6 1 64 :=
  C36_sum_fjc_isometric_legendre_distribution 8 1 1 (by norm_num) (by norm_num)

/-- C53: the end-to-end distribution is the Boltzmann factor of the Helmholtz free energy. -/
theorem C53_fjc_isometric_legendre (N : ℕ) (ℓ m : ℝ) (hN : 0 < N) (hℓ : 0 < ℓ) :
    (fjc_isometric_legendre_distribution N ℓ m).IsBoltzmann (fjc_isometric_legendre_helmholtz N ℓ m) N ℓ
      (fun γ => 0 < γ ∧ γ < 1) := by
  have hS := C15_fjc_isometric_legendre_helmholtz N ℓ m hN hℓ
  refine .of_nd (C36_scales_fjc_isometric_legendre_distribution N ℓ m hN hℓ) hS ?_
  have hN' : (N : ℝ) ≠ 0 := by positivity
  have key : ∀ γ T, 0 < T → 0 < γ ∧ γ < 1 → (fjc_isometric_legendre_distribution N ℓ m).nd_density γ *
      Real.exp ((fjc_isometric_legendre_helmholtz N ℓ m).nd_energy γ T) =
      Real.exp (-(N * ((1 - 1 / (N : ℝ)) * kinetic ℓ m T))) / math.integrate_1d (fun γ =>
        isometric.legendre.nondimensional_equilibrium_radial_distribution N 1.0 γ) (ZERO : ℝ) ONE POINTS := by
    intro γ T hT hγ
    change isometric.legendre.nondimensional_equilibrium_distribution N (math.integrate_1d (fun γ =>
      isometric.legendre.nondimensional_equilibrium_radial_distribution N 1.0 γ) (ZERO : ℝ) ONE POINTS) γ * _ = _
    generalize math.integrate_1d (fun γ => isometric.legendre.nondimensional_equilibrium_radial_distribution N 1.0 γ)
      (ZERO : ℝ) ONE POINTS = c
    rw [hS.nd_total _ T hT, fjc_legendre_nd_energy_per_link]
    simp only [isometric.legendre.nondimensional_equilibrium_distribution, isometric.legendre.nondimensional_force,
      model_real]
    have hx := (inverse_langevin_spec hγ.1 hγ.2).1
    generalize math.inverse_langevin γ = x at hx
    have hs := sinh_div_self_pos hx.ne'
    have e1 : Real.sinh x / x * Real.exp (-x * γ) = Real.exp (Real.log (Real.sinh x / x) - x * γ) := by
      rw [Real.exp_sub, Real.exp_log hs, neg_mul, Real.exp_neg]; rfl
    rw [e1, zpow_natCast, ← Real.exp_nat_mul, div_mul_eq_mul_div, ← Real.exp_add]
    congr 2
    ring
  intro γ₁ γ₂ T hT h1 h2
  rw [key _ _ hT h1, key _ _ hT h2]

example : (fjc_isometric_legendre_distribution 8 1 1).IsBoltzmann (fjc_isometric_legendre_helmholtz 8 1 1) 8 1
      (fun γ => 0 < γ ∧ γ < 1) :=
  C53_fjc_isometric_legendre 8 1 1 (by norm_num) (by norm_num)

/-- C53: the exact distribution of the freely jointed chain is the Boltzmann factor of its Helmholtz free energy. -/
theorem C53_fjc_isometric (N : ℕ) (ℓ m : ℝ) (hN2 : 2 ≤ N) (hN : N ≤ 26) (hℓ : 0 < ℓ) :
    (fjc_isometric_distribution N ℓ m).IsBoltzmann (fjc_isometric_helmholtz N ℓ m) N ℓ (fun γ => 0 < γ ∧ γ < 1) := by
  have hS := C15_fjc_isometric_helmholtz N ℓ m (by omega) hℓ
  refine .of_nd (C36_scales_fjc_isometric_distribution N ℓ m (by omega) hℓ) hS ?_
  have hN' : (N : ℝ) ≠ 0 := by positivity
  have key : ∀ γ T, 0 < T → 0 < γ ∧ γ < 1 → (fjc_isometric_distribution N ℓ m).nd_density γ *
      Real.exp ((fjc_isometric_helmholtz N ℓ m).nd_energy γ T) =
      (N * ℓ) ^ 3 * Real.exp (-(((N : ℝ) - 1) * Real.log (8 * Real.pi ^ 2 * m * ℓ ^ 2 * (BOLTZMANN_CONSTANT : ℝ) * T /
          (PLANCK_CONSTANT : ℝ) ^ 2))) := by
    intro γ T hT hγ
    have hd := treloar_density_pos hN2 hN hγ.1 hγ.2
    rw [hS.nd_total _ T hT, fjc_isometric_nd_energy hN2 ℓ m hℓ, mul_div_cancel₀ _ hN', sub_eq_add_neg, Real.exp_add,
      Real.exp_neg, Real.exp_log (by positivity)]
    change treloar_sum_0_with_prefactor N γ * _ = _
    have := hd.ne'
    field_simp
  intro γ₁ γ₂ T hT h1 h2
  rw [key _ _ hT h1, key _ _ hT h2]

example : (fjc_isometric_distribution 8 1 1).IsBoltzmann (fjc_isometric_helmholtz 8 1 1) 8 1 (fun γ => 0 < γ ∧ γ < 1) :=
  C53_fjc_isometric 8 1 1 (by norm_num) (by norm_num) (by norm_num)

/-- C53: the distribution of the ideal chain is the Boltzmann factor of its Helmholtz free energy. -/
theorem C53_ideal_isometric (N : ℕ) (ℓ m : ℝ) (hN : 0 < N) (hℓ : 0 < ℓ) :
    (ideal_isometric_distribution N ℓ m).IsBoltzmann (ideal_isometric_helmholtz N ℓ m) N ℓ (fun _ => True) := by
  refine .of_nd (C12_ideal_distribution_scales N ℓ m hN hℓ) (C15_ideal_isometric_helmholtz N ℓ m hN hℓ) ?_
  have key : ∀ γ T, (ideal_isometric_distribution N ℓ m).nd_density γ *
      Real.exp ((ideal_isometric_helmholtz N ℓ m).nd_energy γ T) =
      (3 / 2 / Real.pi * N) ^ (3 / 2 : ℝ) * Real.exp (-(N * Real.log (8 * Real.pi ^ 2 * m * ℓ ^ 2 * (BOLTZMANN_CONSTANT : ℝ) * T /
          (PLANCK_CONSTANT : ℝ) ^ 2))) := by
    intro γ T
    simp only [ideal_isometric_distribution, ideal_isometric_helmholtz, ideal.Ideal.init, ideal.thermodynamics.Ideal.init,
      ideal.thermodynamics.isometric.Ideal.init,
      ideal.thermodynamics.isometric.Ideal.nondimensional_equilibrium_distribution,
      ideal.thermodynamics.isometric.nondimensional_equilibrium_distribution,
      ideal.thermodynamics.isometric.Ideal.nondimensional_helmholtz_free_energy,
      ideal.thermodynamics.isometric.nondimensional_helmholtz_free_energy, model_real]
    rw [mul_assoc, ← Real.exp_add]
    congr 2
    ring
  intro γ₁ γ₂ T _ _ _
  rw [key, key]

example : (ideal_isometric_distribution 8 1 1).IsBoltzmann (ideal_isometric_helmholtz 8 1 1) 8 1 (fun _ => True) :=
  C53_ideal_isometric 8 1 1 (by norm_num) (by norm_num)

end Polymers.Props
