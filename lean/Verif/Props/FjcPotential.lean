import Verif.Props.ScalingPotential
import Verif.Props.FjcIsotensional
import Verif.Lemmas.Gradient
import Verif.Lemmas.LinkPartition

/-! Properties C16 (modified canonical part), C20 and C21: the freely jointed chain held by a harmonic potential. -/

namespace Polymers.Props

open Polymers.Spec Polymers.Api Polymers.Lemmas Set Filter Topology

/-! ### C16 -/

/-- C16: the relative Helmholtz free energy of the modified canonical ensemble is relative to the near-zero state. -/
theorem C16_reference_fjc_modified_canonical_helmholtz (N : ℕ) (ℓ m K : ℝ) (hN : 0 < N) :
    (fjc_modified_canonical_helmholtz N ℓ m K).RelativeTo (ndLength N ℓ) 1e-6 := by
  refine .of_nd hN (C15_fjc_modified_canonical_helmholtz N ℓ m K hN) ?_
  intro y T hT
  simp only [mc_nd_relative_per_link, mc_nd_energy_per_link,
    fjc.thermodynamics.modified_canonical.nondimensional_relative_helmholtz_free_energy,
    fjc.thermodynamics.modified_canonical.nondimensional_helmholtz_free_energy, zero_eq, model_real]
  ring

example : (fjc_modified_canonical_helmholtz 8 1 1 500).RelativeTo (ndLength 8 1) 1e-6 :=
  C16_reference_fjc_modified_canonical_helmholtz 8 1 1 500 (by norm_num)

/-- C16: it does not depend on the hinge mass. -/
theorem C16_mass_fjc_modified_canonical_helmholtz (N : ℕ) (ℓ m m' K : ℝ) :
    (fjc_modified_canonical_helmholtz N ℓ m K).SameRelative (fjc_modified_canonical_helmholtz N ℓ m' K) := by
  refine ⟨?_, ?_, ?_, ?_⟩ <;> funext x T <;>
    simp only [mc_relative, mc_relative_per_link, mc_nd_relative, mc_nd_relative_per_link]

example : (fjc_modified_canonical_helmholtz 8 1 1 500).SameRelative (fjc_modified_canonical_helmholtz 8 1 2 500) :=
  C16_mass_fjc_modified_canonical_helmholtz 8 1 1 2 500

/-- C16: the relative Gibbs free energy of the modified canonical ensemble does not vanish at the near-zero reference
state of the Helmholtz energy: the energy of the potential is not referred to it.  It equals the difference of Gibbs
energies less the potential energy at the reference state. -/
theorem C16_reference_fjc_modified_canonical_gibbs (N : ℕ) (ℓ m K : ℝ) (hN : 0 < N) {y T : ℝ} (hT : 0 < T) :
    (fjc_modified_canonical_gibbs N ℓ m K).nd_relative_per_link y T =
      (fjc_modified_canonical_gibbs N ℓ m K).nd_energy_per_link y T -
      (fjc_modified_canonical_gibbs N ℓ m K).nd_energy_per_link 1e-6 T - N * ndStiffness K ℓ T / 2 * 1e-12 := by
  have h := (C16_reference_fjc_modified_canonical_helmholtz N ℓ m K hN).nd_relative_per_link y T hT
  have e6 : ∀ x T, (fjc_modified_canonical_gibbs N ℓ m K).nd_energy_per_link x T =
      (fjc_modified_canonical_helmholtz N ℓ m K).nd_energy_per_link x T -
        0.5 * (N : ℝ) * ndStiffness K ℓ T * Elem.powi x 2 := fun _ _ => rfl
  have e8 : ∀ x T, (fjc_modified_canonical_gibbs N ℓ m K).nd_relative_per_link x T =
      (fjc_modified_canonical_helmholtz N ℓ m K).nd_relative_per_link x T -
        0.5 * (N : ℝ) * ndStiffness K ℓ T * Elem.powi x 2 := fun _ _ => rfl
  rw [e6, e6, e8, h]
  simp only [elem_powi, zpow_ofNat]
  norm_num
  ring

example : (fjc_modified_canonical_gibbs 8 1 1 500).nd_relative_per_link 1e-6 300 < 0 := by
  rw [C16_reference_fjc_modified_canonical_gibbs 8 1 1 500 (by norm_num) (by norm_num)]
  have := ndStiffness_pos (k := 500) (ℓ := 1) (T := 300) (by norm_num) (by norm_num) (by norm_num)
  norm_num
  linarith

/-- C16: the strong-potential approximation. -/
theorem C16_reference_fjc_strong_potential_helmholtz (N : ℕ) (ℓ m K : ℝ) (hN2 : 2 ≤ N) (hN : N ≤ 26) (hℓ : 0 < ℓ) :
    (fjc_strong_potential_helmholtz N ℓ m K).RelativeToOn (ndLength N ℓ) 1e-6 fun d _ => 0 < d ∧ d < 1 := by
  have h0 := zero_pos'
  have h1 : (ZERO : ℝ) < 1 := by rw [zero_eq]; norm_num
  have hr : ∀ T, ndLength N ℓ (ZERO * N * ℓ) T = ZERO := fun T => ndLength_ref (by omega) hℓ _ T
  have href : ∀ x₀ T, ndLength N ℓ x₀ T = 1e-6 → ndLength N ℓ x₀ T = ZERO := fun x₀ T h => by rw [h, zero_eq]
  refine ⟨?_, ?_, ?_, ?_⟩
  · intro x x₀ T hT hx hx₀
    rw [sp_relative, sp_energy, sp_energy, hr, href _ _ hx₀]
    simp only [lit_1_0]
    rw [sp_nd_eq hN2 hN hℓ _ T hx.1 hx.2, sp_nd_eq hN2 hN hℓ _ T h0 h1, sp_nd_eq hN2 hN hℓ m T hx.1 hx.2,
      sp_nd_eq hN2 hN hℓ m T h0 h1]; ring
  · intro x x₀ T hT hx hx₀
    rw [sp_relative_per_link, sp_energy_per_link, sp_energy_per_link, hr, href _ _ hx₀]
    simp only [lit_1_0]
    rw [sp_nd_eq hN2 hN hℓ _ T hx.1 hx.2, sp_nd_eq hN2 hN hℓ _ T h0 h1, sp_nd_eq hN2 hN hℓ m T hx.1 hx.2,
      sp_nd_eq hN2 hN hℓ m T h0 h1]; ring
  · intro y T hT hx
    rw [sp_nd_relative, sp_nd_energy, sp_nd_energy, ← zero_eq]
    simp only [lit_1_0, lit_300_0]
    rw [sp_nd_eq hN2 hN hℓ m T hx.1 hx.2, sp_nd_eq hN2 hN hℓ m T h0 h1]; ring
  · intro y T hT hx
    rw [sp_nd_relative_per_link, sp_nd_energy_per_link, sp_nd_energy_per_link, ← zero_eq]
    simp only [lit_1_0, lit_300_0]
    rw [sp_nd_eq hN2 hN hℓ m T hx.1 hx.2, sp_nd_eq hN2 hN hℓ m T h0 h1]; ring

example : (fjc_strong_potential_helmholtz 8 1 1 500).RelativeToOn (ndLength 8 1) 1e-6 fun d _ => 0 < d ∧ d < 1 :=
  C16_reference_fjc_strong_potential_helmholtz 8 1 1 500 (by norm_num) (by norm_num) (by norm_num)

/-- C16: it does not depend on the hinge mass. -/
theorem C16_mass_fjc_strong_potential_helmholtz (N : ℕ) (ℓ m m' K : ℝ) :
    (fjc_strong_potential_helmholtz N ℓ m K).SameRelative (fjc_strong_potential_helmholtz N ℓ m' K) := by
  refine ⟨?_, ?_, ?_, ?_⟩ <;> funext x T <;>
    simp only [sp_relative, sp_relative_per_link, sp_nd_relative, sp_nd_relative_per_link]

example : (fjc_strong_potential_helmholtz 8 1 1 500).SameRelative (fjc_strong_potential_helmholtz 8 1 2 500) :=
  C16_mass_fjc_strong_potential_helmholtz 8 1 1 2 500

/-- C16: the weak-potential approximation. -/
theorem C16_reference_fjc_weak_potential_gibbs (N : ℕ) (ℓ m K : ℝ) (hN : 0 < N) (hℓ : 0 < ℓ) :
    (fjc_weak_potential_gibbs N ℓ m K).RelativeTo (ndLength N ℓ) 1e-6 := by
  refine .of_nd hN (C15_fjc_weak_potential_gibbs N ℓ m K hN hℓ) ?_
  intro y T hT
  have e1 : ∀ y, (fjc_weak_potential_gibbs N ℓ m K).nd_energy_per_link y T =
    fjc.thermodynamics.modified_canonical.asymptotic.weak_potential.nondimensional_gibbs_free_energy_per_link N ℓ m y
      (ndStiffness K ℓ T) T := fun _ => rfl
  have e2 : (fjc_weak_potential_gibbs N ℓ m K).nd_relative_per_link y T =
    fjc.thermodynamics.modified_canonical.asymptotic.weak_potential.nondimensional_relative_gibbs_free_energy_per_link N y
      (ndStiffness K ℓ T) := rfl
  rw [e1, e1, e2]
  simp only [fjc.thermodynamics.modified_canonical.asymptotic.weak_potential.nondimensional_gibbs_free_energy_per_link,
    fjc.thermodynamics.modified_canonical.asymptotic.weak_potential.nondimensional_relative_gibbs_free_energy_per_link,
    zero_eq, model_real]
  ring

example : (fjc_weak_potential_gibbs 8 1 1 500).RelativeTo (ndLength 8 1) 1e-6 :=
  C16_reference_fjc_weak_potential_gibbs 8 1 1 500 (by norm_num) (by norm_num)

/-- C16: it does not depend on the hinge mass. -/
theorem C16_mass_fjc_weak_potential_gibbs (N : ℕ) (ℓ m m' K : ℝ) :
    (fjc_weak_potential_gibbs N ℓ m K).SameRelative (fjc_weak_potential_gibbs N ℓ m' K) := ⟨rfl, rfl, rfl, rfl⟩

example : (fjc_weak_potential_gibbs 8 1 1 500).SameRelative (fjc_weak_potential_gibbs 8 1 2 500) :=
  C16_mass_fjc_weak_potential_gibbs 8 1 1 2 500

/-! ### C20: the numerically integrated ensemble -/

/-- Minus the logarithm of the weight of the chain extension in the potential. -/
noncomputable def potentialU (N : ℕ) (c γ : ℝ) : ℝ :=
  c / 2 * γ ^ 2 - Real.log (2 * Real.pi * fjc.thermodynamics.treloar_sum_0_with_prefactor N γ)

theorem exp_potentialU {N : ℕ} (hN2 : 2 ≤ N) (hN : N ≤ 26) {γ : ℝ} (h0 : 0 < γ) (h1 : γ < 1) (c : ℝ) :
    Real.exp (-potentialU N c γ) =
      2 * Real.pi * fjc.thermodynamics.treloar_sum_0_with_prefactor N γ * Real.exp (-(c / 2 * γ ^ 2)) := by
  have := treloar_density_pos hN2 hN h0 h1
  have hpi := Real.pi_pos
  unfold potentialU
  rw [neg_sub, sub_eq_add_neg, Real.exp_add, Real.exp_log (by positivity)]

theorem potential_exp (c d γ : ℝ) :
    Real.exp (-(1 / 2) * c * (d - γ) ^ 2) = Real.exp (-(c / 2 * d ^ 2)) * Real.exp (-(c / 2 * γ ^ 2)) * Real.exp (c * d * γ) ∧
    Real.exp (-(1 / 2) * c * (d + γ) ^ 2) =
      Real.exp (-(c / 2 * d ^ 2)) * Real.exp (-(c / 2 * γ ^ 2)) * Real.exp (-(c * d * γ)) := by
  constructor <;> rw [← Real.exp_add, ← Real.exp_add] <;> congr 1 <;> ring

theorem potential_integrand {N : ℕ} (hN2 : 2 ≤ N) (hN : N ≤ 26) {c d γ : ℝ} (hc : 0 < c) (hd : 0 < d) (h0 : 0 < γ)
    (h1 : γ < 1) :
    4 * Real.pi * γ ^ 2 * fjc.thermodynamics.treloar_sum_0_with_prefactor N γ *
      (Real.exp (-(1 / 2) * c * (d - γ) ^ 2) - Real.exp (-(1 / 2) * c * (d + γ) ^ 2)) / (2 * c * d * γ) =
    Real.exp (-(c / 2 * d ^ 2)) * linkWeight (potentialU N c) (c * d) γ := by
  rw [linkWeight, exp_potentialU hN2 hN h0 h1, (potential_exp c d γ).1, (potential_exp c d γ).2, Real.sinh_eq]
  field_simp
  ring

theorem potential_integrand' {N : ℕ} (hN2 : 2 ≤ N) (hN : N ≤ 26) {c d γ : ℝ} (hc : 0 < c) (hd : 0 < d) (h0 : 0 < γ)
    (h1 : γ < 1) :
    4 * Real.pi * γ ^ 2 * fjc.thermodynamics.treloar_sum_0_with_prefactor N γ *
      ((c * (d - γ) * Real.exp (-(1 / 2) * c * (d - γ) ^ 2) - c * (d + γ) * Real.exp (-(1 / 2) * c * (d + γ) ^ 2)) /
        (2 * c * d * γ) +
      (Real.exp (-(1 / 2) * c * (d - γ) ^ 2) - Real.exp (-(1 / 2) * c * (d + γ) ^ 2)) / (2 * c * d ^ 2 * γ)) =
    Real.exp (-(c / 2 * d ^ 2)) *
      (c * d * linkWeight (potentialU N c) (c * d) γ + -(c * linkWeight' (potentialU N c) (c * d) γ)) := by
  rw [linkWeight, linkWeight', exp_potentialU hN2 hN h0 h1, (potential_exp c d γ).1, (potential_exp c d γ).2,
    Real.sinh_eq, Real.cosh_eq]
  field_simp
  ring

theorem one_eq' : (ONE : ℝ) = 1 := by simp only [ONE, model_real]

theorem zero_lt_one_grid : (ZERO : ℝ) < (ONE : ℝ) := by rw [one_eq', zero_eq]; norm_num

theorem integrate_1d_add (f g : ℝ → ℝ) (a b : ℝ) (n : ℕ) :
    math.integrate_1d (fun x => f x + g x) a b n = math.integrate_1d f a b n + math.integrate_1d g a b n := by
  rw [math.integrate_1d_eq_sum, math.integrate_1d_eq_sum, math.integrate_1d_eq_sum, Finset.sum_add_distrib]; ring

section
variable {N : ℕ} (hN2 : 2 ≤ N) (hN : N ≤ 26) {d κ : ℝ} (hd : 0 < d) (hκ : 0 < κ)
include hN2 hN hd hκ

theorem mc_core_energy (ℓ m T : ℝ) :
    fjc.thermodynamics.modified_canonical.nondimensional_helmholtz_free_energy N ℓ m d κ T =
      -(-((N : ℝ) ^ 2 * κ / 2 * d ^ 2) +
        Real.log (linkZ (potentialU N ((N : ℝ) ^ 2 * κ)) ZERO ONE POINTS ((N : ℝ) ^ 2 * κ * d))) -
      ((N : ℝ) - 1) * Real.log (8 * Real.pi ^ 2 * m * ℓ ^ 2 * BOLTZMANN_CONSTANT * T / PLANCK_CONSTANT ^ 2) := by
  have hN0 : (0 : ℝ) < N := by positivity
  have hc : (0 : ℝ) < (N : ℝ) ^ 2 * κ := by positivity
  simp only [fjc.thermodynamics.modified_canonical.nondimensional_helmholtz_free_energy, model_real]
  congr 2
  rw [math.integrate_1d_congr (g := fun γ => Real.exp (-((N : ℝ) ^ 2 * κ / 2 * d ^ 2)) *
    linkWeight (potentialU N ((N : ℝ) ^ 2 * κ)) ((N : ℝ) ^ 2 * κ * d) γ) zero_lt_one_grid, math.integrate_1d_const_mul]
  · have h := linkZ_pos (U := potentialU N ((N : ℝ) ^ 2 * κ)) (n := POINTS) zero_pos'.le zero_lt_one_grid (by decide)
      (mul_pos hc hd)
    rw [linkZ] at h
    rw [Real.log_mul (Real.exp_pos _).ne' h.ne', Real.log_exp, linkZ]
  · intro γ hγ
    rw [one_eq'] at hγ
    rw [← potential_integrand hN2 hN hc hd (zero_pos'.trans hγ.1) hγ.2]

theorem mc_core_force :
    fjc.thermodynamics.modified_canonical.nondimensional_force N d κ =
      N * κ * (d - linkGamma (potentialU N ((N : ℝ) ^ 2 * κ)) ZERO ONE POINTS ((N : ℝ) ^ 2 * κ * d)) := by
  have hN0 : (0 : ℝ) < N := by positivity
  have hc : (0 : ℝ) < (N : ℝ) ^ 2 * κ := by positivity
  simp only [fjc.thermodynamics.modified_canonical.nondimensional_force, model_real]
  rw [math.integrate_1d_congr (g := fun γ => Real.exp (-((N : ℝ) ^ 2 * κ / 2 * d ^ 2)) *
      linkWeight (potentialU N ((N : ℝ) ^ 2 * κ)) ((N : ℝ) ^ 2 * κ * d) γ) (f := fun γ => _ / _) zero_lt_one_grid,
    math.integrate_1d_congr (g := fun γ => Real.exp (-((N : ℝ) ^ 2 * κ / 2 * d ^ 2)) *
      ((N : ℝ) ^ 2 * κ * d * linkWeight (potentialU N ((N : ℝ) ^ 2 * κ)) ((N : ℝ) ^ 2 * κ * d) γ +
        -((N : ℝ) ^ 2 * κ * linkWeight' (potentialU N ((N : ℝ) ^ 2 * κ)) ((N : ℝ) ^ 2 * κ * d) γ))) zero_lt_one_grid,
    math.integrate_1d_const_mul, math.integrate_1d_const_mul, integrate_1d_add, math.integrate_1d_neg,
    math.integrate_1d_const_mul, math.integrate_1d_const_mul]
  · have h := linkZ_pos (U := potentialU N ((N : ℝ) ^ 2 * κ)) (n := POINTS) zero_pos'.le zero_lt_one_grid (by decide)
      (mul_pos hc hd)
    have he := (Real.exp_pos (-((N : ℝ) ^ 2 * κ / 2 * d ^ 2))).ne'
    rw [linkGamma]
    change _ * (_ * linkZ (potentialU N ((N : ℝ) ^ 2 * κ)) ZERO ONE POINTS ((N : ℝ) ^ 2 * κ * d) + _) /
      (_ * linkZ (potentialU N ((N : ℝ) ^ 2 * κ)) ZERO ONE POINTS ((N : ℝ) ^ 2 * κ * d)) / _ = _
    have := h.ne'
    field_simp
    ring
  · intro γ hγ
    rw [one_eq'] at hγ
    rw [← potential_integrand' hN2 hN hc hd (zero_pos'.trans hγ.1) hγ.2]
  · intro γ hγ
    rw [one_eq'] at hγ
    rw [← potential_integrand hN2 hN hc hd (zero_pos'.trans hγ.1) hγ.2]

theorem mc_core_length (ℓ m K T : ℝ) (hK : ndStiffness K ℓ T = κ) :
    (fjc_modified_canonical_lengths N ℓ m K).nd_length_per_link d T =
      linkGamma (potentialU N ((N : ℝ) ^ 2 * κ)) ZERO ONE POINTS ((N : ℝ) ^ 2 * κ * d) := by
  have hN0 : (0 : ℝ) < N := by positivity
  have e4 : (fjc_modified_canonical_lengths N ℓ m K).nd_length_per_link d T =
      d - fjc.thermodynamics.modified_canonical.nondimensional_force N d (ndStiffness K ℓ T) / ndStiffness K ℓ T / N := rfl
  rw [e4, hK, mc_core_force hN2 hN hd hκ]
  field_simp
  ring
end

/-- C20: the Helmholtz free energy is minus the logarithm of the discretised partition function of the exact radial
distribution in the potential. -/
theorem C20_partition (N : ℕ) (ℓ m K : ℝ) (hN2 : 2 ≤ N) (hN : N ≤ 26) (hℓ : 0 < ℓ) (hK : 0 < K) {d T : ℝ} (hT : 0 < T)
    (hd : 0 < d) :
    (fjc_modified_canonical_helmholtz N ℓ m K).nd_energy d T =
      -Real.log (midpointSum (potentialWeight (fjc_isometric_distribution N ℓ m).nd_radial
        ((N : ℝ) ^ 2 * ndStiffness K ℓ T) d) 1e-6 1 64) -
      ((N : ℝ) - 1) * Real.log (8 * Real.pi ^ 2 * m * ℓ ^ 2 * BOLTZMANN_CONSTANT * T / PLANCK_CONSTANT ^ 2) := by
  have hκ := ndStiffness_pos hK hℓ hT
  have hN0 : (0 : ℝ) < N := by positivity
  have hc : (0 : ℝ) < (N : ℝ) ^ 2 * ndStiffness K ℓ T := by positivity
  rw [← integrate_1d_eq_midpointSum]
  rw [mc_nd_energy]
  simp only [fjc.thermodynamics.modified_canonical.nondimensional_helmholtz_free_energy, model_real]
  congr 3
  rw [one_eq', zero_eq, lit_1em6]
  refine math.integrate_1d_congr (by norm_num) fun γ hγ => ?_
  have h0 : 0 < γ := lt_trans (by norm_num) hγ.1
  have e : (fjc_isometric_distribution N ℓ m).nd_radial γ =
      4 * Real.pi * γ ^ 2 * fjc.thermodynamics.treloar_sum_0_with_prefactor N γ := by
    have e1 : (fjc_isometric_distribution N ℓ m).nd_radial γ =
      fjc.thermodynamics.isometric.nondimensional_equilibrium_radial_distribution N γ := rfl
    rw [e1]
    simp only [fjc.thermodynamics.isometric.nondimensional_equilibrium_radial_distribution,
      fjc.thermodynamics.isometric.nondimensional_equilibrium_distribution, model_real]
  rw [potentialWeight, e, (potential_exp _ d γ).1, (potential_exp _ d γ).2, Real.sinh_eq]
  have e2 : Real.exp (-((N : ℝ) ^ 2 * ndStiffness K ℓ T * (d ^ 2 + γ ^ 2) / 2)) =
      Real.exp (-((N : ℝ) ^ 2 * ndStiffness K ℓ T / 2 * d ^ 2)) *
        Real.exp (-((N : ℝ) ^ 2 * ndStiffness K ℓ T / 2 * γ ^ 2)) := by
    rw [← Real.exp_add]; congr 1; ring
  rw [e2]
  field_simp

example : (fjc_modified_canonical_helmholtz 8 1 1 500).nd_energy (1 / 2) 300 =
      -Real.log (midpointSum (potentialWeight (fjc_isometric_distribution 8 1 1).nd_radial
        (((8 : ℕ) : ℝ) ^ 2 * ndStiffness 500 1 300) (1 / 2)) 1e-6 1 64) -
      (((8 : ℕ) : ℝ) - 1) * Real.log (8 * Real.pi ^ 2 * 1 * 1 ^ 2 * BOLTZMANN_CONSTANT * 300 / PLANCK_CONSTANT ^ 2) :=
  C20_partition 8 1 1 500 (by norm_num) (by norm_num) (by norm_num) (by norm_num) (by norm_num) (by norm_num)

/-- C20: the force is the gradient of the Helmholtz free energy in the potential distance. -/
theorem C20_force_is_gradient (N : ℕ) (ℓ m K : ℝ) (hN2 : 2 ≤ N) (hN : N ≤ 26) (hℓ : 0 < ℓ) (hK : 0 < K) :
    (fjc_modified_canonical_forces N ℓ m K).IsGradient (fjc_modified_canonical_helmholtz N ℓ m K) N ℓ
      (fun d _ => 0 < d) := by
  refine .of_nd (by omega) (C15_fjc_modified_canonical_helmholtz N ℓ m K (by omega))
    (C15_fjc_modified_canonical_forces N ℓ m K) ?_
  intro d T hT hd
  have hκ := ndStiffness_pos hK hℓ hT
  have hN0 : (0 : ℝ) < N := by positivity
  have hc : (0 : ℝ) < (N : ℝ) ^ 2 * ndStiffness K ℓ T := by positivity
  rw [mc_nd_force, mc_core_force hN2 hN hd hκ]
  have h1 := (hasDerivAt_log_linkZ (U := potentialU N ((N : ℝ) ^ 2 * ndStiffness K ℓ T)) (n := POINTS) zero_pos'.le
    zero_lt_one_grid (by decide) (mul_pos hc hd)).comp d ((hasDerivAt_id d).const_mul ((N : ℝ) ^ 2 * ndStiffness K ℓ T))
  have h2 := (((((hasDerivAt_pow 2 d).const_mul ((N : ℝ) ^ 2 * ndStiffness K ℓ T / 2)).neg.add h1).neg).sub_const
    (((N : ℝ) - 1) * Real.log (8 * Real.pi ^ 2 * m * ℓ ^ 2 * BOLTZMANN_CONSTANT * T / PLANCK_CONSTANT ^ 2))).div_const (N : ℝ)
  refine (h2.congr_of_eventuallyEq ?_).congr_deriv ?_
  · filter_upwards [lt_mem_nhds hd] with y hy
    rw [mc_nd_energy_per_link, mc_core_energy hN2 hN hy hκ]
    rfl
  · field_simp
    ring

example : (fjc_modified_canonical_forces 8 1 1 500).IsGradient (fjc_modified_canonical_helmholtz 8 1 1 500) 8 1
    (fun d _ => 0 < d) :=
  C20_force_is_gradient 8 1 1 500 (by norm_num) (by norm_num) (by norm_num) (by norm_num)

/-- C20: the force is the one the potential exerts at the expected length. -/
theorem C20_force_balance (N : ℕ) (ℓ m K : ℝ) (hN : 0 < N) (hK : K ≠ 0) (x T : ℝ) :
    (fjc_modified_canonical_forces N ℓ m K).force x T = K * (x - (fjc_modified_canonical_lengths N ℓ m K).length x T) ∧
    (fjc_modified_canonical_lengths N ℓ m K).length x T = N * (fjc_modified_canonical_lengths N ℓ m K).length_per_link x T := by
  have hN' := ((Nat.cast_pos (α := ℝ)).2 hN).ne'
  have e1 : (fjc_modified_canonical_lengths N ℓ m K).length x T =
      x - (fjc_modified_canonical_forces N ℓ m K).force x T / K := rfl
  have e2 : (fjc_modified_canonical_lengths N ℓ m K).length_per_link x T =
      (x - (fjc_modified_canonical_forces N ℓ m K).force x T / K) / N := rfl
  rw [e2, e1]
  constructor <;> field_simp
  ring

example : (fjc_modified_canonical_forces 8 1 1 500).force 4 300 =
    500 * (4 - (fjc_modified_canonical_lengths 8 1 1 500).length 4 300) :=
  (C20_force_balance 8 1 1 500 (by norm_num) (by norm_num) 4 300).1

/-- C20: the expected extension per link lies strictly between zero and one. -/
theorem C20_length_bounds (N : ℕ) (ℓ m K : ℝ) (hN2 : 2 ≤ N) (hN : N ≤ 26) (hℓ : 0 < ℓ) (hK : 0 < K) {d T : ℝ} (hT : 0 < T)
    (hd : 0 < d) :
    0 < (fjc_modified_canonical_lengths N ℓ m K).nd_length_per_link d T ∧
      (fjc_modified_canonical_lengths N ℓ m K).nd_length_per_link d T < 1 := by
  have hκ := ndStiffness_pos hK hℓ hT
  have hN0 : (0 : ℝ) < N := by positivity
  have hc : (0 : ℝ) < (N : ℝ) ^ 2 * ndStiffness K ℓ T := by positivity
  have hlen := mc_core_length hN2 hN hd hκ ℓ m K T rfl
  rw [hlen]
  refine ⟨linkGamma_pos zero_pos'.le zero_lt_one_grid (by decide) (mul_pos hc hd), ?_⟩
  have := linkGamma_lt (U := potentialU N ((N : ℝ) ^ 2 * ndStiffness K ℓ T)) (n := POINTS) zero_pos'.le zero_lt_one_grid
    (by decide) (mul_pos hc hd)
  exact this.trans_eq one_eq'

example : (fjc_modified_canonical_lengths 8 1 1 500).nd_length_per_link 3 300 < 1 :=
  (C20_length_bounds 8 1 1 500 (by norm_num) (by norm_num) (by norm_num) (by norm_num) (by norm_num) (by norm_num)).2

/-- C20: the expected extension per link is strictly increasing in the potential distance. -/
theorem C20_length_strictMono (N : ℕ) (ℓ m K : ℝ) (hN2 : 2 ≤ N) (hN : N ≤ 26) (hℓ : 0 < ℓ) (hK : 0 < K) {T : ℝ}
    (hT : 0 < T) :
    StrictMonoOn (fun d => (fjc_modified_canonical_lengths N ℓ m K).nd_length_per_link d T) (Ioi 0) := by
  have hκ := ndStiffness_pos hK hℓ hT
  have hN0 : (0 : ℝ) < N := by positivity
  have hc : (0 : ℝ) < (N : ℝ) ^ 2 * ndStiffness K ℓ T := by positivity
  intro d hd d' hd' h
  simp only
  rw [mc_core_length hN2 hN hd hκ ℓ m K T rfl, mc_core_length hN2 hN hd' hκ ℓ m K T rfl]
  exact linkGamma_strictMonoOn zero_pos'.le zero_lt_one_grid (by decide) (mul_pos hc hd) (mul_pos hc hd')
    (mul_lt_mul_of_pos_left h hc)

example : (fjc_modified_canonical_lengths 8 1 1 500).nd_length_per_link (1 / 2) 300 <
    (fjc_modified_canonical_lengths 8 1 1 500).nd_length_per_link (3 / 4) 300 :=
  C20_length_strictMono 8 1 1 500 (by norm_num) (by norm_num) (by norm_num) (by norm_num) (by norm_num)
    (by norm_num : (0 : ℝ) < 1 / 2) (by norm_num : (0 : ℝ) < 3 / 4) (by norm_num)

end Polymers.Props
