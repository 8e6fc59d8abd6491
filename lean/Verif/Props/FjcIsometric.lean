import Verif.Spec.Domain
import Verif.Spec.Api
import Verif.Lemmas.Treloar
import Verif.Lemmas.Gradient
import Mathlib.Analysis.SpecialFunctions.Log.Deriv
import Verif.Props.ScalingFjc

/-! C16, C17 and C19 for the exact isometric ensemble of the freely jointed chain. -/

namespace Polymers.Props

open Polymers.Spec Polymers.Api Polymers.Lemmas Set Filter Topology

theorem relativeToOn_of_nd {e : EnergyMethods} {N : ℕ} {nd : ℝ → ℝ → ℝ} {ref : ℝ} {D : ℝ → ℝ → Prop}
    (h : e.Scales N nd)
    (h1 : ∀ y T, 0 < T → D y T → e.nd_relative_per_link y T = e.nd_energy_per_link y T - e.nd_energy_per_link ref T) :
    e.RelativeToOn nd ref D := by
  have h2 : ∀ y T, 0 < T → D y T → e.nd_relative y T = e.nd_energy y T - e.nd_energy ref T := by
    intro y T hT hD
    rw [h.nd_relative_total y T hT, h.nd_total y T hT, h.nd_total ref T hT, h1 y T hT hD]; ring
  refine ⟨?_, ?_, h2, h1⟩
  · intro x x₀ T hT hD h0
    rw [h.relative x T hT, h.energy x T hT, h.energy x₀ T hT, h0, h2 _ T hT hD]; ring
  · intro x x₀ T hT hD h0
    rw [h.relative_per_link x T hT, h.energy_per_link x T hT, h.energy_per_link x₀ T hT, h0, h1 _ T hT hD]; ring

/-- The numerical factor of the density. -/
noncomputable def treloarFactor (N : ℕ) : ℝ := (N : ℝ) ^ N / ((N - 2).factorial : ℝ) / (8 * Real.pi)

theorem treloarFactor_pos {N : ℕ} (hN : 0 < N) : 0 < treloarFactor N := by
  unfold treloarFactor
  have : (0 : ℝ) < N := by exact_mod_cast hN
  have h2 : (0 : ℝ) < ((N - 2).factorial : ℝ) := by exact_mod_cast Nat.factorial_pos _
  have := Real.pi_pos
  positivity

theorem treloar_density_eq {N : ℕ} (hN2 : 2 ≤ N) (hN : N ≤ 26) (γ : ℝ) :
    fjc.thermodynamics.treloar_sum_0_with_prefactor N γ =
      treloarFactor N * (fjc.thermodynamics.treloar_sum N γ ((N : ℤ) - 2) / γ) := by
  unfold fjc.thermodynamics.treloar_sum_0_with_prefactor
  rw [if_neg (by omega), fjc.thermodynamics.pow_u128, if_pos (pow_self_lt hN), product_u128_eq,
    if_pos (factorial_lt (by omega))]
  simp only [model_real]
  unfold treloarFactor
  push_cast
  ring

theorem treloar_density_pos {N : ℕ} (hN2 : 2 ≤ N) (hN : N ≤ 26) {γ : ℝ} (h0 : 0 < γ) (h1 : γ < 1) :
    0 < fjc.thermodynamics.treloar_sum_0_with_prefactor N γ := by
  rw [treloar_density_eq hN2 hN]
  exact mul_pos (treloarFactor_pos (by omega)) (div_pos (treloar_sum_pos hN2 (by omega) h0 h1) h0)

theorem fjc_isometric_nd_energy {N : ℕ} (hN2 : 2 ≤ N) (ℓ m : ℝ) (hℓ : 0 < ℓ) {γ : ℝ} (T : ℝ) :
    (fjc_isometric_helmholtz N ℓ m).nd_energy_per_link γ T =
      (-Real.log (fjc.thermodynamics.treloar_sum_0_with_prefactor N γ / (N * ℓ) ^ 3) -
        ((N : ℝ) - 1) * Real.log (8 * Real.pi ^ 2 * m * ℓ ^ 2 * (BOLTZMANN_CONSTANT : ℝ) * T /
          (PLANCK_CONSTANT : ℝ) ^ 2)) / N := by
  have hN' : (N : ℝ) ≠ 0 := by positivity
  have e : γ * (N : ℝ) * ℓ / (N * ℓ) = γ := by field_simp
  simp only [fjc_isometric_helmholtz, fjc.FJC.init, fjc.thermodynamics.FJC.init,
    fjc.thermodynamics.isometric.FJC.init,
    fjc.thermodynamics.isometric.FJC.nondimensional_helmholtz_free_energy_per_link,
    fjc.thermodynamics.isometric.nondimensional_helmholtz_free_energy_per_link,
    fjc.thermodynamics.isometric.nondimensional_helmholtz_free_energy,
    fjc.thermodynamics.isometric.equilibrium_distribution,
    fjc.thermodynamics.isometric.nondimensional_equilibrium_distribution, model_real, e]

theorem fjc_isometric_nd_force {N : ℕ} (hN2 : 2 ≤ N) (ℓ m : ℝ) (γ T : ℝ) :
    (fjc_isometric_forces N ℓ m).nd_force γ T =
      (1 / γ + (N / 2 - 1) * fjc.thermodynamics.treloar_sum N γ ((N : ℤ) - 2 - 1) /
        fjc.thermodynamics.treloar_sum N γ ((N : ℤ) - 2)) / N := by
  simp only [fjc_isometric_forces, fjc.FJC.init, fjc.thermodynamics.FJC.init,
    fjc.thermodynamics.isometric.FJC.init, fjc.thermodynamics.isometric.FJC.nondimensional_force,
    fjc.thermodynamics.isometric.nondimensional_force, treloar_sums_eq hN2, List.map_cons, List.map_nil,
    List.getD_cons_succ, List.getD_cons_zero, sub_zero]
  simp only [model_real]
  ring

/-- The extensions at which the exact isometric functions of the freely jointed chain are differentiable: strictly
between 0 and 1, and not the kink of the density of three links at one third. -/
def FjcExtension (N : ℕ) (γ _T : ℝ) : Prop := 0 < γ ∧ γ < 1 ∧ (N = 3 → γ ≠ 1 / 3)

/-- C17: the force of the exact isometric ensemble is the gradient of the Helmholtz free energy. -/
theorem C17_fjc_isometric (N : ℕ) (ℓ m : ℝ) (hN2 : 2 ≤ N) (hN : N ≤ 26) (hℓ : 0 < ℓ) :
    (fjc_isometric_forces N ℓ m).IsGradient (fjc_isometric_helmholtz N ℓ m) N ℓ (FjcExtension N) := by
  refine .of_nd (by omega) (C15_fjc_isometric_helmholtz N ℓ m (by omega) hℓ)
    (C15_fjc_isometric_forces N ℓ m (by omega) hℓ) ?_
  rintro γ T hT ⟨h0, h1, h3⟩
  have hN' : (N : ℝ) ≠ 0 := by positivity
  rw [fjc_isometric_nd_force hN2]
  refine HasDerivAt.congr_of_eventuallyEq (f := _) ?_
    (Eventually.of_forall fun γ => fjc_isometric_nd_energy hN2 ℓ m hℓ T)
  have hS := treloar_sum_pos hN2 (by omega : N ≤ 34) h0 h1
  have hC : treloarFactor N / (N * ℓ) ^ 3 ≠ 0 :=
    (div_pos (treloarFactor_pos (by omega)) (by positivity)).ne'
  have hd := (((hasDerivAt_treloar hN2 (by omega : N ≤ 34) h0 h1 h3).div (hasDerivAt_id γ) h0.ne').const_mul
    (treloarFactor N / (N * ℓ) ^ 3)).log (mul_ne_zero hC (div_pos hS h0).ne')
  refine hasDerivAt_of_eq ((hd.neg.sub_const (((N : ℝ) - 1) * Real.log (8 * Real.pi ^ 2 * m * ℓ ^ 2 *
    (BOLTZMANN_CONSTANT : ℝ) * T / (PLANCK_CONSTANT : ℝ) ^ 2))).div_const (N : ℝ)) (fun y => ?_) ?_
  · rw [treloar_density_eq hN2 hN]
    simp only [Pi.div_apply, id]
    congr 4
    ring
  · simp only [Pi.div_apply, id]
    have := h0.ne'
    have := hS.ne'
    have := (treloarFactor_pos (by omega : 0 < N)).ne'
    field_simp
    ring

example : (fjc_isometric_forces 8 1 1).IsGradient (fjc_isometric_helmholtz 8 1 1) 8 1 (FjcExtension 8) :=
  C17_fjc_isometric 8 1 1 (by norm_num) (by norm_num) (by norm_num)

example : FjcExtension 8 (1 / 2) 300 := ⟨by norm_num, by norm_num, by norm_num⟩

/-- C19: the Gibbs free energy of the isometric Legendre approximation is the exact Helmholtz free energy minus the
exact force times the length. -/
theorem C19_fjc_isometric_legendre (N : ℕ) (ℓ m : ℝ) (hN2 : 2 ≤ N) (hN : N ≤ 26) (hℓ : 0 < ℓ) :
    (fjc_isometric_legendre_gibbs N ℓ m).IsLegendreInLength (fjc_isometric_helmholtz N ℓ m)
      (fjc_isometric_forces N ℓ m) N ℓ fun _ _ => True := by
  refine .of_nd (by omega) hℓ (C15_fjc_isometric_legendre_gibbs N ℓ m (by omega) hℓ)
    (C15_fjc_isometric_helmholtz N ℓ m (by omega) hℓ) (C15_fjc_isometric_forces N ℓ m (by omega) hℓ) ?_
  intro γ T hT _
  have hN' : (N : ℝ) ≠ 0 := by positivity
  rw [fjc_isometric_nd_force hN2, fjc_isometric_nd_energy hN2 ℓ m hℓ]
  simp only [fjc_isometric_legendre_gibbs, fjc.FJC.init, fjc.thermodynamics.FJC.init,
    fjc.thermodynamics.isometric.FJC.init, fjc.thermodynamics.isometric.legendre.FJC.init,
    fjc.thermodynamics.isometric.legendre.FJC.nondimensional_gibbs_free_energy_per_link,
    fjc.thermodynamics.isometric.legendre.nondimensional_gibbs_free_energy_per_link,
    fjc.thermodynamics.isometric.legendre.nondimensional_gibbs_free_energy,
    treloar_sums_eq hN2, List.map_cons, List.map_nil,
    List.getD_cons_succ, List.getD_cons_zero, sub_zero]
  simp only [model_real]
  field_simp
  ring

example : (fjc_isometric_legendre_gibbs 8 1 1).IsLegendreInLength (fjc_isometric_helmholtz 8 1 1)
    (fjc_isometric_forces 8 1 1) 8 1 fun _ _ => True :=
  C19_fjc_isometric_legendre 8 1 1 (by norm_num) (by norm_num) (by norm_num)

theorem fjc_zero_mem : 0 < (ZERO : ℝ) ∧ (ZERO : ℝ) < 1 := by
  simp only [ZERO, model_real]
  norm_num

/-- C16: the relative Helmholtz free energy of the exact isometric ensemble is relative to the extension `ZERO`. -/
theorem C16_reference_fjc_isometric_helmholtz (N : ℕ) (ℓ m : ℝ) (hN2 : 2 ≤ N) (hN : N ≤ 26) (hℓ : 0 < ℓ) :
    (fjc_isometric_helmholtz N ℓ m).RelativeToOn (ndLength N ℓ) (ZERO : ℝ) fun γ _ => 0 < γ ∧ γ < 1 := by
  refine relativeToOn_of_nd (C15_fjc_isometric_helmholtz N ℓ m (by omega) hℓ) ?_
  rintro γ T hT ⟨h0, h1⟩
  have hN' : (0 : ℝ) < N := by positivity
  rw [fjc_isometric_nd_energy hN2 ℓ m hℓ, fjc_isometric_nd_energy hN2 ℓ m hℓ]
  simp only [fjc_isometric_helmholtz, fjc.FJC.init, fjc.thermodynamics.FJC.init,
    fjc.thermodynamics.isometric.FJC.init,
    fjc.thermodynamics.isometric.FJC.nondimensional_relative_helmholtz_free_energy_per_link,
    fjc.thermodynamics.isometric.nondimensional_relative_helmholtz_free_energy_per_link,
    fjc.thermodynamics.isometric.nondimensional_relative_helmholtz_free_energy,
    fjc.thermodynamics.isometric.nondimensional_equilibrium_distribution]
  have hA := (treloar_density_pos hN2 hN h0 h1).ne'
  have hB := (treloar_density_pos hN2 hN fjc_zero_mem.1 fjc_zero_mem.2).ne'
  have hc : ((N : ℝ) * ℓ) ^ 3 ≠ 0 := by positivity
  simp only [elem_ln]
  rw [Real.log_div hB hA, Real.log_div hB hc, Real.log_div hA hc]
  field_simp
  ring

example : (fjc_isometric_helmholtz 8 1 1).RelativeToOn (ndLength 8 1) (ZERO : ℝ) fun γ _ => 0 < γ ∧ γ < 1 :=
  C16_reference_fjc_isometric_helmholtz 8 1 1 (by norm_num) (by norm_num) (by norm_num)

/-- C16: the relative Gibbs free energy of the isometric Legendre approximation is relative to the extension
`ZERO`. -/
theorem C16_reference_fjc_isometric_legendre_gibbs (N : ℕ) (ℓ m : ℝ) (hN2 : 2 ≤ N) (hN : N ≤ 26) (hℓ : 0 < ℓ) :
    (fjc_isometric_legendre_gibbs N ℓ m).RelativeToOn (ndLength N ℓ) (ZERO : ℝ) fun γ _ => 0 < γ ∧ γ < 1 := by
  refine relativeToOn_of_nd (C15_fjc_isometric_legendre_gibbs N ℓ m (by omega) hℓ) ?_
  rintro γ T hT ⟨h0, h1⟩
  have hN' : (0 : ℝ) < N := by positivity
  simp only [fjc_isometric_legendre_gibbs, fjc.FJC.init, fjc.thermodynamics.FJC.init,
    fjc.thermodynamics.isometric.FJC.init, fjc.thermodynamics.isometric.legendre.FJC.init,
    fjc.thermodynamics.isometric.legendre.FJC.nondimensional_gibbs_free_energy_per_link,
    fjc.thermodynamics.isometric.legendre.FJC.nondimensional_relative_gibbs_free_energy_per_link,
    fjc.thermodynamics.isometric.legendre.nondimensional_relative_gibbs_free_energy_per_link,
    fjc.thermodynamics.isometric.legendre.nondimensional_gibbs_free_energy_per_link,
    fjc.thermodynamics.isometric.legendre.nondimensional_gibbs_free_energy]
  have hA := (treloar_density_pos hN2 hN h0 h1).ne'
  have hB := (treloar_density_pos hN2 hN fjc_zero_mem.1 fjc_zero_mem.2).ne'
  have hc : ((N : ℝ) * ℓ) ^ 3 ≠ 0 := by positivity
  have hc' : ((N : ℝ) * 1) ^ 3 ≠ 0 := by positivity
  simp only [model_real]
  rw [Real.log_div hB hc, Real.log_div hA hc, Real.log_div hB hc', Real.log_div hA hc']
  ring

example : (fjc_isometric_legendre_gibbs 8 1 1).RelativeToOn (ndLength 8 1) (ZERO : ℝ) fun γ _ => 0 < γ ∧ γ < 1 :=
  C16_reference_fjc_isometric_legendre_gibbs 8 1 1 (by norm_num) (by norm_num) (by norm_num)

end Polymers.Props
