import Verif.Spec.ApiPotential
import Verif.Lemmas.Scaling
import Verif.Lemmas.Lits
import Verif.Props.FjcIsometric

/-! Property C15 for the modified canonical ensemble of the freely jointed chain. -/

namespace Polymers.Props

open Polymers.Spec Polymers.Api

section core
variable (N : ℕ) (ℓ m K x T : ℝ)
open Polymers.fjc.thermodynamics

theorem pot_code : K * Elem.powi ℓ 2 / (BOLTZMANN_CONSTANT : ℝ) / T = ndStiffness K ℓ T := ndStiffness_code K ℓ T

theorem mc_energy : (fjc_modified_canonical_helmholtz N ℓ m K).energy x T =
    kT T * modified_canonical.nondimensional_helmholtz_free_energy N ℓ m (ndLength N ℓ x T) (ndStiffness K ℓ T) T := by
  rw [← pot_code]; rfl
theorem mc_energy_per_link : (fjc_modified_canonical_helmholtz N ℓ m K).energy_per_link x T =
    kT T * (modified_canonical.nondimensional_helmholtz_free_energy N ℓ m (ndLength N ℓ x T) (ndStiffness K ℓ T) T / N) := by
  rw [← pot_code]; rfl
theorem mc_relative : (fjc_modified_canonical_helmholtz N ℓ m K).relative x T =
    kT T * modified_canonical.nondimensional_relative_helmholtz_free_energy N (ndLength N ℓ x T) (ndStiffness K ℓ T) := by
  rw [← pot_code]; rfl
theorem mc_relative_per_link : (fjc_modified_canonical_helmholtz N ℓ m K).relative_per_link x T =
    kT T * (modified_canonical.nondimensional_relative_helmholtz_free_energy N (ndLength N ℓ x T) (ndStiffness K ℓ T) / N) := by
  rw [← pot_code]; rfl
theorem mc_nd_energy : (fjc_modified_canonical_helmholtz N ℓ m K).nd_energy x T =
    modified_canonical.nondimensional_helmholtz_free_energy N ℓ m x (ndStiffness K ℓ T) T := rfl
theorem mc_nd_energy_per_link : (fjc_modified_canonical_helmholtz N ℓ m K).nd_energy_per_link x T =
    modified_canonical.nondimensional_helmholtz_free_energy N ℓ m x (ndStiffness K ℓ T) T / N := rfl
theorem mc_nd_relative : (fjc_modified_canonical_helmholtz N ℓ m K).nd_relative x T =
    modified_canonical.nondimensional_relative_helmholtz_free_energy N x (ndStiffness K ℓ T) := rfl
theorem mc_nd_relative_per_link : (fjc_modified_canonical_helmholtz N ℓ m K).nd_relative_per_link x T =
    modified_canonical.nondimensional_relative_helmholtz_free_energy N x (ndStiffness K ℓ T) / N := rfl

theorem mc_force : (fjc_modified_canonical_forces N ℓ m K).force x T =
    kT T / ℓ * modified_canonical.nondimensional_force N (ndLength N ℓ x T) (ndStiffness K ℓ T) := by
  rw [← pot_code]; rfl
theorem mc_nd_force : (fjc_modified_canonical_forces N ℓ m K).nd_force x T =
    modified_canonical.nondimensional_force N x (ndStiffness K ℓ T) := rfl
end core

/-- C15 for the Helmholtz free energy of the modified canonical ensemble. -/
theorem C15_fjc_modified_canonical_helmholtz (N : ℕ) (ℓ m K : ℝ) (hN : 0 < N) :
    (fjc_modified_canonical_helmholtz N ℓ m K).Scales N (ndLength N ℓ) := by
  have hN' := ((Nat.cast_pos (α := ℝ)).2 hN).ne'
  constructor <;> intro x T hT <;>
    simp only [mc_energy, mc_energy_per_link, mc_relative, mc_relative_per_link, mc_nd_energy, mc_nd_energy_per_link,
      mc_nd_relative, mc_nd_relative_per_link] <;> field_simp

example : (fjc_modified_canonical_helmholtz 8 1 1 500).Scales 8 (ndLength 8 1) :=
  C15_fjc_modified_canonical_helmholtz 8 1 1 500 (by norm_num)

/-- C15 for the force of the modified canonical ensemble. -/
theorem C15_fjc_modified_canonical_forces (N : ℕ) (ℓ m K : ℝ) :
    (fjc_modified_canonical_forces N ℓ m K).Scales ℓ (ndLength N ℓ) := by
  intro x T hT
  rw [mc_force, mc_nd_force]

example : (fjc_modified_canonical_forces 8 1 1 500).Scales 1 (ndLength 8 1) :=
  C15_fjc_modified_canonical_forces 8 1 1 500

/-- C15 for the expected length of the modified canonical ensemble. -/
theorem C15_fjc_modified_canonical_lengths (N : ℕ) (ℓ m K : ℝ) (hN : 0 < N) (hℓ : 0 < ℓ) :
    (fjc_modified_canonical_lengths N ℓ m K).Scales N ℓ (ndLength N ℓ) := by
  have hN' := ((Nat.cast_pos (α := ℝ)).2 hN).ne'
  have hℓ' := hℓ.ne'
  have e1 : ∀ x T, (fjc_modified_canonical_lengths N ℓ m K).length x T =
      x - (fjc_modified_canonical_forces N ℓ m K).force x T / K := fun _ _ => rfl
  have e2 : ∀ x T, (fjc_modified_canonical_lengths N ℓ m K).length_per_link x T =
      (x - (fjc_modified_canonical_forces N ℓ m K).force x T / K) / N := fun _ _ => rfl
  have e3 : ∀ x T, (fjc_modified_canonical_lengths N ℓ m K).nd_length x T =
      N * x - (fjc_modified_canonical_forces N ℓ m K).nd_force x T / ndStiffness K ℓ T := fun _ _ => rfl
  have e4 : ∀ x T, (fjc_modified_canonical_lengths N ℓ m K).nd_length_per_link x T =
      x - (fjc_modified_canonical_forces N ℓ m K).nd_force x T / ndStiffness K ℓ T / N := fun _ _ => rfl
  have key : ∀ x T, 0 < T → x - (fjc_modified_canonical_forces N ℓ m K).force x T / K =
      ℓ * (N * ndLength N ℓ x T - (fjc_modified_canonical_forces N ℓ m K).nd_force (ndLength N ℓ x T) T / ndStiffness K ℓ T) := by
    intro x T hT
    rw [mc_force, mc_nd_force]
    have hk := (kT_pos hT).ne'
    generalize fjc.thermodynamics.modified_canonical.nondimensional_force N (ndLength N ℓ x T) (ndStiffness K ℓ T) = F
    unfold ndLength ndStiffness
    by_cases hK : K = 0
    · subst hK; simp; field_simp
    · field_simp
  constructor <;> intro x T hT <;> simp only [e1, e2, e3, e4]
  · exact key x T hT
  · rw [key x T hT]; field_simp
  · field_simp
  · field_simp

example : (fjc_modified_canonical_lengths 8 1 1 500).Scales 8 1 (ndLength 8 1) :=
  C15_fjc_modified_canonical_lengths 8 1 1 500 (by norm_num) (by norm_num)

/-- C15 for the Gibbs free energy of the modified canonical ensemble. -/
theorem C15_fjc_modified_canonical_gibbs (N : ℕ) (ℓ m K : ℝ) (hN : 0 < N) (hℓ : 0 < ℓ) :
    (fjc_modified_canonical_gibbs N ℓ m K).Scales N (ndLength N ℓ) := by
  have hN' := ((Nat.cast_pos (α := ℝ)).2 hN).ne'
  have hℓ' := hℓ.ne'
  have e1 : ∀ x T, (fjc_modified_canonical_gibbs N ℓ m K).energy x T =
      (fjc_modified_canonical_helmholtz N ℓ m K).energy x T - 0.5 * K * Elem.powi x 2 := fun _ _ => rfl
  have e2 : ∀ x T, (fjc_modified_canonical_gibbs N ℓ m K).energy_per_link x T =
      (fjc_modified_canonical_helmholtz N ℓ m K).energy_per_link x T - 0.5 * K * Elem.powi x 2 / N := fun _ _ => rfl
  have e3 : ∀ x T, (fjc_modified_canonical_gibbs N ℓ m K).relative x T =
      (fjc_modified_canonical_helmholtz N ℓ m K).relative x T - 0.5 * K * Elem.powi x 2 := fun _ _ => rfl
  have e4 : ∀ x T, (fjc_modified_canonical_gibbs N ℓ m K).relative_per_link x T =
      (fjc_modified_canonical_helmholtz N ℓ m K).relative_per_link x T - 0.5 * K * Elem.powi x 2 / N := fun _ _ => rfl
  have e5 : ∀ x T, (fjc_modified_canonical_gibbs N ℓ m K).nd_energy x T =
      (fjc_modified_canonical_helmholtz N ℓ m K).nd_energy x T -
        0.5 * Elem.powi (N : ℝ) 2 * ndStiffness K ℓ T * Elem.powi x 2 := fun _ _ => rfl
  have e6 : ∀ x T, (fjc_modified_canonical_gibbs N ℓ m K).nd_energy_per_link x T =
      (fjc_modified_canonical_helmholtz N ℓ m K).nd_energy_per_link x T -
        0.5 * (N : ℝ) * ndStiffness K ℓ T * Elem.powi x 2 := fun _ _ => rfl
  have e7 : ∀ x T, (fjc_modified_canonical_gibbs N ℓ m K).nd_relative x T =
      (fjc_modified_canonical_helmholtz N ℓ m K).nd_relative x T -
        0.5 * Elem.powi (N : ℝ) 2 * ndStiffness K ℓ T * Elem.powi x 2 := fun _ _ => rfl
  have e8 : ∀ x T, (fjc_modified_canonical_gibbs N ℓ m K).nd_relative_per_link x T =
      (fjc_modified_canonical_helmholtz N ℓ m K).nd_relative_per_link x T -
        0.5 * (N : ℝ) * ndStiffness K ℓ T * Elem.powi x 2 := fun _ _ => rfl
  have key : ∀ x T, 0 < T → K * x ^ 2 = kT T * ((N : ℝ) ^ 2 * ndStiffness K ℓ T * ndLength N ℓ x T ^ 2) := by
    intro x T hT
    have hk := (kT_pos hT).ne'
    unfold ndLength ndStiffness
    field_simp
  constructor <;> intro x T hT <;>
    simp only [e1, e2, e3, e4, e5, e6, e7, e8, mc_energy, mc_energy_per_link, mc_relative, mc_relative_per_link,
      mc_nd_energy, mc_nd_energy_per_link, mc_nd_relative, mc_nd_relative_per_link, model_real] <;>
    have hk := key x T hT
  · linear_combination -(1 / 2) * hk
  · field_simp; linear_combination -hk
  · linear_combination -(1 / 2) * hk
  · field_simp; linear_combination -hk
  all_goals field_simp

example : (fjc_modified_canonical_gibbs 8 1 1 500).Scales 8 (ndLength 8 1) :=
  C15_fjc_modified_canonical_gibbs 8 1 1 500 (by norm_num) (by norm_num)

/-! ### Strong potential -/

section core
variable (N : ℕ) (ℓ m K x T : ℝ)
open Polymers.fjc.thermodynamics.modified_canonical.asymptotic

theorem sp_energy : (fjc_strong_potential_helmholtz N ℓ m K).energy x T =
    strong_potential.nondimensional_helmholtz_free_energy N ℓ m (ndLength N ℓ x T) (ndStiffness K ℓ T) T *
      BOLTZMANN_CONSTANT * T := by
  rw [← pot_code]; rfl
theorem sp_energy_per_link : (fjc_strong_potential_helmholtz N ℓ m K).energy_per_link x T =
    strong_potential.nondimensional_helmholtz_free_energy N ℓ m (ndLength N ℓ x T) (ndStiffness K ℓ T) T / N *
      BOLTZMANN_CONSTANT * T := by
  rw [← pot_code]; rfl
theorem sp_relative : (fjc_strong_potential_helmholtz N ℓ m K).relative x T =
    strong_potential.nondimensional_helmholtz_free_energy N ℓ 1.0 (ndLength N ℓ x T) (ndStiffness K ℓ T) T *
      BOLTZMANN_CONSTANT * T -
    strong_potential.nondimensional_helmholtz_free_energy N ℓ 1.0 (ndLength N ℓ (ZERO * N * ℓ) T) (ndStiffness K ℓ T) T *
      BOLTZMANN_CONSTANT * T := by
  rw [← pot_code]; rfl
theorem sp_relative_per_link : (fjc_strong_potential_helmholtz N ℓ m K).relative_per_link x T =
    strong_potential.nondimensional_helmholtz_free_energy N ℓ 1.0 (ndLength N ℓ x T) (ndStiffness K ℓ T) T / N *
      BOLTZMANN_CONSTANT * T -
    strong_potential.nondimensional_helmholtz_free_energy N ℓ 1.0 (ndLength N ℓ (ZERO * N * ℓ) T) (ndStiffness K ℓ T) T / N *
      BOLTZMANN_CONSTANT * T := by
  rw [← pot_code]; rfl
theorem sp_nd_energy : (fjc_strong_potential_helmholtz N ℓ m K).nd_energy x T =
    strong_potential.nondimensional_helmholtz_free_energy N ℓ m x (ndStiffness K ℓ T) T := rfl
theorem sp_nd_energy_per_link : (fjc_strong_potential_helmholtz N ℓ m K).nd_energy_per_link x T =
    strong_potential.nondimensional_helmholtz_free_energy N ℓ m x (ndStiffness K ℓ T) T / N := rfl
theorem sp_nd_relative : (fjc_strong_potential_helmholtz N ℓ m K).nd_relative x T =
    strong_potential.nondimensional_helmholtz_free_energy N 1.0 1.0 x (ndStiffness K ℓ T) 300.0 -
      strong_potential.nondimensional_helmholtz_free_energy N 1.0 1.0 ZERO (ndStiffness K ℓ T) 300.0 := rfl
theorem sp_nd_relative_per_link : (fjc_strong_potential_helmholtz N ℓ m K).nd_relative_per_link x T =
    (strong_potential.nondimensional_helmholtz_free_energy N 1.0 1.0 x (ndStiffness K ℓ T) 300.0 -
      strong_potential.nondimensional_helmholtz_free_energy N 1.0 1.0 ZERO (ndStiffness K ℓ T) 300.0) / N := rfl
theorem sp_force : (fjc_strong_potential_forces N ℓ m K).force x T =
    kT T / ℓ * strong_potential.nondimensional_force N (ndLength N ℓ x T) (ndStiffness K ℓ T) := by
  rw [← pot_code]; rfl
theorem sp_nd_force : (fjc_strong_potential_forces N ℓ m K).nd_force x T =
    strong_potential.nondimensional_force N x (ndStiffness K ℓ T) := rfl
end core

/-- C15 for the force of the strong-potential approximation. -/
theorem C15_fjc_strong_potential_forces (N : ℕ) (ℓ m K : ℝ) :
    (fjc_strong_potential_forces N ℓ m K).Scales ℓ (ndLength N ℓ) := by
  intro x T hT
  rw [sp_force, sp_nd_force]

example : (fjc_strong_potential_forces 8 1 1 500).Scales 1 (ndLength 8 1) := C15_fjc_strong_potential_forces 8 1 1 500

theorem sp_nd_eq {N : ℕ} (hN2 : 2 ≤ N) (hN : N ≤ 26) {ℓ : ℝ} (hℓ : 0 < ℓ) (m T : ℝ) {γ : ℝ} (h0 : 0 < γ) (h1 : γ < 1)
    (κ : ℝ) :
    fjc.thermodynamics.modified_canonical.asymptotic.strong_potential.nondimensional_helmholtz_free_energy N ℓ m γ κ T =
      fjc.thermodynamics.modified_canonical.asymptotic.strong_potential.nondimensional_helmholtz_free_energy N 1 1 γ κ 300
      + (((N : ℝ) - 1) * Real.log (8 * Real.pi ^ 2 * 1 * 1 ^ 2 * BOLTZMANN_CONSTANT * 300 / PLANCK_CONSTANT ^ 2) -
      ((N : ℝ) - 1) * Real.log (8 * Real.pi ^ 2 * m * ℓ ^ 2 * BOLTZMANN_CONSTANT * T / PLANCK_CONSTANT ^ 2)) := by
  have hP : fjc.thermodynamics.treloar_sum_0_with_prefactor N γ ≠ 0 := (treloar_density_pos hN2 hN h0 h1).ne'
  have hL : (0 : ℝ) < N * ℓ := by positivity
  have hL1 : (0 : ℝ) < (N : ℝ) * 1 := by positivity
  have e : ∀ L : ℝ, 0 < L → Real.log (fjc.thermodynamics.treloar_sum_0_with_prefactor N γ / L ^ 3) =
      Real.log (fjc.thermodynamics.treloar_sum_0_with_prefactor N γ) - 3 * Real.log L := by
    intro L hL
    rw [Real.log_div hP (by positivity), Real.log_pow]; norm_num
  simp only [fjc.thermodynamics.modified_canonical.asymptotic.strong_potential.nondimensional_helmholtz_free_energy,
    model_real, e _ hL, e _ hL1]
  ring

/-- C15 for the Helmholtz free energy of the strong-potential approximation. -/
theorem C15_fjc_strong_potential_helmholtz (N : ℕ) (ℓ m K : ℝ) (hN2 : 2 ≤ N) (hN : N ≤ 26) (hℓ : 0 < ℓ) :
    (fjc_strong_potential_helmholtz N ℓ m K).ScalesOn N (ndLength N ℓ) fun d _ => 0 < d ∧ d < 1 := by
  have hN' : (N : ℝ) ≠ 0 := by positivity
  have h0 := zero_pos'
  have h1 : (ZERO : ℝ) < 1 := by rw [zero_eq]; norm_num
  refine ⟨?_, ?_, ?_, ?_, ?_, ?_, ?_, ?_⟩
  · intro x T hT _; rw [sp_energy, sp_nd_energy, kT_eq]; ring
  · intro x T hT _; rw [sp_energy_per_link, sp_nd_energy_per_link, kT_eq]; ring
  · intro x T hT hx
    rw [sp_relative, sp_nd_relative, ndLength_ref (by omega) hℓ, kT_eq]
    simp only [lit_1_0, lit_300_0]
    rw [sp_nd_eq hN2 hN hℓ _ T hx.1 hx.2, sp_nd_eq hN2 hN hℓ _ T h0 h1]; ring
  · intro x T hT hx
    rw [sp_relative_per_link, sp_nd_relative_per_link, ndLength_ref (by omega) hℓ, kT_eq]
    simp only [lit_1_0, lit_300_0]
    rw [sp_nd_eq hN2 hN hℓ _ T hx.1 hx.2, sp_nd_eq hN2 hN hℓ _ T h0 h1]; ring
  · intro x T hT _; rw [sp_energy, sp_energy_per_link]; field_simp
  · intro x T hT _; rw [sp_relative, sp_relative_per_link]; field_simp
  · intro x T hT _; rw [sp_nd_energy, sp_nd_energy_per_link]; field_simp
  · intro x T hT _; rw [sp_nd_relative, sp_nd_relative_per_link]; field_simp

example : (fjc_strong_potential_helmholtz 8 1 1 500).ScalesOn 8 (ndLength 8 1) fun d _ => 0 < d ∧ d < 1 :=
  C15_fjc_strong_potential_helmholtz 8 1 1 500 (by norm_num) (by norm_num) (by norm_num)

/-! ### Weak potential -/

/-- C15 for the Gibbs free energy of the weak-potential approximation. -/
theorem C15_fjc_weak_potential_gibbs (N : ℕ) (ℓ m K : ℝ) (hN : 0 < N) (hℓ : 0 < ℓ) :
    (fjc_weak_potential_gibbs N ℓ m K).Scales N (ndLength N ℓ) := by
  have hN' := ((Nat.cast_pos (α := ℝ)).2 hN).ne'
  have hℓ' := hℓ.ne'
  have key : ∀ x T, 0 < T → K * x * ℓ / (BOLTZMANN_CONSTANT : ℝ) / T = N * ndStiffness K ℓ T * ndLength N ℓ x T := by
    intro x T hT
    rw [div_div, kT_code]
    have hk := (kT_pos hT).ne'
    unfold ndLength ndStiffness
    field_simp
  have hK : ∀ T, 0 < T → K = kT T * ndStiffness K ℓ T / ℓ ^ 2 := by
    intro T hT
    have hk := (kT_pos hT).ne'
    unfold ndStiffness; field_simp
  open Polymers.fjc.thermodynamics.modified_canonical.asymptotic in
  have h1 : ∀ m x T, 0 < T → weak_potential.gibbs_free_energy N ℓ m x K T =
      kT T * weak_potential.nondimensional_gibbs_free_energy N ℓ m (ndLength N ℓ x T) (ndStiffness K ℓ T) T := by
    intro m x T hT
    simp only [weak_potential.gibbs_free_energy, weak_potential.nondimensional_gibbs_free_energy, key x T hT, model_real,
      kT_eq]
    have h := hK T hT
    rw [kT_eq] at h
    generalize ndStiffness K ℓ T = κ at *
    rw [h]
    field_simp
  open Polymers.fjc.thermodynamics.modified_canonical.asymptotic in
  have h2 : ∀ m x T, 0 < T → weak_potential.gibbs_free_energy_per_link N ℓ m x K T =
      kT T * weak_potential.nondimensional_gibbs_free_energy_per_link N ℓ m (ndLength N ℓ x T) (ndStiffness K ℓ T) T := by
    intro m x T hT
    simp only [weak_potential.gibbs_free_energy_per_link, weak_potential.nondimensional_gibbs_free_energy_per_link,
      key x T hT, model_real, kT_eq]
    have h := hK T hT
    rw [kT_eq] at h
    generalize ndStiffness K ℓ T = κ at *
    rw [h]
    field_simp
  open Polymers.fjc.thermodynamics.modified_canonical.asymptotic in
  have h3 : ∀ m y κ T : ℝ, weak_potential.nondimensional_gibbs_free_energy N ℓ m y κ T =
      N * weak_potential.nondimensional_gibbs_free_energy_per_link N ℓ m y κ T := by
    intro m y κ T
    simp only [weak_potential.nondimensional_gibbs_free_energy_per_link, weak_potential.nondimensional_gibbs_free_energy,
      model_real]
    ring
  open Polymers.fjc.thermodynamics.modified_canonical.asymptotic in
  have h4 : ∀ y κ : ℝ, weak_potential.nondimensional_relative_gibbs_free_energy N y κ =
      N * weak_potential.nondimensional_relative_gibbs_free_energy_per_link N y κ := by
    intro y κ
    simp only [weak_potential.nondimensional_relative_gibbs_free_energy,
      weak_potential.nondimensional_relative_gibbs_free_energy_per_link,
      weak_potential.nondimensional_gibbs_free_energy_per_link, weak_potential.nondimensional_gibbs_free_energy, model_real]
    ring
  open Polymers.fjc.thermodynamics.modified_canonical.asymptotic in
  have h5 : ∀ x T, 0 < T → weak_potential.relative_gibbs_free_energy N ℓ x K T =
      kT T * weak_potential.nondimensional_relative_gibbs_free_energy N (ndLength N ℓ x T) (ndStiffness K ℓ T) := by
    intro x T hT
    rw [weak_potential.relative_gibbs_free_energy, h1 _ _ T hT, h1 _ _ T hT, ndLength_ref hN hℓ]
    simp only [weak_potential.nondimensional_relative_gibbs_free_energy, weak_potential.nondimensional_gibbs_free_energy,
      model_real]
    ring
  open Polymers.fjc.thermodynamics.modified_canonical.asymptotic in
  have h6 : ∀ x T, 0 < T → weak_potential.relative_gibbs_free_energy_per_link N ℓ x K T =
      kT T * weak_potential.nondimensional_relative_gibbs_free_energy_per_link N (ndLength N ℓ x T) (ndStiffness K ℓ T) := by
    intro x T hT
    rw [weak_potential.relative_gibbs_free_energy_per_link, h2 _ _ T hT, h2 _ _ T hT, ndLength_ref hN hℓ]
    simp only [weak_potential.nondimensional_relative_gibbs_free_energy_per_link,
      weak_potential.nondimensional_gibbs_free_energy_per_link, model_real]
    ring
  refine ⟨fun x T hT => h1 m x T hT, fun x T hT => h2 m x T hT, fun x T hT => h5 x T hT, fun x T hT => h6 x T hT, ?_, ?_,
    fun y T _ => h3 m y _ T, fun y T _ => h4 y _⟩
  · intro x T hT
    refine (h1 m x T hT).trans (Eq.trans ?_ (congrArg (fun z => (N : ℝ) * z) (h2 m x T hT)).symm)
    rw [h3]; ring
  · intro x T hT
    refine (h5 x T hT).trans (Eq.trans ?_ (congrArg (fun z => (N : ℝ) * z) (h6 x T hT)).symm)
    rw [h4]; ring

example : (fjc_weak_potential_gibbs 8 1 1 500).Scales 8 (ndLength 8 1) :=
  C15_fjc_weak_potential_gibbs 8 1 1 500 (by norm_num) (by norm_num)

/-- C15 for the expected length of the weak-potential approximation. -/
theorem C15_fjc_weak_potential_lengths (N : ℕ) (ℓ m K : ℝ) (hN : 0 < N) (hℓ : 0 < ℓ) :
    (fjc_weak_potential_lengths N ℓ m K).Scales N ℓ (ndLength N ℓ) := by
  have hN' := ((Nat.cast_pos (α := ℝ)).2 hN).ne'
  have hℓ' := hℓ.ne'
  have key : ∀ x T, 0 < T → K * x * ℓ / (BOLTZMANN_CONSTANT : ℝ) / T = N * ndStiffness K ℓ T * ndLength N ℓ x T := by
    intro x T hT
    rw [div_div, kT_code]
    have hk := (kT_pos hT).ne'
    unfold ndLength ndStiffness
    field_simp
  have key2 : ∀ T, K * (N : ℝ) * ℓ ^ 2 / (BOLTZMANN_CONSTANT : ℝ) / T = N * ndStiffness K ℓ T := by
    intro T
    rw [div_div, kT_code]
    unfold ndStiffness
    ring
  open Polymers.fjc.thermodynamics.modified_canonical.asymptotic in
  have h1 : ∀ x T, 0 < T → weak_potential.end_to_end_length N ℓ x K T =
      ℓ * weak_potential.nondimensional_end_to_end_length N (ndLength N ℓ x T) (ndStiffness K ℓ T) := by
    intro x T hT
    simp only [weak_potential.end_to_end_length, weak_potential.nondimensional_end_to_end_length, key x T hT, key2,
      model_real]
    ring
  open Polymers.fjc.thermodynamics.modified_canonical.asymptotic in
  have h2 : ∀ x T, 0 < T → weak_potential.end_to_end_length_per_link N ℓ x K T =
      ℓ * weak_potential.nondimensional_end_to_end_length_per_link N (ndLength N ℓ x T) (ndStiffness K ℓ T) := by
    intro x T hT
    simp only [weak_potential.end_to_end_length_per_link, weak_potential.nondimensional_end_to_end_length_per_link,
      key x T hT, key2, model_real]
    ring
  open Polymers.fjc.thermodynamics.modified_canonical.asymptotic in
  have h3 : ∀ y κ : ℝ, weak_potential.nondimensional_end_to_end_length N y κ =
      N * weak_potential.nondimensional_end_to_end_length_per_link N y κ := by
    intro y κ
    simp only [weak_potential.nondimensional_end_to_end_length_per_link, weak_potential.nondimensional_end_to_end_length,
      model_real]
    ring
  refine ⟨fun x T hT => h1 x T hT, fun x T hT => h2 x T hT, ?_, fun y T _ => h3 y _⟩
  intro x T hT
  refine (h1 x T hT).trans (Eq.trans ?_ (congrArg (fun z => (N : ℝ) * z) (h2 x T hT)).symm)
  rw [h3]; ring

example : (fjc_weak_potential_lengths 8 1 1 500).Scales 8 1 (ndLength 8 1) :=
  C15_fjc_weak_potential_lengths 8 1 1 500 (by norm_num) (by norm_num)

/-- C15 for the force of the weak-potential approximation. -/
theorem C15_fjc_weak_potential_forces (N : ℕ) (ℓ m K : ℝ) (hN : 0 < N) (hℓ : 0 < ℓ) :
    (fjc_weak_potential_forces N ℓ m K).Scales ℓ (ndLength N ℓ) := by
  intro x T hT
  have hN' := ((Nat.cast_pos (α := ℝ)).2 hN).ne'
  have hk := (kT_pos hT).ne'
  have e : K * x = kT T / ℓ * (N * ndStiffness K ℓ T * ndLength N ℓ x T) := by
    unfold ndLength ndStiffness; field_simp
  exact e

example : (fjc_weak_potential_forces 8 1 1 500).Scales 1 (ndLength 8 1) :=
  C15_fjc_weak_potential_forces 8 1 1 500 (by norm_num) (by norm_num)

end Polymers.Props
