import Verif.Lemmas.Defined
import Verif.Spec.ApiDefined
import Verif.Spec.Api
import Verif.Spec.ApiPotential
import Verif.Props.DefinedMorse
import Verif.Props.DefinedLambert
import Verif.Props.LennardJones
import Verif.Props.LogSquared

/-! Definedness (C46) of the asymptotic Lennard-Jones and log-squared models at fixed force. -/

namespace Polymers.Props

open Polymers.Spec Polymers.SReal

set_option maxHeartbeats 2000000

theorem lj_step_mem {y s x : ℝ} (hs1 : 1 < s) (hs : s < ljMax) (hfs : ljF s = y) (hx : x ∈ Set.Icc 1 s) :
    x + (y - ljF x) / ljF' x ∈ Set.Icc 1 s := by
  have h0 : ∀ x ∈ Set.Icc 1 s, 0 < x := fun x hx => by linarith [hx.1]
  have h := newtonStep_concave hs1.le hfs (fun x hx => hasDerivAt_ljF (h0 x hx).ne')
    (fun x hx => ljF'_pos (h0 x hx) (hx.2.trans_lt hs)) (ljF_concave hs.le) hx
  simp only [newtonStep, div_one] at h
  rw [show x + (y - ljF x) / ljF' x = x - (ljF x - y) / ljF' x by ring]
  exact ⟨hx.1.trans h.1, h.2⟩

theorem exists_lj_stretch {κ η : ℝ} (hκ : 0 < κ) (hη : 0 < η) (hM : η < κ / 6 * ljF ljMax) :
    ∃ s, 1 < s ∧ s < ljMax ∧ ljF s = 6.0 * η / κ := by
  obtain ⟨s, hs, hfs⟩ := exists_lj_root (y := 6 * η / κ) (by positivity) (by rw [div_lt_iff₀ hκ]; nlinarith)
  exact ⟨s, hs.1, hs.2, by rw [hfs]; norm_num⟩

/-- The link stretch of the Lennard-Jones model is defined below the maximum force. -/
theorem is_lj_stretch {κ' η' : SReal} {κ η : ℝ} (eκ : Is κ' κ) (eη : Is η' η) (hκ : 0 < κ) (hη : 0 < η)
    (hM : η < κ / 6 * ljF ljMax) :
    Is (ufjc.lennard_jones.thermodynamics.nondimensional_link_stretch κ' η')
      (ufjc.lennard_jones.thermodynamics.nondimensional_link_stretch κ η) := by
  obtain ⟨s, hs1, hs, hfs⟩ := exists_lj_stretch hκ hη hM
  have ef : ∀ x : ℝ, Elem.powi x (-7) - Elem.powi x (-13) = ljF x := by
    intro x; simp only [model_real, ljF, zpow_neg]; try norm_cast
  have ef' : ∀ x : ℝ, 13.0 * Elem.powi x (-14) - 7.0 * Elem.powi x (-8) = ljF' x := by
    intro x; simp only [model_real, ljF', zpow_neg]; try norm_cast
  refine Is.newton (S := fun x => x ∈ Set.Icc 1 s) rfl (by defined) (by side) (by defined) (by defined) ?_ ?_ ?_ ?_ ?_
  · intro x hx
    have : 0 < x := by linarith [hx.1]
    defined
  · intro x hx
    have : 0 < x := by linarith [hx.1]
    defined
  · intro x hx
    rw [ef']
    exact (ljF'_pos (by linarith [hx.1]) (hx.2.trans_lt hs)).ne'
  · intro x hx
    rw [ef, ef']
    exact lj_step_mem hs1 hs hfs hx
  · rw [show (1.0 : ℝ) = 1 by norm_num]; exact Set.left_mem_Icc.2 hs1.le

theorem lj_stretch_pos {κ η : ℝ} (hκ : 0 < κ) (hη : 0 < η) (hM : η < κ / 6 * ljF ljMax) :
    0 < ufjc.lennard_jones.thermodynamics.nondimensional_link_stretch κ η := by
  obtain ⟨s, hs1, hs, hfs⟩ := exists_lj_stretch hκ hη hM
  rw [lj_stretch_eq]
  have := (ljStretch_bounds hκ hη hs1 hs (by rw [hfs]; norm_num; field_simp)).1
  linarith

theorem ljMax_code (κ : ℝ) : deriv (lennardJonesEnergy κ) ((13 / 7) ^ (1 / 6 : ℝ)) = κ / 6 * ljF ljMax :=
  (hasDerivAt_lennardJonesEnergy ljMax_pos.ne').deriv

theorem log_squared_arg {κ η : ℝ} (hκ : 0 < κ) (hM : η < κ / Real.exp 1) : -Real.exp (-1) < -η / κ := by
  rw [neg_div, neg_lt_neg_iff, Real.exp_neg, div_lt_iff₀ hκ, inv_mul_eq_div]; exact hM

/-- The nondimensional function of the model is defined below the maximum force. -/
theorem is_lennard_jones_isotensional_asymptotic_reduced_gibbs {ℓ' m' κ' η' T' : SReal} {ℓ m κ η T : ℝ} (eℓ : Is ℓ' ℓ) (em : Is m' m) (eκ : Is κ' κ) (eη : Is η' η) (eT : Is T' T)
    (hℓ : 0 < ℓ) (hm : 0 < m) (hκ : 0 < κ) (hη : 0 < η) (hT : 0 < T) (hM : η < κ / 6 * ljF ljMax) :
    Is (Polymers.ufjc.lennard_jones.thermodynamics.isotensional.asymptotic.reduced.nondimensional_gibbs_free_energy_per_link ℓ' m' κ' η' T')
      (Polymers.ufjc.lennard_jones.thermodynamics.isotensional.asymptotic.reduced.nondimensional_gibbs_free_energy_per_link ℓ m κ η T) := by
  have hs := lj_stretch_pos hκ hη hM
  defined [is_lj_stretch ?_ ?_ hκ hη hM]

/-- The nondimensional function of the model is defined below the maximum force. -/
theorem is_lennard_jones_isotensional_asymptotic_reduced_lengths {κ' η' : SReal} {κ η : ℝ} (eκ : Is κ' κ) (eη : Is η' η)
    (hκ : 0 < κ) (hη : 0 < η) (hM : η < κ / 6 * ljF ljMax) :
    Is (Polymers.ufjc.lennard_jones.thermodynamics.isotensional.asymptotic.reduced.nondimensional_end_to_end_length_per_link κ' η')
      (Polymers.ufjc.lennard_jones.thermodynamics.isotensional.asymptotic.reduced.nondimensional_end_to_end_length_per_link κ η) := by
  have hs := lj_stretch_pos hκ hη hM
  defined [is_lj_stretch ?_ ?_ hκ hη hM]

/-- The nondimensional function of the model is defined below the maximum force. -/
theorem is_lennard_jones_isotensional_asymptotic_reduced_legendre_helmholtz {ℓ' m' κ' η' T' : SReal} {ℓ m κ η T : ℝ} (eℓ : Is ℓ' ℓ) (em : Is m' m) (eκ : Is κ' κ) (eη : Is η' η) (eT : Is T' T)
    (hℓ : 0 < ℓ) (hm : 0 < m) (hκ : 0 < κ) (hη : 0 < η) (hT : 0 < T) (hM : η < κ / 6 * ljF ljMax) :
    Is (Polymers.ufjc.lennard_jones.thermodynamics.isotensional.asymptotic.reduced.legendre.nondimensional_helmholtz_free_energy_per_link ℓ' m' κ' η' T')
      (Polymers.ufjc.lennard_jones.thermodynamics.isotensional.asymptotic.reduced.legendre.nondimensional_helmholtz_free_energy_per_link ℓ m κ η T) := by
  have hs := lj_stretch_pos hκ hη hM
  defined [is_lj_stretch ?_ ?_ hκ hη hM]

/-- The nondimensional function of the model is defined below the maximum force. -/
theorem is_lennard_jones_isotensional_asymptotic_gibbs {ℓ' m' κ' η' T' : SReal} {ℓ m κ η T : ℝ} (eℓ : Is ℓ' ℓ) (em : Is m' m) (eκ : Is κ' κ) (eη : Is η' η) (eT : Is T' T)
    (hℓ : 0 < ℓ) (hm : 0 < m) (hκ : 0 < κ) (hη : 0 < η) (hT : 0 < T) (hM : η < κ / 6 * ljF ljMax) :
    Is (Polymers.ufjc.lennard_jones.thermodynamics.isotensional.asymptotic.nondimensional_gibbs_free_energy_per_link ℓ' m' κ' η' T')
      (Polymers.ufjc.lennard_jones.thermodynamics.isotensional.asymptotic.nondimensional_gibbs_free_energy_per_link ℓ m κ η T) := by
  have hs := lj_stretch_pos hκ hη hM
  defined [is_lj_stretch ?_ ?_ hκ hη hM]

/-- The nondimensional function of the model is defined below the maximum force. -/
theorem is_lennard_jones_isotensional_asymptotic_lengths {κ' η' : SReal} {κ η : ℝ} (eκ : Is κ' κ) (eη : Is η' η)
    (hκ : 0 < κ) (hη : 0 < η) (hM : η < κ / 6 * ljF ljMax) :
    Is (Polymers.ufjc.lennard_jones.thermodynamics.isotensional.asymptotic.nondimensional_end_to_end_length_per_link κ' η')
      (Polymers.ufjc.lennard_jones.thermodynamics.isotensional.asymptotic.nondimensional_end_to_end_length_per_link κ η) := by
  have hs := lj_stretch_pos hκ hη hM
  defined [is_lj_stretch ?_ ?_ hκ hη hM]

/-- The nondimensional function of the model is defined below the maximum force. -/
theorem is_lennard_jones_isotensional_asymptotic_legendre_helmholtz {ℓ' m' κ' η' T' : SReal} {ℓ m κ η T : ℝ} (eℓ : Is ℓ' ℓ) (em : Is m' m) (eκ : Is κ' κ) (eη : Is η' η) (eT : Is T' T)
    (hℓ : 0 < ℓ) (hm : 0 < m) (hκ : 0 < κ) (hη : 0 < η) (hT : 0 < T) (hM : η < κ / 6 * ljF ljMax) :
    Is (Polymers.ufjc.lennard_jones.thermodynamics.isotensional.asymptotic.legendre.nondimensional_helmholtz_free_energy_per_link ℓ' m' κ' η' T')
      (Polymers.ufjc.lennard_jones.thermodynamics.isotensional.asymptotic.legendre.nondimensional_helmholtz_free_energy_per_link ℓ m κ η T) := by
  have hs := lj_stretch_pos hκ hη hM
  defined [is_lj_stretch ?_ ?_ hκ hη hM]

/-- C46: every method of the family is defined for every positive force below the maximum force of the link, when that is above `1e-6`. -/
theorem C46_lennard_jones_isotensional_asymptotic_reduced_gibbs {N : ℕ} (hN : 0 < N) {ℓ m k : ℝ} (hℓ : 0 < ℓ) (hm : 0 < m) (hk : 0 < k) :
    (ApiS.lennard_jones_isotensional_asymptotic_reduced_gibbs N ℓ m k).DefinedAs (Api.lennard_jones_isotensional_asymptotic_reduced_gibbs N ℓ m k) (fun f T => ndForce ℓ f T)
      (fun y T => 0 < y ∧ y < deriv (lennardJonesEnergy (ndStiffness k ℓ T)) ((13 / 7) ^ (1 / 6 : ℝ)) ∧ 1e-6 < deriv (lennardJonesEnergy (ndStiffness k ℓ T)) ((13 / 7) ^ (1 / 6 : ℝ))) := by
  have hN' : (0 : ℝ) < N := Nat.cast_pos.2 (by omega)
  constructor <;> intro x T hT hD <;> refine (?_ : Is _ _)
  all_goals
    have hx : 0 < x := by first | exact hD.1 | exact pos_of_ndForce hℓ hT hD.1
    simp only [ndForce_code, ndStiffness_code, ljMax_code] at hD
    obtain ⟨h1, h2, h3⟩ := hD
    have h4 := h3
    replace h3 : (ZERO : ℝ) < _ := h3
    rw [show (1e-6 : ℝ) = ZERO from rfl, ← zero_code hℓ hT] at h4
  all_goals defined [is_lennard_jones_isotensional_asymptotic_reduced_gibbs ?_ ?_ ?_ ?_ ?_ ?_ ?_ ?_ ?_ ?_ ?_]

example : (ApiS.lennard_jones_isotensional_asymptotic_reduced_gibbs 8 1 1 500).DefinedAs (Api.lennard_jones_isotensional_asymptotic_reduced_gibbs 8 1 1 500) (fun f T => ndForce 1 f T)
    (fun y T => 0 < y ∧ y < deriv (lennardJonesEnergy (ndStiffness 500 1 T)) ((13 / 7) ^ (1 / 6 : ℝ)) ∧ 1e-6 < deriv (lennardJonesEnergy (ndStiffness 500 1 T)) ((13 / 7) ^ (1 / 6 : ℝ))) :=
  C46_lennard_jones_isotensional_asymptotic_reduced_gibbs (N := 8) (m := 1) (by norm_num) (by norm_num) (by norm_num) (by norm_num)

/-- C46: every method of the family is defined for every positive force below the maximum force of the link, when that is above `1e-6`. -/
theorem C46_lennard_jones_isotensional_asymptotic_reduced_lengths {N : ℕ} (hN : 0 < N) {ℓ m k : ℝ} (hℓ : 0 < ℓ) (hk : 0 < k) :
    (ApiS.lennard_jones_isotensional_asymptotic_reduced_lengths N ℓ m k).DefinedAs (Api.lennard_jones_isotensional_asymptotic_reduced_lengths N ℓ m k) (fun f T => ndForce ℓ f T)
      (fun y T => 0 < y ∧ y < deriv (lennardJonesEnergy (ndStiffness k ℓ T)) ((13 / 7) ^ (1 / 6 : ℝ)) ∧ 1e-6 < deriv (lennardJonesEnergy (ndStiffness k ℓ T)) ((13 / 7) ^ (1 / 6 : ℝ))) := by
  have hN' : (0 : ℝ) < N := Nat.cast_pos.2 (by omega)
  constructor <;> intro x T hT hD <;> refine (?_ : Is _ _)
  all_goals
    have hx : 0 < x := by first | exact hD.1 | exact pos_of_ndForce hℓ hT hD.1
    simp only [ndForce_code, ndStiffness_code, ljMax_code] at hD
    obtain ⟨h1, h2, h3⟩ := hD
    have h4 := h3
    replace h3 : (ZERO : ℝ) < _ := h3
    rw [show (1e-6 : ℝ) = ZERO from rfl, ← zero_code hℓ hT] at h4
  all_goals defined [is_lennard_jones_isotensional_asymptotic_reduced_lengths ?_ ?_ ?_ ?_ ?_]

example : (ApiS.lennard_jones_isotensional_asymptotic_reduced_lengths 8 1 1 500).DefinedAs (Api.lennard_jones_isotensional_asymptotic_reduced_lengths 8 1 1 500) (fun f T => ndForce 1 f T)
    (fun y T => 0 < y ∧ y < deriv (lennardJonesEnergy (ndStiffness 500 1 T)) ((13 / 7) ^ (1 / 6 : ℝ)) ∧ 1e-6 < deriv (lennardJonesEnergy (ndStiffness 500 1 T)) ((13 / 7) ^ (1 / 6 : ℝ))) :=
  C46_lennard_jones_isotensional_asymptotic_reduced_lengths (N := 8) (m := 1) (by norm_num) (by norm_num) (by norm_num)

/-- C46: every method of the family is defined for every positive force below the maximum force of the link, when that is above `1e-6`. -/
theorem C46_lennard_jones_isotensional_asymptotic_reduced_legendre_helmholtz {N : ℕ} (hN : 0 < N) {ℓ m k : ℝ} (hℓ : 0 < ℓ) (hm : 0 < m) (hk : 0 < k) :
    (ApiS.lennard_jones_isotensional_asymptotic_reduced_legendre_helmholtz N ℓ m k).DefinedAs (Api.lennard_jones_isotensional_asymptotic_reduced_legendre_helmholtz N ℓ m k) (fun f T => ndForce ℓ f T)
      (fun y T => 0 < y ∧ y < deriv (lennardJonesEnergy (ndStiffness k ℓ T)) ((13 / 7) ^ (1 / 6 : ℝ)) ∧ 1e-6 < deriv (lennardJonesEnergy (ndStiffness k ℓ T)) ((13 / 7) ^ (1 / 6 : ℝ))) := by
  have hN' : (0 : ℝ) < N := Nat.cast_pos.2 (by omega)
  constructor <;> intro x T hT hD <;> refine (?_ : Is _ _)
  all_goals
    have hx : 0 < x := by first | exact hD.1 | exact pos_of_ndForce hℓ hT hD.1
    simp only [ndForce_code, ndStiffness_code, ljMax_code] at hD
    obtain ⟨h1, h2, h3⟩ := hD
    have h4 := h3
    replace h3 : (ZERO : ℝ) < _ := h3
    rw [show (1e-6 : ℝ) = ZERO from rfl, ← zero_code hℓ hT] at h4
  all_goals defined [is_lennard_jones_isotensional_asymptotic_reduced_legendre_helmholtz ?_ ?_ ?_ ?_ ?_ ?_ ?_ ?_ ?_ ?_ ?_] <;> (rw [force_code]; assumption)

example : (ApiS.lennard_jones_isotensional_asymptotic_reduced_legendre_helmholtz 8 1 1 500).DefinedAs (Api.lennard_jones_isotensional_asymptotic_reduced_legendre_helmholtz 8 1 1 500) (fun f T => ndForce 1 f T)
    (fun y T => 0 < y ∧ y < deriv (lennardJonesEnergy (ndStiffness 500 1 T)) ((13 / 7) ^ (1 / 6 : ℝ)) ∧ 1e-6 < deriv (lennardJonesEnergy (ndStiffness 500 1 T)) ((13 / 7) ^ (1 / 6 : ℝ))) :=
  C46_lennard_jones_isotensional_asymptotic_reduced_legendre_helmholtz (N := 8) (m := 1) (by norm_num) (by norm_num) (by norm_num) (by norm_num)

/-- C46: every method of the family is defined for every positive force below the maximum force of the link, when that is above `1e-6`. -/
theorem C46_lennard_jones_isotensional_asymptotic_gibbs {N : ℕ} (hN : 0 < N) {ℓ m k : ℝ} (hℓ : 0 < ℓ) (hm : 0 < m) (hk : 0 < k) :
    (ApiS.lennard_jones_isotensional_asymptotic_gibbs N ℓ m k).DefinedAs (Api.lennard_jones_isotensional_asymptotic_gibbs N ℓ m k) (fun f T => ndForce ℓ f T)
      (fun y T => 0 < y ∧ y < deriv (lennardJonesEnergy (ndStiffness k ℓ T)) ((13 / 7) ^ (1 / 6 : ℝ)) ∧ 1e-6 < deriv (lennardJonesEnergy (ndStiffness k ℓ T)) ((13 / 7) ^ (1 / 6 : ℝ))) := by
  have hN' : (0 : ℝ) < N := Nat.cast_pos.2 (by omega)
  constructor <;> intro x T hT hD <;> refine (?_ : Is _ _)
  all_goals
    have hx : 0 < x := by first | exact hD.1 | exact pos_of_ndForce hℓ hT hD.1
    simp only [ndForce_code, ndStiffness_code, ljMax_code] at hD
    obtain ⟨h1, h2, h3⟩ := hD
    have h4 := h3
    replace h3 : (ZERO : ℝ) < _ := h3
    rw [show (1e-6 : ℝ) = ZERO from rfl, ← zero_code hℓ hT] at h4
  all_goals defined [is_lennard_jones_isotensional_asymptotic_gibbs ?_ ?_ ?_ ?_ ?_ ?_ ?_ ?_ ?_ ?_ ?_]

example : (ApiS.lennard_jones_isotensional_asymptotic_gibbs 8 1 1 500).DefinedAs (Api.lennard_jones_isotensional_asymptotic_gibbs 8 1 1 500) (fun f T => ndForce 1 f T)
    (fun y T => 0 < y ∧ y < deriv (lennardJonesEnergy (ndStiffness 500 1 T)) ((13 / 7) ^ (1 / 6 : ℝ)) ∧ 1e-6 < deriv (lennardJonesEnergy (ndStiffness 500 1 T)) ((13 / 7) ^ (1 / 6 : ℝ))) :=
  C46_lennard_jones_isotensional_asymptotic_gibbs (N := 8) (m := 1) (by norm_num) (by norm_num) (by norm_num) (by norm_num)

/-- C46: every method of the family is defined for every positive force below the maximum force of the link, when that is above `1e-6`. -/
theorem C46_lennard_jones_isotensional_asymptotic_lengths {N : ℕ} (hN : 0 < N) {ℓ m k : ℝ} (hℓ : 0 < ℓ) (hk : 0 < k) :
    (ApiS.lennard_jones_isotensional_asymptotic_lengths N ℓ m k).DefinedAs (Api.lennard_jones_isotensional_asymptotic_lengths N ℓ m k) (fun f T => ndForce ℓ f T)
      (fun y T => 0 < y ∧ y < deriv (lennardJonesEnergy (ndStiffness k ℓ T)) ((13 / 7) ^ (1 / 6 : ℝ)) ∧ 1e-6 < deriv (lennardJonesEnergy (ndStiffness k ℓ T)) ((13 / 7) ^ (1 / 6 : ℝ))) := by
  have hN' : (0 : ℝ) < N := Nat.cast_pos.2 (by omega)
  constructor <;> intro x T hT hD <;> refine (?_ : Is _ _)
  all_goals
    have hx : 0 < x := by first | exact hD.1 | exact pos_of_ndForce hℓ hT hD.1
    simp only [ndForce_code, ndStiffness_code, ljMax_code] at hD
    obtain ⟨h1, h2, h3⟩ := hD
    have h4 := h3
    replace h3 : (ZERO : ℝ) < _ := h3
    rw [show (1e-6 : ℝ) = ZERO from rfl, ← zero_code hℓ hT] at h4
  all_goals defined [is_lennard_jones_isotensional_asymptotic_lengths ?_ ?_ ?_ ?_ ?_]

example : (ApiS.lennard_jones_isotensional_asymptotic_lengths 8 1 1 500).DefinedAs (Api.lennard_jones_isotensional_asymptotic_lengths 8 1 1 500) (fun f T => ndForce 1 f T)
    (fun y T => 0 < y ∧ y < deriv (lennardJonesEnergy (ndStiffness 500 1 T)) ((13 / 7) ^ (1 / 6 : ℝ)) ∧ 1e-6 < deriv (lennardJonesEnergy (ndStiffness 500 1 T)) ((13 / 7) ^ (1 / 6 : ℝ))) :=
  C46_lennard_jones_isotensional_asymptotic_lengths (N := 8) (m := 1) (by norm_num) (by norm_num) (by norm_num)

/-- C46: every method of the family is defined for every positive force below the maximum force of the link, when that is above `1e-6`. -/
theorem C46_lennard_jones_isotensional_asymptotic_legendre_helmholtz {N : ℕ} (hN : 0 < N) {ℓ m k : ℝ} (hℓ : 0 < ℓ) (hm : 0 < m) (hk : 0 < k) :
    (ApiS.lennard_jones_isotensional_asymptotic_legendre_helmholtz N ℓ m k).DefinedAs (Api.lennard_jones_isotensional_asymptotic_legendre_helmholtz N ℓ m k) (fun f T => ndForce ℓ f T)
      (fun y T => 0 < y ∧ y < deriv (lennardJonesEnergy (ndStiffness k ℓ T)) ((13 / 7) ^ (1 / 6 : ℝ)) ∧ 1e-6 < deriv (lennardJonesEnergy (ndStiffness k ℓ T)) ((13 / 7) ^ (1 / 6 : ℝ))) := by
  have hN' : (0 : ℝ) < N := Nat.cast_pos.2 (by omega)
  constructor <;> intro x T hT hD <;> refine (?_ : Is _ _)
  all_goals
    have hx : 0 < x := by first | exact hD.1 | exact pos_of_ndForce hℓ hT hD.1
    simp only [ndForce_code, ndStiffness_code, ljMax_code] at hD
    obtain ⟨h1, h2, h3⟩ := hD
    have h4 := h3
    replace h3 : (ZERO : ℝ) < _ := h3
    rw [show (1e-6 : ℝ) = ZERO from rfl, ← zero_code hℓ hT] at h4
  all_goals defined [is_lennard_jones_isotensional_asymptotic_legendre_helmholtz ?_ ?_ ?_ ?_ ?_ ?_ ?_ ?_ ?_ ?_ ?_] <;> (rw [force_code]; assumption)

example : (ApiS.lennard_jones_isotensional_asymptotic_legendre_helmholtz 8 1 1 500).DefinedAs (Api.lennard_jones_isotensional_asymptotic_legendre_helmholtz 8 1 1 500) (fun f T => ndForce 1 f T)
    (fun y T => 0 < y ∧ y < deriv (lennardJonesEnergy (ndStiffness 500 1 T)) ((13 / 7) ^ (1 / 6 : ℝ)) ∧ 1e-6 < deriv (lennardJonesEnergy (ndStiffness 500 1 T)) ((13 / 7) ^ (1 / 6 : ℝ))) :=
  C46_lennard_jones_isotensional_asymptotic_legendre_helmholtz (N := 8) (m := 1) (by norm_num) (by norm_num) (by norm_num) (by norm_num)

/-- The nondimensional function of the model is defined below the maximum force. -/
theorem is_log_squared_isotensional_asymptotic_reduced_gibbs {ℓ' m' κ' η' T' : SReal} {ℓ m κ η T : ℝ} (eℓ : Is ℓ' ℓ) (em : Is m' m) (eκ : Is κ' κ) (eη : Is η' η) (eT : Is T' T)
    (hℓ : 0 < ℓ) (hm : 0 < m) (hκ : 0 < κ) (hη : 0 < η) (hT : 0 < T) (hM : η < κ / Real.exp 1) :
    Is (Polymers.ufjc.log_squared.thermodynamics.isotensional.asymptotic.reduced.nondimensional_gibbs_free_energy_per_link ℓ' m' κ' η' T')
      (Polymers.ufjc.log_squared.thermodynamics.isotensional.asymptotic.reduced.nondimensional_gibbs_free_energy_per_link ℓ m κ η T) := by
  have hs := log_squared_arg hκ hM
  defined [is_lambert ?_ hs]

/-- The nondimensional function of the model is defined below the maximum force. -/
theorem is_log_squared_isotensional_asymptotic_reduced_lengths {κ' η' : SReal} {κ η : ℝ} (eκ : Is κ' κ) (eη : Is η' η)
    (hκ : 0 < κ) (hη : 0 < η) (hM : η < κ / Real.exp 1) :
    Is (Polymers.ufjc.log_squared.thermodynamics.isotensional.asymptotic.reduced.nondimensional_end_to_end_length_per_link κ' η')
      (Polymers.ufjc.log_squared.thermodynamics.isotensional.asymptotic.reduced.nondimensional_end_to_end_length_per_link κ η) := by
  have hs := log_squared_arg hκ hM
  defined [is_lambert ?_ hs]

/-- The nondimensional function of the model is defined below the maximum force. -/
theorem is_log_squared_isotensional_asymptotic_reduced_legendre_helmholtz {ℓ' m' κ' η' T' : SReal} {ℓ m κ η T : ℝ} (eℓ : Is ℓ' ℓ) (em : Is m' m) (eκ : Is κ' κ) (eη : Is η' η) (eT : Is T' T)
    (hℓ : 0 < ℓ) (hm : 0 < m) (hκ : 0 < κ) (hη : 0 < η) (hT : 0 < T) (hM : η < κ / Real.exp 1) :
    Is (Polymers.ufjc.log_squared.thermodynamics.isotensional.asymptotic.reduced.legendre.nondimensional_helmholtz_free_energy_per_link ℓ' m' κ' η' T')
      (Polymers.ufjc.log_squared.thermodynamics.isotensional.asymptotic.reduced.legendre.nondimensional_helmholtz_free_energy_per_link ℓ m κ η T) := by
  have hs := log_squared_arg hκ hM
  defined [is_lambert ?_ hs]

/-- The nondimensional function of the model is defined below the maximum force. -/
theorem is_log_squared_isotensional_asymptotic_gibbs {ℓ' m' κ' η' T' : SReal} {ℓ m κ η T : ℝ} (eℓ : Is ℓ' ℓ) (em : Is m' m) (eκ : Is κ' κ) (eη : Is η' η) (eT : Is T' T)
    (hℓ : 0 < ℓ) (hm : 0 < m) (hκ : 0 < κ) (hη : 0 < η) (hT : 0 < T) (hM : η < κ / Real.exp 1) :
    Is (Polymers.ufjc.log_squared.thermodynamics.isotensional.asymptotic.nondimensional_gibbs_free_energy_per_link ℓ' m' κ' η' T')
      (Polymers.ufjc.log_squared.thermodynamics.isotensional.asymptotic.nondimensional_gibbs_free_energy_per_link ℓ m κ η T) := by
  have hs := log_squared_arg hκ hM
  defined [is_lambert ?_ hs]

/-- The nondimensional function of the model is defined below the maximum force. -/
theorem is_log_squared_isotensional_asymptotic_lengths {κ' η' : SReal} {κ η : ℝ} (eκ : Is κ' κ) (eη : Is η' η)
    (hκ : 0 < κ) (hη : 0 < η) (hM : η < κ / Real.exp 1) :
    Is (Polymers.ufjc.log_squared.thermodynamics.isotensional.asymptotic.nondimensional_end_to_end_length_per_link κ' η')
      (Polymers.ufjc.log_squared.thermodynamics.isotensional.asymptotic.nondimensional_end_to_end_length_per_link κ η) := by
  have hs := log_squared_arg hκ hM
  defined [is_lambert ?_ hs]

/-- The nondimensional function of the model is defined below the maximum force. -/
theorem is_log_squared_isotensional_asymptotic_legendre_helmholtz {ℓ' m' κ' η' T' : SReal} {ℓ m κ η T : ℝ} (eℓ : Is ℓ' ℓ) (em : Is m' m) (eκ : Is κ' κ) (eη : Is η' η) (eT : Is T' T)
    (hℓ : 0 < ℓ) (hm : 0 < m) (hκ : 0 < κ) (hη : 0 < η) (hT : 0 < T) (hM : η < κ / Real.exp 1) :
    Is (Polymers.ufjc.log_squared.thermodynamics.isotensional.asymptotic.legendre.nondimensional_helmholtz_free_energy_per_link ℓ' m' κ' η' T')
      (Polymers.ufjc.log_squared.thermodynamics.isotensional.asymptotic.legendre.nondimensional_helmholtz_free_energy_per_link ℓ m κ η T) := by
  have hs := log_squared_arg hκ hM
  defined [is_lambert ?_ hs]

/-- C46: every method of the family is defined for every positive force below the maximum force of the link, when that is above `1e-6`. -/
theorem C46_log_squared_isotensional_asymptotic_reduced_gibbs {N : ℕ} (hN : 0 < N) {ℓ m k : ℝ} (hℓ : 0 < ℓ) (hm : 0 < m) (hk : 0 < k) :
    (ApiS.log_squared_isotensional_asymptotic_reduced_gibbs N ℓ m k).DefinedAs (Api.log_squared_isotensional_asymptotic_reduced_gibbs N ℓ m k) (fun f T => ndForce ℓ f T)
      (fun y T => 0 < y ∧ y < ndStiffness k ℓ T / Real.exp 1 ∧ 1e-6 < ndStiffness k ℓ T / Real.exp 1) := by
  have hN' : (0 : ℝ) < N := Nat.cast_pos.2 (by omega)
  constructor <;> intro x T hT hD <;> refine (?_ : Is _ _)
  all_goals
    have hx : 0 < x := by first | exact hD.1 | exact pos_of_ndForce hℓ hT hD.1
    simp only [ndForce_code, ndStiffness_code] at hD
    obtain ⟨h1, h2, h3⟩ := hD
    have h4 := h3
    replace h3 : (ZERO : ℝ) < _ := h3
    rw [show (1e-6 : ℝ) = ZERO from rfl, ← zero_code hℓ hT] at h4
  all_goals defined [is_log_squared_isotensional_asymptotic_reduced_gibbs ?_ ?_ ?_ ?_ ?_ ?_ ?_ ?_ ?_ ?_ ?_]

example : (ApiS.log_squared_isotensional_asymptotic_reduced_gibbs 8 1 1 500).DefinedAs (Api.log_squared_isotensional_asymptotic_reduced_gibbs 8 1 1 500) (fun f T => ndForce 1 f T)
    (fun y T => 0 < y ∧ y < ndStiffness 500 1 T / Real.exp 1 ∧ 1e-6 < ndStiffness 500 1 T / Real.exp 1) :=
  C46_log_squared_isotensional_asymptotic_reduced_gibbs (N := 8) (m := 1) (by norm_num) (by norm_num) (by norm_num) (by norm_num)

/-- C46: every method of the family is defined for every positive force below the maximum force of the link, when that is above `1e-6`. -/
theorem C46_log_squared_isotensional_asymptotic_reduced_lengths {N : ℕ} (hN : 0 < N) {ℓ m k : ℝ} (hℓ : 0 < ℓ) (hk : 0 < k) :
    (ApiS.log_squared_isotensional_asymptotic_reduced_lengths N ℓ m k).DefinedAs (Api.log_squared_isotensional_asymptotic_reduced_lengths N ℓ m k) (fun f T => ndForce ℓ f T)
      (fun y T => 0 < y ∧ y < ndStiffness k ℓ T / Real.exp 1 ∧ 1e-6 < ndStiffness k ℓ T / Real.exp 1) := by
  have hN' : (0 : ℝ) < N := Nat.cast_pos.2 (by omega)
  constructor <;> intro x T hT hD <;> refine (?_ : Is _ _)
  all_goals
    have hx : 0 < x := by first | exact hD.1 | exact pos_of_ndForce hℓ hT hD.1
    simp only [ndForce_code, ndStiffness_code] at hD
    obtain ⟨h1, h2, h3⟩ := hD
    have h4 := h3
    replace h3 : (ZERO : ℝ) < _ := h3
    rw [show (1e-6 : ℝ) = ZERO from rfl, ← zero_code hℓ hT] at h4
  all_goals defined [is_log_squared_isotensional_asymptotic_reduced_lengths ?_ ?_ ?_ ?_ ?_]

example : (ApiS.log_squared_isotensional_asymptotic_reduced_lengths 8 1 1 500).DefinedAs (Api.log_squared_isotensional_asymptotic_reduced_lengths 8 1 1 500) (fun f T => ndForce 1 f T)
    (fun y T => 0 < y ∧ y < ndStiffness 500 1 T / Real.exp 1 ∧ 1e-6 < ndStiffness 500 1 T / Real.exp 1) :=
  C46_log_squared_isotensional_asymptotic_reduced_lengths (N := 8) (m := 1) (by norm_num) (by norm_num) (by norm_num)

/-- C46: every method of the family is defined for every positive force below the maximum force of the link, when that is above `1e-6`. -/
theorem C46_log_squared_isotensional_asymptotic_reduced_legendre_helmholtz {N : ℕ} (hN : 0 < N) {ℓ m k : ℝ} (hℓ : 0 < ℓ) (hm : 0 < m) (hk : 0 < k) :
    (ApiS.log_squared_isotensional_asymptotic_reduced_legendre_helmholtz N ℓ m k).DefinedAs (Api.log_squared_isotensional_asymptotic_reduced_legendre_helmholtz N ℓ m k) (fun f T => ndForce ℓ f T)
      (fun y T => 0 < y ∧ y < ndStiffness k ℓ T / Real.exp 1 ∧ 1e-6 < ndStiffness k ℓ T / Real.exp 1) := by
  have hN' : (0 : ℝ) < N := Nat.cast_pos.2 (by omega)
  constructor <;> intro x T hT hD <;> refine (?_ : Is _ _)
  all_goals
    have hx : 0 < x := by first | exact hD.1 | exact pos_of_ndForce hℓ hT hD.1
    simp only [ndForce_code, ndStiffness_code] at hD
    obtain ⟨h1, h2, h3⟩ := hD
    have h4 := h3
    replace h3 : (ZERO : ℝ) < _ := h3
    rw [show (1e-6 : ℝ) = ZERO from rfl, ← zero_code hℓ hT] at h4
  all_goals defined [is_log_squared_isotensional_asymptotic_reduced_legendre_helmholtz ?_ ?_ ?_ ?_ ?_ ?_ ?_ ?_ ?_ ?_ ?_] <;> (rw [force_code]; assumption)

example : (ApiS.log_squared_isotensional_asymptotic_reduced_legendre_helmholtz 8 1 1 500).DefinedAs (Api.log_squared_isotensional_asymptotic_reduced_legendre_helmholtz 8 1 1 500) (fun f T => ndForce 1 f T)
    (fun y T => 0 < y ∧ y < ndStiffness 500 1 T / Real.exp 1 ∧ 1e-6 < ndStiffness 500 1 T / Real.exp 1) :=
  C46_log_squared_isotensional_asymptotic_reduced_legendre_helmholtz (N := 8) (m := 1) (by norm_num) (by norm_num) (by norm_num) (by norm_num)

/-- C46: every method of the family is defined for every positive force below the maximum force of the link, when that is above `1e-6`. -/
theorem C46_log_squared_isotensional_asymptotic_gibbs {N : ℕ} (hN : 0 < N) {ℓ m k : ℝ} (hℓ : 0 < ℓ) (hm : 0 < m) (hk : 0 < k) :
    (ApiS.log_squared_isotensional_asymptotic_gibbs N ℓ m k).DefinedAs (Api.log_squared_isotensional_asymptotic_gibbs N ℓ m k) (fun f T => ndForce ℓ f T)
      (fun y T => 0 < y ∧ y < ndStiffness k ℓ T / Real.exp 1 ∧ 1e-6 < ndStiffness k ℓ T / Real.exp 1) := by
  have hN' : (0 : ℝ) < N := Nat.cast_pos.2 (by omega)
  constructor <;> intro x T hT hD <;> refine (?_ : Is _ _)
  all_goals
    have hx : 0 < x := by first | exact hD.1 | exact pos_of_ndForce hℓ hT hD.1
    simp only [ndForce_code, ndStiffness_code] at hD
    obtain ⟨h1, h2, h3⟩ := hD
    have h4 := h3
    replace h3 : (ZERO : ℝ) < _ := h3
    rw [show (1e-6 : ℝ) = ZERO from rfl, ← zero_code hℓ hT] at h4
  all_goals defined [is_log_squared_isotensional_asymptotic_gibbs ?_ ?_ ?_ ?_ ?_ ?_ ?_ ?_ ?_ ?_ ?_]

example : (ApiS.log_squared_isotensional_asymptotic_gibbs 8 1 1 500).DefinedAs (Api.log_squared_isotensional_asymptotic_gibbs 8 1 1 500) (fun f T => ndForce 1 f T)
    (fun y T => 0 < y ∧ y < ndStiffness 500 1 T / Real.exp 1 ∧ 1e-6 < ndStiffness 500 1 T / Real.exp 1) :=
  C46_log_squared_isotensional_asymptotic_gibbs (N := 8) (m := 1) (by norm_num) (by norm_num) (by norm_num) (by norm_num)

/-- C46: every method of the family is defined for every positive force below the maximum force of the link, when that is above `1e-6`. -/
theorem C46_log_squared_isotensional_asymptotic_lengths {N : ℕ} (hN : 0 < N) {ℓ m k : ℝ} (hℓ : 0 < ℓ) (hk : 0 < k) :
    (ApiS.log_squared_isotensional_asymptotic_lengths N ℓ m k).DefinedAs (Api.log_squared_isotensional_asymptotic_lengths N ℓ m k) (fun f T => ndForce ℓ f T)
      (fun y T => 0 < y ∧ y < ndStiffness k ℓ T / Real.exp 1 ∧ 1e-6 < ndStiffness k ℓ T / Real.exp 1) := by
  have hN' : (0 : ℝ) < N := Nat.cast_pos.2 (by omega)
  constructor <;> intro x T hT hD <;> refine (?_ : Is _ _)
  all_goals
    have hx : 0 < x := by first | exact hD.1 | exact pos_of_ndForce hℓ hT hD.1
    simp only [ndForce_code, ndStiffness_code] at hD
    obtain ⟨h1, h2, h3⟩ := hD
    have h4 := h3
    replace h3 : (ZERO : ℝ) < _ := h3
    rw [show (1e-6 : ℝ) = ZERO from rfl, ← zero_code hℓ hT] at h4
  all_goals defined [is_log_squared_isotensional_asymptotic_lengths ?_ ?_ ?_ ?_ ?_]

example : (ApiS.log_squared_isotensional_asymptotic_lengths 8 1 1 500).DefinedAs (Api.log_squared_isotensional_asymptotic_lengths 8 1 1 500) (fun f T => ndForce 1 f T)
    (fun y T => 0 < y ∧ y < ndStiffness 500 1 T / Real.exp 1 ∧ 1e-6 < ndStiffness 500 1 T / Real.exp 1) :=
  C46_log_squared_isotensional_asymptotic_lengths (N := 8) (m := 1) (by norm_num) (by norm_num) (by norm_num)

/-- C46: every method of the family is defined for every positive force below the maximum force of the link, when that is above `1e-6`. -/
theorem C46_log_squared_isotensional_asymptotic_legendre_helmholtz {N : ℕ} (hN : 0 < N) {ℓ m k : ℝ} (hℓ : 0 < ℓ) (hm : 0 < m) (hk : 0 < k) :
    (ApiS.log_squared_isotensional_asymptotic_legendre_helmholtz N ℓ m k).DefinedAs (Api.log_squared_isotensional_asymptotic_legendre_helmholtz N ℓ m k) (fun f T => ndForce ℓ f T)
      (fun y T => 0 < y ∧ y < ndStiffness k ℓ T / Real.exp 1 ∧ 1e-6 < ndStiffness k ℓ T / Real.exp 1) := by
  have hN' : (0 : ℝ) < N := Nat.cast_pos.2 (by omega)
  constructor <;> intro x T hT hD <;> refine (?_ : Is _ _)
  all_goals
    have hx : 0 < x := by first | exact hD.1 | exact pos_of_ndForce hℓ hT hD.1
    simp only [ndForce_code, ndStiffness_code] at hD
    obtain ⟨h1, h2, h3⟩ := hD
    have h4 := h3
    replace h3 : (ZERO : ℝ) < _ := h3
    rw [show (1e-6 : ℝ) = ZERO from rfl, ← zero_code hℓ hT] at h4
  all_goals defined [is_log_squared_isotensional_asymptotic_legendre_helmholtz ?_ ?_ ?_ ?_ ?_ ?_ ?_ ?_ ?_ ?_ ?_] <;> (rw [force_code]; assumption)

example : (ApiS.log_squared_isotensional_asymptotic_legendre_helmholtz 8 1 1 500).DefinedAs (Api.log_squared_isotensional_asymptotic_legendre_helmholtz 8 1 1 500) (fun f T => ndForce 1 f T)
    (fun y T => 0 < y ∧ y < ndStiffness 500 1 T / Real.exp 1 ∧ 1e-6 < ndStiffness 500 1 T / Real.exp 1) :=
  C46_log_squared_isotensional_asymptotic_legendre_helmholtz (N := 8) (m := 1) (by norm_num) (by norm_num) (by norm_num) (by norm_num)

end Polymers.Props
