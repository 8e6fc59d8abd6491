import Verif.Props.DefinedFjc
import Verif.Props.EfjcLegendre

/-! Definedness (C46) of the extensible chain at fixed extension: the reduced asymptotic approach. -/

namespace Polymers.Props

open Polymers.Spec Polymers.SReal Polymers.Lemmas

set_option maxHeartbeats 1000000

section leaves

open efjc.thermodynamics.isometric.asymptotic

variable {x κ' : SReal} {r κ : ℝ}

/-- The Newton iteration stays at positive forces whose Langevin value does not exceed the extension. -/
theorem ext_step_mem {γ z : ℝ} (hκ : 0 < κ) (h : 0 < z ∧ langevin z ≤ γ) :
    0 < extStep κ γ z ∧ langevin (extStep κ γ z) ≤ γ := by
  have hpos : 0 < extStep κ γ z := by
    rcases le_total (extF κ z) γ with hc | hc
    · have hd := langevin_deriv_pos h.1.ne'
      have : 0 ≤ (γ - extF κ z) / (1 / z ^ 2 - 1 / Real.sinh z ^ 2 + 1 / κ) := div_nonneg (by linarith) (by positivity)
      have := h.1
      unfold extStep
      linarith
    · exact (extStep_first hκ h.1 hc h.2).1
  refine ⟨hpos, ?_⟩
  have := extStep_below hκ h.1 hpos.le
  have : 0 < extStep κ γ z / κ := div_pos hpos hκ
  unfold extF at *
  linarith

theorem _root_.Polymers.SReal.Is.efjc_reduced_force (hκ' : Is κ' κ) (hx : Is x r) (hκ : 0 < κ) (h : 0 < r ∧ r ≠ 1) :
    Is (reduced.legendre.nondimensional_force κ' x) (reduced.legendre.nondimensional_force κ r) := by
  have e1 : (1.0 : ℝ) = 1 := by norm_num
  have hg : ∀ {u v : SReal} {p q : ℝ}, (r < 1 → Is u p) → (1 < r → Is v q) →
      Is (if Elem.lt x 1.0 = true then u else v) (if Elem.lt r 1.0 = true then p else q) := fun hu hv =>
    Is.ite_lt hx (Is.lit _ _ _) (fun h1 => hu (by rwa [e1] at h1))
      (fun h1 => hv (lt_of_le_of_ne (by rw [e1] at h1; exact not_lt.1 h1) h.2.symm))
  refine Is.newton (S := fun z => 0 < z ∧ langevin z ≤ r) rfl hx h.1.ne'
    (hg (fun h1 => Is.inverse_langevin hx ⟨h.1, h1⟩) (fun h1 => by defined [hx, hκ'])) (Is.lit _ _ _)
    (fun z hz => ?_) (fun z hz => ?_) (fun z hz => ?_) (fun z hz => ?_) ?_
  · have hz0 := hz.1
    defined [hκ']
  · have hz0 := hz.1
    defined [hκ']
  · have := langevin_deriv_pos hz.1.ne'
    simp only [model_real]
    positivity
  · have := ext_step_mem hκ hz
    simpa only [model_real, extStep, extF, langevin] using this
  · by_cases h1 : r < 1
    · rw [if_pos (by simp only [model_real]; exact h1)]
      exact ⟨inverse_langevin_pos ⟨h.1, h1⟩, inverse_langevin_below h.1 h1⟩
    · have h1' : 1 < r := lt_of_le_of_ne (not_lt.1 h1) h.2.symm
      rw [if_neg (by simp only [model_real]; exact h1), e1]
      have hp : 0 < κ * (r - 1) := mul_pos hκ (by linarith)
      exact ⟨hp, by linarith [langevin_lt_one hp]⟩

theorem _root_.Polymers.SReal.Is.efjc_reduced_energy {N : ℕ} {ℓ m T : ℝ} {ℓ' m' T' : SReal} (hN : 0 < N)
    (Hℓ : Is ℓ' ℓ) (Hm : Is m' m) (HT : Is T' T) (hℓ : 0 < ℓ) (hm : 0 < m) (hT : 0 < T) (hκ' : Is κ' κ) (hx : Is x r)
    (hκ : 0 < κ) (h : 0 < r ∧ r ≠ 1) :
    Is (reduced.legendre.nondimensional_helmholtz_free_energy_per_link N ℓ' m' κ' x T')
      (reduced.legendre.nondimensional_helmholtz_free_energy_per_link N ℓ m κ r T) := by
  have hN' : (0 : ℝ) < N := Nat.cast_pos.2 hN
  have hp := (efjc_reduced_solver hκ h.1 h.2).1
  defined [hx, hκ', Hℓ, Hm, HT, Is.efjc_reduced_force hκ' hx hκ h]

end leaves

theorem efjc_back_mem {N : ℕ} {ℓ : ℝ} (hN : (0 : ℝ) < N) (hℓ : 0 < ℓ) :
    0 < (ZERO : ℝ) * N * ℓ / (N * ℓ) ∧ (ZERO : ℝ) * N * ℓ / (N * ℓ) ≠ 1 :=
  ⟨(fjc_back_mem hN hℓ).1, (fjc_back_mem hN hℓ).2.ne⟩

theorem efjc_zero_mem : 0 < (ZERO : ℝ) ∧ (ZERO : ℝ) ≠ 1 := ⟨fjc_zero_mem.1, fjc_zero_mem.2.ne⟩

/-- C46: every method of the family is defined at every positive extension, below or above full extension but not exactly at it. -/
theorem C46_efjc_isometric_asymptotic_reduced_legendre_helmholtz {N : ℕ} (hN : 0 < N) {ℓ m k : ℝ} (hℓ : 0 < ℓ) (hm : 0 < m) (hk : 0 < k) :
    (ApiS.efjc_isometric_asymptotic_reduced_legendre_helmholtz N ℓ m k).DefinedAs (Api.efjc_isometric_asymptotic_reduced_legendre_helmholtz N ℓ m k) (fun ξ _ => ξ / (N * ℓ))
      (fun y _ => 0 < y ∧ y ≠ 1) := by
  have hN' : (0 : ℝ) < N := Nat.cast_pos.2 (by omega)
  constructor <;> intro x T hT hD <;> refine (?_ : Is _ _) <;> defined [Is.efjc_reduced_energy (by first | exact hN | norm_num) ?_ ?_ ?_ ?_ ?_ ?_ ?_ ?_ ?_ (by first | exact hD | exact efjc_zero_mem | exact efjc_back_mem hN' hℓ | (rw [div_div]; first | exact hD | exact efjc_back_mem hN' hℓ))]

example : (ApiS.efjc_isometric_asymptotic_reduced_legendre_helmholtz 8 1 1 500).DefinedAs (Api.efjc_isometric_asymptotic_reduced_legendre_helmholtz 8 1 1 500) (fun ξ _ => ξ / ((8 : ℕ) * 1))
    (fun y _ => 0 < y ∧ y ≠ 1) :=
  C46_efjc_isometric_asymptotic_reduced_legendre_helmholtz (N := 8) (m := 1) (by norm_num) (by norm_num) (by norm_num) (by norm_num)

/-- C46: every method of the family is defined at every positive extension, below or above full extension but not exactly at it. -/
theorem C46_efjc_isometric_asymptotic_reduced_legendre_forces {N : ℕ} (hN : 0 < N) {ℓ m k : ℝ} (hℓ : 0 < ℓ) (hk : 0 < k) :
    (ApiS.efjc_isometric_asymptotic_reduced_legendre_forces N ℓ m k).DefinedAs (Api.efjc_isometric_asymptotic_reduced_legendre_forces N ℓ m k) (fun ξ _ => ξ / (N * ℓ))
      (fun y _ => 0 < y ∧ y ≠ 1) := by
  have hN' : (0 : ℝ) < N := Nat.cast_pos.2 (by omega)
  constructor <;> intro x T hT hD <;> refine (?_ : Is _ _) <;> defined [Is.efjc_reduced_force ?_ ?_ ?_ (by first | exact hD | exact efjc_zero_mem | exact efjc_back_mem hN' hℓ | (rw [div_div]; first | exact hD | exact efjc_back_mem hN' hℓ))]

example : (ApiS.efjc_isometric_asymptotic_reduced_legendre_forces 8 1 1 500).DefinedAs (Api.efjc_isometric_asymptotic_reduced_legendre_forces 8 1 1 500) (fun ξ _ => ξ / ((8 : ℕ) * 1))
    (fun y _ => 0 < y ∧ y ≠ 1) :=
  C46_efjc_isometric_asymptotic_reduced_legendre_forces (N := 8) (m := 1) (by norm_num) (by norm_num) (by norm_num)

end Polymers.Props
