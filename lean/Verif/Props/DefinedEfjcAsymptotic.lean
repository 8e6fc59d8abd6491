import Verif.Props.DefinedEfjcAlternative
import Verif.Props.EfjcAsymptotic

/-! Definedness (C56) of the extensible chain at fixed extension: the asymptotic approach. -/

namespace Polymers.Props

open Polymers.Spec Polymers.SReal Polymers.Lemmas

set_option maxHeartbeats 1000000

section leaves

open efjc.thermodynamics.isometric.asymptotic

variable {x κ' : SReal} {r κ : ℝ}

theorem _root_.Polymers.SReal.Is.efjc_asymptotic_force (hκ' : Is κ' κ) (hx : Is x r) (hκ : 0 < κ)
    (h : 0 < r ∧ (r < langevin κ ∨ 1 < r)) :
    Is (legendre.nondimensional_force κ' x) (legendre.nondimensional_force κ r) := by
  have e1 : (1.0 : ℝ) = 1 := by norm_num
  have hn1 : r ≠ 1 := by
    rintro rfl
    rcases h.2 with h2 | h2
    · linarith [langevin_lt_one hκ]
    · linarith
  have hg : ∀ {u v : SReal} {p q : ℝ}, (r < 1 → Is u p) → (1 < r → Is v q) →
      Is (if Elem.lt x 1.0 = true then u else v) (if Elem.lt r 1.0 = true then p else q) := fun hu hv =>
    Is.ite_lt hx (Is.lit _ _ _) (fun h1 => hu (by rwa [e1] at h1))
      (fun h1 => hv (lt_of_le_of_ne (by rw [e1] at h1; exact not_lt.1 h1) hn1.symm))
  refine Is.newton (S := AsyOk κ r) rfl hx h.1.ne'
    (hg (fun h1 => Is.inverse_langevin hx ⟨h.1, h1⟩) (fun h1 => by defined [hx, hκ'])) (Is.lit _ _ _)
    (fun z hz => ?_) (fun z hz => ?_) (fun z hz => ?_) (fun z hz => ?_) ?_
  · have hz0 := hz.1
    defined [hκ']
  · have hz0 := hz.1
    defined [hκ']
  · have := asyF'_pos hκ hz.1
    rw [← efjc_slope_code hκ hz.1] at this
    simp only [model_real]
    exact this.ne'
  · have := hz.step hκ
    rw [asyStep, ← efjc_slope_code hκ hz.1, ← efjc_extension_code hκ hz.1] at this
    simpa only [model_real, langevin] using this
  · by_cases h1 : r < 1
    · rw [if_pos (by simp only [model_real]; exact h1)]
      exact .low (inverse_langevin_pos ⟨h.1, h1⟩)
        (inverse_langevin_lt_stiffness hκ h.1 (h.2.resolve_right (by linarith))) (inverse_langevin_below h.1 h1)
    · have h1' : 1 < r := lt_of_le_of_ne (not_lt.1 h1) hn1.symm
      rw [if_neg (by simp only [model_real]; exact h1), e1]
      exact .high hκ h1'

theorem _root_.Polymers.SReal.Is.efjc_asymptotic_energy {N : ℕ} {ℓ m T : ℝ} {ℓ' m' T' : SReal} (hN : 0 < N)
    (Hℓ : Is ℓ' ℓ) (Hm : Is m' m) (HT : Is T' T) (hℓ : 0 < ℓ) (hm : 0 < m) (hT : 0 < T) (hκ' : Is κ' κ) (hx : Is x r)
    (hκ : 0 < κ) (h : 0 < r ∧ (r < langevin κ ∨ 1 < r)) :
    Is (legendre.nondimensional_helmholtz_free_energy_per_link N ℓ' m' κ' x T')
      (legendre.nondimensional_helmholtz_free_energy_per_link N ℓ m κ r T) := by
  have hN' : (0 : ℝ) < N := Nat.cast_pos.2 hN
  have hp := (efjc_asymptotic_solver hκ h.1 h.2).1
  defined [hx, hκ', Hℓ, Hm, HT, Is.efjc_asymptotic_force hκ' hx hκ h]

end leaves

/-- C56: every method of the family is defined on the stated extensions. -/
theorem C56_efjc_isometric_asymptotic_legendre_helmholtz {N : ℕ} (hN : 0 < N) {ℓ m k : ℝ} (hℓ : 0 < ℓ) (hm : 0 < m) (hk : 0 < k) :
    (ApiS.efjc_isometric_asymptotic_legendre_helmholtz N ℓ m k).DefinedAs (Api.efjc_isometric_asymptotic_legendre_helmholtz N ℓ m k) (fun ξ _ => ξ / (N * ℓ))
      (AltDomain k ℓ) := by
  have hN' : (0 : ℝ) < N := Nat.cast_pos.2 (by omega)
  constructor <;> intro x T hT hD <;> refine (?_ : Is _ _) <;> defined [Is.efjc_asymptotic_energy (by first | exact hN | norm_num) ?_ ?_ ?_ ?_ ?_ ?_ ?_ ?_ ?_ (by (try rw [ndStiffness_code]); first | exact hD.mem | exact hD.zero_mem | exact hD.back_mem hN' hℓ | (rw [div_div]; first | exact hD.mem | exact hD.back_mem hN' hℓ))]

example : (ApiS.efjc_isometric_asymptotic_legendre_helmholtz 8 1 1 500).DefinedAs (Api.efjc_isometric_asymptotic_legendre_helmholtz 8 1 1 500) (fun ξ _ => ξ / ((8 : ℕ) * 1))
    (AltDomain 500 1) :=
  C56_efjc_isometric_asymptotic_legendre_helmholtz (N := 8) (m := 1) (by norm_num) (by norm_num) (by norm_num) (by norm_num)

/-- C56: every method of the family is defined on the stated extensions. -/
theorem C56_efjc_isometric_asymptotic_legendre_forces {N : ℕ} (hN : 0 < N) {ℓ m k : ℝ} (hℓ : 0 < ℓ) (hk : 0 < k) :
    (ApiS.efjc_isometric_asymptotic_legendre_forces N ℓ m k).DefinedAs (Api.efjc_isometric_asymptotic_legendre_forces N ℓ m k) (fun ξ _ => ξ / (N * ℓ))
      (AltDomain k ℓ) := by
  have hN' : (0 : ℝ) < N := Nat.cast_pos.2 (by omega)
  constructor <;> intro x T hT hD <;> refine (?_ : Is _ _) <;> defined [Is.efjc_asymptotic_force ?_ ?_ ?_ (by (try rw [ndStiffness_code]); first | exact hD.mem | exact hD.zero_mem | exact hD.back_mem hN' hℓ | (rw [div_div]; first | exact hD.mem | exact hD.back_mem hN' hℓ))]

example : (ApiS.efjc_isometric_asymptotic_legendre_forces 8 1 1 500).DefinedAs (Api.efjc_isometric_asymptotic_legendre_forces 8 1 1 500) (fun ξ _ => ξ / ((8 : ℕ) * 1))
    (AltDomain 500 1) :=
  C56_efjc_isometric_asymptotic_legendre_forces (N := 8) (m := 1) (by norm_num) (by norm_num) (by norm_num)

end Polymers.Props
