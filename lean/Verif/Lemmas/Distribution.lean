import Verif.Spec.Distribution
import Verif.Lemmas.Scaling
import Mathlib.Tactic.Positivity
import Mathlib.Tactic.FieldSimp

/-! Dimensional statements about distributions follow from the nondimensional ones by scaling. -/

namespace Polymers.Spec.DistributionMethods

theorem SumsToOne.of_nd {d : DistributionMethods} {pi : ℝ} {N : ℕ} {ℓ a b : ℝ} {n : ℕ} (hN : 0 < N) (hℓ : 0 < ℓ)
    (hd : d.Scales pi N ℓ) (h : midpointSum d.nd_radial a b n = 1) : d.SumsToOne N ℓ a b n := by
  refine ⟨h, ?_⟩
  have hN' : (0 : ℝ) < N := Nat.cast_pos.2 hN
  have hc : (0 : ℝ) < N * ℓ := by positivity
  rw [← h]
  unfold midpointSum
  rw [← sub_mul, mul_div_right_comm, mul_assoc, Finset.mul_sum]
  congr 1
  refine Finset.sum_congr rfl fun i _ => ?_
  rw [hd.radial_scale, show (a * (↑N * ℓ) + (↑i + 1 / 2) * ((b - a) / ↑n * (↑N * ℓ))) / (↑N * ℓ) =
    a + (↑i + 1 / 2) * ((b - a) / ↑n) by field_simp]
  field_simp

theorem Positive.of_nd {d : DistributionMethods} {N : ℕ} {ℓ b : ℝ} (hN : 0 < N) (hℓ : 0 < ℓ)
    (hd : d.Scales Real.pi N ℓ) (h : ∀ γ, 0 ≤ γ → γ < b → 0 < d.nd_density γ) : d.Positive N ℓ b := by
  have hN' : (0 : ℝ) < N := Nat.cast_pos.2 hN
  have hc : (0 : ℝ) < N * ℓ := by positivity
  have hden : ∀ r, 0 ≤ r → r < b * (N * ℓ) → 0 < d.density r := by
    intro r h0 h1
    rw [hd.density]
    exact div_pos (h _ (by positivity) ((div_lt_iff₀ hc).2 h1)) (by positivity)
  refine ⟨hden, h, fun r h0 h1 => ?_, fun γ h0 h1 => ?_⟩
  · rw [hd.radial]
    have := hden r h0.le h1
    have := Real.pi_pos
    positivity
  · rw [hd.nd_radial]
    have := h γ h0.le h1
    have := Real.pi_pos
    positivity

theorem PositiveInside.of_nd {d : DistributionMethods} {N : ℕ} {ℓ b : ℝ} (hN : 0 < N) (hℓ : 0 < ℓ)
    (hd : d.Scales Real.pi N ℓ) (h : ∀ γ, 0 < γ → γ < b → 0 < d.nd_density γ) : d.PositiveInside N ℓ b := by
  have hN' : (0 : ℝ) < N := Nat.cast_pos.2 hN
  have hc : (0 : ℝ) < N * ℓ := by positivity
  have hden : ∀ r, 0 < r → r < b * (N * ℓ) → 0 < d.density r := by
    intro r h0 h1
    rw [hd.density]
    exact div_pos (h _ (by positivity) ((div_lt_iff₀ hc).2 h1)) (by positivity)
  refine ⟨hden, h, fun r h0 h1 => ?_, fun γ h0 h1 => ?_⟩
  · rw [hd.radial]
    have := hden r h0 h1
    have := Real.pi_pos
    positivity
  · rw [hd.nd_radial]
    have := h γ h0 h1
    have := Real.pi_pos
    positivity

theorem IsBoltzmann.of_nd {d : DistributionMethods} {e : EnergyMethods} {pi : ℝ} {N : ℕ} {ℓ : ℝ} {D : ℝ → Prop}
    (hd : d.Scales pi N ℓ) (he : e.Scales N (ndLength N ℓ))
    (h : ∀ γ₁ γ₂ T, 0 < T → D γ₁ → D γ₂ →
      d.nd_density γ₁ * Real.exp (e.nd_energy γ₁ T) = d.nd_density γ₂ * Real.exp (e.nd_energy γ₂ T)) :
    d.IsBoltzmann e N ℓ D := by
  refine ⟨fun r₁ r₂ T hT h1 h2 => ?_, h⟩
  have hk := kT_pos hT
  rw [hd.density, hd.density, he.energy _ T hT, he.energy _ T hT, mul_div_cancel_left₀ _ hk.ne',
    mul_div_cancel_left₀ _ hk.ne', div_mul_eq_mul_div, div_mul_eq_mul_div]
  have := h _ _ T hT h1 h2
  unfold ndLength
  rw [this]

end Polymers.Spec.DistributionMethods
