import Verif.Spec.RoundTrip
import Verif.Lemmas.Scaling
import Mathlib.Tactic.Positivity
import Mathlib.Tactic.FieldSimp

/-! The dimensional round trip follows from the nondimensional one. -/

namespace Polymers.Spec

theorem ForceMethods.RoundTrip.of_nd {f : ForceMethods} {l : LengthMethods} {N : ℕ} {ℓ tol : ℝ} {D : ℝ → ℝ → Prop}
    (hN : 0 < N) (hℓ : 0 < ℓ) (hf : f.Scales ℓ (ndLength N ℓ)) (hl : l.Scales N ℓ (ndForce ℓ))
    (h : ∀ γ T, 0 < T → D γ T → |l.nd_length_per_link (f.nd_force γ T) T - γ| ≤ tol * |γ|) : f.RoundTrip l N ℓ tol D := by
  refine ⟨h, fun ξ T hT hD => ?_⟩
  have hN' : (0 : ℝ) < N := Nat.cast_pos.2 hN
  have hc : (0 : ℝ) < N * ℓ := by positivity
  have hk := (kT_pos hT).ne'
  have e1 : ndForce ℓ (f.force ξ T) T = f.nd_force (ξ / (N * ℓ)) T := by
    rw [hf ξ T hT]; unfold ndForce ndLength; field_simp
  have e2 : l.length (f.force ξ T) T = N * ℓ * l.nd_length_per_link (f.nd_force (ξ / (N * ℓ)) T) T := by
    rw [hl.length _ T hT, hl.nd_total _ T hT, e1]; ring
  have h1 := h _ T hT hD
  have e3 : N * ℓ * l.nd_length_per_link (f.nd_force (ξ / (N * ℓ)) T) T - ξ =
      N * ℓ * (l.nd_length_per_link (f.nd_force (ξ / (N * ℓ)) T) T - ξ / (N * ℓ)) := by
    field_simp
  rw [e2, e3, abs_mul, abs_of_pos hc]
  refine (mul_le_mul_of_nonneg_left h1 hc.le).trans_eq ?_
  rw [abs_div, abs_of_pos hc]; field_simp

end Polymers.Spec
