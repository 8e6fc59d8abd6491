import Verif.Lemmas.Scaling
import Mathlib.Analysis.Calculus.Deriv.Mul
import Mathlib.Analysis.Calculus.Deriv.Comp
import Mathlib.Analysis.Calculus.Deriv.Add

/-! With the scaling relations, gradients only have to be checked for the nondimensional per-link functions. -/

namespace Polymers

open Polymers.Spec

theorem hasDerivAt_of_eq {f g : ℝ → ℝ} {f' g' x : ℝ} (h : HasDerivAt f f' x) (hf : ∀ y, g y = f y) (hf' : f' = g') :
    HasDerivAt g g' x := by
  rw [funext hf, ← hf']; exact h

theorem hasDerivAt_ndForce {ℓ T f : ℝ} : HasDerivAt (fun f => ndForce ℓ f T) (ℓ / kT T) f := by
  unfold ndForce
  simpa using ((hasDerivAt_id f).mul_const ℓ).div_const (kT T)

theorem hasDerivAt_ndLength {N : ℕ} {ℓ T ξ : ℝ} : HasDerivAt (fun ξ => ndLength N ℓ ξ T) (1 / (N * ℓ)) ξ := by
  unfold ndLength
  simpa using (hasDerivAt_id ξ).div_const (N * ℓ)

theorem Spec.LengthMethods.IsMinusGradient.of_nd {l : LengthMethods} {e : EnergyMethods} {N : ℕ} {ℓ : ℝ}
    {D : ℝ → ℝ → Prop} (he : e.Scales N (ndForce ℓ)) (hl : l.Scales N ℓ (ndForce ℓ))
    (h : ∀ η T, 0 < T → D η T → HasDerivAt (fun η => e.nd_energy_per_link η T) (-l.nd_length_per_link η T) η) :
    l.IsMinusGradient e ℓ D := by
  have h2 : ∀ η T, 0 < T → D η T → HasDerivAt (fun η => e.nd_energy η T) (-l.nd_length η T) η := by
    intro η T hT hD
    have := (h η T hT hD).const_mul (N : ℝ)
    have e1 : (fun η => e.nd_energy η T) = fun η => (N : ℝ) * e.nd_energy_per_link η T := by
      funext η; exact he.nd_total η T hT
    rw [e1]
    refine this.congr_deriv ?_
    rw [hl.nd_total η T hT]; ring
  have key : ∀ (g : ℝ → ℝ) (g' : ℝ) (f T : ℝ), 0 < T → HasDerivAt g g' (ndForce ℓ f T) →
      HasDerivAt (fun f => kT T * g (ndForce ℓ f T)) (ℓ * g') f := by
    intro g g' f T hT hg
    have hk := (kT_pos hT).ne'
    refine ((hg.comp f hasDerivAt_ndForce).const_mul (kT T)).congr_deriv ?_
    field_simp
  refine ⟨?_, ?_, h2, h⟩
  · intro f T hT hD
    have e1 : (fun f => e.energy f T) = fun f => kT T * e.nd_energy (ndForce ℓ f T) T := by
      funext f; exact he.energy f T hT
    rw [e1]
    refine (key (fun η => e.nd_energy η T) _ f T hT (h2 _ T hT hD)).congr_deriv ?_
    rw [hl.length f T hT]; ring
  · intro f T hT hD
    have e1 : (fun f => e.energy_per_link f T) = fun f => kT T * e.nd_energy_per_link (ndForce ℓ f T) T := by
      funext f; exact he.energy_per_link f T hT
    rw [e1]
    refine (key (fun η => e.nd_energy_per_link η T) _ f T hT (h _ T hT hD)).congr_deriv ?_
    rw [hl.length_per_link f T hT]; ring

theorem Spec.ForceMethods.IsGradient.of_nd {p : ForceMethods} {e : EnergyMethods} {N : ℕ} {ℓ : ℝ} (hN : 0 < N)
    {D : ℝ → ℝ → Prop} (he : e.Scales N (ndLength N ℓ)) (hp : p.Scales ℓ (ndLength N ℓ))
    (h : ∀ γ T, 0 < T → D γ T → HasDerivAt (fun γ => e.nd_energy_per_link γ T) (p.nd_force γ T) γ) :
    p.IsGradient e N ℓ D := by
  refine ⟨?_, h⟩
  intro ξ T hT hD
  have hN' := ((Nat.cast_pos (α := ℝ)).2 hN).ne'
  have e1 : (fun ξ => e.energy ξ T) = fun ξ => kT T * (N * e.nd_energy_per_link (ndLength N ℓ ξ T) T) := by
    funext ξ; rw [he.energy ξ T hT, he.nd_total _ T hT]
  rw [e1]
  have h1 := h _ T hT hD
  refine ((HasDerivAt.comp ξ h1 (hasDerivAt_ndLength (N := N) (ℓ := ℓ) (T := T))).const_mul (N : ℝ)
    |>.const_mul (kT T)).congr_deriv ?_
  rw [hp ξ T hT]
  by_cases hℓ : ℓ = 0
  · subst hℓ; simp
  · field_simp

theorem Spec.EnergyMethods.IsLegendre.of_nd {h g : EnergyMethods} {l : LengthMethods} {N : ℕ} {ℓ : ℝ}
    {D : ℝ → ℝ → Prop} (hh : h.Scales N (ndForce ℓ)) (hg : g.Scales N (ndForce ℓ)) (hl : l.Scales N ℓ (ndForce ℓ))
    (H : ∀ η T, 0 < T → D η T → h.nd_energy_per_link η T = g.nd_energy_per_link η T + η * l.nd_length_per_link η T) :
    h.IsLegendre g l ℓ D := by
  have key : ∀ f T, 0 < T → kT T * ndForce ℓ f T = f * ℓ := by
    intro f T hT
    have hk := (kT_pos hT).ne'
    unfold ndForce; field_simp
  have H2 : ∀ η T, 0 < T → D η T → h.nd_energy η T = g.nd_energy η T + η * l.nd_length η T := by
    intro η T hT hD
    rw [hh.nd_total η T hT, hg.nd_total η T hT, hl.nd_total η T hT, H η T hT hD]; ring
  refine ⟨?_, ?_, H2, H⟩
  · intro f T hT hD
    rw [hh.energy f T hT, hg.energy f T hT, hl.length f T hT, H2 _ T hT hD]
    linear_combination l.nd_length (ndForce ℓ f T) T * key f T hT
  · intro f T hT hD
    rw [hh.energy_per_link f T hT, hg.energy_per_link f T hT, hl.length_per_link f T hT, H _ T hT hD]
    linear_combination l.nd_length_per_link (ndForce ℓ f T) T * key f T hT

theorem Spec.EnergyMethods.IsLegendreInLength.of_nd {g h : EnergyMethods} {p : ForceMethods} {N : ℕ} {ℓ : ℝ}
    (hN : 0 < N) (hℓ : 0 < ℓ)
    {D : ℝ → ℝ → Prop} (hg : g.Scales N (ndLength N ℓ)) (hh : h.Scales N (ndLength N ℓ)) (hp : p.Scales ℓ (ndLength N ℓ))
    (H : ∀ γ T, 0 < T → D γ T → g.nd_energy_per_link γ T = h.nd_energy_per_link γ T - γ * p.nd_force γ T) :
    g.IsLegendreInLength h p N ℓ D := by
  have hN' : (N : ℝ) ≠ 0 := by exact_mod_cast hN.ne'
  have key : ∀ ξ T, N * ndLength N ℓ ξ T * ℓ = ξ := by
    intro ξ T
    unfold ndLength; field_simp
  have H2 : ∀ γ T, 0 < T → D γ T → g.nd_energy γ T = h.nd_energy γ T - N * γ * p.nd_force γ T := by
    intro γ T hT hD
    rw [hh.nd_total γ T hT, hg.nd_total γ T hT, H γ T hT hD]; ring
  refine ⟨?_, ?_, H2, H⟩
  · intro ξ T hT hD
    rw [hh.energy ξ T hT, hg.energy ξ T hT, hp ξ T hT, H2 _ T hT hD]
    have := key ξ T
    generalize ndLength N ℓ ξ T = y at *
    subst this
    field_simp
  · intro ξ T hT hD
    rw [hh.energy_per_link ξ T hT, hg.energy_per_link ξ T hT, hp ξ T hT, H _ T hT hD]
    have := key ξ T
    generalize ndLength N ℓ ξ T = y at *
    subst this
    field_simp

end Polymers
