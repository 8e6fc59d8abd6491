import Verif.Lemmas.SwfjcNarrow
import Verif.Props.SwfjcLegendre
import Verif.Spec.RoundTrip

/-! The square-well chain at fixed extension under the Legendre approximation, with wells at most nine tenths of a link length
wide: the returned force gives the extension back (C26) and makes Gibbs energy plus force times extension largest (C54). -/

namespace Polymers.Props

open Set Polymers.Spec Polymers.Api Polymers.Lemmas swfjc.thermodynamics

theorem well_le {ℓ w : ℝ} (hℓ : 0 < ℓ) (hw9 : w ≤ 0.9 * ℓ) : 1 + w / ℓ ≤ 1.9 := by
  have : w / ℓ ≤ 0.9 := by rwa [div_le_iff₀ hℓ]
  norm_num at *; linarith

/-- The linear law used at small extensions. -/
theorem sw_linear {W y z : ℝ} (hW : 1 < W) (h0 : 0 < y) (h1 : y ≤ 1 / 1000)
    (hz : z = y * 5 * (W ^ 2 + W + 1) / (W ^ 4 + W ^ 3 + W ^ 2 + W + 1)) : 0 < z ∧ |swF W z - y| ≤ 2e-6 * y := by
  have hW0 : 0 < W := by linarith
  have hz0 : 0 < z := by rw [hz]; positivity
  have hα : swSlope W * z = y := by
    have h3 : W ^ 3 - 1 ≠ 0 := by nlinarith [sq_nonneg (W - 1), sq_nonneg W]
    rw [hz, swSlope]
    field_simp
    ring
  have hs := (swSlope_bounds hW).1
  have hu : W * z ≤ 3 / 1000 := by nlinarith
  obtain ⟨f1, f2, -⟩ := sw_newton_bounds hW hz0 hu (by norm_num)
  rw [← swF_eq hW hz0, hα] at f1 f2
  refine ⟨hz0, abs_le.2 ⟨?_, ?_⟩⟩ <;> norm_num at f1 f2 ⊢ <;> linarith

/-- The returned force. -/
theorem swfjc_narrow_force {ℓ w γ : ℝ} (hℓ : 0 < ℓ) (hw : 0 < w) (hw9 : w ≤ 0.9 * ℓ) (h0 : 0 < γ) (h1 : γ < 1 + w / ℓ) :
    0 < isometric.legendre.nondimensional_force ℓ w γ ∧
      |swF (1 + w / ℓ) (isometric.legendre.nondimensional_force ℓ w γ) - γ| ≤ 2e-6 * γ := by
  have hW := one_lt_well hℓ hw
  have hW9 := well_le hℓ hw9
  have e : ∀ W η : ℝ, W * η * Real.cosh (W * η) - Real.sinh (W * η) - η * Real.cosh η + Real.sinh η = swZ W η := by
    intro W η; unfold swZ swG; ring
  have e' : ∀ W η : ℝ, Real.sinh (W * η) - W * η * Real.cosh (W * η) - Real.sinh η + η * Real.cosh η = -swZ W η := by
    intro W η; unfold swZ swG; ring
  obtain ⟨z, hz⟩ : ∃ z, z = isometric.legendre.nondimensional_force ℓ w γ := ⟨_, rfl⟩
  rw [← hz]
  simp only [isometric.legendre.nondimensional_force, model_real, e, e'] at hz
  generalize 1 + w / ℓ = W at *
  by_cases hk : γ ≤ 1 / 1000
  · rw [if_pos hk] at hz
    exact sw_linear hW h0 hk hz
  · rw [if_neg hk] at hz
    obtain ⟨p1, p2, p3⟩ := sw_solver (z := z) hW hW9 h0 h1 (by
      rw [hz, show (1 / 1000000 : ℝ) = 1e-6 by norm_num, show (10.0 : ℝ) = 10 by norm_num]
      rfl)
    refine ⟨p1, ?_⟩
    rw [abs_of_nonpos (by linarith)]
    norm_num at p3 ⊢
    linarith

/-- C26: for wells at most nine tenths of a link length wide, the force returned for an extension between zero and the largest
one, applied to the chain, gives the extension back to two parts in a million. -/
theorem C26_swfjc_narrow_well (N : ℕ) (ℓ m w : ℝ) (hN : 0 < N) (hℓ : 0 < ℓ) (hw : 0 < w) (hw9 : w ≤ 0.9 * ℓ) :
    (swfjc_isometric_legendre_forces N ℓ m w).RoundTrip (swfjc_isotensional_lengths N ℓ m w) N ℓ 2e-6
      (fun γ _ => 0 < γ ∧ γ < 1 + w / ℓ) := by
  refine .of_nd hN hℓ (C15_swfjc_isometric_legendre_forces N ℓ m w hN hℓ) (C15_swfjc_isotensional_lengths N ℓ m w hN hℓ) ?_
  intro γ T hT hγ
  rw [swfjc_length, abs_of_pos hγ.1]
  exact (swfjc_narrow_force hℓ hw hw9 hγ.1 hγ.2).2

example : (swfjc_isometric_legendre_forces 8 1 1 (1 / 2)).RoundTrip (swfjc_isotensional_lengths 8 1 1 (1 / 2)) 8 1 2e-6
      (fun γ _ => 0 < γ ∧ γ < 1 + 1 / 2 / 1) :=
  C26_swfjc_narrow_well 8 1 1 (1 / 2) (by norm_num) (by norm_num) (by norm_num) (by norm_num)

/-- The energy at a positive force. -/
theorem swfjc_gibbs_tangent (N : ℕ) (ℓ m w : ℝ) (hN : 0 < N) (hℓ : 0 < ℓ) (hw : 0 < w) {T η x : ℝ} (hT : 0 < T) (hη : 0 < η)
    (hx : 0 < x) : (swfjc_isotensional_gibbs N ℓ m w).nd_energy_per_link η T ≤
      (swfjc_isotensional_gibbs N ℓ m w).nd_energy_per_link x T + -swF (1 + w / ℓ) x * (η - x) := by
  have hW := one_lt_well hℓ hw
  have hg : ∀ x : ℝ, 0 < x → HasDerivAt (fun η => (swfjc_isotensional_gibbs N ℓ m w).nd_energy_per_link η T)
      (-swF (1 + w / ℓ) x) x := by
    intro x hx
    refine ((C27_swfjc_length_is_gradient N ℓ m w hN hℓ hw).nd_length_per_link x T hT hx).congr_deriv ?_
    rw [swfjc_length, swF]
  have hc : ConcaveOn ℝ (Ioi 0) (fun η => (swfjc_isotensional_gibbs N ℓ m w).nd_energy_per_link η T) := by
    refine concaveOn_of_hasDerivWithinAt2_nonpos (convex_Ioi 0)
      (fun x hx => (hg x hx).continuousAt.continuousWithinAt) (f' := fun x => -swF (1 + w / ℓ) x)
      (f'' := fun x => -swF' (1 + w / ℓ) x) (fun x hx => ?_) (fun x hx => ?_) fun x hx => ?_
    all_goals rw [interior_Ioi] at hx
    · exact (hg x hx).hasDerivWithinAt
    · exact (hasDerivAt_swF hW hx).neg.hasDerivWithinAt
    · exact neg_nonpos.2 ((tame_swF hW).pos x hx).le
  exact concave_tangent hc (mem_Ioi.2 hx) (mem_Ioi.2 hη) (hg x hx)

/-- C54: for these wells the returned force makes Gibbs energy plus force times extension largest. -/
theorem C54_swfjc_narrow_well (N : ℕ) (ℓ m w : ℝ) (hN : 0 < N) (hℓ : 0 < ℓ) (hw : 0 < w) (hw9 : w ≤ 0.9 * ℓ) :
    (swfjc_isometric_legendre_forces N ℓ m w).Maximises (swfjc_isotensional_gibbs N ℓ m w) 2e-6
      (fun γ _ => 0 < γ ∧ γ < 1 + w / ℓ) := by
  intro γ T hT hγ η hη
  obtain ⟨hx, hb⟩ := swfjc_narrow_force hℓ hw hw9 hγ.1 hγ.2
  have e : (swfjc_isometric_legendre_forces N ℓ m w).nd_force γ T = isometric.legendre.nondimensional_force ℓ w γ := rfl
  rw [e]
  generalize isometric.legendre.nondimensional_force ℓ w γ = x at *
  have ht := swfjc_gibbs_tangent N ℓ m w hN hℓ hw hT hη hx
  have h2 : (γ - swF (1 + w / ℓ) x) * (η - x) ≤ 2e-6 * γ * |η - x| := by
    refine (le_abs_self _).trans ?_
    rw [abs_mul, abs_sub_comm]
    exact mul_le_mul_of_nonneg_right hb (abs_nonneg _)
  linarith

example : (swfjc_isometric_legendre_forces 8 1 1 (1 / 2)).Maximises (swfjc_isotensional_gibbs 8 1 1 (1 / 2)) 2e-6
      (fun γ _ => 0 < γ ∧ γ < 1 + 1 / 2 / 1) :=
  C54_swfjc_narrow_well 8 1 1 (1 / 2) (by norm_num) (by norm_num) (by norm_num) (by norm_num)

end Polymers.Props
