import Verif.Props.ScalingSwfjc
import Verif.Props.ScalingFjc
import Verif.Props.Newton
import Verif.Lemmas.ApiCore
import Verif.Lemmas.Gradient
import Verif.Lemmas.Langevin

/-! Properties C27 and C25 (SWFJC part): the freely jointed chain with square-well links. -/

namespace Polymers.Props

open Polymers.Spec Polymers.Api Set Filter Topology

/-- `x cosh x - sinh x`, the antiderivative of `x sinh x`. -/
noncomputable def swG (x : ℝ) : ℝ := x * Real.cosh x - Real.sinh x

theorem hasDerivAt_swG (x : ℝ) : HasDerivAt swG (x * Real.sinh x) x := by
  unfold swG
  refine (((hasDerivAt_id x).mul (Real.hasDerivAt_cosh x)).sub (Real.hasDerivAt_sinh x)).congr_deriv ?_
  simp

theorem swG_strictMonoOn : StrictMonoOn swG (Ici 0) := by
  refine strictMonoOn_of_deriv_pos (convex_Ici 0) (fun x _ => (hasDerivAt_swG x).continuousAt.continuousWithinAt) ?_
  intro x hx
  rw [interior_Ici] at hx
  rw [(hasDerivAt_swG x).deriv]
  exact mul_pos hx (Real.sinh_pos_iff.2 hx)

/-- The partition function of one link up to a factor: `g (W η) - g η`. -/
noncomputable def swZ (W η : ℝ) : ℝ := swG (W * η) - swG η

theorem swZ_pos {W η : ℝ} (hW : 1 < W) (hη : 0 < η) : 0 < swZ W η := by
  have h : η < W * η := by nlinarith
  exact sub_pos.2 (swG_strictMonoOn hη.le (hη.le.trans h.le) h)

theorem hasDerivAt_swZ (W η : ℝ) :
    HasDerivAt (swZ W) (W ^ 2 * η * Real.sinh (W * η) - η * Real.sinh η) η := by
  unfold swZ
  have h1 : HasDerivAt (fun η => W * η) W η := by simpa using (hasDerivAt_id η).const_mul W
  refine (((hasDerivAt_swG (W * η)).comp η h1).sub (hasDerivAt_swG η)).congr_deriv ?_
  ring

theorem swfjc_length (N : ℕ) (ℓ m w η T : ℝ) :
    (swfjc_isotensional_lengths N ℓ m w).nd_length_per_link η T =
      ((1 + w / ℓ) ^ 2 * η * Real.sinh ((1 + w / ℓ) * η) - η * Real.sinh η) / swZ (1 + w / ℓ) η - 3 / η := by
  have : ∀ W η : ℝ, swZ W η = W * η * Real.cosh (W * η) - Real.sinh (W * η) - η * Real.cosh η + Real.sinh η := by
    intro W η; unfold swZ swG; ring
  simp only [api_core, swfjc.thermodynamics.isotensional.nondimensional_end_to_end_length_per_link, model_real, this]

theorem one_lt_well {ℓ w : ℝ} (hℓ : 0 < ℓ) (hw : 0 < w) : 1 < 1 + w / ℓ := by
  have := div_pos hw hℓ
  linarith

/-- C27: the extension is minus the gradient of the Gibbs energy. -/
theorem C27_swfjc_length_is_gradient (N : ℕ) (ℓ m w : ℝ) (hN : 0 < N) (hℓ : 0 < ℓ) (hw : 0 < w) :
    (swfjc_isotensional_lengths N ℓ m w).IsMinusGradient (swfjc_isotensional_gibbs N ℓ m w) ℓ
      (fun η _ => 0 < η) := by
  refine .of_nd (C15_swfjc_isotensional_gibbs N ℓ m w hN hℓ) (C15_swfjc_isotensional_lengths N ℓ m w hN hℓ) ?_
  intro η T hT hη
  rw [swfjc_length]
  have hW := one_lt_well hℓ hw
  have e : ∀ W η : ℝ, W * η * Real.cosh (W * η) - Real.sinh (W * η) - η * Real.cosh η + Real.sinh η = swZ W η := by
    intro W η; unfold swZ swG; ring
  simp only [api_core, swfjc.thermodynamics.isotensional.nondimensional_gibbs_free_energy_per_link, model_real, e]
  refine (((((Real.hasDerivAt_log hη.ne').const_mul 3).sub
    ((hasDerivAt_swZ (1 + w / ℓ) η).log (swZ_pos hW hη).ne')).sub_const _)).congr_deriv ?_
  ring

example : (swfjc_isotensional_lengths 8 1 1 (1 / 2)).IsMinusGradient (swfjc_isotensional_gibbs 8 1 1 (1 / 2)) 1
    (fun η _ => 0 < η) :=
  C27_swfjc_length_is_gradient 8 1 1 (1 / 2) (by norm_num) (by norm_num) (by norm_num)

/-- C27: under a positive force the extension per link is positive and below the largest link length `1 + w/ℓ`. -/
theorem C27_swfjc_length_bounds (N : ℕ) (ℓ m w : ℝ) {η T : ℝ} (hℓ : 0 < ℓ) (hw : 0 < w) (hη : 0 < η) :
    0 < (swfjc_isotensional_lengths N ℓ m w).nd_length_per_link η T ∧
      (swfjc_isotensional_lengths N ℓ m w).nd_length_per_link η T < 1 + w / ℓ := by
  have hW := one_lt_well hℓ hw
  rw [swfjc_length]
  generalize 1 + w / ℓ = W at *
  have hZ := swZ_pos hW hη
  have hlt : η < W * η := by nlinarith
  have hsq : ∀ x : ℝ, HasDerivAt (fun x : ℝ => x ^ 2 * Real.sinh x) (2 * x * Real.sinh x + x ^ 2 * Real.cosh x) x := by
    intro x
    refine ((hasDerivAt_pow 2 x).mul (Real.hasDerivAt_sinh x)).congr_deriv ?_
    simp
  have e : (W ^ 2 * η * Real.sinh (W * η) - η * Real.sinh η) / swZ W η - 3 / η =
      ((W * η) ^ 2 * Real.sinh (W * η) - η ^ 2 * Real.sinh η - 3 * swZ W η) / (η * swZ W η) := by
    field_simp
  rw [e]
  constructor
  · refine div_pos ?_ (mul_pos hη hZ)
    have hd : ∀ x : ℝ, HasDerivAt (fun x : ℝ => x ^ 2 * Real.sinh x - 3 * swG x) (x * swG x) x := by
      intro x
      refine ((hsq x).sub ((hasDerivAt_swG x).const_mul 3)).congr_deriv ?_
      unfold swG; ring
    have hmono : StrictMonoOn (fun x : ℝ => x ^ 2 * Real.sinh x - 3 * swG x) (Ici 0) := by
      refine strictMonoOn_of_deriv_pos (convex_Ici 0) (fun x _ => (hd x).continuousAt.continuousWithinAt) ?_
      intro x hx
      rw [interior_Ici] at hx
      rw [(hd x).deriv]
      exact mul_pos hx (sub_pos.2 (sinh_lt_self_mul_cosh hx))
    have := hmono hη.le (hη.le.trans hlt.le) hlt
    simp only at this
    unfold swZ
    linarith
  · rw [div_lt_iff₀ (mul_pos hη hZ)]
    have hd : ∀ x : ℝ, HasDerivAt (fun x : ℝ => (x + 3) * (swG x - swG η) - x ^ 2 * Real.sinh x)
        ((swG x - swG η) + x * (Real.sinh x - x * Real.exp (-x))) x := by
      intro x
      refine ((((hasDerivAt_id x).add_const 3).mul ((hasDerivAt_swG x).sub_const (swG η))).sub (hsq x)).congr_deriv ?_
      rw [← Real.cosh_sub_sinh]
      simp only [id]
      ring
    have hmono : StrictMonoOn (fun x : ℝ => (x + 3) * (swG x - swG η) - x ^ 2 * Real.sinh x) (Ici η) := by
      refine strictMonoOn_of_deriv_pos (convex_Ici η) (fun x _ => (hd x).continuousAt.continuousWithinAt) ?_
      intro x hx
      rw [interior_Ici] at hx
      have hx : η < x := hx
      have hx0 : 0 < x := hη.trans hx
      rw [(hd x).deriv]
      have h1 := swG_strictMonoOn hη.le hx0.le hx
      have h2 : x < Real.sinh x := self_lt_sinh' hx0
      have h3 : Real.exp (-x) < 1 := by simpa using hx0
      have h4 : 0 < Real.sinh x - x * Real.exp (-x) := by nlinarith
      have := mul_pos hx0 h4
      linarith
    have := hmono (mem_Ici.2 le_rfl) (mem_Ici.2 hlt.le) hlt
    simp only at this
    unfold swZ
    nlinarith

example : 0 < (swfjc_isotensional_lengths 8 1 1 (1 / 2)).nd_length_per_link 3 300 ∧
    (swfjc_isotensional_lengths 8 1 1 (1 / 2)).nd_length_per_link 3 300 < 1 + (1 / 2) / 1 :=
  C27_swfjc_length_bounds 8 1 1 (1 / 2) (by norm_num) (by norm_num) (by norm_num)

/-- C27: as the well narrows the extension tends to that of the freely jointed chain. -/
theorem C27_swfjc_narrow_well (N : ℕ) (ℓ m : ℝ) {η T : ℝ} (hℓ : 0 < ℓ) (hη : 0 < η) :
    Tendsto (fun w => (swfjc_isotensional_lengths N ℓ m w).nd_length_per_link η T) (𝓝[>] 0)
      (𝓝 ((fjc_isotensional_lengths N ℓ m).nd_length_per_link η T)) := by
  have hf : (fjc_isotensional_lengths N ℓ m).nd_length_per_link η T = langevin η := by
    simp only [api_core, fjc.thermodynamics.isotensional.nondimensional_end_to_end_length_per_link,
      model_real, langevin]
  rw [hf]
  simp only [swfjc_length]
  have hsq : HasDerivAt (fun x : ℝ => x ^ 2 * Real.sinh x) (2 * η * Real.sinh η + η ^ 2 * Real.cosh η) η := by
    refine ((hasDerivAt_pow 2 η).mul (Real.hasDerivAt_sinh η)).congr_deriv ?_
    simp
  have h1 := hasDerivAt_iff_tendsto_slope.1 hsq
  have h2 := hasDerivAt_iff_tendsto_slope.1 (hasDerivAt_swG η)
  have hs : 0 < Real.sinh η := Real.sinh_pos_iff.2 hη
  have h3 := ((h1.div h2 (mul_pos hη hs).ne').div_const η).sub_const (3 / η)
  have hx : Tendsto (fun w => (1 + w / ℓ) * η) (𝓝[>] 0) (𝓝[≠] η) := by
    refine tendsto_nhdsWithin_iff.2 ⟨?_, ?_⟩
    · have : Tendsto (fun w => (1 + w / ℓ) * η) (𝓝 0) (𝓝 ((1 + 0 / ℓ) * η)) :=
        ((tendsto_const_nhds.add (tendsto_id.div_const ℓ)).mul_const η)
      simpa using this.mono_left nhdsWithin_le_nhds
    · filter_upwards [self_mem_nhdsWithin] with w hw
      have := one_lt_well hℓ hw
      simp only [mem_compl_iff, mem_singleton_iff]
      nlinarith
  have h4 := h3.comp hx
  have e : (2 * η * Real.sinh η + η ^ 2 * Real.cosh η) / (η * Real.sinh η) / η - 3 / η = langevin η := by
    rw [langevin_eq hη.ne']
    field_simp
    ring
  rw [e] at h4
  refine h4.congr' ?_
  filter_upwards [self_mem_nhdsWithin] with w hw
  have hW := one_lt_well hℓ hw
  simp only [Function.comp, Pi.div_apply, slope_def_field, swZ]
  generalize 1 + w / ℓ = W at *
  have hZ : swG (W * η) - swG η ≠ 0 := (swZ_pos hW hη).ne'
  have hW1 : W - 1 ≠ 0 := by linarith
  field_simp

/-- C25: for extensions above `1e-3` the isometric force is found by Newton's method for the isotensional extension,
with its true derivative. -/
theorem C25_swfjc (N : ℕ) (ℓ m w T : ℝ) (hℓ : 0 < ℓ) (hw : 0 < w) :
    NewtonInverse (fun γ => (swfjc_isometric_legendre_forces N ℓ m w).nd_force γ T)
      (fun η => (swfjc_isotensional_lengths N ℓ m w).nd_length_per_link η T)
      (fun γ => 1e-3 < γ) (fun η => 0 < η) := by
  have hW := one_lt_well hℓ hw
  have e : ∀ W η : ℝ, swZ W η = W * η * Real.cosh (W * η) - Real.sinh (W * η) - η * Real.cosh η + Real.sinh η := by
    intro W η; unfold swZ swG; ring
  refine ⟨fun η =>
      (Real.sinh η + η * Real.cosh η - (1 + w / ℓ) ^ 3 * η * Real.cosh ((1 + w / ℓ) * η) -
        (1 + w / ℓ) ^ 2 * Real.sinh ((1 + w / ℓ) * η)) /
        (Real.sinh ((1 + w / ℓ) * η) - (1 + w / ℓ) * η * Real.cosh ((1 + w / ℓ) * η) - Real.sinh η + η * Real.cosh η) -
      (η ^ 2 * (Real.sinh η - (1 + w / ℓ) ^ 2 * Real.sinh ((1 + w / ℓ) * η)) ^ 2) /
        (Real.sinh ((1 + w / ℓ) * η) - (1 + w / ℓ) * η * Real.cosh ((1 + w / ℓ) * η) - Real.sinh η + η * Real.cosh η) ^ 2
      + 3 / η ^ 2, ?_, ?_⟩
  · intro η hη
    simp only [swfjc_length]
    generalize 1 + w / ℓ = W at *
    have hZ := (swZ_pos hW hη).ne'
    have h1 : HasDerivAt (fun η => W * η) W η := by simpa using (hasDerivAt_id η).const_mul W
    have h2 : HasDerivAt (fun η => W ^ 2 * η * Real.sinh (W * η) - η * Real.sinh η)
        (W ^ 2 * Real.sinh (W * η) + W ^ 3 * η * Real.cosh (W * η) - Real.sinh η - η * Real.cosh η) η := by
      refine ((((hasDerivAt_id η).const_mul (W ^ 2)).mul h1.sinh).sub
        ((hasDerivAt_id η).mul (Real.hasDerivAt_sinh η))).congr_deriv ?_
      simp only [id]; ring
    have h3 : HasDerivAt (fun η : ℝ => 3 / η) (-(3 / η ^ 2)) η := by
      simp only [div_eq_mul_inv]
      refine ((hasDerivAt_inv hη.ne').const_mul 3).congr_deriv ?_
      field_simp
    refine ((h2.div (hasDerivAt_swZ W η) hZ).sub h3).congr_deriv ?_
    have e' : Real.sinh (W * η) - W * η * Real.cosh (W * η) - Real.sinh η + η * Real.cosh η = -swZ W η := by
      rw [e]; ring
    rw [e']
    field_simp
    ring
  · intro γ hγ
    have hγ' : ¬ γ ≤ 1 / 1000 := by norm_num at hγ ⊢; exact hγ
    simp only [swfjc_length]
    simp only [api_core, swfjc.thermodynamics.isometric.legendre.nondimensional_force, model_real, if_neg hγ', e]
    exact ⟨_, inverse_newton_raphson_run _ _ _ _⟩

example : NewtonInverse (fun γ => (swfjc_isometric_legendre_forces 8 1 1 (1 / 2)).nd_force γ 300)
    (fun η => (swfjc_isotensional_lengths 8 1 1 (1 / 2)).nd_length_per_link η 300)
    (fun γ => 1e-3 < γ) (fun η => 0 < η) :=
  C25_swfjc 8 1 1 (1 / 2) 300 (by norm_num) (by norm_num)

end Polymers.Props
