import Verif.Lemmas.SplineSign
import Verif.Props.FjcIsometric

/-! Property C68: the exact freely jointed chain at fixed extension resists being stretched. -/

namespace Polymers.Props

open Polymers.Spec Polymers.Api Polymers.Lemmas Polymers.fjc.thermodynamics Filter Topology Set

/-- The force of four or more links in terms of the splines of the density. -/
theorem fjc_force_spline (n : ℕ) (hN : n + 4 ≤ 34) (ℓ m T : ℝ) {γ : ℝ} (h0 : 0 < γ) (h1 : γ < 1) :
    (fjc_isometric_forces (n + 4) ℓ m).nd_force γ T =
      (spline (n + 4) (n + 2) (treloarX (n + 4) γ) +
        (n + 2) * (((n + 4 : ℕ) : ℝ) / 2 - treloarX (n + 4) γ) * spline (n + 4) (n + 1) (treloarX (n + 4) γ)) /
      (((n + 4 : ℕ) : ℝ) * γ * spline (n + 4) (n + 2) (treloarX (n + 4) γ)) := by
  have e1 : ((n + 4 : ℕ) : ℤ) - 2 = ((n + 2 : ℕ) : ℤ) := by push_cast; ring
  have e2 : ((n + 2 : ℕ) : ℤ) - 1 = ((n + 1 : ℕ) : ℤ) := by push_cast; ring
  have hp : 0 < spline (n + 4) (n + 2) (treloarX (n + 4) γ) :=
    spline_deriv_pos (n + 1) (treloarX_pos (by omega) h1) (treloarX_lt (by omega) h0)
  have hx : ((n + 4 : ℕ) : ℝ) / 2 - treloarX (n + 4) γ = ((n + 4 : ℕ) : ℝ) * γ / 2 := by unfold treloarX; ring
  rw [fjc_isometric_nd_force (by omega), e1, e2, treloar_sum_spline (by omega) hN (by linarith) h1 (by omega),
    treloar_sum_spline (by omega) hN (by linarith) h1 (by omega), hx]
  have hN' : ((n + 4 : ℕ) : ℝ) ≠ 0 := by positivity
  have hp' := hp.ne'
  have hpow : ((n + 4 : ℕ) : ℝ) ^ (n + 2) = ((n + 4 : ℕ) : ℝ) ^ (n + 1) * ((n + 4 : ℕ) : ℝ) := pow_succ _ _
  rw [hpow]
  field_simp
  push_cast
  ring

/-- C68: with four or more links the force is positive at every extension: the chain always pulls its ends together. -/
theorem C68_fjc_force_pos (N : ℕ) (ℓ m T : ℝ) (hN4 : 4 ≤ N) (hN : N ≤ 34) {γ : ℝ} (h0 : 0 < γ) (h1 : γ < 1) :
    0 < (fjc_isometric_forces N ℓ m).nd_force γ T := by
  obtain ⟨n, rfl⟩ : ∃ n, N = n + 4 := ⟨N - 4, by omega⟩
  rw [fjc_force_spline n hN ℓ m T h0 h1]
  have hp : 0 < spline (n + 4) (n + 2) (treloarX (n + 4) γ) :=
    spline_deriv_pos (n + 1) (treloarX_pos (by omega) h1) (treloarX_lt (by omega) h0)
  exact div_pos (spline_combination_pos n (treloarX_pos (by omega) h1) (treloarX_lt (by omega) h0)) (by positivity)

example : 0 < (fjc_isometric_forces 34 1 1).nd_force (1 / 100) 300 :=
  C68_fjc_force_pos 34 1 1 300 (by norm_num) (by norm_num) (by norm_num) (by norm_num)

/-- C68: the force in physical units is positive too. -/
theorem C68_fjc_physical_force_pos (N : ℕ) (ℓ m : ℝ) (hN4 : 4 ≤ N) (hN : N ≤ 34) (hℓ : 0 < ℓ) {ξ T : ℝ} (hT : 0 < T) (h0 : 0 < ξ)
    (h1 : ξ < N * ℓ) : 0 < (fjc_isometric_forces N ℓ m).force ξ T := by
  have hN' : (0 : ℝ) < N := by positivity
  rw [C15_fjc_isometric_forces N ℓ m (by omega) hℓ ξ T hT]
  have h := C68_fjc_force_pos N ℓ m T hN4 hN (γ := ndLength N ℓ ξ T) (div_pos h0 (by positivity)) ((div_lt_one (by positivity)).2 h1)
  have hk : 0 < kT T := kT_pos hT
  positivity

/-- C68: the density of the end-to-end vector decreases with the extension. -/
theorem C68_fjc_density_decreasing (N : ℕ) (ℓ m : ℝ) (hN4 : 4 ≤ N) (hN : N ≤ 26) :
    StrictAntiOn (fjc_isometric_distribution N ℓ m).nd_density (Ioo 0 1) := by
  have e : (fjc_isometric_distribution N ℓ m).nd_density = fun γ =>
      treloarFactor N * (treloar_sum N γ ((N : ℤ) - 2) / γ) := by
    funext γ
    exact treloar_density_eq (by omega) hN γ
  have hd : ∀ γ ∈ Ioo (0 : ℝ) 1, HasDerivAt (fun γ => treloarFactor N * (treloar_sum N γ ((N : ℤ) - 2) / γ))
      (-(treloarFactor N * (treloar_sum N γ ((N : ℤ) - 2) / γ)) * (N * (fjc_isometric_forces N ℓ m).nd_force γ 0)) γ := by
    rintro γ ⟨h0, h1⟩
    have hS := treloar_sum_pos (by omega) (by omega : N ≤ 34) h0 h1
    refine (((hasDerivAt_treloar_spline hN4 (by omega) h0 h1).div (hasDerivAt_id γ) h0.ne').const_mul
      (treloarFactor N)).congr_deriv ?_
    rw [fjc_isometric_nd_force (by omega)]
    have hN' : (N : ℝ) ≠ 0 := by positivity
    have := hS.ne'
    simp only [id]
    field_simp
    ring
  rw [e]
  refine strictAntiOn_of_deriv_neg (convex_Ioo 0 1) (fun γ h => (hd γ h).continuousAt.continuousWithinAt) fun γ h => ?_
  rw [interior_Ioo] at h
  rw [(hd γ h).deriv]
  have hS := treloar_sum_pos (by omega) (by omega : N ≤ 34) h.1 h.2
  have hF := treloarFactor_pos (by omega : 0 < N)
  have hf := C68_fjc_force_pos N ℓ m 0 hN4 (by omega) h.1 h.2
  have hN' : (0 : ℝ) < N := by positivity
  have := h.1
  have : 0 < treloarFactor N * (treloar_sum N γ ((N : ℤ) - 2) / γ) * (N * (fjc_isometric_forces N ℓ m).nd_force γ 0) := by
    positivity
  linarith

example : (fjc_isometric_distribution 8 1 1).nd_density (1 / 2) < (fjc_isometric_distribution 8 1 1).nd_density (1 / 4) :=
  C68_fjc_density_decreasing 8 1 1 (by norm_num) (by norm_num) ⟨by norm_num, by norm_num⟩ ⟨by norm_num, by norm_num⟩ (by norm_num)

/-- C68: with five or more links the force vanishes in the limit of zero extension. -/
theorem C68_fjc_force_zero (N : ℕ) (ℓ m T : ℝ) (hN5 : 5 ≤ N) (hN : N ≤ 34) :
    Tendsto (fun γ => (fjc_isometric_forces N ℓ m).nd_force γ T) (𝓝[>] 0) (𝓝 0) := by
  obtain ⟨n, rfl⟩ : ∃ n, N = n + 5 := ⟨N - 5, by omega⟩
  set M : ℝ := ((n + 5 : ℕ) : ℝ) with hM
  have hM0 : 0 < M := by positivity
  set c := -((n : ℝ) + 3) * spline (n + 5) (n + 2) (M / 2) with hc
  have hc0 : 0 < c := by
    have := spline_center_neg (n + 1)
    rw [show n + 1 + 4 = n + 5 by ring, show n + 1 + 1 = n + 2 by ring, ← hM] at this
    have h3 : (0 : ℝ) < n + 3 := by positivity
    rw [hc]
    nlinarith
  -- the slope of the density at the centre
  have hz : spline (n + 5) (n + 3) (M / 2) = 0 := by
    have := spline_symm (n + 3) 1 (by omega) (M / 2)
    rw [pow_one, neg_one_mul] at this
    rw [show ((n + 3 + 2 : ℕ) : ℝ) - M / 2 = M / 2 by rw [hM]; push_cast; ring] at this
    have h2 : spline (n + 5) (n + 3) (M / 2) = -spline (n + 5) (n + 3) (M / 2) := this
    linarith
  have hslope : ∃ δ > 0, ∀ y, 0 < y → y < δ → c / 2 * y ≤ spline (n + 5) (n + 3) (M / 2 - y) := by
    have l : HasDerivAt (fun y : ℝ => M / 2 - y) (-1) 0 := (hasDerivAt_id 0).const_sub _
    have hd := (hasDerivAt_spline (n + 5) (n + 1) (M / 2 - 0)).comp (0 : ℝ) l
    rw [sub_zero] at hd
    have hd' : HasDerivAt (fun y => spline (n + 5) (n + 3) (M / 2 - y)) c 0 := by
      refine hd.congr_deriv ?_
      rw [hc]
      push_cast
      ring
    have h1 := hasDerivAt_iff_tendsto_slope.1 hd'
    have h2 := h1.eventually (lt_mem_nhds (by linarith : c / 2 < c))
    rw [eventually_nhdsWithin_iff, Metric.eventually_nhds_iff] at h2
    obtain ⟨δ, hδ, h3⟩ := h2
    refine ⟨δ, hδ, fun y h0 h1 => ?_⟩
    have := h3 (y := y) (by rw [Real.dist_eq, sub_zero, abs_of_pos h0]; exact h1) h0.ne'
    rw [slope_def_field, sub_zero, sub_zero, hz, sub_zero, lt_div_iff₀ h0] at this
    exact this.le
  obtain ⟨δ₁, hδ₁, hs⟩ := hslope
  rw [Metric.tendsto_nhdsWithin_nhds]
  intro ε hε
  obtain ⟨δ₂, hδ₂, hq⟩ := spline_combination_small n (ε := ε * c / 2) (by positivity)
  refine ⟨min (min δ₁ δ₂ * (2 / M)) 1, by positivity, fun {γ} (h0 : 0 < γ) hγ => ?_⟩
  rw [Real.dist_eq, sub_zero, abs_of_pos h0, lt_min_iff] at hγ
  set y := M * γ / 2 with hy
  have hy0 : 0 < y := by positivity
  have hyδ : y < min δ₁ δ₂ := by
    have := mul_lt_mul_of_pos_left hγ.1 (by positivity : 0 < M / 2)
    rw [hy]
    calc M * γ / 2 = M / 2 * γ := by ring
      _ < M / 2 * (min δ₁ δ₂ * (2 / M)) := this
      _ = min δ₁ δ₂ := by field_simp
  have hx : treloarX (n + 5) γ = M / 2 - y := by rw [hy, hM]; unfold treloarX; ring
  have a := hs y hy0 (hyδ.trans_le (min_le_left _ _))
  have b := hq y hy0 (hyδ.trans_le (min_le_right _ _))
  have hf := fjc_force_spline (n + 1) hN ℓ m T h0 hγ.2
  rw [show n + 1 + 4 = n + 5 by ring, show n + 1 + 2 = n + 3 by ring, show n + 1 + 1 = n + 2 by ring, hx, ← hM] at hf
  rw [Real.dist_eq, sub_zero, hf]
  have e : (((n + 1 : ℕ) : ℝ) + 2) * (M / 2 - (M / 2 - y)) = ((n : ℝ) + 3) * y := by push_cast; ring
  rw [e, show M * γ = 2 * y by rw [hy]; ring]
  have hden : 0 < 2 * y * spline (n + 5) (n + 3) (M / 2 - y) := by
    have : 0 < c / 2 * y := by positivity
    have : 0 < spline (n + 5) (n + 3) (M / 2 - y) := this.trans_le a
    positivity
  rw [abs_div, abs_of_pos hden, div_lt_iff₀ hden]
  refine b.trans_lt ?_
  have h4 : 2 * y * (c / 2 * y) ≤ 2 * y * spline (n + 5) (n + 3) (M / 2 - y) := mul_le_mul_of_nonneg_left a (by positivity)
  have h5 := mul_le_mul_of_nonneg_left h4 hε.le
  have : 0 < ε * c * y ^ 2 := by positivity
  nlinarith

/-- C68: on the last interval of extensions the force has a closed form. -/
theorem C68_fjc_force_end (N : ℕ) (ℓ m T : ℝ) (hN2 : 2 ≤ N) (hN : N ≤ 34) {γ : ℝ} (h0 : 1 - 2 / (N : ℝ) ≤ γ) (hγ : 0 < γ)
    (h1 : γ < 1) : (fjc_isometric_forces N ℓ m).nd_force γ T = (1 / γ + (N - 2) / (1 - γ)) / N := by
  have hN0 : (2 : ℝ) ≤ N := by exact_mod_cast hN2
  have hc : ⌈treloarX N γ⌉₊ = 1 := by
    rw [Nat.ceil_eq_iff (by norm_num)]
    unfold treloarX
    have e : (N : ℝ) * (2 / N) = 2 := by field_simp
    push_cast
    constructor <;> nlinarith
  have hS : ∀ e : ℤ, treloar_sum N γ e = ((1 - γ) / 2) ^ e := by
    intro e
    rw [treloar_sum_eq (by omega) (by omega) (by linarith) h1, hc]
    simp only [Finset.sum_range_one, pow_zero, Nat.choose_zero_right, Nat.cast_one, Nat.cast_zero, one_mul, zero_div, sub_zero]
  have h2 : (1 - γ) / 2 ≠ 0 := by
    have : 0 < (1 - γ) / 2 := by linarith
    exact this.ne'
  have h3 : 1 - γ ≠ 0 := by
    have : 0 < 1 - γ := by linarith
    exact this.ne'
  rw [fjc_isometric_nd_force hN2, hS, hS, zpow_sub_one₀ h2]
  have := zpow_ne_zero ((N : ℤ) - 2) h2
  congr 2
  field_simp

/-- C68: the force grows without bound as the chain is pulled straight. -/
theorem C68_fjc_force_diverges (N : ℕ) (ℓ m T : ℝ) (hN3 : 3 ≤ N) (hN : N ≤ 34) :
    Tendsto (fun γ => (fjc_isometric_forces N ℓ m).nd_force γ T) (𝓝[<] 1) atTop := by
  have hN0 : (3 : ℝ) ≤ N := by exact_mod_cast hN3
  have hinv : Tendsto (fun γ : ℝ => (1 - γ)⁻¹) (𝓝[<] 1) atTop := by
    refine tendsto_inv_nhdsGT_zero.comp ?_
    rw [tendsto_nhdsWithin_iff]
    refine ⟨?_, ?_⟩
    · have : Tendsto (fun γ : ℝ => 1 - γ) (𝓝 1) (𝓝 (1 - 1)) := tendsto_const_nhds.sub tendsto_id
      rw [sub_self] at this
      exact this.mono_left nhdsWithin_le_nhds
    · filter_upwards [self_mem_nhdsWithin] with γ hγ
      exact sub_pos.2 (show γ < 1 from hγ)
  have hlim := hinv.const_mul_atTop (by have : (0 : ℝ) < N := by linarith
                                        have : (0 : ℝ) < N - 2 := by linarith
                                        positivity : 0 < ((N : ℝ) - 2) / N)
  refine tendsto_atTop_mono' _ ?_ hlim
  have hlow : 1 - 2 / (N : ℝ) < 1 := by
    have : 0 < 2 / (N : ℝ) := by positivity
    linarith
  filter_upwards [self_mem_nhdsWithin, mem_nhdsWithin_of_mem_nhds (Ioi_mem_nhds hlow),
    mem_nhdsWithin_of_mem_nhds (Ioi_mem_nhds one_pos)] with γ h1 h2 h3
  have h1 : γ < 1 := h1
  have h3 : 0 < γ := h3
  rw [C68_fjc_force_end N ℓ m T (by omega) hN (le_of_lt h2) h3 h1]
  have : 0 < 1 / γ := by positivity
  have hN' : (0 : ℝ) < N := by linarith
  rw [div_mul_eq_mul_div, ← div_eq_mul_inv]
  gcongr
  linarith

/-- C68: two links pull together like `1/γ`, three links exert no force at all up to a third of their length, and the force of
four links does not vanish at zero extension. -/
theorem C68_fjc_few_links (ℓ m T : ℝ) :
    (∀ γ, 0 < γ → γ < 1 → (fjc_isometric_forces 2 ℓ m).nd_force γ T = 1 / (2 * γ)) ∧
    (∀ γ, 0 < γ → γ < 1 / 3 → (fjc_isometric_forces 3 ℓ m).nd_force γ T = 0) ∧
    (∀ γ, 1 / 3 ≤ γ → γ < 1 → (fjc_isometric_forces 3 ℓ m).nd_force γ T = 1 / (3 * γ * (1 - γ))) ∧
    (∀ γ, 0 < γ → γ < 1 / 2 → (fjc_isometric_forces 4 ℓ m).nd_force γ T = 3 / (4 * (2 - 3 * γ))) := by
  refine ⟨fun γ h0 h1 => ?_, fun γ h0 h1 => ?_, fun γ h0 h1 => ?_, fun γ h0 h1 => ?_⟩
  · rw [C68_fjc_force_end 2 ℓ m T le_rfl (by norm_num) (by norm_num; linarith) h0 h1]
    norm_num
    ring
  · have hc : ⌈treloarX 3 γ⌉₊ = 2 := by
      rw [Nat.ceil_eq_iff (by norm_num)]
      unfold treloarX
      push_cast
      constructor <;> linarith
    have e1 : ((3 : ℕ) : ℤ) - 2 = 1 := by norm_num
    have e2 : (1 : ℤ) - 1 = 0 := by norm_num
    rw [fjc_isometric_nd_force (by norm_num), e1, e2, treloar_sum_eq (by norm_num) (by norm_num) (by linarith) (by linarith),
      treloar_sum_eq (by norm_num) (by norm_num) (by linarith) (by linarith), hc]
    simp [Finset.sum_range_succ]
    have : (1 - γ) / 2 + -(3 * ((1 - γ) / 2 - 3⁻¹)) = γ := by ring
    rw [this]
    field_simp
    norm_num
  · have hγ : 0 < γ := by linarith
    rw [C68_fjc_force_end 3 ℓ m T (by norm_num) (by norm_num) (by norm_num; linarith) hγ h1]
    have : 1 - γ ≠ 0 := by
      have : 0 < 1 - γ := by linarith
      exact this.ne'
    push_cast
    field_simp
    ring
  · have hc : ⌈treloarX 4 γ⌉₊ = 2 := by
      rw [Nat.ceil_eq_iff (by norm_num)]
      unfold treloarX
      push_cast
      constructor <;> linarith
    have e1 : ((4 : ℕ) : ℤ) - 2 = (2 : ℕ) := by norm_num
    have e2 : ((2 : ℕ) : ℤ) - 1 = (1 : ℕ) := by norm_num
    rw [fjc_isometric_nd_force (by norm_num), e1, e2, treloar_sum_eq (by norm_num) (by norm_num) (by linarith) (by linarith),
      treloar_sum_eq (by norm_num) (by norm_num) (by linarith) (by linarith), hc]
    have a1 : ∀ x : ℝ, x ^ ((1 : ℕ) : ℤ) = x := fun x => by rw [zpow_natCast, pow_one]
    have a2 : ∀ x : ℝ, x ^ ((2 : ℕ) : ℤ) = x ^ 2 := fun x => by rw [zpow_natCast]
    simp only [a1, a2, Finset.sum_range_succ, Finset.sum_range_zero]
    norm_num
    have h3 : ((1 - γ) / 2) ^ 2 + -(4 * ((1 - γ) / 2 - 1 / 4) ^ 2) = γ * (2 - 3 * γ) / 4 := by ring
    have h4 : (1 - γ) / 2 + -(4 * ((1 - γ) / 2 - 1 / 4)) = (3 * γ - 1) / 2 := by ring
    rw [h3, h4]
    obtain ⟨u, hu⟩ : ∃ u, u = 2 - 3 * γ := ⟨_, rfl⟩
    have hu0 : u ≠ 0 := by
      have : 0 < u := by linarith
      exact this.ne'
    rw [← hu, show (3 * γ - 1) / 2 = (1 - u) / 2 by rw [hu]; ring]
    field_simp
    rw [hu]
    ring

end Polymers.Props
