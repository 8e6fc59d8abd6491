import Verif.Props.EnsembleTransform
import Verif.Props.DefinedFjc
import Verif.Props.FjcStretch
import Verif.Lemmas.EfjcAsymptotic
import Verif.Props.FjcLegendre

/-!
C85: the free energy of the Legendre approach bounds the probability of large extensions of the exact freely jointed chain.
-/

namespace Polymers.Props

open Polymers.Spec Polymers.Api Polymers.Lemmas Set Filter Topology MeasureTheory

theorem div_sinh_le {x : ℝ} (hx : 0 < x) : x / Real.sinh x ≤ (1 + 2 * x) * Real.exp (-x) := by
  have hs : 0 < Real.sinh x := Real.sinh_pos_iff.2 hx
  rw [div_le_iff₀ hs, Real.sinh_eq]
  have h1 : Real.exp (-x) * Real.exp x = 1 := by rw [← Real.exp_add]; simp
  have h2 : Real.exp (-x) * Real.exp (-x) = Real.exp (-(2 * x)) := by rw [← Real.exp_add]; congr 1; ring
  have h3 : Real.exp (-(2 * x)) * (1 + 2 * x) ≤ 1 := by
    have h4 := Real.add_one_le_exp (2 * x)
    have h5 : Real.exp (-(2 * x)) * Real.exp (2 * x) = 1 := by rw [← Real.exp_add]; simp
    have := mul_le_mul_of_nonneg_left h4 (Real.exp_pos (-(2 * x))).le
    linarith
  have e : (1 + 2 * x) * Real.exp (-x) * ((Real.exp x - Real.exp (-x)) / 2) =
      ((1 + 2 * x) * (Real.exp (-x) * Real.exp x) - (1 + 2 * x) * (Real.exp (-x) * Real.exp (-x))) / 2 := by ring
  rw [e, h1, h2]
  linarith

/-- Markov's inequality for the exact distribution under a force. -/
theorem fjc_tail_le (N : ℕ) (ℓ m : ℝ) (hN2 : 2 ≤ N) (hN : N ≤ 26) {γ₀ η : ℝ} (h0 : 0 < γ₀) (h1 : γ₀ < 1) (hη : 0 < η) :
    ∫ γ in γ₀..1, (fjc_isometric_distribution N ℓ m).nd_radial γ ≤
      N * η * γ₀ / Real.sinh (N * η * γ₀) * (Real.sinh η / η) ^ N := by
  have hN0 : (0 : ℝ) < N := by positivity
  rw [← C66_fjc_partition N ℓ m hN2 hN hη.ne']
  obtain ⟨F, hF, hS, _⟩ := treloar_transform hN2 (by omega : N ≤ 34)
  have hC : 0 < 4 * Real.pi * treloarFactor N := by
    have := Real.pi_pos
    have : 0 < treloarFactor N := by unfold treloarFactor; positivity
    positivity
  generalize hCd : 4 * Real.pi * treloarFactor N = C at hC
  have e1 : EqOn (fun γ => (fjc_isometric_distribution N ℓ m).nd_radial γ) (fun γ => C * (γ * F γ)) (Ioo γ₀ 1) := fun γ hγ => by
    simp only
    rw [fjc_nd_radial hN2 hN ℓ m (h0.trans hγ.1), hS γ ⟨h0.trans hγ.1, hγ.2⟩, hCd]
  have e2 : EqOn (forceWeight (fjc_isometric_distribution N ℓ m).nd_radial N η)
      (fun γ => C / (N * η) * (F γ * Real.sinh (N * η * γ))) (Ioo 0 1) := by
    intro γ hγ
    have h0 : 0 < γ := hγ.1
    simp only [forceWeight, fjc_nd_radial hN2 hN ℓ m h0, hS γ hγ, hCd]
    field_simp
  have hFpos : ∀ γ ∈ Ioo (0 : ℝ) 1, 0 < F γ := fun γ hγ => by
    rw [← hS γ hγ]; exact treloar_sum_pos hN2 (by omega) hγ.1 hγ.2
  have hx0 : 0 < N * η * γ₀ := by positivity
  have hs0 : 0 < Real.sinh (N * η * γ₀) := Real.sinh_pos_iff.2 hx0
  rw [forcePartition, intervalIntegral.integral_congr_Ioo_of_le h1.le e1,
    intervalIntegral.integral_congr_Ioo_of_le zero_le_one e2, ← intervalIntegral.integral_const_mul]
  have hi : ∀ a b : ℝ, IntervalIntegrable (fun γ => N * η * γ₀ / Real.sinh (N * η * γ₀) *
      (C / (N * η) * (F γ * Real.sinh (N * η * γ)))) volume a b := fun a b =>
    Continuous.intervalIntegrable (by fun_prop) a b
  rw [← intervalIntegral.integral_add_adjacent_intervals (hi 0 γ₀) (hi γ₀ 1)]
  have hpos : 0 ≤ ∫ γ in (0:ℝ)..γ₀, N * η * γ₀ / Real.sinh (N * η * γ₀) * (C / (N * η) * (F γ * Real.sinh (N * η * γ))) := by
    refine intervalIntegral.integral_nonneg_of_ae_restrict h0.le ?_
    rw [← restrict_Ioo_eq_restrict_Icc]
    refine (ae_restrict_mem measurableSet_Ioo).mono fun γ hγ => ?_
    have := hFpos γ ⟨hγ.1, hγ.2.trans h1⟩
    have hγ0 : 0 < γ := hγ.1
    have : 0 < Real.sinh (N * η * γ) := Real.sinh_pos_iff.2 (by positivity)
    show 0 ≤ _
    positivity
  have hle : ∫ γ in γ₀..1, C * (γ * F γ) ≤
      ∫ γ in γ₀..1, N * η * γ₀ / Real.sinh (N * η * γ₀) * (C / (N * η) * (F γ * Real.sinh (N * η * γ))) := by
    refine intervalIntegral.integral_mono_on_of_le_Ioo h1.le (Continuous.intervalIntegrable (by fun_prop) _ _) (hi _ _) fun γ hγ => ?_
    have hf := hFpos γ ⟨h0.trans hγ.1, hγ.2⟩
    have hγ0 : 0 < γ := h0.trans hγ.1
    have hm := sinh_div_mono hx0 (show N * η * γ₀ ≤ N * η * γ from mul_le_mul_of_nonneg_left hγ.1.le (by positivity))
    have e : N * η * γ₀ / Real.sinh (N * η * γ₀) * (C / (N * η) * (F γ * Real.sinh (N * η * γ))) =
        C * F γ / (N * η) * (N * η * γ₀ * Real.sinh (N * η * γ) / Real.sinh (N * η * γ₀)) := by field_simp
    have e' : C * (γ * F γ) = C * F γ / (N * η) * (N * η * γ) := by field_simp
    rw [e, e']
    refine mul_le_mul_of_nonneg_left ?_ (by positivity)
    rw [le_div_iff₀ hs0]
    exact hm
  linarith

/-- C85: the probability that the exact freely jointed chain is longer than `γ₀` is at most the Boltzmann factor of the free
energy of the Legendre approach, but for a factor which grows with the force. -/
theorem C85_fjc_tail (N : ℕ) (ℓ m T : ℝ) (hN2 : 2 ≤ N) (hN : N ≤ 26) {γ₀ : ℝ} (h0 : 0 < γ₀) (h1 : γ₀ < 1) :
    ∫ γ in γ₀..1, (fjc_isometric_distribution N ℓ m).nd_radial γ ≤
      (1 + 2 * (N * (fjc_isometric_legendre_forces N ℓ m).nd_force γ₀ T * γ₀)) *
        Real.exp (-(fjc_isometric_legendre_helmholtz N ℓ m).nd_relative γ₀ T) := by
  have hη : 0 < math.inverse_langevin γ₀ := inverse_langevin_pos ⟨h0, h1⟩
  have hN0 : (0 : ℝ) < N := by positivity
  have ef : (fjc_isometric_legendre_forces N ℓ m).nd_force γ₀ T = math.inverse_langevin γ₀ := rfl
  have ee : (fjc_isometric_legendre_helmholtz N ℓ m).nd_relative γ₀ T = (math.inverse_langevin γ₀ * γ₀ -
      Real.log (Real.sinh (math.inverse_langevin γ₀) / math.inverse_langevin γ₀)) * N := rfl
  rw [ef, ee]
  generalize math.inverse_langevin γ₀ = η at *
  have hz : 0 < Real.sinh η / η := div_pos (Real.sinh_pos_iff.2 hη) hη
  refine (fjc_tail_le N ℓ m hN2 hN h0 h1 hη).trans ?_
  have e : Real.exp (-((η * γ₀ - Real.log (Real.sinh η / η)) * N)) =
      Real.exp (-(N * η * γ₀)) * (Real.sinh η / η) ^ N := by
    rw [← Real.exp_log (pow_pos hz N), ← Real.exp_add, Real.log_pow]
    congr 1
    ring
  rw [e, ← mul_assoc]
  exact mul_le_mul_of_nonneg_right (div_sinh_le (by positivity)) (by positivity)

/-- C85 in physical units: the probability of being longer than `ξ₀`, with the force and the free energy at `ξ₀`. -/
theorem C85_fjc_tail_physical (N : ℕ) (ℓ m T : ℝ) (hN2 : 2 ≤ N) (hN : N ≤ 26) (hℓ : 0 < ℓ) (hT : 0 < T) {ξ₀ : ℝ} (h0 : 0 < ξ₀)
    (h1 : ξ₀ < N * ℓ) :
    ∫ ξ in ξ₀..N * ℓ, (fjc_isometric_distribution N ℓ m).radial ξ ≤
      (1 + 2 * ((fjc_isometric_legendre_forces N ℓ m).force ξ₀ T * ξ₀ / kT T)) *
        Real.exp (-((fjc_isometric_legendre_helmholtz N ℓ m).relative ξ₀ T / kT T)) := by
  have hN0 : (0 : ℝ) < N := by positivity
  have hc : 0 < (N : ℝ) * ℓ := by positivity
  have hk : 0 < kT T := kT_pos hT
  have hs := (C36_scales_fjc_isometric_distribution N ℓ m (by omega) hℓ).radial_scale
  have h := C85_fjc_tail N ℓ m T hN2 hN (γ₀ := ξ₀ / (N * ℓ)) (by positivity) ((div_lt_one hc).2 h1)
  have e1 : ∫ ξ in ξ₀..N * ℓ, (fjc_isometric_distribution N ℓ m).radial ξ =
      ∫ γ in ξ₀ / (N * ℓ)..1, (fjc_isometric_distribution N ℓ m).nd_radial γ := by
    simp only [hs]
    rw [intervalIntegral.integral_div, intervalIntegral.integral_comp_div _ hc.ne', div_self hc.ne', smul_eq_mul]
    field_simp
  rw [e1]
  refine h.trans (le_of_eq ?_)
  have e2 := C15_fjc_isometric_legendre_forces N ℓ m (by omega) hℓ ξ₀ T hT
  have e3 := (C15_fjc_isometric_legendre_helmholtz N ℓ m (by omega) hℓ).relative ξ₀ T hT
  rw [e2, e3]
  unfold ndLength
  rw [mul_div_cancel_left₀ _ hk.ne']
  congr 3
  field_simp

/-! A bound at a point, because the density falls with the extension. -/

theorem exp_cosh_sinh_le {x : ℝ} (hx : 0 < x) :
    Real.exp x * x ^ 3 ≤ 3 * (1 + x) ^ 2 * (x * Real.cosh x - Real.sinh x) := by
  -- `g x = 3 (1 + x)³ exp (-2x) - (3 + 3x - 3x² - x³)` is not negative
  have hg : ∀ y, 0 ≤ y → 0 ≤ 3 * (1 + y) ^ 3 * Real.exp (-(2 * y)) - (3 + 3 * y - 3 * y ^ 2 - y ^ 3) := by
    have hd : ∀ y : ℝ, HasDerivAt (fun y : ℝ => 3 * (1 + y) ^ 3 * Real.exp (-(2 * y)) - (3 + 3 * y - 3 * y ^ 2 - y ^ 3))
        (3 * ((1 - 2 * y) * ((1 + y) ^ 2 * Real.exp (-(2 * y))) - (1 - 2 * y - y ^ 2))) y := fun y => by
      have h1 : HasDerivAt (fun y : ℝ => 3 * (1 + y) ^ 3) (3 * (3 * (1 + y) ^ 2)) y := by
        have := (((hasDerivAt_id y).const_add 1).fun_pow 3).const_mul 3
        simpa using this
      have h2 : HasDerivAt (fun y : ℝ => Real.exp (-(2 * y))) (Real.exp (-(2 * y)) * -2) y := by
        have := ((hasDerivAt_id y).const_mul 2).fun_neg.exp
        simpa using this
      have h3 : HasDerivAt (fun y : ℝ => 3 + 3 * y - 3 * y ^ 2 - y ^ 3) (3 - 6 * y - 3 * y ^ 2) y := by
        have := ((((hasDerivAt_id y).const_mul 3).const_add 3).fun_sub (((hasDerivAt_id y).fun_pow 2).const_mul 3)).fun_sub
          ((hasDerivAt_id y).fun_pow 3)
        refine this.congr_deriv ?_
        simp
        ring
      refine ((h1.fun_mul h2).fun_sub h3).congr_deriv ?_
      ring
    have hpos : ∀ y, 0 ≤ y → 0 ≤ 3 * ((1 - 2 * y) * ((1 + y) ^ 2 * Real.exp (-(2 * y))) - (1 - 2 * y - y ^ 2)) := by
      intro y hy
      have e : (1 + y) ^ 2 * Real.exp (-(2 * y)) = ((1 + y) * Real.exp (-y)) ^ 2 := by
        rw [mul_pow, ← Real.exp_nat_mul]; congr 2; push_cast; ring
      rw [e]
      have hle : (1 + y) * Real.exp (-y) ≤ 1 := by
        have h1 := Real.add_one_le_exp y
        have h2 : Real.exp y * Real.exp (-y) = 1 := by rw [← Real.exp_add]; simp
        calc (1 + y) * Real.exp (-y) ≤ Real.exp y * Real.exp (-y) :=
              mul_le_mul_of_nonneg_right (by linarith) (Real.exp_pos _).le
          _ = 1 := h2
      have h0 : 0 ≤ (1 + y) * Real.exp (-y) := by positivity
      rcases le_or_gt y (1 / 2) with h | h
      · have h3 : 1 - y + y ^ 2 / 2 - y ^ 3 / 6 ≤ Real.exp (-y) := by
          have h4 := Real.exp_bound' (x := y) (n := 4) hy (by linarith) (by norm_num)
          simp [Finset.sum_range_succ, Nat.factorial] at h4
          have h5 : Real.exp y * Real.exp (-y) = 1 := by rw [← Real.exp_add]; simp
          have h6 : 0 < Real.exp (-y) := Real.exp_pos _
          have h7 : (1 + y + y ^ 2 / 2 + y ^ 3 / 6 + y ^ 4 * 5 / 96) * Real.exp (-y) ≥ 1 := by
            calc 1 = Real.exp y * Real.exp (-y) := h5.symm
              _ ≤ _ := mul_le_mul_of_nonneg_right (by linarith) h6.le
          have h8 : 0 < 1 + y + y ^ 2 / 2 + y ^ 3 / 6 + y ^ 4 * 5 / 96 := by positivity
          rw [← mul_le_mul_iff_right₀ h8]
          refine le_trans ?_ h7
          nlinarith [pow_nonneg hy 4, pow_nonneg hy 5, pow_nonneg hy 6, pow_nonneg hy 7]
        have h9 : 1 - y ^ 2 / 2 ≤ (1 + y) * Real.exp (-y) := by
          have := mul_le_mul_of_nonneg_left h3 (show 0 ≤ 1 + y by linarith)
          nlinarith [pow_nonneg hy 3, pow_nonneg hy 4]
        have h10 : 1 - y ^ 2 ≤ ((1 + y) * Real.exp (-y)) ^ 2 := by nlinarith
        have := mul_le_mul_of_nonneg_left h10 (show 0 ≤ 1 - 2 * y by linarith)
        nlinarith [pow_nonneg hy 3]
      · have h10 : ((1 + y) * Real.exp (-y)) ^ 2 ≤ 1 := pow_le_one₀ h0 hle
        have := mul_le_mul_of_nonneg_left h10 (show 0 ≤ 2 * y - 1 by linarith)
        nlinarith
    intro y hy
    have hm : MonotoneOn (fun y : ℝ => 3 * (1 + y) ^ 3 * Real.exp (-(2 * y)) - (3 + 3 * y - 3 * y ^ 2 - y ^ 3)) (Ici 0) := by
      refine monotoneOn_of_hasDerivWithinAt_nonneg (convex_Ici 0) (fun y _ => (hd y).continuousAt.continuousWithinAt)
        (fun y _ => (hd y).hasDerivWithinAt) fun y hy => hpos y ?_
      rw [interior_Ici] at hy
      exact le_of_lt hy
    have := hm (mem_Ici.2 le_rfl) (mem_Ici.2 hy) hy
    simpa using this
  have h := hg x hx.le
  rw [Real.cosh_eq, Real.sinh_eq]
  have e1 : Real.exp (-x) = Real.exp x * Real.exp (-(2 * x)) := by rw [← Real.exp_add]; congr 1; ring
  have hE := Real.exp_pos x
  have := mul_nonneg hE.le h
  rw [e1]
  nlinarith

/-- C85: the density of the exact freely jointed chain at an extension, times the volume of the ball of that radius, is at most
the Boltzmann factor of the free energy of the Legendre approach, but for a factor which grows with the force. -/
theorem C85_fjc_density (N : ℕ) (ℓ m T : ℝ) (hN4 : 4 ≤ N) (hN : N ≤ 26) {γ₀ : ℝ} (h0 : 0 < γ₀) (h1 : γ₀ < 1) :
    (fjc_isometric_distribution N ℓ m).nd_density γ₀ * (4 / 3 * Real.pi * γ₀ ^ 3) ≤
      (1 + N * (fjc_isometric_legendre_forces N ℓ m).nd_force γ₀ T * γ₀) ^ 2 *
        Real.exp (-(fjc_isometric_legendre_helmholtz N ℓ m).nd_relative γ₀ T) := by
  have hη : 0 < math.inverse_langevin γ₀ := inverse_langevin_pos ⟨h0, h1⟩
  have hN0 : (0 : ℝ) < N := by positivity
  have hpi := Real.pi_pos
  have ef : (fjc_isometric_legendre_forces N ℓ m).nd_force γ₀ T = math.inverse_langevin γ₀ := rfl
  have ee : (fjc_isometric_legendre_helmholtz N ℓ m).nd_relative γ₀ T = (math.inverse_langevin γ₀ * γ₀ -
      Real.log (Real.sinh (math.inverse_langevin γ₀) / math.inverse_langevin γ₀)) * N := rfl
  rw [ef, ee]
  generalize math.inverse_langevin γ₀ = η at *
  have hz : 0 < Real.sinh η / η := div_pos (Real.sinh_pos_iff.2 hη) hη
  have e : Real.exp (-((η * γ₀ - Real.log (Real.sinh η / η)) * N)) =
      Real.exp (-(N * η * γ₀)) * (Real.sinh η / η) ^ N := by
    rw [← Real.exp_log (pow_pos hz N), ← Real.exp_add, Real.log_pow]
    congr 1
    ring
  rw [e, ← C66_fjc_partition N ℓ m (by omega) hN hη.ne']
  set d := (fjc_isometric_distribution N ℓ m).nd_density γ₀ with hd
  obtain ⟨F, hF, hS, _⟩ := treloar_transform (show 2 ≤ N by omega) (by omega : N ≤ 34)
  have hdens : ∀ γ ∈ Ioo (0 : ℝ) 1, (fjc_isometric_distribution N ℓ m).nd_density γ = treloarFactor N * (F γ / γ) := fun γ hγ => by
    rw [← hS γ hγ]
    exact treloar_density_eq (by omega) hN γ
  have ht0 : 0 < treloarFactor N := by unfold treloarFactor; positivity
  have hFpos : ∀ γ ∈ Ioo (0 : ℝ) 1, 0 < F γ := fun γ hγ => by
    rw [← hS γ hγ]; exact treloar_sum_pos (by omega) (by omega) hγ.1 hγ.2
  have hd0 : 0 < d := by
    rw [hd, hdens γ₀ ⟨h0, h1⟩]
    have := hFpos γ₀ ⟨h0, h1⟩
    positivity
  have e2 : EqOn (forceWeight (fjc_isometric_distribution N ℓ m).nd_radial N η)
      (fun γ => 4 * Real.pi * treloarFactor N / (N * η) * (F γ * Real.sinh (N * η * γ))) (Ioo 0 1) := by
    intro γ hγ
    have h0 : 0 < γ := hγ.1
    simp only [forceWeight, fjc_nd_radial (show 2 ≤ N by omega) hN ℓ m h0, hS γ hγ]
    field_simp
  -- the partition function is at least that of a constant density up to `γ₀`
  have hx0 : 0 < N * η * γ₀ := by positivity
  have key : 4 * Real.pi * d / (N * η) ^ 3 * (N * η * γ₀ * Real.cosh (N * η * γ₀) - Real.sinh (N * η * γ₀)) ≤
      forcePartition (fjc_isometric_distribution N ℓ m).nd_radial N η := by
    rw [forcePartition, intervalIntegral.integral_congr_Ioo_of_le zero_le_one e2]
    have hi : ∀ a b : ℝ, IntervalIntegrable (fun γ => 4 * Real.pi * treloarFactor N / (N * η) * (F γ * Real.sinh (N * η * γ)))
        volume a b := fun a b => Continuous.intervalIntegrable (by fun_prop) a b
    rw [← intervalIntegral.integral_add_adjacent_intervals (hi 0 γ₀) (hi γ₀ 1)]
    have hpos : 0 ≤ ∫ γ in γ₀..1, 4 * Real.pi * treloarFactor N / (N * η) * (F γ * Real.sinh (N * η * γ)) := by
      refine intervalIntegral.integral_nonneg_of_ae_restrict h1.le ?_
      rw [← restrict_Ioo_eq_restrict_Icc]
      refine (ae_restrict_mem measurableSet_Ioo).mono fun γ hγ => ?_
      have := hFpos γ ⟨h0.trans hγ.1, hγ.2⟩
      have hγ0 : 0 < γ := h0.trans hγ.1
      have : 0 < Real.sinh (N * η * γ) := Real.sinh_pos_iff.2 (by positivity)
      show 0 ≤ _
      positivity
    have hint : ∫ γ in (0:ℝ)..γ₀, 4 * Real.pi * d / (N * η) * (γ * Real.sinh (N * η * γ)) =
        4 * Real.pi * d / (N * η) ^ 3 * (N * η * γ₀ * Real.cosh (N * η * γ₀) - Real.sinh (N * η * γ₀)) := by
      have hder : ∀ γ ∈ uIcc (0:ℝ) γ₀, HasDerivAt (fun γ => 4 * Real.pi * d / (N * η) ^ 3 *
          (N * η * γ * Real.cosh (N * η * γ) - Real.sinh (N * η * γ))) (4 * Real.pi * d / (N * η) * (γ * Real.sinh (N * η * γ))) γ := by
        intro γ _
        have hl : HasDerivAt (fun γ : ℝ => N * η * γ) (N * η) γ := by simpa using (hasDerivAt_id γ).const_mul (N * η)
        refine (((hl.fun_mul hl.cosh).fun_sub hl.sinh).const_mul _).congr_deriv ?_
        field_simp
        ring
      rw [intervalIntegral.integral_eq_sub_of_hasDerivAt hder (Continuous.intervalIntegrable (by fun_prop) _ _)]
      simp
    have hle : ∫ γ in (0:ℝ)..γ₀, 4 * Real.pi * d / (N * η) * (γ * Real.sinh (N * η * γ)) ≤
        ∫ γ in (0:ℝ)..γ₀, 4 * Real.pi * treloarFactor N / (N * η) * (F γ * Real.sinh (N * η * γ)) := by
      refine intervalIntegral.integral_mono_on_of_le_Ioo h0.le (Continuous.intervalIntegrable (by fun_prop) _ _) (hi _ _)
        fun γ hγ => ?_
      have hγ0 : 0 < γ := hγ.1
      have hm := (C68_fjc_density_decreasing N ℓ m hN4 hN (show γ ∈ Ioo (0:ℝ) 1 from ⟨hγ.1, hγ.2.trans h1⟩)
        (show γ₀ ∈ Ioo (0:ℝ) 1 from ⟨h0, h1⟩) hγ.2).le
      rw [hdens γ ⟨hγ.1, hγ.2.trans h1⟩, ← mul_div_assoc, le_div_iff₀ hγ0, ← hd] at hm
      have hsh : 0 < Real.sinh (N * η * γ) := Real.sinh_pos_iff.2 (by positivity)
      have := mul_le_mul_of_nonneg_left hm (show 0 ≤ 4 * Real.pi / (N * η) * Real.sinh (N * η * γ) by positivity)
      calc _ = 4 * Real.pi / (N * η) * Real.sinh (N * η * γ) * (d * γ) := by ring
        _ ≤ _ := this
        _ = _ := by ring
    linarith
  have hb := exp_cosh_sinh_le hx0
  have hE : Real.exp (N * η * γ₀) * Real.exp (-(N * η * γ₀)) = 1 := by rw [← Real.exp_add]; simp
  have hE0 := Real.exp_pos (-(N * η * γ₀))
  -- multiply the bound by `d`
  have h2 : d * (4 / 3 * Real.pi * γ₀ ^ 3) * Real.exp (N * η * γ₀) ≤
      (1 + N * η * γ₀) ^ 2 * forcePartition (fjc_isometric_distribution N ℓ m).nd_radial N η := by
    have h3 := mul_le_mul_of_nonneg_left hb (show 0 ≤ 4 / 3 * Real.pi * d / (N * η) ^ 3 by positivity)
    have h4 := mul_le_mul_of_nonneg_left key (show 0 ≤ (1 + N * η * γ₀) ^ 2 by positivity)
    have e3 : 4 / 3 * Real.pi * d / (N * η) ^ 3 * (Real.exp (N * η * γ₀) * (N * η * γ₀) ^ 3) =
        d * (4 / 3 * Real.pi * γ₀ ^ 3) * Real.exp (N * η * γ₀) := by field_simp
    rw [e3] at h3
    refine h3.trans (le_trans (le_of_eq ?_) h4)
    ring
  have h5 := mul_le_mul_of_nonneg_right h2 hE0.le
  calc _ = d * (4 / 3 * Real.pi * γ₀ ^ 3) * (Real.exp (N * η * γ₀) * Real.exp (-(N * η * γ₀))) := by rw [hE, mul_one]
    _ = d * (4 / 3 * Real.pi * γ₀ ^ 3) * Real.exp (N * η * γ₀) * Real.exp (-(N * η * γ₀)) := by ring
    _ ≤ _ := h5
    _ = _ := by ring

example := C85_fjc_tail 8 1 1 300 (by norm_num) (by norm_num) (γ₀ := 9 / 10) (by norm_num) (by norm_num)
example := C85_fjc_tail_physical 8 1 1 300 (by norm_num) (by norm_num) one_pos (by norm_num) (ξ₀ := 7) (by norm_num) (by norm_num)
example := C85_fjc_density 8 1 1 300 (by norm_num) (by norm_num) (γ₀ := 9 / 10) (by norm_num) (by norm_num)

end Polymers.Props
