import Verif.Lemmas.WlcRoot
import Verif.Lemmas.Gradient
import Verif.Spec.WlcSearch
import Verif.Spec.Domain
import Verif.Props.ScalingWlc

/-! C16, C34: the worm-like chain at a fixed force. -/

namespace Polymers.Props

open Polymers.Spec Polymers.Api Polymers.Lemmas Polymers.wlc.thermodynamics Set Filter Topology

theorem wlcRoot_eq (N : ℕ) (ℓ m p η T : ℝ) :
    wlcSearch (fun γ => (wlc_isometric_forces N ℓ m p).nd_force γ T) η = wlcRoot N (p / N / ℓ) η := rfl

theorem wlc_succeeds {N : ℕ} {ℓ m p η : ℝ} (h : SearchSucceeds (wlc_isometric_forces N ℓ m p) η) :
    wlcRoot N (p / N / ℓ) η ∈ Icc (0:ℝ) 1 := h 1

/-- The search succeeds for a persistence length of at most 1/25 of the contour length. -/
theorem wlc_succeeds_flexible {N : ℕ} (ℓ m p : ℝ) {η : ℝ} (hN : 0 < N) (hN1 : N ≤ 255) (hℓ : 0 < ℓ) (hp : 0 < p)
    (hflex : p ≤ N * ℓ / 25) (hη : 0 ≤ η) (hη1 : η ≤ 10 ^ 5) : SearchSucceeds (wlc_isometric_forces N ℓ m p) η := by
  have hN' : (0:ℝ) < N := Nat.cast_pos.2 hN
  have hN1' : (N:ℝ) ≤ 255 := by exact_mod_cast hN1
  have hf : p / N / ℓ ≤ 1 / 25 := by
    rw [div_div, div_le_iff₀ (by positivity)]; linarith
  have := wlcRoot_mem hN (show 0 < p / N / ℓ by positivity) hf hη (by nlinarith)
  exact fun T => ⟨this.1.le, this.2.trans (by norm_num)⟩

/-- C34: the expected length is minus the derivative of the Gibbs energy at every force around which the search
succeeds (up to the force 100 at which the code switches to an asymptotic relation). -/
theorem C34_wlc_gradient (N : ℕ) (ℓ m p : ℝ) (hN : 0 < N) (hℓ : 0 < ℓ) (hm : 0 < m) (hp : 0 < p) :
    (wlc_isotensional_lengths N ℓ m p).IsMinusGradient (wlc_isotensional_gibbs N ℓ m p) ℓ
      (fun η _ => 0 < η ∧ η < 100 ∧ ∀ᶠ η' in 𝓝 η, SearchSucceeds (wlc_isometric_forces N ℓ m p) η') := by
  refine .of_nd (C15_wlc_isotensional_gibbs N ℓ m p hN hℓ) (C15_wlc_isotensional_lengths N ℓ m p hN hℓ) ?_
  rintro η T hT ⟨hη, hη1, hs⟩
  have hN' : (0:ℝ) < N := Nat.cast_pos.2 hN
  have hϖ : 0 < p / N / ℓ := by positivity
  have hK := wlcHinge_pos hℓ hm hϖ hT
  have hroot := wlc_succeeds hs.self_of_nhds
  have hZ := hasDerivAt_log_linkZ (U := wlcPsi (p / N / ℓ)) zero_pos'.le zero_lt_one_grid
    (show 0 < POINTS by norm_num [POINTS]) (show 0 < N * η by positivity)
  have hd : HasDerivAt (fun η : ℝ => (N:ℝ) * η) N η := by simpa using (hasDerivAt_id η).const_mul (N:ℝ)
  have hc := hZ.comp η hd
  have hlen : (wlc_isotensional_lengths N ℓ m p).nd_length_per_link η T =
      linkGamma (wlcPsi (p / N / ℓ)) (ZERO : ℝ) ONE POINTS (N * η) := by
    change isotensional.nondimensional_end_to_end_length N (p / N / ℓ) η / N = _
    rw [wlc_length_eq hN hη hroot, mul_div_cancel_left₀ _ hN'.ne']
  rw [hlen]
  have hev : (fun η => (wlc_isotensional_gibbs N ℓ m p).nd_energy_per_link η T) =ᶠ[𝓝 η] fun η =>
      (-(Real.log (2 * Real.pi * N ^ 2) + Real.log (linkZ (wlcPsi (p / N / ℓ)) (ZERO : ℝ) ONE POINTS (N * η))) -
        N * Real.log (wlcHinge ℓ m (p / N / ℓ) T)) / N := by
    filter_upwards [hs, Ioo_mem_nhds hη hη1] with y hy hy1
    change isotensional.nondimensional_gibbs_free_energy N ℓ m (p / N / ℓ) y T / N = _
    have hy2 : 0 < N * y := mul_pos hN' hy1.1
    have hZy := linkZ_pos (U := wlcPsi (p / N / ℓ)) zero_pos'.le zero_lt_one_grid (show 0 < POINTS by norm_num [POINTS]) hy2
    have hπ := Real.pi_pos
    rw [wlc_gibbs_eq hN hy1.1 hy1.2.le (wlc_succeeds hy) hK, Real.log_mul (by positivity) hZy.ne']
  refine HasDerivAt.congr_of_eventuallyEq ?_ hev
  refine ((((hc.const_add (Real.log (2 * Real.pi * N ^ 2))).neg).sub_const _).div_const (N:ℝ)).congr_deriv ?_
  field_simp

/-- C34 for a flexible chain, without assumption on the search: `u8` number of links, persistence length at most 1/25 of
the contour length. -/
theorem C34_wlc_gradient_flexible (N : ℕ) (ℓ m p : ℝ) (hN : 0 < N) (hN1 : N ≤ 255) (hℓ : 0 < ℓ) (hm : 0 < m) (hp : 0 < p)
    (hflex : p ≤ N * ℓ / 25) :
    (wlc_isotensional_lengths N ℓ m p).IsMinusGradient (wlc_isotensional_gibbs N ℓ m p) ℓ (fun η _ => 0 < η ∧ η < 100) := by
  have h := C34_wlc_gradient N ℓ m p hN hℓ hm hp
  have hs : ∀ η : ℝ, 0 < η → η < 100 → ∀ᶠ η' in 𝓝 η, SearchSucceeds (wlc_isometric_forces N ℓ m p) η' := by
    intro η h0 h1
    filter_upwards [Ioo_mem_nhds h0 h1] with y hy
    exact wlc_succeeds_flexible ℓ m p hN hN1 hℓ hp hflex hy.1.le (hy.2.le.trans (by norm_num))
  exact ⟨fun f T hT hD => h.length f T hT ⟨hD.1, hD.2, hs _ hD.1 hD.2⟩,
    fun f T hT hD => h.length_per_link f T hT ⟨hD.1, hD.2, hs _ hD.1 hD.2⟩,
    fun f T hT hD => h.nd_length f T hT ⟨hD.1, hD.2, hs _ hD.1 hD.2⟩,
    fun f T hT hD => h.nd_length_per_link f T hT ⟨hD.1, hD.2, hs _ hD.1 hD.2⟩⟩

example : (wlc_isotensional_lengths 100 1 1 2).IsMinusGradient (wlc_isotensional_gibbs 100 1 1 2) 1
    (fun η _ => 0 < η ∧ η < 100) :=
  C34_wlc_gradient_flexible 100 1 1 2 (by norm_num) (by norm_num) (by norm_num) (by norm_num) (by norm_num) (by norm_num)

/-- C34: when the search succeeds the extension lies strictly between zero and one, and grows with the force. -/
theorem C34_wlc_range (N : ℕ) (ℓ m p T : ℝ) {η : ℝ} (hN : 0 < N) (hη : 0 < η)
    (hs : SearchSucceeds (wlc_isometric_forces N ℓ m p) η) :
    (wlc_isotensional_lengths N ℓ m p).nd_length_per_link η T ∈ Ioo (0:ℝ) 1 := by
  have hN' : (0:ℝ) < N := Nat.cast_pos.2 hN
  change isotensional.nondimensional_end_to_end_length N (p / N / ℓ) η / N ∈ _
  rw [wlc_length_eq hN hη (wlc_succeeds hs), mul_div_cancel_left₀ _ hN'.ne']
  have h1 : (ONE : ℝ) = 1 := one_eq'
  exact ⟨linkGamma_pos zero_pos'.le zero_lt_one_grid (by norm_num [POINTS]) (by positivity),
    h1 ▸ linkGamma_lt zero_pos'.le zero_lt_one_grid (by norm_num [POINTS]) (by positivity)⟩

theorem C34_wlc_monotone (N : ℕ) (ℓ m p T : ℝ) (hN : 0 < N) :
    StrictMonoOn (fun η => (wlc_isotensional_lengths N ℓ m p).nd_length_per_link η T)
      {η | 0 < η ∧ SearchSucceeds (wlc_isometric_forces N ℓ m p) η} := by
  have hN' : (0:ℝ) < N := Nat.cast_pos.2 hN
  rintro a ⟨ha, hsa⟩ b ⟨hb, hsb⟩ hab
  change isotensional.nondimensional_end_to_end_length N (p / N / ℓ) a / N <
    isotensional.nondimensional_end_to_end_length N (p / N / ℓ) b / N
  rw [wlc_length_eq hN ha (wlc_succeeds hsa), wlc_length_eq hN hb (wlc_succeeds hsb), mul_div_cancel_left₀ _ hN'.ne',
    mul_div_cancel_left₀ _ hN'.ne']
  exact linkGamma_strictMonoOn zero_pos'.le zero_lt_one_grid (by norm_num [POINTS])
    (show 0 < N * a by positivity) (show 0 < N * b by positivity) (mul_lt_mul_of_pos_left hab hN')

example {η : ℝ} (h0 : 0 < η) (h1 : η ≤ 10 ^ 5) : (wlc_isotensional_lengths 100 1 1 2).nd_length_per_link η 300 ∈ Ioo (0:ℝ) 1 :=
  C34_wlc_range 100 1 1 2 300 (by norm_num) h0
    (wlc_succeeds_flexible 1 1 2 (by norm_num) (by norm_num) (by norm_num) (by norm_num) (by norm_num) h0.le h1)

example : StrictMonoOn (fun η => (wlc_isotensional_lengths 100 1 1 2).nd_length_per_link η 300) (Ioc 0 (10 ^ 5)) :=
  (C34_wlc_monotone 100 1 1 2 300 (by norm_num)).mono fun _ h => ⟨h.1,
    wlc_succeeds_flexible 1 1 2 (by norm_num) (by norm_num) (by norm_num) (by norm_num) (by norm_num) h.1.le h.2⟩

/-- C34: the Gibbs energy is minus the logarithm of the discretised Laplace transform, in three dimensions, of the
Boltzmann factor of the isometric Helmholtz energy, times the momentum factor of the remaining hinge. -/
theorem C34_wlc_partition (N : ℕ) (ℓ m p : ℝ) {η T : ℝ} (hN : 0 < N) (hℓ : 0 < ℓ) (hm : 0 < m) (hp : 0 < p) (hT : 0 < T)
    (hη : 0 < η) (hη1 : η ≤ 100) (hs : SearchSucceeds (wlc_isometric_forces N ℓ m p) η) :
    Real.exp (-(wlc_isotensional_gibbs N ℓ m p).nd_energy η T) =
      4 * Real.sin (Real.arccos (Real.exp (-1 / (p / N / ℓ)))) * Real.pi ^ 2 * m * ℓ ^ 2 * BOLTZMANN_CONSTANT * T /
          PLANCK_CONSTANT ^ 2 *
        midpointSum (fun γ => 4 * Real.pi * (N * γ) ^ 2 * (Real.sinh (N * η * γ) / (N * η * γ)) *
          Real.exp (-(wlc_isometric_helmholtz N ℓ m p).nd_energy γ T)) 1e-6 1 64 := by
  have hN' : (0:ℝ) < N := Nat.cast_pos.2 hN
  have hϖ : 0 < p / N / ℓ := by positivity
  have hK := wlcHinge_pos hℓ hm hϖ hT
  have hZ := linkZ_pos (U := wlcPsi (p / N / ℓ)) zero_pos'.le zero_lt_one_grid (show 0 < POINTS by norm_num [POINTS])
    (show 0 < N * η by positivity)
  have hπ := Real.pi_pos
  change Real.exp (-isotensional.nondimensional_gibbs_free_energy N ℓ m (p / N / ℓ) η T) = _
  rw [← wlcHinge, wlc_gibbs_eq hN hη hη1 (wlc_succeeds hs) hK]
  rw [show midpointSum (fun γ => 4 * Real.pi * (N * γ) ^ 2 * (Real.sinh (N * η * γ) / (N * η * γ)) *
      Real.exp (-(wlc_isometric_helmholtz N ℓ m p).nd_energy γ T)) 1e-6 1 64 =
    math.integrate_1d (fun γ => 4 * Real.pi * (N * γ) ^ 2 * (Real.sinh (N * η * γ) / (N * η * γ)) *
      Real.exp (-(wlc_isometric_helmholtz N ℓ m p).nd_energy γ T)) ZERO ONE POINTS by
    rw [integrate_1d_eq_midpointSum, one_eq', zero_eq]; rfl]
  have hh : ∀ γ, (wlc_isometric_helmholtz N ℓ m p).nd_energy γ T =
      wlcPsi (p / N / ℓ) γ - ((N:ℝ) - 1) * Real.log (wlcHinge ℓ m (p / N / ℓ) T) := fun γ => wlc_helmholtz_eq N ℓ m _ γ T
  have hw : ∀ γ : ℝ, γ ∈ Ioo (ZERO : ℝ) ONE → 4 * Real.pi * (N * γ) ^ 2 * (Real.sinh (N * η * γ) / (N * η * γ)) *
      Real.exp (-(wlc_isometric_helmholtz N ℓ m p).nd_energy γ T) =
      2 * Real.pi * N ^ 2 * Real.exp (((N:ℝ) - 1) * Real.log (wlcHinge ℓ m (p / N / ℓ) T)) *
        linkWeight (wlcPsi (p / N / ℓ)) (N * η) γ := by
    intro γ hγ
    have hγ0 : γ ≠ 0 := (zero_pos'.trans hγ.1).ne'
    rw [hh, linkWeight, show -(wlcPsi (p / N / ℓ) γ - ((N:ℝ) - 1) * Real.log (wlcHinge ℓ m (p / N / ℓ) T)) =
      ((N:ℝ) - 1) * Real.log (wlcHinge ℓ m (p / N / ℓ) T) + -wlcPsi (p / N / ℓ) γ by ring, Real.exp_add]
    field_simp
    ring
  rw [math.integrate_1d_congr zero_lt_one_grid hw, math.integrate_1d_const_mul]
  change _ = _ * (_ * linkZ (wlcPsi (p / N / ℓ)) (ZERO : ℝ) ONE POINTS (N * η))
  generalize linkZ (wlcPsi (p / N / ℓ)) (ZERO : ℝ) ONE POINTS (N * η) = Z at *
  generalize wlcHinge ℓ m (p / N / ℓ) T = K at *
  rw [show -(-Real.log (2 * Real.pi * N ^ 2 * Z) - N * Real.log K) =
    Real.log (2 * Real.pi * N ^ 2 * Z) + (Real.log K + (N - 1) * Real.log K) by ring, Real.exp_add, Real.exp_add,
    Real.exp_log (by positivity), Real.exp_log hK]
  ring

example {η : ℝ} (h0 : 0 < η) (h1 : η ≤ 100) : SearchSucceeds (wlc_isometric_forces 100 1 1 2) η :=
  wlc_succeeds_flexible 1 1 2 (by norm_num) (by norm_num) (by norm_num) (by norm_num) (by norm_num) h0.le
    (h1.trans (by norm_num))

/-- The Gibbs energy depends on the hinge mass, link length and temperature through one constant. -/
theorem wlc_gibbs_split {N : ℕ} {ϖ η : ℝ} (hN : 0 < N) (hη : 0 < η) (h : wlcRoot N ϖ η ∈ Icc (0:ℝ) 1) :
    ∃ A : ℝ, ∀ ℓ m T, 0 < wlcHinge ℓ m ϖ T →
      isotensional.nondimensional_gibbs_free_energy N ℓ m ϖ η T = A - N * Real.log (wlcHinge ℓ m ϖ T) := by
  rcases le_or_gt η 100 with h1 | h1
  · exact ⟨_, fun ℓ m T hK => wlc_gibbs_eq hN hη h1 h hK⟩
  · have hlt : Elem.lt (100.0 : ℝ) η = true := by simp only [elem_lt]; norm_num; exact h1
    refine ⟨?A, fun ℓ m T hK => ?_⟩
    rotate_left
    · unfold isotensional.nondimensional_gibbs_free_energy
      simp only []
      rw [show math.inverse_newton_raphson_powered η _ _ _ _ 100 2 = wlcRoot N ϖ η from rfl, root_test h]
      simp only [Bool.false_eq_true, if_false, hlt, if_true, wlc_helmholtz_eq]
      rw [← wlcHinge]
      simp only [model_real]
      rw [← wlcHinge]
      generalize Real.log (wlcHinge ℓ m ϖ T) = K
      rw [eq_sub_iff_add_eq]
      ring_nf
      rfl

theorem wlc_hinge_pos_one {N : ℕ} {ℓ p : ℝ} (hN : 0 < N) (hℓ : 0 < ℓ) (hp : 0 < p) : 0 < wlcHinge 1 1 (p / N / ℓ) 300 := by
  have hN' : (0:ℝ) < N := Nat.cast_pos.2 hN
  exact wlcHinge_pos (by norm_num) (by norm_num) (by positivity) (by norm_num)

/-- C16: the relative Gibbs energy is the Gibbs energy minus its value at the reference force 1e-6, wherever the search
succeeds. -/
theorem C16_reference_wlc_isotensional_gibbs (N : ℕ) (ℓ m p : ℝ) (hN : 0 < N) (hℓ : 0 < ℓ) (hm : 0 < m) (hp : 0 < p)
    (h0 : SearchSucceeds (wlc_isometric_forces N ℓ m p) 1e-6) :
    (wlc_isotensional_gibbs N ℓ m p).RelativeToOn (ndForce ℓ) 1e-6
      (fun η _ => 0 < η ∧ SearchSucceeds (wlc_isometric_forces N ℓ m p) η) := by
  have hN' : (0:ℝ) < N := Nat.cast_pos.2 hN
  have hs := C15_wlc_isotensional_gibbs N ℓ m p hN hℓ
  have h2 : ∀ y T, 0 < T → (0 < y ∧ SearchSucceeds (wlc_isometric_forces N ℓ m p) y) →
      (wlc_isotensional_gibbs N ℓ m p).nd_relative y T =
        (wlc_isotensional_gibbs N ℓ m p).nd_energy y T - (wlc_isotensional_gibbs N ℓ m p).nd_energy 1e-6 T := by
    rintro y T hT ⟨hy, hy1⟩
    have hK := wlcHinge_pos hℓ hm (show 0 < p / N / ℓ by positivity) hT
    have hK1 := wlc_hinge_pos_one hN hℓ hp
    obtain ⟨A, hA⟩ := wlc_gibbs_split hN hy (wlc_succeeds hy1)
    obtain ⟨B, hB⟩ := wlc_gibbs_split hN (show (0:ℝ) < 1e-6 by norm_num) (wlc_succeeds h0)
    change isotensional.nondimensional_gibbs_free_energy N 1.0 1.0 (p / N / ℓ) y 300.0 -
      isotensional.nondimensional_gibbs_free_energy N 1.0 1.0 (p / N / ℓ) 1e-6 300.0 =
      isotensional.nondimensional_gibbs_free_energy N ℓ m (p / N / ℓ) y T -
      isotensional.nondimensional_gibbs_free_energy N ℓ m (p / N / ℓ) 1e-6 T
    rw [show (1.0:ℝ) = 1 by norm_num, show (300.0:ℝ) = 300 by norm_num, hA _ _ _ hK, hA _ _ _ hK1, hB _ _ _ hK, hB _ _ _ hK1]
    ring
  have h1 : ∀ y T, 0 < T → (0 < y ∧ SearchSucceeds (wlc_isometric_forces N ℓ m p) y) →
      (wlc_isotensional_gibbs N ℓ m p).nd_relative_per_link y T =
        (wlc_isotensional_gibbs N ℓ m p).nd_energy_per_link y T - (wlc_isotensional_gibbs N ℓ m p).nd_energy_per_link 1e-6 T := by
    intro y T hT hy
    have := h2 y T hT hy
    rw [hs.nd_relative_total y T hT, hs.nd_total y T hT, hs.nd_total 1e-6 T hT, ← mul_sub] at this
    exact mul_left_cancel₀ hN'.ne' this
  refine ⟨?_, ?_, h2, h1⟩
  · intro x x₀ T hT hD e0
    rw [hs.relative x T hT, hs.energy x T hT, hs.energy x₀ T hT, e0, h2 _ T hT hD]; ring
  · intro x x₀ T hT hD e0
    rw [hs.relative_per_link x T hT, hs.energy_per_link x T hT, hs.energy_per_link x₀ T hT, e0, h1 _ T hT hD]; ring

/-- C16: the same for the Helmholtz energy obtained by Legendre transformation. -/
theorem C16_reference_wlc_isotensional_legendre_helmholtz (N : ℕ) (ℓ m p : ℝ) (hN : 0 < N) (hℓ : 0 < ℓ) (hm : 0 < m)
    (hp : 0 < p) (h0 : SearchSucceeds (wlc_isometric_forces N ℓ m p) 1e-6) :
    (wlc_isotensional_legendre_helmholtz N ℓ m p).RelativeToOn (ndForce ℓ) 1e-6
      (fun η _ => 0 < η ∧ SearchSucceeds (wlc_isometric_forces N ℓ m p) η) := by
  have hN' : (0:ℝ) < N := Nat.cast_pos.2 hN
  have hs := C15_wlc_isotensional_legendre_helmholtz N ℓ m p hN hℓ
  have h2 : ∀ y T, 0 < T → (0 < y ∧ SearchSucceeds (wlc_isometric_forces N ℓ m p) y) →
      (wlc_isotensional_legendre_helmholtz N ℓ m p).nd_relative y T =
        (wlc_isotensional_legendre_helmholtz N ℓ m p).nd_energy y T -
          (wlc_isotensional_legendre_helmholtz N ℓ m p).nd_energy 1e-6 T := by
    rintro y T hT ⟨hy, hy1⟩
    have hK := wlcHinge_pos hℓ hm (show 0 < p / N / ℓ by positivity) hT
    have hK1 := wlc_hinge_pos_one hN hℓ hp
    obtain ⟨A, hA⟩ := wlc_gibbs_split hN hy (wlc_succeeds hy1)
    obtain ⟨B, hB⟩ := wlc_gibbs_split hN (show (0:ℝ) < 1e-6 by norm_num) (wlc_succeeds h0)
    change isotensional.legendre.nondimensional_helmholtz_free_energy N 1.0 1.0 (p / N / ℓ) y 300.0 -
      isotensional.legendre.nondimensional_helmholtz_free_energy N 1.0 1.0 (p / N / ℓ) 1e-6 300.0 =
      isotensional.legendre.nondimensional_helmholtz_free_energy N ℓ m (p / N / ℓ) y T -
      isotensional.legendre.nondimensional_helmholtz_free_energy N ℓ m (p / N / ℓ) 1e-6 T
    simp only [isotensional.legendre.nondimensional_helmholtz_free_energy]
    rw [show (1.0:ℝ) = 1 by norm_num, show (300.0:ℝ) = 300 by norm_num, hA _ _ _ hK, hA _ _ _ hK1, hB _ _ _ hK, hB _ _ _ hK1]
    ring
  have h1 : ∀ y T, 0 < T → (0 < y ∧ SearchSucceeds (wlc_isometric_forces N ℓ m p) y) →
      (wlc_isotensional_legendre_helmholtz N ℓ m p).nd_relative_per_link y T =
        (wlc_isotensional_legendre_helmholtz N ℓ m p).nd_energy_per_link y T -
          (wlc_isotensional_legendre_helmholtz N ℓ m p).nd_energy_per_link 1e-6 T := by
    intro y T hT hy
    have := h2 y T hT hy
    rw [hs.nd_relative_total y T hT, hs.nd_total y T hT, hs.nd_total 1e-6 T hT, ← mul_sub] at this
    exact mul_left_cancel₀ hN'.ne' this
  refine ⟨?_, ?_, h2, h1⟩
  · intro x x₀ T hT hD e0
    rw [hs.relative x T hT, hs.energy x T hT, hs.energy x₀ T hT, e0, h2 _ T hT hD]; ring
  · intro x x₀ T hT hD e0
    rw [hs.relative_per_link x T hT, hs.energy_per_link x T hT, hs.energy_per_link x₀ T hT, e0, h1 _ T hT hD]; ring

example : (wlc_isotensional_gibbs 100 1 1 2).RelativeToOn (ndForce 1) 1e-6
    (fun η _ => 0 < η ∧ SearchSucceeds (wlc_isometric_forces 100 1 1 2) η) ∧ ∀ η ∈ Ioc (0:ℝ) (10 ^ 5),
      SearchSucceeds (wlc_isometric_forces 100 1 1 2) η :=
  ⟨C16_reference_wlc_isotensional_gibbs 100 1 1 2 (by norm_num) (by norm_num) (by norm_num) (by norm_num)
    (wlc_succeeds_flexible 1 1 2 (by norm_num) (by norm_num) (by norm_num) (by norm_num) (by norm_num) (by norm_num)
      (by norm_num)), fun η h => wlc_succeeds_flexible 1 1 2 (by norm_num) (by norm_num) (by norm_num) (by norm_num)
      (by norm_num) h.1.le h.2⟩

example : (wlc_isotensional_legendre_helmholtz 100 1 1 2).RelativeToOn (ndForce 1) 1e-6
    (fun η _ => 0 < η ∧ SearchSucceeds (wlc_isometric_forces 100 1 1 2) η) :=
  C16_reference_wlc_isotensional_legendre_helmholtz 100 1 1 2 (by norm_num) (by norm_num) (by norm_num) (by norm_num)
    (wlc_succeeds_flexible 1 1 2 (by norm_num) (by norm_num) (by norm_num) (by norm_num) (by norm_num) (by norm_num)
      (by norm_num))

end Polymers.Props
