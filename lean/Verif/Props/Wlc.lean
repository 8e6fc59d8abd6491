import Verif.Lemmas.Wlc
import Verif.Lemmas.Distribution
import Verif.Lemmas.Partition
import Verif.Lemmas.LinkPartition
import Verif.Props.ScalingWlc
import Verif.Props.Bessel
import Verif.Props.FjcPotential

/-!
The worm-like chain in the isometric ensemble: the force against the gradient of the Helmholtz free energy, positivity and
normalisation of the end-to-end distribution, and the Legendre Gibbs free energy.
-/

set_option maxRecDepth 4000
set_option maxHeartbeats 1000000

namespace Polymers.Props

open Polymers.Spec Polymers.Api Polymers.Lemmas Polymers.wlc.thermodynamics Set Filter Topology

theorem wlc_density_eq {ϖ γ : ℝ} (c : ℝ) (h : 0 < ϖ) (h0 : 0 ≤ γ) (h1 : γ < 1) :
    isometric.nondimensional_equilibrium_distribution ϖ c γ = Real.exp (-wlcPsi ϖ γ) / c := by
  have hE := wlcE_pos h
  have hC := wlcC_lt_one h
  have hg : 0 < 1 - γ ^ 2 := by nlinarith
  have hf : 0 < 1 - wlcC ϖ * γ ^ 2 := by nlinarith [sq_nonneg γ]
  have harg := wlcArg_nonpos h h0 h1
  have hI : 0 < math.bessel_i 0 (wlcArg ϖ γ) := by
    linarith [one_le_bessel_i0 (show wlcArg ϖ γ < 31 / 4 by linarith)]
  have hr : isometric.nondimensional_equilibrium_distribution ϖ c γ =
      wlcE ϖ * ((1 - wlcC ϖ * γ ^ 2) / (1 - γ ^ 2)) ^ (5 / 2 : ℝ) *
        Real.exp (wlcSum ϖ γ / (1 - γ ^ 2) + wlcArg ϖ γ * (473 / 1000) * γ) * math.bessel_i 0 (wlcArg ϖ γ) / c := by
    simp only [isometric.nondimensional_equilibrium_distribution, wlcE, wlcC, wlcArg, wlcD, wlcSum, model_real,
      List.range', List.map_cons, List.map_nil, List.getD_cons_zero, List.getD_cons_succ, List.sum_cons, List.sum_nil,
      Nat.sub_self]
    congr 4
    congr 2
    norm_num
    ring
  rw [hr, show -wlcPsi ϖ γ = Real.log (wlcE ϖ) + 5 / 2 * Real.log ((1 - wlcC ϖ * γ ^ 2) / (1 - γ ^ 2)) +
    (wlcSum ϖ γ / (1 - γ ^ 2) + wlcArg ϖ γ * (473 / 1000) * γ) + Real.log (math.bessel_i 0 (wlcArg ϖ γ)) by
      unfold wlcPsi; ring, Real.exp_add (_ + _) (Real.log _), Real.exp_add (Real.log _ + _), Real.exp_add (Real.log _), Real.exp_log hE, Real.exp_log hI,
    Real.rpow_def_of_pos (div_pos hf hg), mul_comm (Real.log _) (5 / 2)]

/-- The mismatch between the gradient of the Helmholtz energy and the returned force, times the number of links. -/
theorem wlc_mismatch {ϖ γ : ℝ} (h : 0 < ϖ) (h0 : 0 < γ) (h1 : γ < 1) :
    |wlcSlope ϖ γ (besselSlope (wlcArg ϖ γ)) - wlcSlope ϖ γ (math.bessel_i 1 (wlcArg ϖ γ))| ≤ 13 * ϖ ^ 2 ∧
    (ϖ < 1 / 8 →
      |wlcSlope ϖ γ (besselSlope (wlcArg ϖ γ)) - wlcSlope ϖ γ (math.bessel_i 1 (wlcArg ϖ γ))| ≤ 2 / 100000) := by
  have harg := wlcArg_nonpos h h0.le h1
  have hlt : wlcArg ϖ γ < 31 / 4 := by linarith
  have hI := one_le_bessel_i0 hlt
  have hb := wlc_h_pos h0.le h1
  have hD0 := wlcD_nonneg h
  have hD1 := wlcD_le_one h
  -- the two geometric factors
  set H : ℝ := γ / (1 - (473 / 1000) ^ 2 * γ ^ 2) with hH
  have hHpos : 0 < H := by positivity
  have hHle : H ≤ 1.2883 := by
    rw [hH, div_le_iff₀ hb]; nlinarith
  have hK : H * (1 / γ + 2 * (473 / 1000) ^ 2 * H) ≤ 2.031 := by
    have : H * (1 / γ) ≤ 1.2883 := by
      rw [hH]
      rw [div_mul_div_comm, mul_one, mul_comm, div_mul_cancel_left₀ h0.ne', ← one_div, div_le_iff₀ hb]
      nlinarith
    nlinarith
  have hKpos : 0 < 1 / γ + 2 * (473 / 1000) ^ 2 * H := by positivity
  have habs : |wlcArg ϖ γ| = wlcD ϖ * ϖ * (7027 / 500 * (1473 / 1000)) * H := by
    rw [abs_of_nonpos harg]; unfold wlcArg; rw [← hH]; ring
  have hDϖ : wlcD ϖ * ϖ ≤ ϖ := by nlinarith
  have hDϖ0 : 0 ≤ wlcD ϖ * ϖ := by positivity
  have habs1 : |wlcArg ϖ γ| ≤ ϖ * 20.702 * H := by
    rw [habs]
    have : wlcD ϖ * ϖ * (7027 / 500 * (1473 / 1000)) ≤ ϖ * 20.702 := by nlinarith
    exact mul_le_mul_of_nonneg_right this hHpos.le
  have hdiff : wlcSlope ϖ γ (besselSlope (wlcArg ϖ γ)) - wlcSlope ϖ γ (math.bessel_i 1 (wlcArg ϖ γ)) =
      -(wlcArg ϖ γ * (besselSlope (wlcArg ϖ γ) - math.bessel_i 1 (wlcArg ϖ γ)) / math.bessel_i 0 (wlcArg ϖ γ) *
        (1 / γ + 2 * (473 / 1000) ^ 2 * H)) := by
    unfold wlcSlope; rw [← hH]; ring
  rw [hdiff, abs_neg, abs_mul, abs_div, abs_mul, abs_of_pos hKpos, abs_of_pos (show 0 < math.bessel_i 0 (wlcArg ϖ γ) by linarith)]
  have key : ∀ B : ℝ, 0 ≤ B → |besselSlope (wlcArg ϖ γ) - math.bessel_i 1 (wlcArg ϖ γ)| ≤ B * math.bessel_i 0 (wlcArg ϖ γ) →
      |wlcArg ϖ γ| * |besselSlope (wlcArg ϖ γ) - math.bessel_i 1 (wlcArg ϖ γ)| / math.bessel_i 0 (wlcArg ϖ γ) *
        (1 / γ + 2 * (473 / 1000) ^ 2 * H) ≤ ϖ * 42.046 * B := by
    intro B hB hle
    have e1 : |besselSlope (wlcArg ϖ γ) - math.bessel_i 1 (wlcArg ϖ γ)| / math.bessel_i 0 (wlcArg ϖ γ) ≤ B := by
      rw [div_le_iff₀ (by linarith)]; exact hle
    calc _ = |wlcArg ϖ γ| * (|besselSlope (wlcArg ϖ γ) - math.bessel_i 1 (wlcArg ϖ γ)| / math.bessel_i 0 (wlcArg ϖ γ)) *
        (1 / γ + 2 * (473 / 1000) ^ 2 * H) := by ring
      _ ≤ (ϖ * 20.702 * H) * B * (1 / γ + 2 * (473 / 1000) ^ 2 * H) := by gcongr
      _ = (ϖ * 20.702 * B) * (H * (1 / γ + 2 * (473 / 1000) ^ 2 * H)) := by ring
      _ ≤ (ϖ * 20.702 * B) * 2.031 := by gcongr
      _ ≤ ϖ * 42.046 * B := by nlinarith [mul_nonneg h.le hB]
  constructor
  · have hI1 : |math.bessel_i 1 (wlcArg ϖ γ)| ≤ |wlcArg ϖ γ| / 2 * math.bessel_i 0 (wlcArg ϖ γ) := abs_bessel_i1_le hlt
    have hs := bessel_slope_rel hlt
    refine (key (0.011 * (ϖ * 20.702 * 1.2883)) (by positivity) ?_).trans (by nlinarith [sq_nonneg ϖ])
    calc _ ≤ 0.022 * |math.bessel_i 1 (wlcArg ϖ γ)| := hs
      _ ≤ 0.022 * (|wlcArg ϖ γ| / 2 * math.bessel_i 0 (wlcArg ϖ γ)) := by gcongr
      _ = 0.011 * |wlcArg ϖ γ| * math.bessel_i 0 (wlcArg ϖ γ) := by ring
      _ ≤ 0.011 * (ϖ * 20.702 * 1.2883) * math.bessel_i 0 (wlcArg ϖ γ) := by
        have : |wlcArg ϖ γ| ≤ ϖ * 20.702 * 1.2883 := habs1.trans (by gcongr)
        gcongr
  · intro h8
    have h3 : |wlcArg ϖ γ| ≤ 3.34 := by
      refine habs1.trans ?_
      have : ϖ * 20.702 ≤ 2.5878 := by linarith
      calc ϖ * 20.702 * H ≤ 2.5878 * 1.2883 := by gcongr
        _ ≤ 3.34 := by norm_num
    obtain ⟨s, hs, -, hs2⟩ := C09_derivative (wlcArg ϖ γ) (by linarith)
    have hse : s = besselSlope (wlcArg ϖ γ) := hs.unique (hasDerivAt_bessel_i0 hlt)
    rw [hse] at hs2
    have hs3 := hs2 (by have := (abs_le.1 h3).1; linarith)
    refine (key (1e-6 * 3.34) (by norm_num) ?_).trans (by nlinarith)
    calc _ ≤ 1e-6 * |wlcArg ϖ γ| := hs3
      _ ≤ 1e-6 * 3.34 := by gcongr
      _ ≤ _ := by nlinarith

/-- C33: in the isometric ensemble the returned force differs from the gradient of the returned Helmholtz free energy by
at most the mismatch of the two Bessel routines: `13 (p / Nℓ)² kT / Nℓ` in general, and `2e-5 kT / Nℓ` for chains at least
eight persistence lengths long. -/
theorem C33_wlc_force (N : ℕ) (ℓ m p ξ T : ℝ) (hN : 0 < N) (hℓ : 0 < ℓ) (hp : 0 < p) (hT : 0 < T) (h0 : 0 < ξ)
    (h1 : ξ < N * ℓ) :
    ∃ slope, HasDerivAt (fun ξ => (wlc_isometric_helmholtz N ℓ m p).energy ξ T) slope ξ ∧
      |slope - (wlc_isometric_forces N ℓ m p).force ξ T| ≤ 13 * (p / (N * ℓ)) ^ 2 * (kT T / (N * ℓ)) ∧
      (p < N * ℓ / 8 → |slope - (wlc_isometric_forces N ℓ m p).force ξ T| ≤ 2e-5 * (kT T / (N * ℓ))) := by
  have hN' : (0 : ℝ) < N := Nat.cast_pos.2 hN
  have hc : (0 : ℝ) < N * ℓ := by positivity
  have hk := kT_pos hT
  have hϖ : 0 < p / N / ℓ := by positivity
  have hg0 : 0 < ξ / (N * ℓ) := by positivity
  have hg1 : ξ / (N * ℓ) < 1 := by rwa [div_lt_one hc]
  have hS := C15_wlc_isometric_helmholtz N ℓ m p hN hℓ
  have hF := C15_wlc_isometric_forces N ℓ m p hN hℓ
  have hnd : ∀ γ, (wlc_isometric_helmholtz N ℓ m p).nd_energy γ T = wlcPsi (p / N / ℓ) γ - ((N : ℝ) - 1) *
      Real.log (4 * Real.sin (Real.arccos (Real.exp (-1 / (p / N / ℓ)))) * Real.pi ^ 2 * m * ℓ ^ 2 *
        BOLTZMANN_CONSTANT * T / PLANCK_CONSTANT ^ 2) := fun γ => wlc_helmholtz_eq N ℓ m _ γ T
  have hfo : (wlc_isometric_forces N ℓ m p).force ξ T = kT T / ℓ *
      (wlcSlope (p / N / ℓ) (ξ / (N * ℓ)) (math.bessel_i 1 (wlcArg (p / N / ℓ) (ξ / (N * ℓ)))) / N) := by
    rw [hF ξ T hT]
    exact congrArg (kT T / ℓ * ·) (wlc_force_eq N _ _)
  refine ⟨kT T / (N * ℓ) * wlcSlope (p / N / ℓ) (ξ / (N * ℓ)) (besselSlope (wlcArg (p / N / ℓ) (ξ / (N * ℓ)))), ?_, ?_⟩
  · have e1 : (fun ξ => (wlc_isometric_helmholtz N ℓ m p).energy ξ T) =
        fun ξ => kT T * (wlc_isometric_helmholtz N ℓ m p).nd_energy (ndLength N ℓ ξ T) T := by
      funext ξ; exact hS.energy ξ T hT
    rw [e1]
    simp only [hnd]
    refine ((((hasDerivAt_wlcPsi hϖ hg0 hg1).comp ξ
      (hasDerivAt_ndLength (N := N) (ℓ := ℓ) (T := T) (ξ := ξ))).sub_const _).const_mul (kT T)).congr_deriv ?_
    field_simp
  · have hm := wlc_mismatch hϖ hg0 hg1
    rw [hfo, show ∀ A B : ℝ, kT T / (N * ℓ) * A - kT T / ℓ * (B / N) = kT T / (N * ℓ) * (A - B) by
      intro A B; field_simp, abs_mul, abs_of_pos (div_pos hk hc)]
    have hpp : p / N / ℓ = p / (N * ℓ) := by rw [div_div]
    rw [hpp] at hm ⊢
    refine ⟨?_, fun h8 => ?_⟩
    · rw [mul_comm]
      exact mul_le_mul_of_nonneg_right hm.1 (div_pos hk hc).le
    · rw [mul_comm]
      refine mul_le_mul_of_nonneg_right ((hm.2 ?_).trans (by norm_num)) (div_pos hk hc).le
      rw [div_lt_iff₀ hc]; linarith

example : ∃ slope, HasDerivAt (fun ξ => (wlc_isometric_helmholtz 8 1 1 (1 / 2)).energy ξ 300) slope 4 ∧
      |slope - (wlc_isometric_forces 8 1 1 (1 / 2)).force 4 300| ≤ 2e-5 * (kT 300 / (8 * 1)) := by
  obtain ⟨s, h1, -, h3⟩ := C33_wlc_force 8 1 1 (1 / 2) 4 300 (by norm_num) (by norm_num) (by norm_num) (by norm_num)
    (by norm_num) (by norm_num)
  exact ⟨s, h1, h3 (by norm_num)⟩

/-- The constant stored when the chain is constructed is positive. -/
theorem wlc_normalization_pos {ϖ : ℝ} (h : 0 < ϖ) :
    0 < math.integrate_1d (fun γ => isometric.nondimensional_equilibrium_radial_distribution ϖ 1.0 γ) (ZERO : ℝ) ONE
      POINTS := by
  refine math.integrate_1d_pos zero_lt_one_grid (by norm_num [POINTS]) fun γ hγ => ?_
  have h0 : 0 < γ := zero_pos'.trans hγ.1
  have h1 : γ < 1 := hγ.2.trans_eq one_eq'
  have hπ := Real.pi_pos
  simp only [isometric.nondimensional_equilibrium_radial_distribution, wlc_density_eq _ h h0.le h1, model_real]
  positivity

theorem wlc_nd_density_eq (N : ℕ) (ℓ m p γ : ℝ) (hp : 0 < p / N / ℓ) (h0 : 0 ≤ γ) (h1 : γ < 1) :
    ∃ c, 0 < c ∧ (wlc_isometric_distribution N ℓ m p).nd_density γ = Real.exp (-wlcPsi (p / N / ℓ) γ) / c :=
  ⟨_, wlc_normalization_pos hp, wlc_density_eq _ hp h0 h1⟩

/-- C33: the end-to-end distribution is positive at every length below the contour length. -/
theorem C33_wlc_distribution_positive (N : ℕ) (ℓ m p : ℝ) (hN : 0 < N) (hℓ : 0 < ℓ) (hp : 0 < p) :
    (wlc_isometric_distribution N ℓ m p).Positive N ℓ 1 := by
  refine .of_nd hN hℓ (C36_scales_wlc_isometric_distribution N ℓ m p hN hℓ) fun γ h0 h1 => ?_
  have hN' : (0 : ℝ) < N := Nat.cast_pos.2 hN
  obtain ⟨c, hc, e⟩ := wlc_nd_density_eq N ℓ m p γ (by positivity) h0 h1
  rw [e]; positivity

example : (wlc_isometric_distribution 8 1 1 2).Positive 8 1 1 :=
  C33_wlc_distribution_positive 8 1 1 2 (by norm_num) (by norm_num) (by norm_num)

/-- C36: the radial distribution of the worm-like chain sums to one on the grid used at construction. -/
theorem C36_sum_wlc_isometric_distribution (N : ℕ) (ℓ m p : ℝ) (hN : 0 < N) (hℓ : 0 < ℓ) (hp : 0 < p) :
    (wlc_isometric_distribution N ℓ m p).SumsToOne N ℓ 1e-6 1 64 := by
  refine .of_nd hN hℓ (C36_scales_wlc_isometric_distribution N ℓ m p hN hℓ) ?_
  have hN' : (0 : ℝ) < N := Nat.cast_pos.2 hN
  have hc := wlc_normalization_pos (show 0 < p / N / ℓ by positivity)
  have e : (wlc_isometric_distribution N ℓ m p).nd_radial = fun γ =>
      isometric.nondimensional_equilibrium_radial_distribution (p / N / ℓ) 1.0 γ /
        math.integrate_1d (fun γ => isometric.nondimensional_equilibrium_radial_distribution (p / N / ℓ) 1.0 γ) (ZERO : ℝ)
          ONE POINTS := by
    funext γ
    change isometric.nondimensional_equilibrium_radial_distribution (p / N / ℓ) (math.integrate_1d (fun γ =>
      isometric.nondimensional_equilibrium_radial_distribution (p / N / ℓ) 1.0 γ) (ZERO : ℝ) ONE POINTS) γ = _
    generalize math.integrate_1d (fun γ => isometric.nondimensional_equilibrium_radial_distribution (p / N / ℓ) 1.0 γ)
      (ZERO : ℝ) ONE POINTS = c
    simp only [isometric.nondimensional_equilibrium_radial_distribution,
      isometric.nondimensional_equilibrium_distribution, model_real]
    ring
  have h := math.integrate_1d_div_const (fun γ => isometric.nondimensional_equilibrium_radial_distribution (p / N / ℓ) 1.0 γ)
    (math.integrate_1d (fun γ => isometric.nondimensional_equilibrium_radial_distribution (p / N / ℓ) 1.0 γ) (ZERO : ℝ)
      ONE POINTS) (a := (ZERO : ℝ)) (b := ONE) (n := POINTS)
  rw [div_self hc.ne', integrate_1d_eq_midpointSum] at h
  rw [e]
  have hz : (ZERO : ℝ) = 1e-6 := zero_eq
  have ho : (ONE : ℝ) = 1 := one_eq'
  have hP : POINTS = 64 := rfl
  rw [hz, ho, hP] at h ⊢
  exact h

example : (wlc_isometric_distribution 8 1 1 2).SumsToOne 8 1 1e-6 1 64 :=
  C36_sum_wlc_isometric_distribution 8 1 1 2 (by norm_num) (by norm_num) (by norm_num)

/-- C53: the end-to-end distribution is the Boltzmann factor of the Helmholtz free energy below the contour length. -/
theorem C53_wlc_isometric (N : ℕ) (ℓ m p : ℝ) (hN : 0 < N) (hℓ : 0 < ℓ) (hp : 0 < p) :
    (wlc_isometric_distribution N ℓ m p).IsBoltzmann (wlc_isometric_helmholtz N ℓ m p) N ℓ (fun γ => 0 ≤ γ ∧ γ < 1) := by
  refine .of_nd (C36_scales_wlc_isometric_distribution N ℓ m p hN hℓ) (C15_wlc_isometric_helmholtz N ℓ m p hN hℓ) ?_
  have hN' : (0 : ℝ) < N := Nat.cast_pos.2 hN
  have hϖ : 0 < p / N / ℓ := by positivity
  have key : ∀ γ T, 0 ≤ γ ∧ γ < 1 → (wlc_isometric_distribution N ℓ m p).nd_density γ *
      Real.exp ((wlc_isometric_helmholtz N ℓ m p).nd_energy γ T) = Real.exp (-(((N : ℝ) - 1) *
        Real.log (4 * Real.sin (Real.arccos (Real.exp (-1 / (p / N / ℓ)))) * Real.pi ^ 2 * m * ℓ ^ 2 *
          BOLTZMANN_CONSTANT * T / PLANCK_CONSTANT ^ 2))) / math.integrate_1d (fun γ =>
      isometric.nondimensional_equilibrium_radial_distribution (p / N / ℓ) 1.0 γ) (ZERO : ℝ) ONE POINTS := by
    intro γ T hγ
    have e1 : (wlc_isometric_distribution N ℓ m p).nd_density γ = Real.exp (-wlcPsi (p / N / ℓ) γ) /
      math.integrate_1d (fun γ => isometric.nondimensional_equilibrium_radial_distribution (p / N / ℓ) 1.0 γ) (ZERO : ℝ)
        ONE POINTS := wlc_density_eq _ hϖ hγ.1 hγ.2
    have e2 : (wlc_isometric_helmholtz N ℓ m p).nd_energy γ T = _ := wlc_helmholtz_eq N ℓ m (p / N / ℓ) γ T
    rw [e1, e2, div_mul_eq_mul_div, ← Real.exp_add]
    congr 2
    ring
  intro γ₁ γ₂ T _ h1 h2
  rw [key _ _ h1, key _ _ h2]

example : (wlc_isometric_distribution 8 1 1 2).IsBoltzmann (wlc_isometric_helmholtz 8 1 1 2) 8 1
    (fun γ => 0 ≤ γ ∧ γ < 1) :=
  C53_wlc_isometric 8 1 1 2 (by norm_num) (by norm_num) (by norm_num)

/-- C33: the Gibbs free energy of the isometric Legendre approximation is the Helmholtz free energy minus the force times
the length. -/
theorem C33_wlc_isometric_legendre (N : ℕ) (ℓ m p : ℝ) (hN : 0 < N) (hℓ : 0 < ℓ) :
    (wlc_isometric_legendre_gibbs N ℓ m p).IsLegendreInLength (wlc_isometric_helmholtz N ℓ m p)
      (wlc_isometric_forces N ℓ m p) N ℓ fun _ _ => True := by
  refine .of_nd hN hℓ (C15_wlc_isometric_legendre_gibbs N ℓ m p hN hℓ)
    (C15_wlc_isometric_helmholtz N ℓ m p hN hℓ) (C15_wlc_isometric_forces N ℓ m p hN hℓ) ?_
  intro γ T hT _
  have hN' : (N : ℝ) ≠ 0 := by positivity
  change isometric.legendre.nondimensional_gibbs_free_energy_per_link N ℓ m (p / N / ℓ) γ T =
    isometric.nondimensional_helmholtz_free_energy_per_link N ℓ m (p / N / ℓ) γ T -
      γ * isometric.nondimensional_force N (p / N / ℓ) γ
  simp only [isometric.legendre.nondimensional_gibbs_free_energy_per_link,
    isometric.legendre.nondimensional_gibbs_free_energy, isometric.nondimensional_helmholtz_free_energy_per_link]
  field_simp

example : (wlc_isometric_legendre_gibbs 8 1 1 2).IsLegendreInLength (wlc_isometric_helmholtz 8 1 1 2)
    (wlc_isometric_forces 8 1 1 2) 8 1 fun _ _ => True :=
  C33_wlc_isometric_legendre 8 1 1 2 (by norm_num) (by norm_num)

end Polymers.Props
