import Verif.Lemmas.Wlc
import Verif.Lemmas.LinkPartition
import Verif.Props.FjcPotential
import Mathlib.Analysis.SpecialFunctions.Trigonometric.Inverse

/-! The quadratures of the worm-like chain at a fixed force. -/

namespace Polymers.Lemmas

open Polymers.wlc.thermodynamics Polymers.Spec Polymers.Props Set

/-- The root searched for at the start of the isotensional methods: Newton's method, damped by two, from 0.9999. -/
noncomputable def wlcRoot (N : ℕ) (ϖ η : ℝ) : ℝ :=
  math.inverse_newton_raphson_powered η (fun γ => isometric.nondimensional_force N ϖ γ)
    (fun γ => (isometric.nondimensional_force N ϖ (γ + 1e-8) - isometric.nondimensional_force N ϖ (γ - 1e-8)) / 2e-8)
    0.9999 1e-5 100 2

/-- The contribution of one hinge. -/
noncomputable def wlcHinge (ℓ m ϖ T : ℝ) : ℝ :=
  4 * Real.sin (Real.arccos (Real.exp (-1 / ϖ))) * Real.pi ^ 2 * m * ℓ ^ 2 * BOLTZMANN_CONSTANT * T / PLANCK_CONSTANT ^ 2

theorem wlcHinge_pos {ℓ m ϖ T : ℝ} (hℓ : 0 < ℓ) (hm : 0 < m) (hϖ : 0 < ϖ) (hT : 0 < T) : 0 < wlcHinge ℓ m ϖ T := by
  have h1 : Real.exp (-1 / ϖ) < 1 := by rw [Real.exp_lt_one_iff]; exact div_neg_of_neg_of_pos (by norm_num) hϖ
  have h0 := Real.exp_pos (-1 / ϖ)
  have h2 : 0 < Real.sin (Real.arccos (Real.exp (-1 / ϖ))) := by
    rw [Real.sin_arccos]
    exact Real.sqrt_pos.2 (by nlinarith)
  have := Real.pi_pos
  have hb : (0 : ℝ) < BOLTZMANN_CONSTANT := boltzmann_pos
  have hp : (0 : ℝ) < PLANCK_CONSTANT := by norm_num [PLANCK_CONSTANT]
  unfold wlcHinge
  positivity

theorem wlc_relative_eq (ϖ γ : ℝ) :
    isometric.nondimensional_relative_helmholtz_free_energy ϖ γ = wlcPsi ϖ γ - wlcPsi ϖ ZERO := by
  simp only [isometric.nondimensional_relative_helmholtz_free_energy, wlc_helmholtz_eq]
  ring

theorem root_test {x : ℝ} (h : x ∈ Icc (0:ℝ) 1) : (!(Elem.le (0.0 : ℝ) x && Elem.le x (1.0 : ℝ))) = false := by
  have h0 : Elem.le (0.0 : ℝ) x = true := by simp only [model_real]; norm_num; exact h.1
  have h1 : Elem.le x (1.0 : ℝ) = true := by simp only [model_real]; norm_num; exact h.2
  simp [h0, h1]

theorem wlc_length_eq {N : ℕ} {ϖ η : ℝ} (hN : 0 < N) (hη : 0 < η) (h : wlcRoot N ϖ η ∈ Icc (0:ℝ) 1) :
    isotensional.nondimensional_end_to_end_length N ϖ η =
      N * linkGamma (wlcPsi ϖ) (ZERO : ℝ) ONE POINTS (N * η) := by
  have hN' : (0 : ℝ) < N := Nat.cast_pos.2 hN
  unfold isotensional.nondimensional_end_to_end_length
  simp only []
  rw [show math.inverse_newton_raphson_powered η _ _ _ _ 100 2 = wlcRoot N ϖ η from rfl, root_test h]
  simp only [Bool.false_eq_true, if_false, wlc_relative_eq, elem_exp]
  generalize wlcRoot N ϖ η = r
  obtain ⟨s, hs⟩ : ∃ s, s = (N:ℝ) * η * r - (wlcPsi ϖ r - wlcPsi ϖ ZERO) := ⟨_, rfl⟩
  rw [← hs]
  have hexp : ∀ a γ : ℝ, Real.exp (a - s - (wlcPsi ϖ γ - wlcPsi ϖ ZERO)) =
      Real.exp (wlcPsi ϖ ZERO - s) * (Real.exp a * Real.exp (-wlcPsi ϖ γ)) := by
    intro a γ; rw [← Real.exp_add, ← Real.exp_add]; congr 1; ring
  obtain ⟨c, hc⟩ : ∃ c, c = Real.exp (wlcPsi ϖ ZERO - s) := ⟨_, rfl⟩
  have hc0 : 0 < c := hc ▸ Real.exp_pos _
  simp only [hexp, ← hc]
  have hd : ∀ γ : ℝ, (c * (Real.exp (N * η * γ) * Real.exp (-wlcPsi ϖ γ)) -
      c * (Real.exp (-(N * η * γ)) * Real.exp (-wlcPsi ϖ γ))) * γ / η = (c * N) * linkWeight (wlcPsi ϖ) (N * η) γ := by
    intro γ
    rw [linkWeight, Real.sinh_eq]
    field_simp
  have hn : ∀ γ : ℝ, ((c * (Real.exp (N * η * γ) * Real.exp (-wlcPsi ϖ γ)) +
      c * (Real.exp (-(N * η * γ)) * Real.exp (-wlcPsi ϖ γ))) * N * γ - (c * (Real.exp (N * η * γ) * Real.exp (-wlcPsi ϖ γ)) -
      c * (Real.exp (-(N * η * γ)) * Real.exp (-wlcPsi ϖ γ))) / η) * γ / η =
      (c * N ^ 2) * linkWeight' (wlcPsi ϖ) (N * η) γ := by
    intro γ
    rw [linkWeight', Real.sinh_eq, Real.cosh_eq]
    field_simp
  simp only [hd, hn, math.integrate_1d_const_mul]
  unfold linkGamma linkZ
  rw [mul_div_mul_comm, ← mul_div_assoc]
  congr 1
  field_simp

theorem wlc_gibbs_eq {N : ℕ} {ℓ m ϖ η T : ℝ} (hN : 0 < N) (hη : 0 < η) (hη1 : η ≤ 100)
    (h : wlcRoot N ϖ η ∈ Icc (0:ℝ) 1) (hK : 0 < wlcHinge ℓ m ϖ T) :
    isotensional.nondimensional_gibbs_free_energy N ℓ m ϖ η T =
      -Real.log (2 * Real.pi * N ^ 2 * linkZ (wlcPsi ϖ) (ZERO : ℝ) ONE POINTS (N * η)) - N * Real.log (wlcHinge ℓ m ϖ T) := by
  have hN' : (0 : ℝ) < N := Nat.cast_pos.2 hN
  have hZ := linkZ_pos (U := wlcPsi ϖ) zero_pos'.le zero_lt_one_grid (show 0 < POINTS by norm_num [POINTS])
    (show 0 < N * η by positivity)
  have hlt : Elem.lt (100.0 : ℝ) η = false := by
    refine Bool.eq_false_iff.2 fun hh => ?_
    have : (100.0 : ℝ) < η := by simpa only [elem_lt] using hh
    norm_num at this
    linarith
  unfold isotensional.nondimensional_gibbs_free_energy
  simp only []
  rw [show math.inverse_newton_raphson_powered η _ _ _ _ 100 2 = wlcRoot N ϖ η from rfl, root_test h]
  simp only [Bool.false_eq_true, if_false, hlt, wlc_helmholtz_eq]
  rw [← wlcHinge]
  simp only [model_real]
  rw [← wlcHinge]
  generalize wlcRoot N ϖ η = r
  generalize wlcHinge ℓ m ϖ T = K at *
  obtain ⟨s, hs⟩ : ∃ s, s = (N:ℝ) * η * r - (wlcPsi ϖ r - (N - 1) * Real.log K) := ⟨_, rfl⟩
  rw [← hs]
  have hexp : ∀ a γ : ℝ, Real.exp (a - s - (wlcPsi ϖ γ - (N - 1) * Real.log K)) =
      Real.exp ((N - 1) * Real.log K - s) * (Real.exp a * Real.exp (-wlcPsi ϖ γ)) := by
    intro a γ; rw [← Real.exp_add, ← Real.exp_add]; congr 1; ring
  obtain ⟨c, hc⟩ : ∃ c, c = Real.exp ((N - 1) * Real.log K - s) := ⟨_, rfl⟩
  have hc0 : 0 < c := hc ▸ Real.exp_pos _
  simp only [hexp, ← hc]
  have hd : ∀ γ : ℝ, 1 / 2 * (c * (Real.exp (N * η * γ) * Real.exp (-wlcPsi ϖ γ)) -
      c * (Real.exp (-(N * η * γ)) * Real.exp (-wlcPsi ϖ γ))) * N * γ / η =
      (c * N ^ 2 / 2) * linkWeight (wlcPsi ϖ) (N * η) γ := by
    intro γ
    rw [linkWeight, Real.sinh_eq]
    field_simp
  simp only [hd, math.integrate_1d_const_mul]
  change -Real.log (4 * Real.pi * (c * N ^ 2 / 2 * linkZ (wlcPsi ϖ) (ZERO : ℝ) ONE POINTS (N * η))) - s - _ = _
  have hπ := Real.pi_pos
  rw [show 4 * Real.pi * (c * N ^ 2 / 2 * linkZ (wlcPsi ϖ) (ZERO : ℝ) ONE POINTS (N * η)) =
    c * (2 * Real.pi * N ^ 2 * linkZ (wlcPsi ϖ) (ZERO : ℝ) ONE POINTS (N * η)) by ring,
    Real.log_mul hc0.ne' (by positivity), hc, Real.log_exp]
  ring

end Polymers.Lemmas
