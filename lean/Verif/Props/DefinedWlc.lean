import Verif.Lemmas.Defined
import Verif.Spec.ApiDefined
import Verif.Spec.Api
import Verif.Props.DefinedBessel
import Verif.Props.Wlc

/-! Definedness (C46) of the worm-like chain at fixed extension. -/

namespace Polymers.Props

open Polymers.Spec Polymers.SReal Polymers.Lemmas Polymers.wlc.thermodynamics

set_option maxHeartbeats 2000000

theorem mem_range_one_three {j : ℕ} (h : j ∈ List.range' 1 3) : j = 1 ∨ j = 2 ∨ j = 3 := by
  rw [List.mem_range'_1] at h; omega
theorem mem_range_zero_two {j : ℕ} (h : j ∈ List.range' 0 2) : j = 0 ∨ j = 1 := by
  rw [List.mem_range'_1] at h; omega

/-- The coefficients of the isometric relations. -/
theorem is_wlc_coef {i j : ℕ} (hi : i ∈ List.range' 0 2) (hj : j ∈ List.range' 1 3) :
    Is (List.getD (List.getD [[(-0.75), 0.359375, (-0.109375)], [(-0.5), 1.0625, (-0.5625)]] i []) (j - 1) Elem.panic)
      (List.getD (List.getD [[(-0.75), 0.359375, (-0.109375)], [(-0.5), 1.0625, (-0.5625)]] i []) (j - 1) Elem.panic) := by
  rcases mem_range_zero_two hi with rfl | rfl <;> rcases mem_range_one_three hj with rfl | rfl | rfl <;>
    first | exact Is.lit _ _ _ | exact (Is.lit _ _ _).neg

/-- The coefficients in the form the code has them. -/
theorem wlcC_code (ϖ : ℝ) :
    1.0 - Elem.powf (1.0 + Elem.powi (0.38 / Elem.powf ϖ 0.95) (-5)) (-0.2) = wlcC ϖ := by
  simp only [wlcC, model_real]

theorem wlcD_code (ϖ : ℝ) :
    (if Elem.lt ϖ 0.125 = true then 1.0 else 1.0 - 1.0 / (0.177 / (ϖ - 0.111) + 6.40 * Elem.powf (ϖ - 0.111) 0.783)) = wlcD ϖ := by
  simp only [wlcD, model_real]

theorem wlcE_code (ϖ : ℝ) :
    (if Elem.lt ϖ 0.125 = true then Elem.powf (0.75 / (Elem.pi : ℝ) / ϖ) 1.5 * (1.0 - 1.25 * ϖ)
      else 112.04 * Elem.powi ϖ 2 * Elem.exp (0.246 / ϖ - 14.054 * ϖ)) = wlcE ϖ := by
  simp only [wlcE, model_real]

theorem is_wlcC {ϖ' : SReal} {ϖ : ℝ} (eϖ : Is ϖ' ϖ) (hϖ : 0 < ϖ) :
    Is (1.0 - Elem.powf (1.0 + Elem.powi (0.38 / Elem.powf ϖ' 0.95) (-5)) (-0.2)) (wlcC ϖ) := by
  rw [← wlcC_code]; defined

theorem is_wlcD {ϖ' : SReal} {ϖ : ℝ} (eϖ : Is ϖ' ϖ) (hϖ : 0 < ϖ) :
    Is (if Elem.lt ϖ' 0.125 = true then 1.0 else 1.0 - 1.0 / (0.177 / (ϖ' - 0.111) + 6.40 * Elem.powf (ϖ' - 0.111) 0.783))
      (wlcD ϖ) := by
  rw [← wlcD_code]
  refine .ite_lt eϖ (.lit _ _ _) (fun _ => .lit _ _ _) fun h => ?_
  have : 0 < ϖ - 0.111 := by norm_num at *; linarith
  defined

theorem is_wlcE {ϖ' : SReal} {ϖ : ℝ} (eϖ : Is ϖ' ϖ) (hϖ : 0 < ϖ) :
    Is (if Elem.lt ϖ' 0.125 = true then Elem.powf (0.75 / (Elem.pi : SReal) / ϖ') 1.5 * (1.0 - 1.25 * ϖ')
      else 112.04 * Elem.powi ϖ' 2 * Elem.exp (0.246 / ϖ' - 14.054 * ϖ')) (wlcE ϖ) := by
  rw [← wlcE_code]
  refine .ite_lt eϖ (.lit _ _ _) (fun _ => ?_) fun _ => ?_ <;> defined

theorem wlc_one_sub {γ : ℝ} (h0 : 0 < γ) (h1 : γ < 1) : 0 < 1.0 - Elem.powi γ 2 := by
  simp only [model_real]; norm_cast; nlinarith

theorem wlc_one_sub_c {ϖ γ : ℝ} (hϖ : 0 < ϖ) (h0 : 0 < γ) (h1 : γ < 1) : 0 < 1.0 - wlcC ϖ * Elem.powi γ 2 := by
  have := wlcC_lt_one hϖ
  simp only [model_real]; norm_cast; nlinarith [mul_pos h0 h0, mul_lt_mul_of_pos_right this (mul_pos h0 h0)]

theorem wlc_h_code {γ : ℝ} (h0 : 0 < γ) (h1 : γ < 1) : 0 < 1.0 - Elem.powi 0.473 2 * Elem.powi γ 2 := by
  have := wlc_h_pos h0.le h1
  simp only [model_real]; assumption

theorem wlc_bessel_pos {ϖ γ : ℝ} (hϖ : 0 < ϖ) (h0 : 0 < γ) (h1 : γ < 1) :
    0 < math.bessel_i 0 ((-wlcD ϖ) * ϖ * 14.054 * (1.0 + 0.473) * (γ / (1.0 - Elem.powi 0.473 2 * Elem.powi γ 2))) := by
  have h := wlcArg_nonpos hϖ h0.le h1
  have e : ((-wlcD ϖ) * ϖ * 14.054 * (1.0 + 0.473) * (γ / (1.0 - Elem.powi 0.473 2 * Elem.powi γ 2))) = wlcArg ϖ γ := by
    simp only [wlcArg, model_real]
  rw [e]
  linarith [one_le_bessel_i0 (x := wlcArg ϖ γ) (by linarith)]

theorem wlc_hinge_code {ϖ : ℝ} (hϖ : 0 < ϖ) : 0 < Elem.sin (Elem.acos (Elem.exp ((-1.0) / ϖ))) := by
  have : Real.exp (-1 / ϖ) < 1 := by rw [Real.exp_lt_one_iff]; exact div_neg_of_neg_of_pos (by norm_num) hϖ
  have h0 := Real.exp_pos (-1 / ϖ)
  simp only [model_real]
  rw [Real.sin_arccos]
  exact Real.sqrt_pos.2 (by nlinarith)

theorem wlc_acos_code {ϖ : ℝ} (hϖ : 0 < ϖ) : -1 ≤ Elem.exp ((-1.0) / ϖ) ∧ Elem.exp ((-1.0) / ϖ) ≤ 1 := by
  have : Real.exp (-1 / ϖ) < 1 := by rw [Real.exp_lt_one_iff]; exact div_neg_of_neg_of_pos (by norm_num) hϖ
  have h0 := Real.exp_pos (-1 / ϖ)
  simp only [model_real]
  exact ⟨by linarith, this.le⟩

theorem is_wlc_force {N : ℕ} {ϖ' γ' : SReal} {ϖ γ : ℝ} (eϖ : Is ϖ' ϖ) (eγ : Is γ' γ) (hN : (0 : ℝ) < N) (hϖ : 0 < ϖ) (h0 : 0 < γ) (h1 : γ < 1) :
    Is (isometric.nondimensional_force N ϖ' γ') (isometric.nondimensional_force N ϖ γ) := by
  have k1 := wlc_one_sub h0 h1
  have k2 := wlc_one_sub_c hϖ h0 h1
  have k3 := wlc_h_code h0 h1
  have k4 := wlc_bessel_pos hϖ h0 h1
  simp only [isometric.nondimensional_force]
  rw [wlcC_code, wlcD_code]
  defined [is_wlcC eϖ hϖ, is_wlcD eϖ hϖ, is_bessel ?_, Is.fsum_map fun i hi => Is.fsum_map fun j hj => ?_, is_wlc_coef (by assumption) (by assumption)]

theorem is_wlc_helmholtz {N : ℕ} {ℓ' m' ϖ' γ' T' : SReal} {ℓ m ϖ γ T : ℝ} (eℓ : Is ℓ' ℓ) (em : Is m' m) (eϖ : Is ϖ' ϖ) (eγ : Is γ' γ) (eT : Is T' T) (hℓ : 0 < ℓ)
    (hm : 0 < m) (hϖ : 0 < ϖ) (h0 : 0 < γ) (h1 : γ < 1) (hT : 0 < T) :
    Is (isometric.nondimensional_helmholtz_free_energy N ℓ' m' ϖ' γ' T') (isometric.nondimensional_helmholtz_free_energy N ℓ m ϖ γ T) := by
  have k1 := wlc_one_sub h0 h1
  have k2 := wlc_one_sub_c hϖ h0 h1
  have k3 := wlc_h_code h0 h1
  have k4 := wlc_bessel_pos hϖ h0 h1
  have k5 := wlcE_pos hϖ
  have k6 := wlc_hinge_code hϖ
  simp only [isometric.nondimensional_helmholtz_free_energy]
  rw [wlcC_code, wlcD_code, wlcE_code]
  defined [is_wlcC eϖ hϖ, is_wlcD eϖ hϖ, is_wlcE eϖ hϖ, (wlc_acos_code hϖ), is_bessel ?_, Is.fsum_map fun i hi => Is.fsum_map fun j hj => ?_, is_wlc_coef (by assumption) (by assumption)]

theorem is_wlc_density {ϖ' c' γ' : SReal} {ϖ c γ : ℝ} (eϖ : Is ϖ' ϖ) (ec : Is c' c) (eγ : Is γ' γ) (hϖ : 0 < ϖ) (hc : 0 < c) (h0 : 0 < γ) (h1 : γ < 1) :
    Is (isometric.nondimensional_equilibrium_distribution ϖ' c' γ') (isometric.nondimensional_equilibrium_distribution ϖ c γ) := by
  have k1 := wlc_one_sub h0 h1
  have k2 := wlc_one_sub_c hϖ h0 h1
  have k3 := wlc_h_code h0 h1
  simp only [isometric.nondimensional_equilibrium_distribution]
  rw [wlcC_code, wlcD_code, wlcE_code]
  defined [is_wlcC eϖ hϖ, is_wlcD eϖ hϖ, is_wlcE eϖ hϖ, (wlc_acos_code hϖ), is_bessel ?_, Is.fsum_map fun i hi => Is.fsum_map fun j hj => ?_, is_wlc_coef (by assumption) (by assumption)]

theorem is_wlc_normalization {ϖ' : SReal} {ϖ : ℝ} (eϖ : Is ϖ' ϖ) (hϖ : 0 < ϖ) :
    Is (math.integrate_1d (fun γ => isometric.nondimensional_equilibrium_radial_distribution ϖ' 1.0 γ) (ZERO : SReal) ONE POINTS)
      (math.integrate_1d (fun γ => isometric.nondimensional_equilibrium_radial_distribution ϖ 1.0 γ) (ZERO : ℝ) ONE POINTS) := by
  refine Is.integrate_Ioo rfl ?_ ?_ (by norm_num [POINTS]) zero_lt_one_grid fun t h0 h1 => ?_
  · defined
  · defined
  · have ht0 : 0 < t := zero_pos'.trans h0
    have ht1 : t < 1 := h1.trans_eq one_eq'
    simp only [isometric.nondimensional_equilibrium_radial_distribution]
    defined [is_wlc_density ?_ ?_ ?_ hϖ ?_ ht0 ht1]

/-- C46: every method of the family is defined strictly between zero and full extension. -/
theorem C46_wlc_isometric_helmholtz {N : ℕ} (hN : 0 < N) {ℓ m p : ℝ} (hℓ : 0 < ℓ) (hm : 0 < m) (hp : 0 < p) :
    (ApiS.wlc_isometric_helmholtz N ℓ m p).DefinedAs (Api.wlc_isometric_helmholtz N ℓ m p) (fun ξ _ => ξ / (N * ℓ))
      (fun y _ => 0 < y ∧ y < 1) := by
  have hN' : (0 : ℝ) < N := Nat.cast_pos.2 (by omega)
  constructor <;> intro x T hT hD <;> refine (?_ : Is _ _)
  all_goals
    have hϖ : 0 < p / (N * ℓ) := by positivity
    have hϖ' : 0 < p / N / ℓ := by positivity
  all_goals defined [is_wlc_helmholtz ?_ ?_ ?_ ?_ ?_ ?_ ?_ ?_ (by first | exact hD.1 | exact zero_pos') (by first | exact hD.2 | exact zero_lt_one_grid.trans_eq one_eq') ?_]

example : (ApiS.wlc_isometric_helmholtz 8 1 1 2).DefinedAs (Api.wlc_isometric_helmholtz 8 1 1 2) (fun ξ _ => ξ / ((8 : ℕ) * 1))
    (fun y _ => 0 < y ∧ y < 1) :=
  C46_wlc_isometric_helmholtz (N := 8) (m := 1) (by norm_num) (by norm_num) (by norm_num) (by norm_num)

/-- C46: every method of the family is defined strictly between zero and full extension. -/
theorem C46_wlc_isometric_forces {N : ℕ} (hN : 0 < N) {ℓ m p : ℝ} (hℓ : 0 < ℓ) (hp : 0 < p) :
    (ApiS.wlc_isometric_forces N ℓ m p).DefinedAs (Api.wlc_isometric_forces N ℓ m p) (fun ξ _ => ξ / (N * ℓ))
      (fun y _ => 0 < y ∧ y < 1) := by
  have hN' : (0 : ℝ) < N := Nat.cast_pos.2 (by omega)
  constructor <;> intro x T hT hD <;> refine (?_ : Is _ _)
  all_goals
    have hϖ : 0 < p / (N * ℓ) := by positivity
    have hϖ' : 0 < p / N / ℓ := by positivity
  all_goals defined [is_wlc_force ?_ ?_ ?_ ?_ hD.1 hD.2]

example : (ApiS.wlc_isometric_forces 8 1 1 2).DefinedAs (Api.wlc_isometric_forces 8 1 1 2) (fun ξ _ => ξ / ((8 : ℕ) * 1))
    (fun y _ => 0 < y ∧ y < 1) :=
  C46_wlc_isometric_forces (N := 8) (m := 1) (by norm_num) (by norm_num) (by norm_num)

/-- C46: every method of the family is defined strictly between zero and full extension. -/
theorem C46_wlc_isometric_legendre_gibbs {N : ℕ} (hN : 0 < N) {ℓ m p : ℝ} (hℓ : 0 < ℓ) (hm : 0 < m) (hp : 0 < p) :
    (ApiS.wlc_isometric_legendre_gibbs N ℓ m p).DefinedAs (Api.wlc_isometric_legendre_gibbs N ℓ m p) (fun ξ _ => ξ / (N * ℓ))
      (fun y _ => 0 < y ∧ y < 1) := by
  have hN' : (0 : ℝ) < N := Nat.cast_pos.2 (by omega)
  constructor <;> intro x T hT hD <;> refine (?_ : Is _ _)
  all_goals
    have hϖ : 0 < p / (N * ℓ) := by positivity
    have hϖ' : 0 < p / N / ℓ := by positivity
  all_goals defined [is_wlc_helmholtz ?_ ?_ ?_ ?_ ?_ ?_ ?_ ?_ (by first | exact hD.1 | exact zero_pos') (by first | exact hD.2 | exact zero_lt_one_grid.trans_eq one_eq') ?_, is_wlc_force ?_ ?_ ?_ ?_ (by first | exact hD.1 | exact zero_pos') (by first | exact hD.2 | exact zero_lt_one_grid.trans_eq one_eq')]

example : (ApiS.wlc_isometric_legendre_gibbs 8 1 1 2).DefinedAs (Api.wlc_isometric_legendre_gibbs 8 1 1 2) (fun ξ _ => ξ / ((8 : ℕ) * 1))
    (fun y _ => 0 < y ∧ y < 1) :=
  C46_wlc_isometric_legendre_gibbs (N := 8) (m := 1) (by norm_num) (by norm_num) (by norm_num) (by norm_num)

/-- C46: every method of the family is defined strictly between zero and full extension. -/
theorem C46_wlc_isometric_distribution {N : ℕ} (hN : 0 < N) {ℓ m p : ℝ} (hℓ : 0 < ℓ) (hp : 0 < p) :
    (ApiS.wlc_isometric_distribution N ℓ m p).DefinedAs (Api.wlc_isometric_distribution N ℓ m p) (fun ξ => ξ / (N * ℓ))
      (fun y => 0 < y ∧ y < 1) := by
  have hN' : (0 : ℝ) < N := Nat.cast_pos.2 (by omega)
  constructor <;> intro x hD <;> refine (?_ : Is _ _)
  all_goals
    have hϖ : 0 < p / (N * ℓ) := by positivity
    have hϖ' : 0 < p / N / ℓ := by positivity
  all_goals defined [is_wlc_density ?_ ?_ ?_ ?_ (wlc_normalization_pos hϖ') hD.1 hD.2, is_wlc_normalization ?_ ?_]

example : (ApiS.wlc_isometric_distribution 8 1 1 2).DefinedAs (Api.wlc_isometric_distribution 8 1 1 2) (fun ξ => ξ / ((8 : ℕ) * 1))
    (fun y => 0 < y ∧ y < 1) :=
  C46_wlc_isometric_distribution (N := 8) (m := 1) (by norm_num) (by norm_num) (by norm_num)

end Polymers.Props
