import Verif.Model.Wlc
import Verif.Lemmas.Bessel
import Verif.Lemmas.Gradient
import Mathlib.Analysis.SpecialFunctions.Pow.Real
import Mathlib.Analysis.SpecialFunctions.Log.Deriv

/-! The interpolated distribution of the worm-like chain at `ℝ`. -/

namespace Polymers.Lemmas

open Polymers.wlc.thermodynamics

/-- Coefficient in the contribution `(1 - c γ²)/(1 - γ²)`. -/
noncomputable def wlcC (ϖ : ℝ) : ℝ := 1 - (1 + (19 / 50 / ϖ ^ (19 / 20 : ℝ)) ^ (-5 : ℤ)) ^ (-(1 / 5) : ℝ)

/-- Coefficient in the argument of the Bessel function. -/
noncomputable def wlcD (ϖ : ℝ) : ℝ :=
  if ϖ < 1 / 8 then 1 else 1 - 1 / (177 / 1000 / (ϖ - 111 / 1000) + 32 / 5 * (ϖ - 111 / 1000) ^ (783 / 1000 : ℝ))

/-- Prefactor of the distribution. -/
noncomputable def wlcE (ϖ : ℝ) : ℝ :=
  if ϖ < 1 / 8 then (3 / 4 / Real.pi / ϖ) ^ (3 / 2 : ℝ) * (1 - 5 / 4 * ϖ)
  else 2801 / 25 * ϖ ^ 2 * Real.exp (123 / 500 / ϖ - 7027 / 500 * ϖ)

/-- Numerator of the rational exponent. -/
noncomputable def wlcSum (ϖ γ : ℝ) : ℝ :=
  ϖ⁻¹ * (-(3 / 4) * γ ^ 2 + 23 / 64 * γ ^ 4 - 7 / 64 * γ ^ 6) + (-(1 / 2) * γ ^ 2 + 17 / 16 * γ ^ 4 - 9 / 16 * γ ^ 6)

/-- Argument of the Bessel function. -/
noncomputable def wlcArg (ϖ γ : ℝ) : ℝ :=
  -wlcD ϖ * ϖ * (7027 / 500) * (1 + 473 / 1000) * (γ / (1 - (473 / 1000) ^ 2 * γ ^ 2))

/-- Minus the logarithm of the distribution, without normalisation. -/
noncomputable def wlcPsi (ϖ γ : ℝ) : ℝ :=
  -Real.log (wlcE ϖ) - 5 / 2 * Real.log ((1 - wlcC ϖ * γ ^ 2) / (1 - γ ^ 2)) - wlcSum ϖ γ / (1 - γ ^ 2) -
    wlcArg ϖ γ * (473 / 1000) * γ - Real.log (math.bessel_i 0 (wlcArg ϖ γ))

/-- The slope of `wlcPsi` with the slope of the Bessel routine replaced by `s`. -/
noncomputable def wlcSlope (ϖ γ s : ℝ) : ℝ :=
  -((5 * γ * (1 - wlcC ϖ / ((1 - wlcC ϖ * γ ^ 2) / (1 - γ ^ 2))) +
      (ϖ⁻¹ * (-(3 / 4) * γ ^ 2 + 2 * (23 / 64) * γ ^ 4 - 3 * (7 / 64) * γ ^ 6) +
        (-(1 / 2) * γ ^ 2 + 2 * (17 / 16) * γ ^ 4 - 3 * (9 / 16) * γ ^ 6)) * 2 / γ +
      2 * γ * wlcSum ϖ γ / (1 - γ ^ 2)) / (1 - γ ^ 2) +
    2 * (473 / 1000) * wlcArg ϖ γ * (1 + γ * (473 / 1000) ^ 2 * (γ / (1 - (473 / 1000) ^ 2 * γ ^ 2))) +
    wlcArg ϖ γ * s / math.bessel_i 0 (wlcArg ϖ γ) * (1 / γ + 2 * (473 / 1000) ^ 2 * (γ / (1 - (473 / 1000) ^ 2 * γ ^ 2))))

theorem wlc_helmholtz_eq (N : ℕ) (ℓ m ϖ γ T : ℝ) :
    isometric.nondimensional_helmholtz_free_energy N ℓ m ϖ γ T =
      wlcPsi ϖ γ - ((N : ℝ) - 1) * Real.log (4 * Real.sin (Real.arccos (Real.exp (-1 / ϖ))) * Real.pi ^ 2 * m * ℓ ^ 2 *
        BOLTZMANN_CONSTANT * T / PLANCK_CONSTANT ^ 2) := by
  simp only [isometric.nondimensional_helmholtz_free_energy, wlcPsi, wlcE, wlcC, wlcArg, wlcD, wlcSum, model_real,
    List.range', List.map_cons, List.map_nil, List.getD_cons_zero, List.getD_cons_succ, List.sum_cons, List.sum_nil,
    Nat.sub_self]
  congr 3
  · congr 1
    norm_num
    ring

theorem wlc_force_eq (N : ℕ) (ϖ γ : ℝ) :
    isometric.nondimensional_force N ϖ γ = wlcSlope ϖ γ (math.bessel_i 1 (wlcArg ϖ γ)) / N := by
  simp only [isometric.nondimensional_force, wlcSlope, wlcC, wlcArg, wlcD, wlcSum, model_real,
    List.range', List.map_cons, List.map_nil, List.getD_cons_zero, List.getD_cons_succ, List.sum_cons, List.sum_nil,
    Nat.sub_self]
  congr 2
  congr 1
  · congr 2
    · congr 1
      · congr 2
        · congr 1
          norm_num
          ring
      · congr 2
        norm_num
        ring

theorem wlcC_lt_one {ϖ : ℝ} (h : 0 < ϖ) : wlcC ϖ < 1 := by
  unfold wlcC
  have : 0 < (1 + (19 / 50 / ϖ ^ (19 / 20 : ℝ)) ^ (-5 : ℤ)) ^ (-(1 / 5) : ℝ) := by positivity
  linarith

theorem wlcD_nonneg {ϖ : ℝ} (h : 0 < ϖ) : 0 ≤ wlcD ϖ := by
  unfold wlcD
  split_ifs with h8
  · norm_num
  · have hu : 0 < ϖ - 111 / 1000 := by linarith
    generalize ϖ - 111 / 1000 = u at hu
    have h1 : 1 ≤ 177 / 1000 / u + 32 / 5 * u ^ (783 / 1000 : ℝ) := by
      rcases le_or_gt u (177 / 1000) with h2 | h2
      · have : 1 ≤ 177 / 1000 / u := by rwa [le_div_iff₀ hu, one_mul]
        have : 0 ≤ u ^ (783 / 1000 : ℝ) := by positivity
        linarith
      · have h3 : 0 < 177 / 1000 / u := by positivity
        have h4 : 177 / 1000 ≤ u ^ (783 / 1000 : ℝ) := by
          rcases le_or_gt u 1 with h5 | h5
          · have := Real.rpow_le_rpow_of_exponent_ge hu h5 (by norm_num : (783 / 1000 : ℝ) ≤ 1)
            rw [Real.rpow_one] at this
            linarith
          · have := Real.one_le_rpow h5.le (by norm_num : (0 : ℝ) ≤ 783 / 1000)
            linarith
        linarith
    have : 1 / (177 / 1000 / u + 32 / 5 * u ^ (783 / 1000 : ℝ)) ≤ 1 := by
      rw [div_le_one (by linarith)]; exact h1
    linarith

theorem wlcD_le_one {ϖ : ℝ} (h : 0 < ϖ) : wlcD ϖ ≤ 1 := by
  unfold wlcD
  split_ifs with h8
  · norm_num
  · have hu : 0 < ϖ - 111 / 1000 := by linarith
    have : 0 ≤ 1 / (177 / 1000 / (ϖ - 111 / 1000) + 32 / 5 * (ϖ - 111 / 1000) ^ (783 / 1000 : ℝ)) := by positivity
    linarith

theorem wlcE_pos {ϖ : ℝ} (h : 0 < ϖ) : 0 < wlcE ϖ := by
  unfold wlcE
  have := Real.pi_pos
  split_ifs with h8
  · have : 0 < 1 - 5 / 4 * ϖ := by linarith
    positivity
  · positivity

theorem wlc_h_pos {γ : ℝ} (h0 : 0 ≤ γ) (h1 : γ < 1) : 0 < 1 - (473 / 1000 : ℝ) ^ 2 * γ ^ 2 := by nlinarith

theorem wlcArg_nonpos {ϖ γ : ℝ} (h : 0 < ϖ) (h0 : 0 ≤ γ) (h1 : γ < 1) : wlcArg ϖ γ ≤ 0 := by
  have := wlcD_nonneg h
  have := wlc_h_pos h0 h1
  have : 0 ≤ wlcD ϖ * ϖ * (7027 / 500) * (1 + 473 / 1000) * (γ / (1 - (473 / 1000) ^ 2 * γ ^ 2)) := by positivity
  unfold wlcArg
  linarith

theorem hasDerivAt_wlcPsi {ϖ γ : ℝ} (h : 0 < ϖ) (h0 : 0 < γ) (h1 : γ < 1) :
    HasDerivAt (wlcPsi ϖ) (wlcSlope ϖ γ (besselSlope (wlcArg ϖ γ))) γ := by
  have hC := wlcC_lt_one h
  have hg : 0 < 1 - γ ^ 2 := by nlinarith
  have hf : 0 < 1 - wlcC ϖ * γ ^ 2 := by nlinarith [sq_nonneg γ]
  have hb := wlc_h_pos h0.le h1
  have harg := wlcArg_nonpos h h0.le h1
  have hI := one_le_bessel_i0 (show wlcArg ϖ γ < 31 / 4 by linarith)
  have d2 := hasDerivAt_pow 2 γ
  have dnum := (d2.const_mul (wlcC ϖ)).const_sub 1
  have dden := d2.const_sub 1
  have dlog := ((dnum.div dden hg.ne').log (div_pos hf hg).ne').const_mul (5 / 2)
  have dsum : HasDerivAt (wlcSum ϖ) (ϖ⁻¹ * (-(3 / 4) * (2 * γ) + 23 / 64 * (4 * γ ^ 3) - 7 / 64 * (6 * γ ^ 5)) +
      (-(1 / 2) * (2 * γ) + 17 / 16 * (4 * γ ^ 3) - 9 / 16 * (6 * γ ^ 5))) γ := by
    have d4 := hasDerivAt_pow 4 γ
    have d6 := hasDerivAt_pow 6 γ
    refine hasDerivAt_of_eq ((((d2.const_mul (-(3 / 4))).add (d4.const_mul (23 / 64))).sub
      (d6.const_mul (7 / 64))).const_mul ϖ⁻¹ |>.add (((d2.const_mul (-(1 / 2))).add (d4.const_mul (17 / 16))).sub
      (d6.const_mul (9 / 16)))) (fun y => rfl) ?_
    norm_num
  have dh := (hasDerivAt_id γ).div ((d2.const_mul ((473 / 1000 : ℝ) ^ 2)).const_sub 1) hb.ne'
  have darg : HasDerivAt (wlcArg ϖ) (wlcArg ϖ γ * (1 / γ + 2 * (473 / 1000) ^ 2 * (γ / (1 - (473 / 1000) ^ 2 * γ ^ 2)))) γ := by
    refine hasDerivAt_of_eq (dh.const_mul (-wlcD ϖ * ϖ * (7027 / 500) * (1 + 473 / 1000))) (fun y => rfl) ?_
    unfold wlcArg
    simp only [id, Nat.cast_ofNat, show 2 - 1 = 1 from rfl, pow_one]
    clear dh
    have := h0.ne'
    have hb' := hb.ne'
    clear hb
    generalize (473 / 1000 : ℝ) = b at hb' ⊢
    field_simp
    ring
  have dbes := (HasDerivAt.comp γ (hasDerivAt_bessel_i0 (show wlcArg ϖ γ < 31 / 4 by linarith)) darg).log
    (by simp only [Function.comp]; linarith)
  have H := ((((hasDerivAt_const γ (-Real.log (wlcE ϖ))).sub dlog).sub (dsum.div dden hg.ne')).sub
    ((darg.mul_const (473 / 1000)).mul (hasDerivAt_id γ))).sub dbes
  refine hasDerivAt_of_eq H (fun y => rfl) ?_
  unfold wlcSlope
  simp only [id, Function.comp, Pi.div_apply]
  have hI' : math.bessel_i 0 (wlcArg ϖ γ) ≠ 0 := by linarith
  generalize math.bessel_i 0 (wlcArg ϖ γ) = I at *
  generalize besselSlope (wlcArg ϖ γ) = s at *
  generalize wlcArg ϖ γ = A at *
  unfold wlcSum
  have := hf.ne'
  have := hg.ne'
  have := hb.ne'
  have := h0.ne'
  field_simp
  ring

end Polymers.Lemmas
