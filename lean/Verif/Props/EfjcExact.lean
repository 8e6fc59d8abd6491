import Verif.Props.ErrorFunction
import Verif.Props.Efjc
import Verif.Props.ScalingEfjc
import Verif.Lemmas.ApiCore
import Verif.Spec.Api

/-! C24: the isotensional extensible chain without asymptotic approximation.  The extension the code returns is not minus
the derivative of its Gibbs energy: it grows without bound as the force tends to zero, while the energy has a limit. -/

namespace Polymers.Props

open Polymers.Spec Polymers.Api Polymers.Lemmas Real Filter Topology Set

/-- Away from the ends of the arms, the computed error function has a derivative close to the true one. -/
theorem erf_hasDerivAt {b : ℝ} (h0 : 0 < b) (h1 : b < 6.1) (hgrid : ∀ i : ℕ, 400 / (4 + b) ≠ i) :
    ∃ d, HasDerivAt math.erf d b ∧ HasDerivAt math.erf d (-b) ∧ |d - 2 / √π * exp (-b ^ 2)| ≤ 4e-13 * exp (-b ^ 2) := by
  set z := 400 / (4 + b) with hz
  have hz1 : z < 100 := by rw [hz, div_lt_iff₀ (by linarith)]; linarith
  have hz7 : 7 ≤ z := by rw [hz, le_div_iff₀ (by linarith)]; linarith
  obtain ⟨i, hi⟩ : ∃ i, i = ⌊z⌋₊ := ⟨_, rfl⟩
  have hi0 : (i : ℝ) < z := lt_of_le_of_ne (by rw [hi]; exact Nat.floor_le (by linarith)) (hgrid i).symm
  have hi1 : z < i + 1 := by rw [hi]; exact Nat.lt_floor_add_one z
  have hi7 : 7 ≤ i := by rw [hi]; exact Nat.le_floor (by exact_mod_cast hz7)
  have hi100 : i < 100 := by rw [hi]; exact (Nat.floor_lt (by linarith)).2 (by exact_mod_cast hz1)
  obtain ⟨d, hd, hb⟩ := armErf_deriv hi100 hi7 h0.le hi0.le hi1.le
  have hd' : HasDerivAt (armErf i) (d + 2 / √π * exp (-b ^ 2)) b := by
    have := hd.add (hasDerivAt_errorFunction b)
    refine this.congr_of_eventuallyEq (Eventually.of_forall fun x => ?_)
    simp
  have hcont : ContinuousAt (fun x : ℝ => 400 / (4 + x)) b :=
    continuousAt_const.div (continuousAt_const.add continuousAt_id) (by simp; linarith)
  have hev : math.erf =ᶠ[𝓝 b] armErf i := by
    filter_upwards [hcont.eventually (lt_mem_nhds hi0), hcont.eventually (gt_mem_nhds hi1), lt_mem_nhds h0,
      gt_mem_nhds h1] with x a1 a2 a3 a4
    rw [erf_eq (erfcx_table_range a3.le (by linarith)), erfcx_helper_eq hi100 ((Nat.floor_eq_iff (by positivity)).2 ⟨a1.le, a2⟩)]
    rfl
  have hE := hd'.congr_of_eventuallyEq hev
  refine ⟨_, hE, ?_, by simpa using hb⟩
  have hneg : HasDerivAt (fun x => -math.erf (-x)) (d + 2 / √π * exp (-b ^ 2)) (-b) := by
    have h2 : HasDerivAt math.erf (d + 2 / √π * exp (-b ^ 2)) (-(-b)) := by rwa [neg_neg]
    refine (HasDerivAt.comp (h₂ := math.erf) (-b) h2 (hasDerivAt_neg (-b))).neg.congr_deriv ?_
    ring
  refine hneg.congr_of_eventuallyEq ?_
  filter_upwards [lt_mem_nhds (show -6.1 < -b by linarith), gt_mem_nhds (show -b < 0 by linarith)] with x a1 a2
  have := C10_erf_odd (x := -x) (by rw [abs_of_nonneg (by linarith)]; linarith)
  rw [neg_neg] at this
  exact this

/-- The number `N(η) = (η/κ + 1) e^η erf(..) - (η/κ - 1) e^(-η) erf(..)` of the code. -/
noncomputable def efjcNum (κ η : ℝ) : ℝ :=
  (η / κ + 1) * exp η * math.erf ((η + κ) / √(2 * κ)) - (η / κ - 1) / exp η * math.erf ((η - κ) / √(2 * κ))

/-- The denominator of the code. -/
noncomputable def efjcDen (κ η : ℝ) : ℝ := 4 * sinh η * (1 + η / tanh η / κ)

theorem efjcDen_eq (κ η : ℝ) : efjcDen κ η = 4 * sinh η + 4 * (η * cosh η) / κ := by
  unfold efjcDen
  rcases eq_or_ne η 0 with rfl | h
  · simp
  · have hs : sinh η ≠ 0 := by simpa using h
    rw [tanh_eq_sinh_div_cosh]
    field_simp

theorem hasDerivAt_efjcDen (κ : ℝ) : HasDerivAt (efjcDen κ) (4 * (1 + 1 / κ)) 0 := by
  have h : HasDerivAt (fun η : ℝ => 4 * sinh η + 4 * (η * cosh η) / κ) (4 * (1 + 1 / κ)) 0 := by
    have := ((hasDerivAt_sinh 0).const_mul 4).add
      ((((hasDerivAt_id (0 : ℝ)).mul (hasDerivAt_cosh 0)).const_mul 4).div_const κ)
    refine this.congr_deriv ?_
    simp; ring
  exact h.congr_of_eventuallyEq (Eventually.of_forall fun η => efjcDen_eq κ η)

theorem half_sqrt {κ : ℝ} (hκ : 0 < κ) : κ / √(2 * κ) = √(κ / 2) := by
  have h2 : 0 < √(2 * κ) := sqrt_pos.2 (by linarith)
  rw [div_eq_iff h2.ne', ← sqrt_mul (by positivity)]
  rw [show κ / 2 * (2 * κ) = κ ^ 2 by ring, sqrt_sq hκ.le]

variable {κ : ℝ}

/-- `N` vanishes at zero and its derivative there. -/
theorem hasDerivAt_efjcNum {d : ℝ} (hκ : 0 < κ) (hb : √(κ / 2) < 6.1) (hd : HasDerivAt math.erf d √(κ / 2))
    (hd' : HasDerivAt math.erf d (-√(κ / 2))) :
    efjcNum κ 0 = 0 ∧ HasDerivAt (efjcNum κ) (2 * ((1 / κ + 1) * math.erf √(κ / 2) + d / √(2 * κ))) 0 := by
  have hs : 0 < √(2 * κ) := sqrt_pos.2 (by linarith)
  have hodd : math.erf (-√(κ / 2)) = -math.erf √(κ / 2) :=
    C10_erf_odd (by rw [abs_of_nonneg (sqrt_nonneg _)]; exact hb.le)
  have e1 : (0 + κ) / √(2 * κ) = √(κ / 2) := by rw [zero_add, half_sqrt hκ]
  have e2 : (0 - κ) / √(2 * κ) = -√(κ / 2) := by rw [zero_sub, neg_div, half_sqrt hκ]
  constructor
  · unfold efjcNum
    rw [e1, e2, hodd]; simp
  have ha : HasDerivAt (fun η : ℝ => math.erf ((η + κ) / √(2 * κ))) (d * (1 / √(2 * κ))) 0 := by
    have h1 : HasDerivAt (fun η : ℝ => (η + κ) / √(2 * κ)) (1 / √(2 * κ)) 0 := ((hasDerivAt_id 0).add_const κ).div_const _
    refine HasDerivAt.comp (h₂ := math.erf) 0 ?_ h1
    rwa [e1]
  have hb' : HasDerivAt (fun η : ℝ => math.erf ((η - κ) / √(2 * κ))) (d * (1 / √(2 * κ))) 0 := by
    have h1 : HasDerivAt (fun η : ℝ => (η - κ) / √(2 * κ)) (1 / √(2 * κ)) 0 := ((hasDerivAt_id 0).sub_const κ).div_const _
    refine HasDerivAt.comp (h₂ := math.erf) 0 ?_ h1
    rwa [e2]
  have hA : HasDerivAt (fun η : ℝ => (η / κ + 1) * exp η) (1 / κ + 1) 0 := by
    refine ((((hasDerivAt_id (0 : ℝ)).div_const κ).add_const 1).mul (hasDerivAt_exp 0)).congr_deriv ?_
    simp
  have hB : HasDerivAt (fun η : ℝ => (η / κ - 1) / exp η) (1 / κ + 1) 0 := by
    refine ((((hasDerivAt_id (0 : ℝ)).div_const κ).sub_const 1).div (hasDerivAt_exp 0) (exp_pos 0).ne').congr_deriv ?_
    simp
  refine ((hA.mul ha).sub (hB.mul hb')).congr_deriv ?_
  rw [e1, e2, hodd]
  simp
  ring

/-- The fraction `N / D` has a limit at zero. -/
theorem tendsto_efjcFraction {d : ℝ} (hκ : 0 < κ) (hb : √(κ / 2) < 6.1) (hd : HasDerivAt math.erf d √(κ / 2))
    (hd' : HasDerivAt math.erf d (-√(κ / 2))) :
    Tendsto (fun η => efjcNum κ η / efjcDen κ η) (𝓝[>] 0)
      (𝓝 (2 * ((1 / κ + 1) * math.erf √(κ / 2) + d / √(2 * κ)) / (4 * (1 + 1 / κ)))) := by
  obtain ⟨n0, hn⟩ := hasDerivAt_efjcNum hκ hb hd hd'
  have d0 : efjcDen κ 0 = 0 := by simp [efjcDen]
  have h1 := (hasDerivAt_iff_tendsto_slope_zero.1 hn).mono_left (nhdsGT_le_nhdsNE 0)
  have h2 := (hasDerivAt_iff_tendsto_slope_zero.1 (hasDerivAt_efjcDen κ)).mono_left (nhdsGT_le_nhdsNE 0)
  simp only [zero_add, n0, d0, sub_zero, smul_eq_mul] at h1 h2
  refine (h1.div h2 (by positivity)).congr' ?_
  filter_upwards [self_mem_nhdsWithin] with η hη
  exact mul_div_mul_left _ _ (inv_ne_zero (mem_Ioi.1 hη).ne')

theorem tendsto_sinh_div : Tendsto (fun η : ℝ => η / sinh η) (𝓝[>] 0) (𝓝 1) := by
  have h := (hasDerivAt_iff_tendsto_slope_zero.1 (hasDerivAt_sinh 0)).mono_left (nhdsGT_le_nhdsNE 0)
  simp only [zero_add, sinh_zero, sub_zero, smul_eq_mul, cosh_zero] at h
  have := h.inv₀ one_ne_zero
  rw [inv_one] at this
  refine this.congr fun η => ?_
  rw [mul_inv, inv_inv]; rfl

theorem tendsto_div_tanh : Tendsto (fun η : ℝ => η / tanh η) (𝓝[>] 0) (𝓝 1) := by
  have h := tendsto_sinh_div.mul ((continuous_cosh.tendsto 0).mono_left nhdsWithin_le_nhds)
  rw [cosh_zero, mul_one] at h
  refine h.congr fun η => ?_
  rw [tanh_eq_sinh_div_cosh, div_div_eq_mul_div, div_mul_eq_mul_div]

/-- The last numerator of the extension, for a given value of the fraction. -/
noncomputable def efjcTop (κ η f : ℝ) : ℝ :=
  exp η * (√(2 / π / κ) * (η / κ + 1) * exp (-(η + κ) ^ 2 / 2 / κ) + (1 + (1 + η) / κ)) -
    1 / exp η * (√(2 / π / κ) * (η / κ - 1) * exp (-(η - κ) ^ 2 / 2 / κ) + (1 + (1 - η) / κ) * math.erf ((η - κ) / √(2 * κ))) -
    f * (4 * (cosh η * (1 + (1 + η / tanh η) / κ) - η / κ / sinh η))

theorem tendsto_efjcTop {f : ℝ → ℝ} {f0 d : ℝ} (hκ : 0 < κ) (hb : √(κ / 2) < 6.1) (hd' : HasDerivAt math.erf d (-√(κ / 2)))
    (hf : Tendsto f (𝓝[>] 0) (𝓝 f0)) :
    Tendsto (fun η => efjcTop κ η (f η)) (𝓝[>] 0)
      (𝓝 (2 * (√(2 / π / κ) * exp (-(κ / 2))) + (1 + 1 / κ) * (1 + math.erf √(κ / 2)) - f0 * (4 * (1 + 1 / κ)))) := by
  have hid : Tendsto (fun η : ℝ => η) (𝓝[>] 0) (𝓝 0) := tendsto_id.mono_left nhdsWithin_le_nhds
  have hexp : Tendsto (fun η : ℝ => exp η) (𝓝[>] 0) (𝓝 1) := by
    simpa using (continuous_exp.tendsto 0).mono_left (nhdsWithin_le_nhds (s := Ioi (0:ℝ)))
  have hcosh : Tendsto (fun η : ℝ => cosh η) (𝓝[>] 0) (𝓝 1) := by
    simpa using (continuous_cosh.tendsto 0).mono_left (nhdsWithin_le_nhds (s := Ioi (0:ℝ)))
  have e2 : (0 - κ) / √(2 * κ) = -√(κ / 2) := by rw [zero_sub, neg_div, half_sqrt hκ]
  have hodd : math.erf (-√(κ / 2)) = -math.erf √(κ / 2) :=
    C10_erf_odd (by rw [abs_of_nonneg (sqrt_nonneg _)]; exact hb.le)
  have herf : Tendsto (fun η : ℝ => math.erf ((η - κ) / √(2 * κ))) (𝓝[>] 0) (𝓝 (-math.erf √(κ / 2))) := by
    rw [← hodd]
    refine hd'.continuousAt.tendsto.comp ?_
    rw [← e2]
    exact (hid.sub_const κ).div_const _
  have hg1 : Tendsto (fun η : ℝ => exp (-(η + κ) ^ 2 / 2 / κ)) (𝓝[>] 0) (𝓝 (exp (-(0 + κ) ^ 2 / 2 / κ))) :=
    (continuous_exp.tendsto _).comp ((((hid.add_const κ).pow 2).neg.div_const 2).div_const κ)
  have hg2 : Tendsto (fun η : ℝ => exp (-(η - κ) ^ 2 / 2 / κ)) (𝓝[>] 0) (𝓝 (exp (-(0 - κ) ^ 2 / 2 / κ))) :=
    (continuous_exp.tendsto _).comp ((((hid.sub_const κ).pow 2).neg.div_const 2).div_const κ)
  have hsk : Tendsto (fun η : ℝ => η / κ / sinh η) (𝓝[>] 0) (𝓝 (1 / κ)) :=
    (tendsto_sinh_div.div_const κ).congr fun η => by rw [div_div, div_div, mul_comm]
  have key := ((hexp.mul ((((hid.div_const κ).add_const 1).const_mul (√(2 / π / κ))).mul hg1 |>.add
      (((hid.const_add 1).div_const κ).const_add 1))).sub
    (((tendsto_const_nhds (x := (1 : ℝ))).div hexp one_ne_zero).mul ((((hid.div_const κ).sub_const 1).const_mul (√(2 / π / κ))).mul hg2 |>.add
      ((((hid.const_sub 1).div_const κ).const_add 1).mul herf)))).sub
    (hf.mul (((hcosh.mul (((tendsto_div_tanh.const_add 1).div_const κ).const_add 1)).sub hsk).const_mul 4))
  have e3 : -(0 + κ) ^ 2 / 2 / κ = -(κ / 2) := by field_simp; ring
  have e4 : -(0 - κ) ^ 2 / 2 / κ = -(κ / 2) := by field_simp; ring
  rw [e3, e4] at key
  convert key using 2
  · rfl
  · ring

/-- The limit of the last numerator is positive: the error-function factor the code omits does not vanish. -/
theorem efjcTop_limit_pos {d : ℝ} (hκ : 0 < κ) (hb : √(κ / 2) < 6.1)
    (hd : |d - 2 / √π * exp (-√(κ / 2) ^ 2)| ≤ 4e-13 * exp (-√(κ / 2) ^ 2)) :
    0 < 2 * (√(2 / π / κ) * exp (-(κ / 2))) + (1 + 1 / κ) * (1 + math.erf √(κ / 2)) -
      2 * ((1 / κ + 1) * math.erf √(κ / 2) + d / √(2 * κ)) / (4 * (1 + 1 / κ)) * (4 * (1 + 1 / κ)) := by
  have hs : 0 < √(2 * κ) := sqrt_pos.2 (by linarith)
  have hpi : 0 < √π := sqrt_pos.2 pi_pos
  have hq : 0 < 1 + 1 / κ := by positivity
  rw [div_mul_cancel₀ _ (by positivity)]
  have hb0 : 0 < √(κ / 2) := sqrt_pos.2 (by linarith)
  have hsq : √(κ / 2) ^ 2 = κ / 2 := sq_sqrt (by linarith)
  have hG : √(2 / π / κ) = 2 / √π / √(2 * κ) := by
    rw [sqrt_eq_iff_mul_self_eq (by positivity) (by positivity)]
    have h1 := mul_self_sqrt pi_pos.le
    have h2 := mul_self_sqrt (show 0 ≤ 2 * κ by linarith)
    rw [div_mul_div_comm, div_mul_div_comm, h1, h2]
    field_simp
  have hE : 1 - math.erf √(κ / 2) = exp (-(κ / 2)) * math.erfcx √(κ / 2) := by
    rw [erf_eq rfl, hsq]; ring
  -- the scaled complement is not small
  have hp : 0.08 < math.erfcx √(κ / 2) := by
    rw [erfcx_table_range hb0.le (by linarith)]
    have hz1 : 400 / (4 + √(κ / 2)) < 100 := by rw [div_lt_iff₀ (by linarith)]; linarith
    have hz7 : 39 ≤ 400 / (4 + √(κ / 2)) := by rw [le_div_iff₀ (by linarith)]; linarith
    generalize 400 / (4 + √(κ / 2)) = z at *
    have h39 : 39 ≤ ⌊z⌋₊ := Nat.le_floor (by exact_mod_cast hz7)
    have h100 : ⌊z⌋₊ < 100 := (Nat.floor_lt (by linarith)).2 (by exact_mod_cast hz1)
    rw [erfcx_helper_eq h100 rfl]
    have := armAt_lower (by norm_num) (arm_lower _ h100 h39) (Nat.floor_le (by linarith)) (Nat.lt_floor_add_one z).le
    norm_num at this ⊢
    exact this
  rw [hsq] at hd
  have hE0 := exp_pos (-(κ / 2))
  -- `1 / √(2 κ) ≤ 1 + 1 / κ`
  have hle : 1 / √(2 * κ) ≤ 1 + 1 / κ := by
    have h2 := mul_self_sqrt (show 0 ≤ 2 * κ by linarith)
    have : κ = √(2 * κ) * √(2 * κ) / 2 := by linarith
    generalize √(2 * κ) = s at *
    rw [this]
    rw [show 1 + 1 / (s * s / 2) = (s * s + 2) / (s * s) by field_simp, div_le_div_iff₀ hs (by positivity)]
    nlinarith [sq_nonneg (s - 1)]
  set δ := d - 2 / √π * exp (-(κ / 2)) with hδ
  have ed : d / √(2 * κ) = 2 / √π / √(2 * κ) * exp (-(κ / 2)) + δ * (1 / √(2 * κ)) := by rw [hδ]; ring
  rw [hG, ed]
  have hδ' : δ * (1 / √(2 * κ)) ≤ 4e-13 * exp (-(κ / 2)) * (1 + 1 / κ) :=
    mul_le_mul ((le_abs_self _).trans hd) hle (by positivity) (by positivity)
  have e : 2 * (2 / √π / √(2 * κ) * exp (-(κ / 2))) + (1 + 1 / κ) * (1 + math.erf √(κ / 2)) -
      2 * ((1 / κ + 1) * math.erf √(κ / 2) + (2 / √π / √(2 * κ) * exp (-(κ / 2)) + δ * (1 / √(2 * κ)))) =
      (1 + 1 / κ) * (1 - math.erf √(κ / 2)) - 2 * (δ * (1 / √(2 * κ))) := by ring
  rw [e, hE]
  have : 0 < (1 + 1 / κ) * (exp (-(κ / 2)) * (math.erfcx √(κ / 2) - 8e-13)) :=
    mul_pos hq (mul_pos hE0 (by norm_num at hp ⊢; linarith))
  nlinarith

/-- The limit of the fraction is not below `-1e-12`. -/
theorem efjcFraction_limit {d : ℝ} (hκ : 0 < κ)
    (hd : |d - 2 / √π * exp (-√(κ / 2) ^ 2)| ≤ 4e-13 * exp (-√(κ / 2) ^ 2)) :
    -1e-12 ≤ 2 * ((1 / κ + 1) * math.erf √(κ / 2) + d / √(2 * κ)) / (4 * (1 + 1 / κ)) := by
  have hs : 0 < √(2 * κ) := sqrt_pos.2 (by linarith)
  have hpi : 0 < √π := sqrt_pos.2 pi_pos
  have hq : 0 < 1 + 1 / κ := by positivity
  have hE : 0 ≤ math.erf √(κ / 2) := by
    have := C10_erf_add_erfc √(κ / 2)
    have h2 := (C10_erfc_bound (sqrt_nonneg (κ / 2))).2
    have : exp (-√(κ / 2) ^ 2) ≤ 1 := exp_le_one_iff.2 (by nlinarith [sq_nonneg √(κ / 2)])
    linarith
  have hle : 1 / √(2 * κ) ≤ 1 + 1 / κ := by
    have h2 := mul_self_sqrt (show 0 ≤ 2 * κ by linarith)
    have : κ = √(2 * κ) * √(2 * κ) / 2 := by linarith
    generalize √(2 * κ) = s at *
    rw [this]
    rw [show 1 + 1 / (s * s / 2) = (s * s + 2) / (s * s) by field_simp, div_le_div_iff₀ hs (by positivity)]
    nlinarith [sq_nonneg (s - 1)]
  have hd0 : -4e-13 ≤ d := by
    have h1 : exp (-√(κ / 2) ^ 2) ≤ 1 := exp_le_one_iff.2 (by nlinarith [sq_nonneg √(κ / 2)])
    have h2 : 0 < 2 / √π * exp (-√(κ / 2) ^ 2) := by positivity
    have h3 := (abs_le.1 hd).1
    linarith
  rw [le_div_iff₀ (by positivity)]
  have h4 : -4e-13 * (1 + 1 / κ) ≤ d / √(2 * κ) := by
    have : -4e-13 * (1 / √(2 * κ)) ≤ d * (1 / √(2 * κ)) := mul_le_mul_of_nonneg_right hd0 (by positivity)
    rw [mul_one_div d] at this
    linarith
  have h6 : 0 ≤ (1 / κ + 1) * math.erf √(κ / 2) := by positivity
  linarith

theorem efjc_exact_length (κ η : ℝ) :
    efjc.thermodynamics.isotensional.nondimensional_end_to_end_length_per_link κ η =
      1 / tanh η - 1 / η + η / κ * (1 + (tanh η - 1 / tanh η + 1 / η) / (tanh η + η / κ)) +
        efjcTop κ η (efjcNum κ η / efjcDen κ η) / efjcDen κ η / (1 + efjcNum κ η / efjcDen κ η) := by
  simp only [efjc.thermodynamics.isotensional.nondimensional_end_to_end_length_per_link, efjcTop, efjcNum, efjcDen, model_real]

theorem efjc_exact_gibbs (ℓ m κ η T : ℝ) :
    efjc.thermodynamics.isotensional.nondimensional_gibbs_free_energy_per_link ℓ m κ η T =
      -log (sinh η / η) - 1 / 2 * η ^ 2 / κ - log (1 + η / tanh η / κ) - log (1 / 2 + efjcNum κ η / efjcDen κ η) -
        1 / 2 * log (2 * π * ℓ ^ 2 / κ) -
        log (8 * π ^ 2 * m * ℓ ^ 2 * (BOLTZMANN_CONSTANT : ℝ) * T / (PLANCK_CONSTANT : ℝ) ^ 2) := by
  simp only [efjc.thermodynamics.isotensional.nondimensional_gibbs_free_energy_per_link, efjcNum, efjcDen, model_real]

/-- The terms of the extension before the last are nonnegative. -/
theorem efjc_exact_first_nonneg {η : ℝ} (hκ : 0 < κ) (hη : 0 < η) :
    0 ≤ 1 / tanh η - 1 / η + η / κ * (1 + (tanh η - 1 / tanh η + 1 / η) / (tanh η + η / κ)) := by
  have hL := langevin_pos hη
  have ht : 0 < tanh η := by rw [tanh_eq_sinh_div_cosh]; exact div_pos (sinh_pos_iff.2 hη) (cosh_pos η)
  have hr : 0 < η / κ := by positivity
  unfold langevin at hL
  have e : tanh η - 1 / tanh η + 1 / η = tanh η - (1 / tanh η - 1 / η) := by ring
  rw [e]
  generalize 1 / tanh η - 1 / η = L at *
  generalize η / κ = r at *
  generalize tanh η = t at *
  have e2 : L + r * (1 + (t - L) / (t + r)) = (L * t + r * (2 * t + r)) / (t + r) := by field_simp; ring
  rw [e2]
  positivity

/-- As the force tends to zero the computed extension per link grows at least like its reciprocal. -/
theorem efjc_exact_diverges (hκ : 0 < κ) (hb : √(κ / 2) < 6.1) (hgrid : ∀ i : ℕ, 400 / (4 + √(κ / 2)) ≠ i) :
    ∃ c, 0 < c ∧ ∀ᶠ η in 𝓝[>] 0,
      c / η ≤ efjc.thermodynamics.isotensional.nondimensional_end_to_end_length_per_link κ η := by
  obtain ⟨d, h1, h2, h3⟩ := erf_hasDerivAt (sqrt_pos.2 (by linarith)) hb hgrid
  have hf := tendsto_efjcFraction hκ hb h1 h2
  have hM := tendsto_efjcTop hκ hb h2 hf
  have hM0 := efjcTop_limit_pos hκ hb h3
  have hf0 := efjcFraction_limit hκ h3
  set f0 := 2 * ((1 / κ + 1) * math.erf √(κ / 2) + d / √(2 * κ)) / (4 * (1 + 1 / κ)) with hf0d
  set M0 := 2 * (√(2 / π / κ) * exp (-(κ / 2))) + (1 + 1 / κ) * (1 + math.erf √(κ / 2)) - f0 * (4 * (1 + 1 / κ)) with hM0d
  have hfp : 0 < 1 + f0 := by linarith
  have hD : Tendsto (fun η => η⁻¹ * efjcDen κ η) (𝓝[>] 0) (𝓝 (4 * (1 + 1 / κ))) := by
    have := (hasDerivAt_iff_tendsto_slope_zero.1 (hasDerivAt_efjcDen κ)).mono_left (nhdsGT_le_nhdsNE 0)
    have d0 : efjcDen κ 0 = 0 := by simp [efjcDen]
    simpa only [zero_add, d0, sub_zero, smul_eq_mul] using this
  have hq : 0 < 4 * (1 + 1 / κ) := by positivity
  have hlim := (hM.div hD hq.ne').div (hf.const_add 1) hfp.ne'
  have hpos : 0 < M0 / (4 * (1 + 1 / κ)) / (1 + f0) := by positivity
  refine ⟨M0 / (4 * (1 + 1 / κ)) / (1 + f0) / 2, by positivity, ?_⟩
  filter_upwards [hlim.eventually (lt_mem_nhds (half_lt_self hpos)), self_mem_nhdsWithin] with η ha hη
  have hη : 0 < η := hη
  rw [efjc_exact_length]
  have hfirst := efjc_exact_first_nonneg hκ hη
  have e : efjcTop κ η (efjcNum κ η / efjcDen κ η) / efjcDen κ η / (1 + efjcNum κ η / efjcDen κ η) =
      efjcTop κ η (efjcNum κ η / efjcDen κ η) / (η⁻¹ * efjcDen κ η) / (1 + efjcNum κ η / efjcDen κ η) / η := by
    rw [div_mul_eq_div_div, div_inv_eq_mul]
    field_simp
  simp only [Pi.div_apply] at ha
  have := div_le_div_of_nonneg_right ha.le hη.le
  rw [← e] at this
  linarith

/-- As the force tends to zero the Gibbs energy per link has a limit. -/
theorem efjc_exact_energy_limit (ℓ m T : ℝ) (hκ : 0 < κ) (hb : √(κ / 2) < 6.1)
    (hgrid : ∀ i : ℕ, 400 / (4 + √(κ / 2)) ≠ i) :
    ∃ e, Tendsto (fun η => efjc.thermodynamics.isotensional.nondimensional_gibbs_free_energy_per_link ℓ m κ η T)
      (𝓝[>] 0) (𝓝 e) := by
  obtain ⟨d, h1, h2, h3⟩ := erf_hasDerivAt (sqrt_pos.2 (by linarith)) hb hgrid
  have hf := tendsto_efjcFraction hκ hb h1 h2
  have hf0 := efjcFraction_limit hκ h3
  generalize 2 * ((1 / κ + 1) * math.erf √(κ / 2) + d / √(2 * κ)) / (4 * (1 + 1 / κ)) = f0 at *
  have hid : Tendsto (fun η : ℝ => η) (𝓝[>] 0) (𝓝 0) := tendsto_id.mono_left nhdsWithin_le_nhds
  have hs : Tendsto (fun η : ℝ => sinh η / η) (𝓝[>] 0) (𝓝 1) := by
    have := tendsto_sinh_div.inv₀ one_ne_zero
    rw [inv_one] at this
    exact this.congr fun η => inv_div _ _
  have t1 := (continuousAt_log (one_ne_zero)).tendsto.comp hs
  have t2 := ((hid.pow 2).const_mul (1 / 2)).div_const κ
  have t3 := (continuousAt_log (show 1 + 1 / κ ≠ 0 by positivity)).tendsto.comp ((tendsto_div_tanh.div_const κ).const_add 1)
  have t4 := (continuousAt_log (show 1 / 2 + f0 ≠ 0 by norm_num at hf0 ⊢; linarith)).tendsto.comp (hf.const_add (1 / 2))
  simp only [efjc_exact_gibbs]
  exact ⟨_, ((((t1.neg.sub t2).sub t3).sub t4).sub_const _).sub_const _⟩

theorem efjc_exact_not_gradient {ℓ m T : ℝ} (hκ : 0 < κ) (hb : √(κ / 2) < 6.1)
    (hgrid : ∀ i : ℕ, 400 / (4 + √(κ / 2)) ≠ i) :
    ¬ ∀ η, 0 < η → HasDerivAt (fun η => efjc.thermodynamics.isotensional.nondimensional_gibbs_free_energy_per_link ℓ m κ η T)
      (-efjc.thermodynamics.isotensional.nondimensional_end_to_end_length_per_link κ η) η := by
  intro hder
  obtain ⟨c, hc, hev⟩ := efjc_exact_diverges hκ hb hgrid
  obtain ⟨e, he⟩ := efjc_exact_energy_limit ℓ m T hκ hb hgrid
  obtain ⟨δ, hδ, hδ'⟩ := mem_nhdsGT_iff_exists_Ioo_subset.1 hev
  have hδ : 0 < δ := hδ
  set φ := fun η => efjc.thermodynamics.isotensional.nondimensional_gibbs_free_energy_per_link ℓ m κ η T with hφ
  have hanti : AntitoneOn (fun η => φ η + c * log η) (Ioo 0 δ) := by
    have hd : ∀ x ∈ Ioo 0 δ, HasDerivAt (fun η => φ η + c * log η)
        (-efjc.thermodynamics.isotensional.nondimensional_end_to_end_length_per_link κ x + c * x⁻¹) x := fun x hx =>
      (hder x hx.1).add ((hasDerivAt_log hx.1.ne').const_mul c)
    refine antitoneOn_of_deriv_nonpos (convex_Ioo 0 δ) (fun x hx => (hd x hx).continuousAt.continuousWithinAt)
      (fun x hx => ?_) (fun x hx => ?_)
    · rw [interior_Ioo] at hx
      exact (hd x hx).differentiableAt.differentiableWithinAt
    · rw [interior_Ioo] at hx
      rw [(hd x hx).deriv]
      have := hδ' hx
      simp only [mem_ofPred_eq, div_eq_mul_inv] at this
      linarith
  have hbot : Tendsto (fun η => φ η + c * log η) (𝓝[>] 0) atBot :=
    he.add_atBot (tendsto_log_nhdsGT_zero.const_mul_atBot hc)
  have h1 := hbot.eventually (eventually_lt_atBot (φ (δ / 2) + c * log (δ / 2)))
  have h2 : ∀ᶠ η in 𝓝[>] (0 : ℝ), η ∈ Ioo 0 (δ / 2) := Ioo_mem_nhdsGT (by linarith)
  obtain ⟨η, ha, hb⟩ := (h1.and h2).exists
  have := hanti ⟨hb.1, hb.2.trans (by linarith)⟩ ⟨by linarith, by linarith⟩ hb.2.le
  simp only at this
  linarith

/-- C24: at every temperature for which the nondimensional stiffness `κ` is below 74.42 (other than the finitely many at
which the argument of the error function falls on the end of a table arm), the extension returned by the isotensional
extensible chain grows without bound as the force tends to zero. -/
theorem C24_efjc_length_diverges (N : ℕ) (ℓ m k T : ℝ) (hN : 0 < N) (hℓ : 0 < ℓ) (hk : 0 < k) (hT : 0 < T)
    (hκ : ndStiffness k ℓ T < 74.42) (hgrid : ∀ i : ℕ, 400 / (4 + √(ndStiffness k ℓ T / 2)) ≠ i) :
    Tendsto (fun f => (efjc_isotensional_lengths N ℓ m k).length f T) (𝓝[>] 0) atTop := by
  have hκ0 : 0 < ndStiffness k ℓ T := ndStiffness_pos hk hℓ hT
  have hb : √(ndStiffness k ℓ T / 2) < 6.1 := by
    rw [sqrt_lt' (by norm_num)]; norm_num at hκ ⊢; linarith
  obtain ⟨c, hc, hev⟩ := efjc_exact_diverges hκ0 hb hgrid
  have hkT : 0 < kT T := mul_pos Polymers.boltzmann_pos hT
  have hlim : Tendsto (fun f => ndForce ℓ f T) (𝓝[>] 0) (𝓝[>] 0) := by
    refine tendsto_nhdsWithin_iff.2 ⟨?_, ?_⟩
    · have : Continuous fun f => ndForce ℓ f T := by unfold ndForce; fun_prop
      have h := this.tendsto 0
      simp only [ndForce, zero_mul, zero_div] at h
      exact h.mono_left nhdsWithin_le_nhds
    · filter_upwards [self_mem_nhdsWithin] with f hf
      exact div_pos (mul_pos hf hℓ) hkT
  have h1 : ∀ᶠ f in 𝓝[>] (0 : ℝ), (ℓ * N * c) / ndForce ℓ f T ≤ (efjc_isotensional_lengths N ℓ m k).length f T := by
    filter_upwards [hlim.eventually hev] with f hf
    have e : (efjc_isotensional_lengths N ℓ m k).length f T = ℓ * (N *
        efjc.thermodynamics.isotensional.nondimensional_end_to_end_length_per_link (ndStiffness k ℓ T) (ndForce ℓ f T)) := by
      have hs := C15_efjc_isotensional_lengths N ℓ m k hN hℓ
      rw [hs.length f T hT, hs.nd_total _ T hT]
      simp only [api_core, model_real]
    rw [e]
    have hN' : (0 : ℝ) < N := Nat.cast_pos.2 hN
    calc (ℓ * N * c) / ndForce ℓ f T = ℓ * (N * (c / ndForce ℓ f T)) := by ring
      _ ≤ _ := by gcongr
  refine tendsto_atTop_mono' _ h1 ?_
  have hN' : (0 : ℝ) < N := Nat.cast_pos.2 hN
  have := (tendsto_inv_nhdsGT_zero.comp hlim).const_mul_atTop (show 0 < ℓ * N * c by positivity)
  exact this

example : Tendsto (fun f => (efjc_isotensional_lengths 8 1 1 (8.314462618 * 300 * 8)).length f 300) (𝓝[>] 0) atTop := by
  have hκ : ndStiffness (8.314462618 * 300 * 8) 1 300 = 8 := by unfold ndStiffness kT; norm_num
  have h2 : √((8 : ℝ) / 2) = 2 := by rw [show (8 : ℝ) / 2 = 2 ^ 2 by norm_num, sqrt_sq (by norm_num)]
  refine C24_efjc_length_diverges 8 1 1 _ 300 (by norm_num) (by norm_num) (by norm_num) (by norm_num)
    (by rw [hκ]; norm_num) fun i hi => ?_
  rw [hκ, h2, div_eq_iff (by norm_num)] at hi
  norm_num at hi
  have : 400 = i * 6 := by exact_mod_cast hi
  omega

/-- C24: for every number of links, link length and link stiffness, the extension returned by the isotensional extensible
chain is not minus the force-derivative of its Gibbs energy. -/
theorem C24_efjc_length_is_not_gradient (N : ℕ) (ℓ m k : ℝ) (hℓ : 0 < ℓ) (hk : 0 < k) :
    ¬ (efjc_isotensional_lengths N ℓ m k).IsMinusGradient (efjc_isotensional_gibbs N ℓ m k) ℓ (fun η _ => 0 < η) := by
  intro h
  -- the temperature at which the nondimensional stiffness is 8
  set T := k * ℓ ^ 2 / (8.314462618 * 8) with hTd
  have hT : 0 < T := by positivity
  have hκ : ndStiffness k ℓ T = 8 := by unfold ndStiffness kT; rw [hTd]; field_simp
  have h2 : √((8 : ℝ) / 2) = 2 := by rw [show (8 : ℝ) / 2 = 2 ^ 2 by norm_num, sqrt_sq (by norm_num)]
  refine efjc_exact_not_gradient (κ := 8) (ℓ := ℓ) (m := m) (T := T) (by norm_num) (by rw [h2]; norm_num) (fun i hi => ?_) (fun η hη => ?_)
  · rw [h2] at hi
    have h3 : (400 : ℝ) = i * 6 := by
      rw [div_eq_iff (by norm_num)] at hi
      norm_num at hi
      exact hi
    have : 400 = i * 6 := by exact_mod_cast h3
    omega
  · have := h.nd_length_per_link η T hT hη
    simp only [api_core, model_real] at this
    rw [hκ] at this
    exact this

end Polymers.Props
