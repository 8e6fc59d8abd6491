import Verif.Props.IeeeInverseLangevin
import Verif.Lemmas.InverseLangevin

/-! The Newton iteration for the inverse Langevin function in floating point, away from full extension. -/

namespace Polymers.Lemmas

open Polymers.Ieee Polymers.Spec Polymers.math Polymers.Props Real

variable {P : Platform}

theorem langevinU_slope_le {x : ℝ} (hx : 0 < x) : (1 / x ^ 2 - 1 / sinh x ^ 2) * langevinU x ^ 2 ≤ 1 := by
  by_contra hgt
  push Not at hgt
  set d := (1 / x ^ 2 - 1 / sinh x ^ 2) * langevinU x ^ 2 with hd
  have hu := (le_langevinU hx).2
  have hd1 : 0 < d - 1 := by linarith
  have hz : 0 < x + (1 + x) / (d - 1) := by positivity
  have h1 := convex_tangent langevinU_convex (show x ∈ Set.Ici 0 from hx.le) (show x + (1 + x) / (d - 1) ∈ Set.Ici 0 from hz.le)
    (hasDerivAt_langevinU hx)
  have h2 := langevinU_le hz
  rw [← hd] at h1
  have h3 : d * (x + (1 + x) / (d - 1) - x) = (1 + x) / (d - 1) + (1 + x) := by field_simp; ring
  rw [h3] at h1
  linarith

theorem langevinU_lipschitz {a b : ℝ} (ha : 0 < a) (hb : 0 < b) : |langevinU a - langevinU b| ≤ |a - b| := by
  have main : ∀ {a b : ℝ}, 0 < a → 0 < b → langevinU a - langevinU b ≤ |a - b| := by
    intro a b ha hb
    have h1 := convex_tangent langevinU_convex (show a ∈ Set.Ici 0 from ha.le) (show b ∈ Set.Ici 0 from hb.le) (hasDerivAt_langevinU ha)
    have h2 := langevinU_slope_le ha
    have h3 : 0 ≤ (1 / a ^ 2 - 1 / sinh a ^ 2) * langevinU a ^ 2 := mul_nonneg (langevin_deriv_pos ha.ne').le (sq_nonneg _)
    generalize (1 / a ^ 2 - 1 / sinh a ^ 2) * langevinU a ^ 2 = d at *
    have h4 : d * (a - b) ≤ |a - b| := by
      calc d * (a - b) ≤ d * |a - b| := mul_le_mul_of_nonneg_left (le_abs_self _) h3
        _ ≤ 1 * |a - b| := mul_le_mul_of_nonneg_right h2 (abs_nonneg _)
        _ = _ := one_mul _
    linarith
  rw [abs_le]
  constructor
  · have := main hb ha
    rw [abs_sub_comm] at this
    linarith
  · exact main ha hb

theorem langevin_slope_ge {x : ℝ} (hx : 0 < x) : 0.3 / (1 + x) ^ 2 ≤ 1 / x ^ 2 - 1 / sinh x ^ 2 := by
  have hL := langevin_lt_one hx
  have h1 := convex_tangent langevinU_convex (show x ∈ Set.Ici 0 from hx.le) (show (0:ℝ) ∈ Set.Ici 0 by simp) (hasDerivAt_langevinU hx)
  have h0 : langevinU 0 = 1 := by simp [langevinU, langevin_zero]
  rw [h0] at h1
  have hu := (le_langevinU hx).2
  have hu2 := langevinU_le hx
  have hLu := langevin_eq_of_U hx.le
  have hl : 0.3 * x / (1 + x) ≤ langevin x := by
    rw [div_le_iff₀ (by linarith)]
    rcases le_or_gt x 1 with h | h
    · have := langevin_gt_cubic hx
      have h3 : x ^ 3 ≤ x := by nlinarith [sq_nonneg x]
      nlinarith
    · have := langevin_gt_cubic (x := 1) one_pos
      have h3 := langevin_strictMonoOn (Set.mem_Ioi.2 one_pos) (Set.mem_Ioi.2 hx) h
      norm_num at this
      nlinarith
  set d := 1 / x ^ 2 - 1 / sinh x ^ 2 with hd
  have e : langevinU x * (1 - langevin x) = 1 := by
    unfold langevinU; rw [one_div_mul_cancel (by linarith)]
  -- `u L ≤ d u² x`
  have h2 : langevin x ≤ d * langevinU x * x := by
    have h3 : langevinU x * langevin x ≤ langevinU x * (d * langevinU x * x) := by nlinarith
    exact le_of_mul_le_mul_left h3 (by linarith)
  have hd0 : 0 < d := langevin_deriv_pos hx.ne'
  have h4 : 0.3 * x / (1 + x) ≤ d * (1 + x) * x := hl.trans (h2.trans (by
    refine mul_le_mul_of_nonneg_right (mul_le_mul_of_nonneg_left hu2 hd0.le) hx.le))
  rw [div_le_iff₀ (by linarith)] at h4
  rw [div_le_iff₀ (by positivity)]
  have h5 : x * 0.3 ≤ x * (d * (1 + x) ^ 2) := by nlinarith
  exact le_of_mul_le_mul_left h5 hx

theorem exp_340 : exp 340 ≤ 2 ^ 495 ∧ (2 : ℝ) ^ 490 ≤ exp 340 := by
  have e : exp (340 : ℝ) = (exp 1 ^ 68) ^ 5 := by
    rw [← exp_nat_mul, ← exp_nat_mul]; norm_num
  have h1 : exp 1 ^ 68 ≤ 2 ^ 99 := by
    refine (pow_le_pow_left₀ (exp_pos 1).le exp_one_lt_d9.le 68).trans (by norm_num)
  have h2 : (2 : ℝ) ^ 98 ≤ exp 1 ^ 68 := by
    refine le_trans (by norm_num) (pow_le_pow_left₀ (by norm_num) exp_one_gt_d9.le 68)
  rw [e]
  constructor
  · calc (exp 1 ^ 68) ^ 5 ≤ (2 ^ 99) ^ 5 := pow_le_pow_left₀ (by positivity) h1 5
      _ = 2 ^ 495 := by rw [← pow_mul]
  · calc (2 : ℝ) ^ 490 = (2 ^ 98) ^ 5 := by rw [← pow_mul]
      _ ≤ _ := pow_le_pow_left₀ (by positivity) h2 5

theorem sinh_340 {x : ℝ} (h : 340 ≤ x) : (2 : ℝ) ^ 488 ≤ sinh x := by
  have h1 := exp_340.2.trans (exp_le_exp.2 h)
  have h2 : exp (-x) ≤ 1 := exp_le_one_iff.2 (by linarith)
  rw [sinh_eq]
  have h3 : (2 : ℝ) ^ 490 = 4 * 2 ^ 488 := by rw [show (490 : ℕ) = 2 + 488 by norm_num, pow_add]; norm_num
  have h4 : (1 : ℝ) ≤ 2 ^ 488 := one_le_pow₀ (by norm_num)
  rw [h3] at h1
  clear h3
  generalize (2 : ℝ) ^ 488 = a at *
  linarith

/-- The reciprocal of the square of a large hyperbolic sine, which may overflow, vanishes. -/
theorem inv_sinh_sq_large {x : ℝ} (h : 340 ≤ x) :
    ∃ v, (1.0 : F64 P) / Elem.powi (Elem.sinh (.fin x : F64 P)) 2 = .fin v ∧ |v| ≤ 1e-30 := by
  rw [lit_one]
  have hs := sinh_340 h
  have hε := eps_pos P
  have hε' := eps_small P
  have big : (1e40 : ℝ) ≤ 2 ^ 488 := le_trans (show (1e40 : ℝ) ≤ 2 ^ 140 by norm_num) (pow_le_pow_right₀ (by norm_num) (by norm_num))
  have hf := P.fn_err .sinh x
  rw [show Fn.exact .sinh x = sinh x from rfl, abs_of_pos (lt_of_lt_of_le (by positivity) hs)] at hf
  have hmax : max (sinh x) (2 ^ (-1022 : ℤ)) = sinh x :=
    max_eq_left ((pow_lo.2.2.2.2).trans (le_trans (by norm_num) (big.trans hs)))
  rw [hmax] at hf
  set w := P.fn .sinh x with hw
  have hw1 : 0.9e40 ≤ w := by
    have h1 := (abs_le.1 hf).1
    have h2 := big.trans hs
    nlinarith only [h1, h2, hε, hε']
  have hsinh : (Elem.sinh (.fin x : F64 P)) = F64.out w := rfl
  rw [hsinh]
  unfold F64.out
  split
  · -- the square
    have hp : (1e70 : ℝ) ≤ |P.powi w 2| := by
      have hz : (0.8e80 : ℝ) ≤ w ^ (2 : ℤ) := by rw [zpow_ofNat]; nlinarith
      have hz0 : 0 < w ^ (2 : ℤ) := by linarith
      rcases le_or_gt (w ^ (2 : ℤ)) (2 ^ (1000 : ℤ)) with h1 | h1
      · have := P.powi_err w 2 (by rw [abs_of_pos hz0]; exact pow_lo.1.trans (by linarith)) (by rw [abs_of_pos hz0]; exact h1)
        rw [abs_of_pos hz0] at this
        have h2 := (abs_le.1 this).1
        rw [show max 1 |((2 : ℤ) : ℝ)| = 2 by norm_num] at h2
        have h3 : 2 * P.ε * w ^ (2 : ℤ) ≤ 0.5 * w ^ (2 : ℤ) := mul_le_mul_of_nonneg_right (by linarith) hz0.le
        refine le_trans ?_ (le_abs_self _)
        linarith only [h2, h3, hz]
      · have := P.powi_large w 2 (by rw [abs_of_pos hz0]; exact h1.le)
        refine le_trans ?_ this
        exact (show (1e70 : ℝ) ≤ 2 ^ (240 : ℤ) by norm_num).trans (zpow_two_le (by norm_num))
    have hpow : (Elem.powi (.fin w : F64 P) 2) = F64.out (P.powi w 2) := by
      show (if w = 0 ∧ (2 : ℤ) < 0 then _ else _) = _
      rw [if_neg (by norm_num)]
    rw [hpow]
    unfold F64.out
    split
    · set p := P.powi w 2
      have hp0 : p ≠ 0 := by rintro h0; rw [h0] at hp; norm_num at hp
      have hq : |1 / p| ≤ 1e-70 := by
        rw [abs_div, abs_one, div_le_iff₀ (by linarith)]
        linarith
      have e1 : (F64.fin 1 / F64.fin p : F64 P) = F64.out (P.rnd (1 / p)) := by
        show (if _ then _ else _) = _
        rw [if_neg hp0]
      rw [e1]
      have h2 := rnd_err' P (1 / p)
      have h3 : |P.rnd (1 / p)| ≤ 1e-30 := by
        have h4 := abs_sub_abs_le_abs_sub (P.rnd (1 / p)) (1 / p)
        have h5 : max |1 / p| (2 ^ (-1022 : ℤ)) ≤ 1e-30 := max_le (by linarith) pow_lo.2.2.2.2
        nlinarith
      refine ⟨_, out_of_le (h3.trans ?_), h3⟩
      exact le_trans (show (1e-30 : ℝ) ≤ 2 ^ (0 : ℤ) by norm_num) (zpow_two_le (by norm_num))
    · exact ⟨0, rfl, by norm_num⟩
  · rw [decide_eq_false (show ¬ w < 0 by linarith)]
    exact ⟨0, rfl, by norm_num⟩

/-- The slope used in a Newton step. -/
theorem within_slope {x : ℝ} (h1 : 1e-3 ≤ x) (h2 : x ≤ 2000) :
    Within ((1.0 : F64 P) / Elem.powi (.fin x : F64 P) 2 - 1.0 / Elem.powi (Elem.sinh (.fin x : F64 P)) 2)
      (1 / x ^ 2 - 1 / sinh x ^ 2) (14 * P.ε / x ^ 2) := by
  have hx : 0 < x := by linarith
  have hε := eps_pos P
  have hε' := eps_small P
  have hεl : 1e-16 ≤ P.ε := le_trans (by norm_num) P.le_ε
  have hu := unit_small P
  have hup := unit_pos P
  have hsx := self_lt_sinh' hx
  have hs0 : 0 < sinh x := by linarith
  have x1 : 1e-6 ≤ x ^ 2 := by nlinarith
  have x2 : x ^ 2 ≤ 4e6 := by nlinarith
  have hxp : 0 < x ^ 2 := by positivity
  have ha0 : 0 < 1 / x ^ 2 := by positivity
  have ha1 : 1 / x ^ 2 ≤ 1e6 := by rw [div_le_iff₀ hxp]; linarith
  have ha2 : 2.5e-7 ≤ 1 / x ^ 2 := by rw [le_div_iff₀ hxp]; linarith
  have hab : 1 / sinh x ^ 2 ≤ 1 / x ^ 2 := one_div_le_one_div_of_le hxp (by nlinarith)
  have hb0 : 0 < 1 / sinh x ^ 2 := by positivity
  have wa : Within ((1.0 : F64 P) / Elem.powi (.fin x : F64 P) 2) (1 / x ^ 2) (5 * P.ε * (1 / x ^ 2)) := by
    rw [lit_one]
    have hp := rel_powi (rel_refl (P := P) x) 2 hx.ne' (by norm_num) (by norm_num) (by norm_num)
      (by rw [zpow_ofNat, abs_of_pos hxp]; exact pow_lo.2.2.1.trans (by linarith))
      (by rw [zpow_ofNat, abs_of_pos hxp]; exact le_trans (by linarith) pow_lo.2.2.2.1)
    rw [zpow_ofNat] at hp
    have h3 := rel_div' (rel_refl (P := P) 1) hp (by norm_num; linarith) (by rw [abs_of_pos ha0]; linarith) (by rw [abs_of_pos ha0]; linarith)
    refine ((h3.mono (show _ ≤ (4 : ℕ) * unit P by norm_num; linarith)).within_nat (by norm_num)).mono ?_
    rw [abs_of_pos ha0]
    norm_num
  have wb : Within ((1.0 : F64 P) / Elem.powi (Elem.sinh (.fin x : F64 P)) 2) (1 / sinh x ^ 2) (7 * P.ε * (1 / x ^ 2)) := by
    rcases le_or_gt x 340 with h | h
    · rw [lit_one]
      have hsu : sinh x ≤ 2 ^ 495 := by
        rw [sinh_eq]
        have := (exp_le_exp.2 h).trans exp_340.1
        have h3 := exp_pos (-x)
        have h4 : 0 < (2 : ℝ) ^ 495 := by positivity
        generalize (2 : ℝ) ^ 495 = a at *
        linarith only [this, h3, h4]
      have hs2 : sinh x ^ 2 ≤ 2 ^ (990 : ℤ) := by
        calc sinh x ^ 2 ≤ (2 ^ 495) ^ 2 := pow_le_pow_left₀ hs0.le hsu 2
          _ = 2 ^ (990 : ℤ) := by rw [← pow_mul, ← zpow_natCast]; norm_num
      have hs3 : 1e-6 ≤ sinh x ^ 2 := by nlinarith
      have hs4 : (2 : ℝ) ^ (990 : ℤ) ≤ 2 ^ (1000 : ℤ) := zpow_two_le (by norm_num)
      have hs5 : (2 : ℝ) ^ 495 ≤ 2 ^ (1000 : ℤ) := by
        rw [← zpow_natCast]; exact zpow_two_le (by norm_num)
      have hsh : Rel (Elem.sinh (.fin x : F64 P)) (sinh x) (unit P) :=
        rel_fn (f := .sinh) (by rw [show Fn.exact .sinh x = sinh x from rfl, abs_of_pos hs0]; exact pow_lo.1.trans (by linarith))
          (by rw [show Fn.exact .sinh x = sinh x from rfl, abs_of_pos hs0]; exact hsu.trans hs5)
      have hp := rel_powi hsh 2 hs0.ne' (by norm_num) (by norm_num) (by norm_num; linarith)
        (by rw [zpow_ofNat, abs_of_pos (by positivity)]; exact pow_lo.2.2.1.trans (by linarith))
        (by rw [zpow_ofNat, abs_of_pos (by positivity)]; exact hs2)
      rw [zpow_ofNat] at hp
      have hinv : (2 : ℝ) ^ (-1000 : ℤ) ≤ 1 / sinh x ^ 2 := by
        rw [zpow_neg, ← one_div]
        exact one_div_le_one_div_of_le (by positivity) (hs2.trans hs4)
      have h3 := rel_div (rel_refl (P := P) 1) hp (by norm_num; linarith) (by rw [abs_of_pos hb0]; exact hinv)
        (by rw [abs_of_pos hb0]; exact (hab.trans (ha1.trans (by norm_num))).trans pow_lo.2.1)
      refine ((h3.mono (show _ ≤ (6 : ℕ) * unit P by norm_num; linarith)).within_nat (by norm_num)).mono ?_
      rw [abs_of_pos hb0]
      norm_num
      have := mul_le_mul_of_nonneg_left hab (show 0 ≤ 7 * P.ε by positivity)
      simpa using this
    · obtain ⟨v, hv, hv'⟩ := inv_sinh_sq_large (P := P) h.le
      refine ⟨v, hv, ?_⟩
      have hsb : 1 / sinh x ^ 2 ≤ 1e-30 := by
        have big : (1e40 : ℝ) ≤ 2 ^ 488 := le_trans (show (1e40 : ℝ) ≤ 2 ^ 140 by norm_num) (pow_le_pow_right₀ (by norm_num) (by norm_num))
        have := big.trans (sinh_340 h.le)
        rw [div_le_iff₀ (by positivity)]
        nlinarith
      have : |v - 1 / sinh x ^ 2| ≤ 2e-30 := by
        refine (abs_sub _ _).trans ?_
        rw [abs_of_pos hb0]
        linarith
      refine this.trans ?_
      nlinarith
  have hd := langevin_deriv_pos hx.ne'
  have h5 := within_sub' wa wb (by rw [abs_of_pos hd]; nlinarith)
  refine h5.mono ?_
  rw [abs_of_pos hd, show 14 * P.ε / x ^ 2 = 14 * P.ε * (1 / x ^ 2) by ring]
  have : P.ε * (1 / x ^ 2 - 1 / sinh x ^ 2 + (5 * P.ε * (1 / x ^ 2) + 7 * P.ε * (1 / x ^ 2)) + 1e-30) ≤ P.ε * (2 * (1 / x ^ 2)) := by
    refine mul_le_mul_of_nonneg_left ?_ hε.le
    nlinarith
  linarith

theorem langevin_residual {y x : ℝ} (hx : 0 < x) : y - langevin x = langevinErr y x / langevinU x := by
  rw [langevin_eq_of_U hx.le]; unfold langevinErr
  have := (langevinU_pos hx.le).ne'
  field_simp; ring

theorem within_residual {γ x : ℝ} (h1 : 1e-3 ≤ x) (h2 : x ≤ 2000) (hγ : |γ - langevin x| ≤ 1) :
    Within ((.fin γ : F64 P) - (1.0 / Elem.tanh (.fin x : F64 P) - 1.0 / (.fin x : F64 P))) (γ - langevin x)
      (8 * P.ε * (1 + 1 / x)) := by
  have hx : 0 < x := by linarith
  have hε := eps_pos P
  have hε' := eps_small P
  have hw : 1 / x ≤ 1000 := by rw [div_le_iff₀ hx]; linarith
  have hw0 : 0 < 1 / x := by positivity
  have hf := within_langevin (P := P) (η := x)
    ((zpow_two_le (show (-900 : ℤ) ≤ -20 by norm_num)).trans (by norm_num at h1 ⊢; linarith))
    (le_trans (by linarith) ((show (1e9 : ℝ) ≤ 2 ^ (40 : ℤ) by norm_num).trans (zpow_two_le (by norm_num))))
  rw [show 6 + 6 / x = 6 * (1 + 1 / x) by ring] at hf
  refine (within_sub' (within_refl (P := P) γ) hf (by nlinarith)).mono ?_
  have : P.ε * (|γ - langevin x| + (0 + P.ε * (6 * (1 + 1 / x))) + 1e-30) ≤ P.ε * (2 * (1 + 1 / x)) := by
    refine mul_le_mul_of_nonneg_left ?_ hε.le
    nlinarith
  linarith

set_option maxHeartbeats 800000 in
/-- One Newton step of the inverse Langevin function in floating point. -/
theorem newton_float {γ x : ℝ} (hγ1 : γ < 1) (h1 : 1e-3 ≤ x) (h2 : x ≤ 2000) (e1 : -(1 / 2) ≤ langevinErr γ x)
    (e2 : langevinErr γ x ≤ 0.6) (e3 : |langevinErr γ x| * (1 + 1 / x) ≤ 1) :
    ∃ x', (.fin x : F64 P) + ((.fin γ : F64 P) - (1.0 / Elem.tanh (.fin x : F64 P) - 1.0 / (.fin x : F64 P))) /
      (1.0 / Elem.powi (.fin x : F64 P) 2 - 1.0 / Elem.powi (Elem.sinh (.fin x : F64 P)) 2) = .fin x' ∧
      (1 - γ) * |x' - langevinStep γ x| ≤ 2100 * P.ε * ((1 + x) * (1 + 1 / x)) := by
  have hx : 0 < x := by linarith
  have hε := eps_pos P
  have hε' := eps_small P
  obtain ⟨u1, u2⟩ := le_langevinU hx
  have hup : 0 < langevinU x := by linarith
  have hR := langevin_residual (y := γ) hx
  have hS := langevin_slope_ge hx
  have hc : (1 - γ) * langevinU x = 1 - langevinErr γ x := by unfold langevinErr; ring
  set e := langevinErr γ x with he
  set w := 1 + 1 / x with hw
  set t := 1 + x with ht
  have hw1 : 1 < w := by rw [hw]; have : 0 < 1 / x := by positivity
                         linarith
  have hw2 : w ≤ 1001 := by
    have : 1 / x ≤ 1000 := by rw [div_le_iff₀ hx]; linarith
    linarith
  have ht1 : 1 < t := by linarith
  have ht2 : t ≤ 2001 := by linarith
  have hwx : w * x = t := by rw [hw, ht]; field_simp; ring
  have hut : t / 2 ≤ langevinU x := by linarith
  have hae : |e| ≤ 0.6 := by rw [abs_le]; constructor <;> linarith
  -- the residual
  have hRa : |γ - langevin x| ≤ 2 * |e| / t := by
    rw [hR, abs_div, abs_of_pos hup, div_le_div_iff₀ hup (by linarith)]
    nlinarith [abs_nonneg e]
  have hR1 : |γ - langevin x| ≤ 1 := by
    rw [hR, abs_div, abs_of_pos hup, div_le_one hup]
    linarith
  have hc3 : (1 - γ) * t ≤ 3 := by nlinarith
  have hq := within_residual (P := P) h1 h2 hR1
  rw [← hw] at hq
  -- the slope
  set S := 1 / x ^ 2 - 1 / sinh x ^ 2 with hSd
  have hS0 : 0 < S := langevin_deriv_pos hx.ne'
  have hSt : 0.3 ≤ S * t ^ 2 := by rwa [div_le_iff₀ (by positivity)] at hS
  have hiS : 1 / S ≤ 3.34 * t ^ 2 := by rw [div_le_iff₀ hS0]; nlinarith
  have hd := within_slope (P := P) h1 h2
  rw [← hSd] at hd
  have hxw : 1 / x ^ 2 * t ^ 2 = w ^ 2 := by rw [← hwx]; field_simp
  have hrd : Rel ((1.0 : F64 P) / Elem.powi (.fin x : F64 P) 2 - 1.0 / Elem.powi (Elem.sinh (.fin x : F64 P)) 2) S (94 * P.ε * w ^ 2) := by
    refine rel_of_within hd hS0 ?_ ?_
    · have h3 : 14 * P.ε / x ^ 2 * t ^ 2 ≤ 94 * P.ε * w ^ 2 / 2 * S * t ^ 2 := by
        rw [show 14 * P.ε / x ^ 2 * t ^ 2 = 14 * P.ε * (1 / x ^ 2 * t ^ 2) by ring, hxw]
        have h4 : 0 ≤ P.ε * w ^ 2 := by positivity
        nlinarith
      exact le_of_mul_le_mul_right h3 (by positivity)
    · have : w ^ 2 ≤ 1.1e6 := by nlinarith
      nlinarith
  have hd1 : 94 * P.ε * w ^ 2 ≤ 1.1e-4 := by
    have h3 : w ^ 2 ≤ 1.1e6 := by nlinarith
    have h4 : P.ε * w ^ 2 ≤ 1e-12 * 1.1e6 := mul_le_mul hε' h3 (by positivity) (by norm_num)
    linarith
  set d := 94 * P.ε * w ^ 2 with hdd
  have hd0 : 0 < d := by positivity
  have hexp : exp d - 1 ≤ 95 * P.ε * w ^ 2 := by
    have := exp_bound_div_one_sub_of_interval (x := d) hd0.le (by linarith)
    have h3 : 1 / (1 - d) ≤ 1 + d * 1.01 := by
      rw [div_le_iff₀ (by linarith)]
      nlinarith
    have h4 : 0 < P.ε * w ^ 2 := by positivity
    rw [hdd] at h3
    linarith
  have hexp0 : 0 ≤ exp d - 1 := by linarith [add_one_le_exp d]
  have hεw : P.ε * w ^ 2 ≤ 1.2e-6 := by rw [hdd] at hd1; linarith
  -- the error of the quotient
  have hew : |γ - langevin x| * (exp d - 1) ≤ 190 * P.ε * w / t := by
    calc |γ - langevin x| * (exp d - 1) ≤ (2 * |e| / t) * (95 * P.ε * w ^ 2) := mul_le_mul hRa hexp hexp0 (by positivity)
      _ = 190 * P.ε * w / t * (|e| * w) := by ring
      _ ≤ 190 * P.ε * w / t * 1 := mul_le_mul_of_nonneg_left e3 (by positivity)
      _ = _ := mul_one _
  have hE0 : 8 * P.ε * w + (|γ - langevin x| + 8 * P.ε * w) * (exp d - 1) ≤ P.ε * w * (8.01 + 190 / t) := by
    have h3 : 8 * P.ε * w * (exp d - 1) ≤ 8 * P.ε * w * 0.001 := by
      refine mul_le_mul_of_nonneg_left ?_ (by positivity)
      linarith
    have h4 : 0 < P.ε * w := by positivity
    have h5 : P.ε * w * (8.01 + 190 / t) = 8.01 * (P.ε * w) + 190 * P.ε * w / t := by ring
    rw [h5]
    linarith
  have hQ : (8 * P.ε * w + (|γ - langevin x| + 8 * P.ε * w) * (exp d - 1)) / S ≤ P.ε * w * (26.8 * t ^ 2 + 635 * t) := by
    rw [div_eq_mul_one_div]
    have h190 : 190 / t * t = 190 := by field_simp
    calc _ ≤ (P.ε * w * (8.01 + 190 / t)) * (3.34 * t ^ 2) := mul_le_mul hE0 hiS (by positivity) (by positivity)
      _ = P.ε * w * (26.7534 * t ^ 2 + 634.6 * t) := by linear_combination (P.ε * w * 3.34 * t) * h190
      _ ≤ _ := mul_le_mul_of_nonneg_left (by nlinarith) (by positivity)
  set Q := (8 * P.ε * w + (|γ - langevin x| + 8 * P.ε * w) * (exp d - 1)) / S with hQd
  have hQ0 : 0 ≤ Q := by rw [hQd]; positivity
  have hRS : |(γ - langevin x) / S| ≤ 4.1 * t := by
    rw [abs_div, abs_of_pos hS0, div_eq_mul_one_div]
    calc |γ - langevin x| * (1 / S) ≤ (2 * |e| / t) * (3.34 * t ^ 2) := mul_le_mul hRa hiS (by positivity) (by positivity)
      _ = 6.68 * |e| * t := by
        have : |e| / t * t = |e| := by field_simp
        linear_combination (6.68 * t) * this
      _ ≤ _ := mul_le_mul_of_nonneg_right (by linarith) (by linarith)
  have hQ1 : Q ≤ 1e-12 * 1001 * (26.8 * 2001 ^ 2 + 635 * 2001) := hQ.trans (by
    refine mul_le_mul (mul_le_mul hε' hw2 (by linarith) (by norm_num)) (by nlinarith) (by positivity) (by norm_num))
  have hQ2 : Q ≤ 1 := hQ1.trans (by norm_num)
  have hdv := within_div_rel hq hrd hS0 (by rw [← hQd]; linarith)
  rw [← hQd] at hdv
  have hdv' := hdv.mono (show Q + P.ε * (|(γ - langevin x) / S| + Q + 1e-30) ≤ Q + P.ε * (5.2 * t) by
    refine add_le_add le_rfl (mul_le_mul_of_nonneg_left ?_ hε.le)
    linarith)
  have hs : |x + (γ - langevin x) / S| ≤ 5.1 * t := by
    refine (abs_add_le _ _).trans ?_
    rw [abs_of_pos hx]
    linarith
  have hεt : P.ε * (5.2 * t) ≤ 1 := by nlinarith
  obtain ⟨x', f1, f2⟩ := within_add' (within_refl (P := P) x) hdv' (by linarith)
  refine ⟨x', f1, ?_⟩
  have hstep : langevinStep γ x = x + (γ - langevin x) / S := rfl
  rw [hstep]
  have h3 : |x' - (x + (γ - langevin x) / S)| ≤ P.ε * w * (26.8 * t ^ 2 + 635 * t) + P.ε * (12.4 * t) := by
    refine f2.trans ?_
    have : P.ε * (|x + (γ - langevin x) / S| + (0 + (Q + P.ε * (5.2 * t))) + 1e-30) ≤ P.ε * (7.2 * t) :=
      mul_le_mul_of_nonneg_left (by linarith) hε.le
    linarith
  have hc0 : 0 ≤ 1 - γ := by linarith
  calc (1 - γ) * |x' - (x + (γ - langevin x) / S)| ≤ (1 - γ) * (P.ε * w * (26.8 * t ^ 2 + 635 * t) + P.ε * (12.4 * t)) :=
        mul_le_mul_of_nonneg_left h3 hc0
    _ = ((1 - γ) * t) * (P.ε * (w * (26.8 * t + 635) + 12.4)) := by ring
    _ ≤ 3 * (P.ε * (w * (26.8 * t + 635) + 12.4)) := mul_le_mul_of_nonneg_right hc3 (by positivity)
    _ ≤ _ := by
      have h6 : w * (26.8 * t + 635) + 12.4 ≤ 700 * (t * w) := by nlinarith only [mul_pos (sub_pos.2 hw1) (sub_pos.2 ht1), hw1, ht1]
      have := mul_le_mul_of_nonneg_left h6 hε.le
      linarith

end Polymers.Lemmas
