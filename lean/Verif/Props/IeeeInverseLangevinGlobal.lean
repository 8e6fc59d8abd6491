import Verif.Lemmas.IeeeNewton
import Verif.Lemmas.IeeePade

/-! C75: the inverse Langevin function over its whole range, in floating point. -/

namespace Polymers.Lemmas

open Polymers.Ieee Polymers.Spec Polymers.math Polymers.Props Real

variable {P : Platform}

/-- The error added by one step. -/
noncomputable def stepErr (P : Platform) (γ : ℝ) : ℝ := 4200 * P.ε / (γ * (1 - γ))

theorem stepErr_facts {γ : ℝ} (h1 : 9e-4 ≤ γ) (h2 : γ ≤ 0.999) :
    0 < stepErr P γ ∧ stepErr P γ ≤ 4.7e-6 ∧ stepErr P γ ≤ 0.006 * γ ∧ 2 * stepErr P γ ≤ γ * (1 - γ) ∧ 1e-13 ≤ stepErr P γ := by
  have hε := eps_pos P
  have hε' := eps_small P
  have hεl : 1e-16 ≤ P.ε := le_trans (by norm_num) P.le_ε
  have hc : 0 < 1 - γ := by linarith
  have hγ : 0 < γ := by linarith
  have hp : 8.99e-4 ≤ γ * (1 - γ) := by nlinarith only [mul_nonneg (sub_nonneg.2 h1) (sub_nonneg.2 h2), hγ]
  have hp2 : γ * (1 - γ) ≤ 1 / 4 := by nlinarith only [sq_nonneg (γ - 1 / 2)]
  have h0 : 0 < γ * (1 - γ) := by positivity
  unfold stepErr
  refine ⟨by positivity, ?_, ?_, ?_, ?_⟩
  · rw [div_le_iff₀ h0]; nlinarith only [hε', hp]
  · rw [div_le_iff₀ h0]; nlinarith only [hε', hp, mul_le_mul hp h1 (by norm_num) h0.le]
  · rw [← mul_div_assoc, div_le_iff₀ h0]; nlinarith only [hε', hp]
  · rw [le_div_iff₀ h0]; nlinarith only [hεl, hp2]

/-- A point from which a step improves the error. -/
structure StepOK (γ x : ℝ) : Prop where
  lo : 1e-3 ≤ x
  hi : x ≤ 2000
  err_lo : -(1 / 2) ≤ langevinErr γ x
  err_hi : langevinErr γ x ≤ 0.6
  weight : |langevinErr γ x| * (1 + 1 / x) ≤ 1
  pos : langevin x * (1 + γ) ≤ 2 * γ
  sq : langevinErr γ x ^ 2 ≤ 0.5 * γ
  inv : 1 / x ≤ 0.71 / γ
  le : x ≤ 1.5 / (1 - γ)

theorem stepOK_of_err {γ x : ℝ} (h1 : 9e-4 ≤ γ) (h2 : γ ≤ 0.999) (hx : 0 < x) (e1 : -stepErr P γ ≤ langevinErr γ x)
    (e2 : langevinErr γ x ≤ 0.52 * γ) : StepOK γ x := by
  obtain ⟨d1, d2, d3, d4, -⟩ := stepErr_facts (P := P) h1 h2
  have hγ : 0 < γ := by linarith
  have hc : 0 < 1 - γ := by linarith
  obtain ⟨u1, u2⟩ := le_langevinU hx
  have hL := langevin_lt_one hx
  have hL0 := langevin_pos hx
  have hR := langevin_residual (y := γ) hx
  have hcu : (1 - γ) * langevinU x = 1 - langevinErr γ x := by unfold langevinErr; ring
  have hL3 := langevin_lt_third hx
  set e := langevinErr γ x
  set δ := stepErr P γ
  have hup : 0 < langevinU x := by linarith
  have hR1 : γ - langevin x ≤ 0.52 * γ := by
    rw [hR, div_le_iff₀ hup]
    nlinarith only [e2, u2, hγ]
  have hR2 : -δ ≤ γ - langevin x := by
    rw [hR, le_div_iff₀ hup]
    nlinarith only [e1, u2, d1]
  have hx1 : 1.44 * γ ≤ x := by linarith only [hR1, hL3]
  have hinv : 1 / x ≤ 0.71 / γ := by
    rw [div_le_div_iff₀ hx hγ]; linarith only [hx1, hγ]
  have hU : (1 - γ) * x ≤ 1.1 := by nlinarith only [hcu, u1, hc, e1, d2]
  refine ⟨by linarith only [hx1, h1], by nlinarith only [hU, h2, hx], by linarith only [e1, d2], by linarith only [e2, h2], ?_, ?_, ?_, hinv, ?_⟩
  · have h3 : |e| * (1 / x) ≤ 0.4 := by
      rcases le_or_gt 0 e with h | h
      · rw [abs_of_nonneg h, mul_one_div, div_le_iff₀ hx]; linarith only [e2, hx1, hγ]
      · rw [abs_of_neg h, mul_one_div, div_le_iff₀ hx]; linarith only [e1, d3, hx1, hγ]
    have h4 : |e| ≤ 0.6 := by rw [abs_le]; constructor <;> linarith only [e1, e2, d2, h2]
    linarith only [h3, h4]
  · nlinarith only [hR2, d4, hγ, h2, d1]
  · rcases le_or_gt 0 e with h | h
    · nlinarith only [h, e2, h2, hγ]
    · nlinarith only [h, e1, d3, h2, hγ]
  · rw [le_div_iff₀ hc]; linarith only [hU]

theorem stepOK_start {γ v : ℝ} (h1 : 9e-4 ≤ γ) (h2 : γ ≤ 0.999) (hv : |v - langevinGuess γ| ≤ 1e-8 * langevinGuess γ) :
    StepOK γ v ∧ langevinErr γ v ^ 2 ≤ 0.2315 ∧ langevinErr γ v ^ 2 ≤ 0.47 * γ := by
  have hγ : 0 < γ := by linarith
  have hc : 0 < 1 - γ := by linarith
  obtain ⟨g0, -, ge⟩ := langevinGuess_facts hγ (by linarith : γ < 1)
  obtain ⟨v1, v2⟩ := abs_le.1 hv
  have hv0 : 0 < v := by linarith
  obtain ⟨u1, u2⟩ := le_langevinU hv0
  have hL := langevin_lt_one hv0
  have hL0 := langevin_pos hv0
  have hR := langevin_residual (y := γ) hv0
  have hcu : (1 - γ) * langevinU v = 1 - langevinErr γ v := by unfold langevinErr; ring
  have hup : 0 < langevinU v := by linarith
  have hUL : langevinU v * (1 - langevin v) = 1 := by
    unfold langevinU; rw [one_div_mul_cancel (by linarith)]
  have hq : γ * (1 - γ) ≤ 1 / 4 := by nlinarith only [sq_nonneg (γ - 1 / 2)]
  have hlip := langevinU_lipschitz hv0 g0
  have hre : langevinErr γ v = (γ - langevin v) / (1 - langevin v) := by
    have hR' : (γ - langevin v) * langevinU v = langevinErr γ v := by rw [hR, div_mul_cancel₀ _ hup.ne']
    rw [eq_div_iff (by linarith)]
    linear_combination -(1 - langevin v) * hR' + (γ - langevin v) * hUL
  rcases le_or_gt γ (1 / 2) with h | h
  · obtain ⟨r1, r2⟩ := langevinGuess_ratio hγ h
    have w1 : 2.89 * γ ≤ v := by linarith only [v1, r1, hγ]
    have w2 : v ≤ 3.61 * γ := by linarith only [v2, r2, hγ]
    have hLu := langevin_lt_third hv0
    have hLl := langevin_gt_cubic hv0
    have hv2 : v ^ 2 ≤ 3.3 := by nlinarith only [w2, h, hv0]
    have hv3 : v ^ 3 ≤ 3.3 * v := by nlinarith only [hv2, hv0]
    have l1 : langevin v ≤ 1.204 * γ := by linarith only [hLu, w2, hγ]
    have l2 : 0.75 * γ ≤ langevin v := by linarith only [hLl, hv3, w1, hγ]
    have l3 : 0.397 ≤ 1 - langevin v := by linarith only [l1, h]
    have e1 : langevinErr γ v ≤ 0.64 * γ := by
      rw [hre, div_le_iff₀ (by linarith only [l3])]
      nlinarith only [l2, l3, hγ]
    have e2 : -(0.52 * γ) ≤ langevinErr γ v := by
      rw [hre, le_div_iff₀ (by linarith only [l3])]
      nlinarith only [l1, l3, hγ]
    set e := langevinErr γ v
    have e3 : |e| ≤ 0.64 * γ := by rw [abs_le]; constructor <;> linarith only [e1, e2, hγ]
    have e4 : e ^ 2 ≤ (0.64 * γ) ^ 2 := sq_le_sq' (by linarith only [e2, hγ]) e1
    have e5 : e ^ 2 ≤ 0.21 * γ := by nlinarith only [e4, h, hγ]
    refine ⟨⟨by linarith only [w1, h1], by linarith only [w2, h], by linarith only [e2, h], by linarith only [e1, h], ?_, ?_, ?_, ?_, ?_⟩, ?_, ?_⟩
    · have h3 : |e| * (1 / v) ≤ 0.3 := by
        rw [mul_one_div, div_le_iff₀ hv0]; linarith only [e3, w1, hγ]
      linarith only [h3, e3, h]
    · nlinarith only [l1, h, hγ, hL0]
    · linarith only [e5, hγ]
    · rw [div_le_div_iff₀ hv0 hγ]; linarith only [w1, hγ]
    · rw [le_div_iff₀ hc]; nlinarith only [w2, hq, hc]
    · linarith only [e5, h]
    · linarith only [e5, hγ]
  · obtain ⟨r1, r2⟩ := langevinGuess_high h.le (by linarith : γ < 1)
    have he : |langevinErr γ v - langevinErr γ (langevinGuess γ)| ≤ 2e-8 := by
      have : langevinErr γ v - langevinErr γ (langevinGuess γ) = -((1 - γ) * (langevinU v - langevinU (langevinGuess γ))) := by
        unfold langevinErr; ring
      rw [this, abs_neg, abs_mul, abs_of_pos hc]
      have h3 := mul_le_mul_of_nonneg_left (hlip.trans hv) hc.le
      linarith only [h3, r2]
    have e3 : |langevinErr γ v| ≤ 0.481 := by
      have := abs_sub_abs_le_abs_sub (langevinErr γ v) (langevinErr γ (langevinGuess γ))
      linarith only [this, he, ge]
    have w1 : 0.54 ≤ (1 - γ) * v := by
      have := mul_le_mul_of_nonneg_left v1 hc.le
      linarith only [this, r1, r2]
    have w2 : 1.08 ≤ v := by nlinarith only [w1, h, hc]
    have w3 : (1 - γ) * v ≤ 1.481 := by
      have := (abs_le.1 e3).1
      nlinarith only [this, hcu, u1, hc]
    have e1 := (abs_le.1 e3).1
    have e2 := (abs_le.1 e3).2
    set e := langevinErr γ v
    have e4 : e ^ 2 ≤ 0.2314 := by nlinarith only [e1, e2]
    refine ⟨⟨by linarith only [w2], by nlinarith only [w3, h2, hv0], by linarith only [e1], by linarith only [e2], ?_, ?_, ?_, ?_, ?_⟩, ?_, ?_⟩
    · have h3 : |e| * (1 / v) ≤ 0.481 * 0.93 := by
        refine mul_le_mul e3 ?_ (by positivity) (by norm_num)
        rw [div_le_iff₀ hv0]; linarith only [w2]
      linarith only [h3, e3]
    · -- `1 - L = (1 - γ) / (1 - e)`
      have h3 : (1 - γ) ≤ 1.481 * (1 - langevin v) := by
        have h4 : 1 - γ = (1 - e) * (1 - langevin v) := by
          linear_combination (1 - langevin v) * hcu - (1 - γ) * hUL
        nlinarith only [h4, e1, hL]
      nlinarith only [h3, h, hc]
    · linarith only [e4, h]
    · rw [div_le_div_iff₀ hv0 hγ]; nlinarith only [w1, hq, h, hc, hv0]
    · rw [le_div_iff₀ hc]; linarith only [w3]
    · linarith only [e4]
    · linarith only [e4, h]

/-- The accuracy reached when the loop stops. -/
noncomputable def finalErr (P : Platform) (γ : ℝ) : ℝ := 5e-12 * (γ / (1 - γ)) ^ 2 + 2.1 * stepErr P γ

/-- One pass through the loop. -/
theorem after_step {γ x : ℝ} (h1 : 9e-4 ≤ γ) (h2 : γ ≤ 0.999) (ok : StepOK γ x) :
    ∃ x' r, (.fin x : F64 P) + ((.fin γ : F64 P) - (1.0 / Elem.tanh (.fin x : F64 P) - 1.0 / (.fin x : F64 P))) /
      (1.0 / Elem.powi (.fin x : F64 P) 2 - 1.0 / Elem.powi (Elem.sinh (.fin x : F64 P)) 2) = .fin x' ∧
      Elem.abs (((.fin γ : F64 P) - (1.0 / Elem.tanh (.fin x : F64 P) - 1.0 / (.fin x : F64 P))) / (.fin γ : F64 P)) = .fin r ∧
      0 < x' ∧ -stepErr P γ ≤ langevinErr γ x' ∧ langevinErr γ x' ≤ langevinErr γ x ^ 2 + stepErr P γ ∧
      (r ≤ 1.001e-6 → langevinErr γ x' ≤ finalErr P γ) := by
  obtain ⟨lo, hi, e1, e2, e3, pos, sq, inv, le⟩ := ok
  have hε := eps_pos P
  have hε' := eps_small P
  obtain ⟨d1, d2, d3, d4, -⟩ := stepErr_facts (P := P) h1 h2
  have hγ : 0 < γ := by linarith only [h1]
  have hc : 0 < 1 - γ := by linarith only [h2]
  have hx : 0 < x := by linarith only [lo]
  have hγ1 : γ < 1 := by linarith only [h2]
  obtain ⟨u1, u2⟩ := le_langevinU hx
  have hup : 0 < langevinU x := by linarith only [u2]
  have hR := langevin_residual (y := γ) hx
  have hae : |langevinErr γ x| ≤ 0.6 := by rw [abs_le]; constructor <;> linarith only [e1, e2]
  have hR1 : |γ - langevin x| ≤ 1 := by
    rw [hR, abs_div, abs_of_pos hup, div_le_one hup]
    linarith only [hae, u2]
  obtain ⟨x', f1, f2⟩ := newton_float (P := P) hγ1 lo hi e1 e2 e3
  have hw0 : 0 < 1 / x := by positivity
  have hp : 0 < γ * (1 - γ) := by positivity
  have hp4 : γ * (1 - γ) ≤ 1 / 4 := by nlinarith only [sq_nonneg (γ - 1 / 2)]
  have hwt : (1 + x) * (1 + 1 / x) ≤ 2 / (γ * (1 - γ)) := by
    rw [le_div_iff₀ hp, show (1 + x) * (1 + 1 / x) = 2 + x + 1 / x by field_simp; ring]
    rw [le_div_iff₀ hγ] at inv
    rw [le_div_iff₀ hc] at le
    nlinarith only [mul_le_mul_of_nonneg_right inv hc.le, mul_le_mul_of_nonneg_left le hγ.le, hp4, hγ, hc]
  have f3 : (1 - γ) * |x' - langevinStep γ x| ≤ stepErr P γ := by
    refine f2.trans ?_
    have := mul_le_mul_of_nonneg_left hwt (show 0 ≤ 2100 * P.ε by positivity)
    refine this.trans (le_of_eq ?_)
    unfold stepErr; ring
  have hs0 := langevinStep_pos hγ hx pos
  have s1 := langevinStep_below hx hs0.le
  have s2 := langevinStep_err hγ1 hx hs0.le
  obtain ⟨z1, z2⟩ := le_langevinU hs0
  have hzp : 0 < langevinU (langevinStep γ x) := by linarith only [z2]
  have hRs := langevin_residual (y := γ) hs0
  have s0 : 0 ≤ langevinErr γ (langevinStep γ x) := by
    have : 0 ≤ langevinErr γ (langevinStep γ x) / langevinU (langevinStep γ x) := by rw [← hRs]; linarith only [s1]
    by_contra hneg
    push Not at hneg
    have := div_neg_of_neg_of_pos hneg hzp
    linarith only [this, hRs, s1]
  have s3 : 1.5 * γ ≤ langevinStep γ x := by
    have : γ - langevin (langevinStep γ x) ≤ 0.5 * γ := by
      rw [hRs, div_le_iff₀ hzp]
      nlinarith only [s2, sq, z2, hγ]
    have h3 := langevin_lt_third hs0
    linarith only [this, h3]
  have hx' : 0 < x' := by
    have h3 : |x' - langevinStep γ x| ≤ γ := by
      have := f3.trans (show stepErr P γ ≤ γ * (1 - γ) by linarith only [d4, d1])
      rw [mul_comm γ] at this
      exact le_of_mul_le_mul_left this hc
    linarith only [(abs_le.1 h3).1, s3, hγ]
  have hdiff : |langevinErr γ x' - langevinErr γ (langevinStep γ x)| ≤ stepErr P γ := by
    have : langevinErr γ x' - langevinErr γ (langevinStep γ x) = -((1 - γ) * (langevinU x' - langevinU (langevinStep γ x))) := by
      unfold langevinErr; ring
    rw [this, abs_neg, abs_mul, abs_of_pos hc]
    exact (mul_le_mul_of_nonneg_left (langevinU_lipschitz hx' hs0) hc.le).trans f3
  obtain ⟨k1, k2⟩ := abs_le.1 hdiff
  have hnew : langevinErr γ x' ≤ langevinErr γ x ^ 2 + stepErr P γ := by linarith only [k2, s2]
  -- the residual
  have hq := within_residual (P := P) lo hi hR1
  have hE : 8 * P.ε * (1 + 1 / x) ≤ 1 := by
    have : 1 / x ≤ 1000 := by rw [div_le_iff₀ hx]; linarith only [lo]
    nlinarith only [this, hε, hε', hw0]
  have e0 : (8 * P.ε * (1 + 1 / x) + (|γ - langevin x| + 8 * P.ε * (1 + 1 / x)) * (exp 0 - 1)) = 8 * P.ε * (1 + 1 / x) := by
    rw [exp_zero, sub_self, mul_zero, add_zero]
  have hγi : 1 / γ ≤ 2000 := by rw [div_le_iff₀ hγ]; linarith only [h1]
  have hdv := within_div_rel hq (rel_refl (P := P) γ) hγ (by
    rw [e0, abs_div, abs_of_pos hγ, ← add_div, div_le_iff₀ hγ]
    nlinarith only [hR1, hE, h1])
  rw [e0] at hdv
  obtain ⟨z, g1, g2⟩ := hdv
  refine ⟨x', |z|, f1, by rw [g1]; rfl, hx', by linarith only [k1, s0], hnew, fun hr => hnew.trans ?_⟩
  have hRz : |γ - langevin x| ≤ 1.001e-6 * γ + 10 * P.ε * (1 + 1 / x) := by
    have a1 : |(γ - langevin x) / γ| ≤ |z| + (8 * P.ε * (1 + 1 / x) / γ + P.ε * (|(γ - langevin x) / γ| + 8 * P.ε * (1 + 1 / x) / γ + 1e-30)) := by
      have := abs_sub_abs_le_abs_sub ((γ - langevin x) / γ) z
      rw [abs_sub_comm] at this
      linarith only [this, g2]
    have a2 := mul_le_mul_of_nonneg_right a1 hγ.le
    have a3 : |(γ - langevin x) / γ| * γ = |γ - langevin x| := by rw [abs_div, abs_of_pos hγ, div_mul_cancel₀ _ hγ.ne']
    have a4 : (|z| + (8 * P.ε * (1 + 1 / x) / γ + P.ε * (|(γ - langevin x) / γ| + 8 * P.ε * (1 + 1 / x) / γ + 1e-30))) * γ =
        |z| * γ + (8 * P.ε * (1 + 1 / x) + P.ε * (|γ - langevin x| + 8 * P.ε * (1 + 1 / x) + 1e-30 * γ)) := by
      rw [← a3]; field_simp
    rw [a3, a4] at a2
    have a5 : P.ε * (|γ - langevin x| + 8 * P.ε * (1 + 1 / x) + 1e-30 * γ) ≤ P.ε * (2 * (1 + 1 / x)) := by
      refine mul_le_mul_of_nonneg_left ?_ hε.le
      nlinarith only [hR1, hε', hw0, hγ1, hε]
    have a6 := mul_le_mul_of_nonneg_right hr hγ.le
    linarith only [a2, a5, a6]
  have hcu : (1 - γ) * langevinU x = 1 - langevinErr γ x := by unfold langevinErr; ring
  have hU : langevinU x ≤ 1.5 / (1 - γ) := by rw [le_div_iff₀ hc]; linarith only [hcu, e1]
  have hea : |langevinErr γ x| ≤ 1.502e-6 * (γ / (1 - γ)) + 0.01 * stepErr P γ := by
    have b1 : |langevinErr γ x| = |γ - langevin x| * langevinU x := by
      rw [hR, abs_div, abs_of_pos hup, div_mul_cancel₀ _ hup.ne']
    rw [b1]
    have b2 : 1 + 1 / x ≤ 1.71 / γ := by
      rw [le_div_iff₀ hγ] at inv ⊢
      linarith only [inv, hγ1]
    calc |γ - langevin x| * langevinU x ≤ (1.001e-6 * γ + 10 * P.ε * (1.71 / γ)) * (1.5 / (1 - γ)) := by
          refine mul_le_mul (hRz.trans ?_) hU hup.le (by positivity)
          have := mul_le_mul_of_nonneg_left b2 (show 0 ≤ 10 * P.ε by positivity)
          linarith only [this]
      _ = 1.5015e-6 * (γ / (1 - γ)) + 25.65 * (P.ε / (γ * (1 - γ))) := by
          have hi : P.ε / (γ * (1 - γ)) = P.ε * (1 / γ) * (1 / (1 - γ)) := by field_simp
          rw [hi]; ring
      _ ≤ _ := by
          have b3 : 0 ≤ γ / (1 - γ) := by positivity
          have b4 : 0 ≤ P.ε / (γ * (1 - γ)) := by positivity
          unfold stepErr
          rw [mul_div_assoc]
          linarith only [b3, b4]
  have hsq : langevinErr γ x ^ 2 ≤ (1.502e-6 * (γ / (1 - γ)) + 0.01 * stepErr P γ) ^ 2 := by
    rw [← sq_abs]; exact pow_le_pow_left₀ (abs_nonneg _) hea 2
  unfold finalErr
  set a := γ / (1 - γ)
  set δ := stepErr P γ
  nlinarith only [hsq, sq_nonneg (1.502e-6 * a - 0.01 * δ), d1, d2, sq_nonneg a]

set_option maxHeartbeats 400000 in
theorem newton_loop_global {γ : ℝ} (h1 : 9e-4 ≤ γ) (h2 : γ ≤ 0.999) {t6 : ℝ} (ht6 : t6 ≤ 1.001e-6) (k : ℕ) :
    ∀ (x q : ℝ) (r : ℝ), 0 < x → -stepErr P γ ≤ langevinErr γ x → langevinErr γ x ≤ 0.52 * γ → 0 ≤ q → q ≤ 0.2315 →
      langevinErr γ x ≤ q + 2 * stepErr P γ → q ^ 2 ^ k ≤ 1e-20 → (r ≤ 1.001e-6 → langevinErr γ x ≤ finalErr P γ) →
    ∃ v, inverse_newton_raphson_loop (.fin γ : F64 P) (fun x => 1.0 / Elem.tanh x - 1.0 / x)
      (fun x => 1.0 / Elem.powi x 2 - 1.0 / Elem.powi (Elem.sinh x) 2) (.fin t6) k (.fin x) (.fin r) = .fin v ∧
      0 < v ∧ -stepErr P γ ≤ langevinErr γ v ∧ langevinErr γ v ≤ finalErr P γ := by
  obtain ⟨d1, d2, d3, d4, d5⟩ := stepErr_facts (P := P) h1 h2
  have hγ : 0 < γ := by linarith only [h1]
  induction k with
  | zero =>
    intro x q r hx e1 e2 q0 q1 e3 hq hr
    refine ⟨x, rfl, hx, e1, e3.trans ?_⟩
    rw [pow_zero, pow_one] at hq
    unfold finalErr
    have := sq_nonneg (γ / (1 - γ))
    linarith only [this, hq, d5]
  | succ k ih =>
    intro x q r hx e1 e2 q0 q1 e3 hq hr
    unfold inverse_newton_raphson_loop
    by_cases hlt : t6 < r
    · have hlt' : Elem.lt (.fin t6 : F64 P) (.fin r) = true := by
        show decide (t6 < r) = true
        rw [decide_eq_true_iff]; exact hlt
      rw [if_pos hlt']
      obtain ⟨x', r', f1, f2, f3, f4, f5, f6⟩ := after_step (P := P) h1 h2 (stepOK_of_err h1 h2 hx e1 e2)
      simp only [f1, f2]
      have hsq : langevinErr γ x ^ 2 ≤ 0.2705 * γ := by
        rcases le_or_gt 0 (langevinErr γ x) with h | h
        · nlinarith only [h, e2, h2, hγ]
        · nlinarith only [h, e1, d2, d3, h2, hγ]
      have hsq' : langevinErr γ x ^ 2 ≤ q ^ 2 + stepErr P γ := by
        rcases le_or_gt 0 (langevinErr γ x) with h | h
        · have : langevinErr γ x ^ 2 ≤ (q + 2 * stepErr P γ) ^ 2 := pow_le_pow_left₀ h e3 2
          nlinarith only [this, q0, q1, d1, d2]
        · nlinarith only [h, e1, d1, d2, sq_nonneg q]
      refine ih x' (q ^ 2) r' f3 f4 (by linarith only [f5, hsq, d3, hγ]) (sq_nonneg q) (by nlinarith only [q0, q1]) (by linarith only [f5, hsq']) ?_ f6
      rw [← pow_mul, ← pow_succ']; exact hq
    · have hlt' : ¬ Elem.lt (.fin t6 : F64 P) (.fin r) = true := by
        show ¬ decide (t6 < r) = true
        rw [decide_eq_true_iff]; exact hlt
      rw [if_neg hlt']
      exact ⟨x, rfl, hx, e1, hr ((not_lt.1 hlt).trans ht6)⟩

/-- The Newton branch. -/
theorem inverse_langevin_mid {γ : ℝ} (h1 : 9e-4 ≤ γ) (h2 : γ ≤ 0.999) (hle : Elem.le (.fin γ : F64 P) 1e-3 = false) :
    ∃ v, inverse_langevin (.fin γ : F64 P) = .fin v ∧ 0 < v ∧ -stepErr P γ ≤ langevinErr γ v ∧ langevinErr γ v ≤ finalErr P γ := by
  have hε := eps_pos P
  have hε' := eps_small P
  obtain ⟨d1, d2, d3, d4, d5⟩ := stepErr_facts (P := P) h1 h2
  obtain ⟨t6, ht6, ht6'⟩ := ((rel_lit (P := P) (r := 1e-6) (by norm_num) (by norm_num)).mono
    (show unit P ≤ (1 : ℕ) * unit P by simp)).within_nat (by norm_num)
  have ht : t6 ≤ 1.001e-6 := by
    rw [abs_of_pos (by norm_num : (0 : ℝ) < 1e-6)] at ht6'
    have := (abs_le.1 ht6').2
    push_cast at this
    linarith only [this, hε']
  have hlt : Elem.lt (.fin t6 : F64 P) (.fin 1) = true := by
    show decide (t6 < 1) = true
    rw [decide_eq_true_iff]
    linarith only [ht]
  obtain ⟨v, e1, e2⟩ := pade_rel (P := P) h1 (by linarith only [h2])
  obtain ⟨ok, sq1, sq2⟩ := stepOK_start h1 h2 e2
  obtain ⟨x', r', f1, f2, f3, f4, f5, f6⟩ := after_step (P := P) h1 h2 ok
  unfold inverse_langevin
  rw [hle]
  simp only [Bool.false_eq_true, if_false]
  unfold inverse_newton_raphson
  unfold padeGuess at e1
  rw [e1]
  unfold inverse_newton_raphson_loop
  rw [show (1e-6 : F64 P) = .fin t6 from ht6, lit_one, hlt]
  simp only [if_true]
  rw [← lit_one]
  simp only [f1, f2]
  refine newton_loop_global h1 h2 ht _ x' 0.2315 r' f3 f4 (by linarith only [f5, sq2, d3, h1]) (by norm_num) le_rfl
    (by linarith only [f5, sq1, d1]) ?_ f6
  calc (0.2315 : ℝ) ^ 2 ^ 99 ≤ 0.2315 ^ 32 := pow_le_pow_of_le_one (by norm_num) (by norm_num) (by norm_num)
    _ ≤ 1e-20 := by norm_num

end Polymers.Lemmas

namespace Polymers.Props

open Polymers.Ieee Polymers.Spec Polymers.Lemmas Polymers.ApiF Polymers.math Real

theorem inverse_langevin_small_branch {P : Platform} {γ : ℝ} (h0 : 2 ^ (-900 : ℤ) ≤ γ) (h1 : γ ≤ 1.1e-3)
    (hle : Elem.le (.fin γ : F64 P) 1e-3 = true) :
    ∃ v, inverse_langevin (.fin γ : F64 P) = .fin v ∧ 0 < v ∧ v ≤ 1 ∧ |(1 / tanh v - 1 / v) - γ| ≤ 1e-6 * γ := by
  have hγ : 0 < γ := lt_of_lt_of_le (by positivity) h0
  have hε := eps_pos P
  have hε' := eps_small P
  have l3 : Rel (3.0 : F64 P) 3 (unit P) := by
    have : Rel (3.0 : F64 P) (3.0 : ℝ) (unit P) := rel_lit (by norm_num) (by norm_num)
    rwa [show (3.0 : ℝ) = 3 by norm_num] at this
  have h3 : 0 < 3 * γ := by positivity
  have hlo : (2 : ℝ) ^ (-1000 : ℤ) ≤ 3 * γ := (zpow_two_le (by norm_num)).trans (h0.trans (by linarith))
  have hm := rel_mul l3 (rel_refl (P := P) γ) (by linarith [unit_small P]) (by rw [abs_of_pos h3]; exact hlo)
    (by rw [abs_of_pos h3]; exact le_trans (by linarith) pow_lo.2.1)
  obtain ⟨v, e1, e2⟩ := (hm.mono (show unit P + 0 + unit P ≤ (2 : ℕ) * unit P by push_cast; linarith)).within_nat (by norm_num)
  rw [abs_of_pos h3] at e2
  push_cast at e2
  have e3 : (2 + 1) * P.ε * (3 * γ) ≤ 1e-11 * γ := by nlinarith only [hε', hγ]
  obtain ⟨a1, a2⟩ := abs_le.1 (e2.trans e3)
  have hv0 : 0 < v := by linarith only [a1, hγ]
  refine ⟨v, ?_, hv0, by linarith only [a2, h1], ?_⟩
  · unfold inverse_langevin
    rw [hle]
    exact e1
  · have b1 := langevin_lt_third hv0
    have b2 := langevin_gt_cubic hv0
    unfold langevin at b1 b2
    have b3 : v ^ 2 ≤ 1.1e-5 := by nlinarith only [a2, h1, hv0, hγ]
    have b4 : v ^ 3 ≤ 1.1e-5 * v := by nlinarith only [b3, hv0]
    rw [abs_le]
    constructor
    · linarith only [b2, b4, a1, a2, hγ]
    · linarith only [b1, a2, hγ]

theorem inverse_langevin_mid_residual {P : Platform} {γ : ℝ} (h1 : 9e-4 ≤ γ) (h2 : γ ≤ 0.999)
    (hle : Elem.le (.fin γ : F64 P) 1e-3 = false) :
    ∃ v, inverse_langevin (.fin γ : F64 P) = .fin v ∧ 0 < v ∧ v ≤ 2000 ∧
      |(1 / tanh v - 1 / v) - γ| ≤ 6e-12 / (1 - γ) + 9000 * P.ε / γ := by
  obtain ⟨v, e1, hv, e2, e3⟩ := inverse_langevin_mid (P := P) h1 h2 hle
  obtain ⟨d1, d2, d3, d4, d5⟩ := stepErr_facts (P := P) h1 h2
  have hγ : 0 < γ := by linarith only [h1]
  have hc : 0 < 1 - γ := by linarith only [h2]
  have hε := eps_pos P
  obtain ⟨u1, u2⟩ := le_langevinU hv
  have hup : 0 < langevinU v := by linarith only [u2]
  have hcu : (1 - γ) * langevinU v = 1 - langevinErr γ v := by unfold langevinErr; ring
  have hR := langevin_residual (y := γ) hv
  have hq : γ / (1 - γ) ≤ 1000 := by rw [div_le_iff₀ hc]; linarith only [h2]
  have hq0 : 0 < γ / (1 - γ) := by positivity
  have hF : finalErr P γ ≤ 1.6e-5 := by
    unfold finalErr
    have : (γ / (1 - γ)) ^ 2 ≤ 1e6 := by nlinarith only [hq, hq0]
    linarith only [this, d2]
  refine ⟨v, e1, hv, ?_, ?_⟩
  · have : (1 - γ) * v ≤ 1.1 := by nlinarith only [hcu, u1, hc, e2, d2]
    nlinarith only [this, h2, hv]
  · change |langevin v - γ| ≤ _
    rw [abs_sub_comm, hR, abs_div, abs_of_pos hup, div_le_iff₀ hup]
    have hU : 0.9999 / (1 - γ) ≤ langevinU v := by
      rw [div_le_iff₀ hc]; linarith only [hcu, e3, hF]
    have hF0 : |langevinErr γ v| ≤ finalErr P γ := by
      rw [abs_le]
      refine ⟨?_, e3⟩
      have : stepErr P γ ≤ finalErr P γ := by
        unfold finalErr
        have := sq_nonneg (γ / (1 - γ))
        linarith only [this, d1]
      linarith only [this, e2]
    refine hF0.trans ?_
    refine le_trans ?_ (mul_le_mul_of_nonneg_left hU (by positivity))
    have k1 : (6e-12 / (1 - γ) + 9000 * P.ε / γ) * (0.9999 / (1 - γ)) =
        5.9994e-12 * (1 / (1 - γ)) ^ 2 + 8999.1 * (P.ε / (γ * (1 - γ))) := by
      have hi : P.ε / (γ * (1 - γ)) = P.ε * (1 / γ) * (1 / (1 - γ)) := by field_simp
      rw [hi]; ring
    rw [k1]
    unfold finalErr stepErr
    have k2 : (γ / (1 - γ)) ^ 2 ≤ (1 / (1 - γ)) ^ 2 :=
      pow_le_pow_left₀ hq0.le (div_le_div_of_nonneg_right (by linarith only [h2]) hc.le) 2
    have k3 : 0 < P.ε / (γ * (1 - γ)) := by positivity
    have k4 := sq_nonneg (γ / (1 - γ))
    rw [mul_div_assoc]
    linarith only [k2, k3, k4]

theorem inverse_langevin_near_residual {P : Platform} {γ : ℝ} (h1 : 1e-8 ≤ 1 - γ) (h2 : 1 - γ ≤ 1.3e-3) :
    ∃ v, inverse_langevin (.fin γ : F64 P) = .fin v ∧ 0 < v ∧ v ≤ 2e8 ∧
      |(1 / tanh v - 1 / v) - γ| ≤ 6e-8 * (1 - γ) + 9 * P.ε := by
  obtain ⟨v, e1, e2⟩ := inverse_langevin_near_one (P := P) h1 h2
  have hc : 0 < 1 - γ := by linarith only [h1]
  have hε := eps_pos P
  have hε' := eps_small P
  have hεl : 1e-16 ≤ P.ε := le_trans (by norm_num) P.le_ε
  rw [mul_div_assoc] at e2
  have hq : P.ε / (1 - γ) ≤ 1e-4 := by rw [div_le_iff₀ hc]; nlinarith only [h1, hε']
  have hq0 : 0 < P.ε / (1 - γ) := by positivity
  have b1 := (abs_le.1 e2).1
  have b2 := (abs_le.1 e2).2
  have hv : 711 ≤ v := by nlinarith only [b1, hq, h2, hc]
  have hv' : v ≤ 2e8 := by nlinarith only [b2, hq, h1, hv]
  have hv0 : 0 < v := by linarith only [hv]
  obtain ⟨t1, t2⟩ := coth_large hv
  refine ⟨v, e1, hv0, hv', ?_⟩
  have k1 : (1 / tanh v - 1 / v) - γ = (1 / tanh v - 1) + ((1 - γ) * v - 1) * (1 / v) := by field_simp; ring
  have k2 : 1 / v ≤ 1.001 * (1 - γ) := by rw [div_le_iff₀ hv0]; linarith only [b1, hq]
  rw [k1]
  refine (abs_add_le _ _).trans ?_
  rw [abs_of_pos t1, abs_mul, abs_of_pos (show 0 < 1 / v by positivity)]
  have k3 : |(1 - γ) * v - 1| * (1 / v) ≤ (5e-8 + 8 * (P.ε / (1 - γ))) * (1.001 * (1 - γ)) :=
    mul_le_mul e2 k2 (by positivity) (by positivity)
  have k4 : P.ε / (1 - γ) * (1 - γ) = P.ε := div_mul_cancel₀ _ hc.ne'
  have k5 : (5e-8 + 8 * (P.ε / (1 - γ))) * (1.001 * (1 - γ)) = 5.005e-8 * (1 - γ) + 8.008 * P.ε := by
    linear_combination 8.008 * k4
  linarith only [k3, k5, t2, hεl, hc]

/-- C75: in floating point the inverse Langevin function returns, for every extension from `9e-4` to within `1e-8` of full extension, a finite
positive force whose Langevin function is the extension up to the tolerance of the iteration and a multiple of the unit of
rounding divided by the extension. -/
theorem C75_inverse_langevin (P : Platform) {γ : ℝ} (h1 : 9e-4 ≤ γ) (h2 : γ ≤ 1 - 1e-8) :
    ∃ v, inverse_langevin (.fin γ : F64 P) = .fin v ∧ 0 < v ∧ |(1 / tanh v - 1 / v) - γ| ≤ 1e-6 * γ + 9000 * P.ε / γ := by
  have hγ : 0 < γ := by linarith only [h1]
  have hε := eps_pos P
  have hq0 : 0 < 9000 * P.ε / γ := by positivity
  rcases le_or_gt γ 0.999 with h | h
  · cases hle : Elem.le (.fin γ : F64 P) 1e-3
    · obtain ⟨v, a, b, -, c⟩ := inverse_langevin_mid_residual (P := P) h1 h hle
      refine ⟨v, a, b, c.trans (add_le_add ?_ le_rfl)⟩
      rw [div_le_iff₀ (by linarith only [h])]
      nlinarith only [mul_nonneg (sub_nonneg.2 h1) (sub_nonneg.2 h), hγ]
    · have hγ3 : γ ≤ 1.1e-3 := by
        obtain ⟨t, ht, ht'⟩ := ((rel_lit (P := P) (r := 1e-3) (by norm_num) (by norm_num)).mono
          (show unit P ≤ (1 : ℕ) * unit P by simp)).within_nat (by norm_num)
        rw [show (1e-3 : F64 P) = .fin t from ht] at hle
        have hle : decide (γ ≤ t) = true := hle
        rw [decide_eq_true_iff] at hle
        rw [abs_of_pos (by norm_num : (0 : ℝ) < 1e-3)] at ht'
        have := (abs_le.1 ht').2
        push_cast at this
        linarith only [this, hle, eps_small P]
      obtain ⟨v, a, b, -, c⟩ := inverse_langevin_small_branch (P := P)
        ((zpow_two_le (show (-900 : ℤ) ≤ -20 by norm_num)).trans (by norm_num at h1 ⊢; linarith)) hγ3 hle
      exact ⟨v, a, b, c.trans (by linarith only [hq0])⟩
  · obtain ⟨v, a, b, -, c⟩ := inverse_langevin_near_residual (P := P) (γ := γ) (by linarith only [h2]) (by linarith only [h])
    refine ⟨v, a, b, c.trans (add_le_add (by linarith only [h]) ?_)⟩
    rw [le_div_iff₀ hγ]
    nlinarith only [hε, h2]

/-- C75: up to the threshold `9e-4` no such term appears, whatever the size of the extension above `2 ^ (-900)`. -/
theorem C75_inverse_langevin_small (P : Platform) {γ : ℝ} (h0 : 2 ^ (-900 : ℤ) ≤ γ) (h1 : γ ≤ 9e-4) :
    ∃ v, inverse_langevin (.fin γ : F64 P) = .fin v ∧ 0 < v ∧ |(1 / tanh v - 1 / v) - γ| ≤ 1e-6 * γ := by
  have hle : Elem.le (.fin γ : F64 P) 1e-3 = true := by
    obtain ⟨t, ht, ht'⟩ := ((rel_lit (P := P) (r := 1e-3) (by norm_num) (by norm_num)).mono
      (show unit P ≤ (1 : ℕ) * unit P by simp)).within_nat (by norm_num)
    rw [show (1e-3 : F64 P) = .fin t from ht]
    show decide (γ ≤ t) = true
    rw [decide_eq_true_iff]
    rw [abs_of_pos (by norm_num : (0 : ℝ) < 1e-3)] at ht'
    have := (abs_le.1 ht').1
    push_cast at this
    linarith only [this, h1, eps_small P]
  obtain ⟨v, a, b, -, c⟩ := inverse_langevin_small_branch (P := P) h0 (h1.trans (by norm_num)) hle
  exact ⟨v, a, b, c⟩

/-- C75: between `1.1e-3` and `0.999` the last step of the iteration makes the result much more accurate than the tolerance
asked for. -/
theorem C75_inverse_langevin_converged (P : Platform) {γ : ℝ} (h1 : 1.1e-3 ≤ γ) (h2 : γ ≤ 0.999) :
    ∃ v, inverse_langevin (.fin γ : F64 P) = .fin v ∧ 0 < v ∧
      |(1 / tanh v - 1 / v) - γ| ≤ 6e-12 / (1 - γ) + 9000 * P.ε / γ := by
  have hle : Elem.le (.fin γ : F64 P) 1e-3 = false := by
    obtain ⟨t, ht, ht'⟩ := ((rel_lit (P := P) (r := 1e-3) (by norm_num) (by norm_num)).mono
      (show unit P ≤ (1 : ℕ) * unit P by simp)).within_nat (by norm_num)
    rw [show (1e-3 : F64 P) = .fin t from ht]
    show decide (γ ≤ t) = false
    rw [decide_eq_false_iff_not]
    rw [abs_of_pos (by norm_num : (0 : ℝ) < 1e-3)] at ht'
    have := (abs_le.1 ht').2
    push_cast at this
    linarith only [this, h1, eps_small P]
  obtain ⟨v, a, b, -, c⟩ := inverse_langevin_mid_residual (P := P) (le_trans (by norm_num) h1) h2 hle
  exact ⟨v, a, b, c⟩

/-- C75: in floating point, the extension of the freely jointed chain at the force the Legendre approach returns for an extension is that
extension, to the same accuracy: the two ensembles are inverse to each other in double precision. -/
theorem C75_fjc_round_trip (P : Platform) (N : ℕ) (ℓ m T : F64 P) {γ : ℝ} (h1 : 9e-4 ≤ γ) (h2 : γ ≤ 1 - 1e-8) :
    Within ((fjc.FJC.init N ℓ m).thermodynamics.isotensional.nondimensional_end_to_end_length_per_link
      ((fjc_isometric_legendre_forces N ℓ m).nd_force (.fin γ) T)) γ (1e-6 * γ + 9010 * P.ε / γ) := by
  obtain ⟨v, a, b, c⟩ := C75_inverse_langevin P h1 h2
  have hγ : 0 < γ := by linarith only [h1]
  have hε := eps_pos P
  have hε' := eps_small P
  have hq : P.ε / γ ≤ 2e-9 := by rw [div_le_iff₀ hγ]; nlinarith only [hε', h1]
  have hlt := langevin_lt_third b
  have hl1 := langevin_lt_one b
  change |langevin v - γ| ≤ _ at c
  rw [mul_div_assoc] at c
  obtain ⟨c1, c2⟩ := abs_le.1 c
  have hv1 : 2 * γ ≤ v := by
    have : 9000 * (P.ε / γ) ≤ 0.2 * γ := by linarith only [hq, h1]
    linarith only [hlt, c1, this, hγ]
  have hv2 : v ≤ 1e9 := by
    rcases le_or_gt γ 0.999 with h | h
    · by_contra hgt
      push Not at hgt
      have h3 := one_sub_inv_lt_langevin b
      have h4 : 1 / v ≤ 1e-9 := by rw [div_le_iff₀ b]; linarith only [hgt]
      have h5 : 9000 * (P.ε / γ) ≤ 1e-7 := by
        rcases le_or_gt γ 0.5 with h6 | h6
        · linarith only [hq, h3, h4, c2, h6]
        · have : P.ε / γ ≤ 2e-12 := by rw [div_le_iff₀ hγ]; nlinarith only [hε', h6]
          linarith only [this]
      linarith only [h3, h4, h5, c2, h]
    · obtain ⟨v', a', -, c', -⟩ := inverse_langevin_near_residual (P := P) (γ := γ) (by linarith only [h2]) (by linarith only [h])
      rw [a] at a'
      injection a' with a'
      linarith only [a', c']
  have hiv : 1 / v ≤ 1 / (2 * γ) := one_div_le_one_div_of_le (by positivity) hv1
  obtain ⟨w, f1, f2⟩ := within_langevin (P := P) (η := v)
    ((zpow_two_le (show (-900 : ℤ) ≤ -20 by norm_num)).trans (by norm_num at h1 ⊢; linarith))
    (hv2.trans ((show (1e9 : ℝ) ≤ 2 ^ (40 : ℤ) by norm_num).trans (zpow_two_le (by norm_num))))
  refine ⟨w, ?_, ?_⟩
  · have : (fjc_isometric_legendre_forces N ℓ m).nd_force (.fin γ) T = .fin v := a
    rw [this]
    exact f1
  · have e1 : w - γ = (w - langevin v) + (langevin v - γ) := by ring
    rw [e1]
    refine (abs_add_le _ _).trans ((add_le_add f2 c).trans ?_)
    have e2 : P.ε * (6 + 6 / v) ≤ 10 * (P.ε / γ) := by
      have e3 : 6 + 6 / v ≤ 10 * (1 / γ) := by
        have e4 : 1 ≤ 1 / γ := by rw [le_div_iff₀ hγ]; linarith only [h2]
        have e5 : 6 / v ≤ 3 * (1 / γ) := by
          have : 1 / (2 * γ) = 1 / 2 * (1 / γ) := by field_simp
          rw [this] at hiv
          rw [show 6 / v = 6 * (1 / v) by ring]
          linarith only [hiv]
        linarith only [e4, e5]
      have := mul_le_mul_of_nonneg_left e3 hε.le
      linarith only [this, show P.ε * (10 * (1 / γ)) = 10 * (P.ε / γ) by ring]
    rw [mul_div_assoc]
    linarith only [e2]

/-- Half extension on a platform with correct rounding. -/
example : ∃ v, inverse_langevin (.fin 0.5 : F64 correctlyRounded) = .fin v ∧ 0 < v ∧
    |(1 / tanh v - 1 / v) - 0.5| ≤ 6e-12 / (1 - 0.5) + 9000 * correctlyRounded.ε / 0.5 :=
  C75_inverse_langevin_converged correctlyRounded (by norm_num) (by norm_num)

end Polymers.Props
