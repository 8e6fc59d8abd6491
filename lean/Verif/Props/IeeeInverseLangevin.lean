import Verif.Props.IeeeFjc
import Verif.Props.IeeeOverflow
import Verif.Model.Math

/-! C74: the inverse Langevin function and the Legendre approach near full extension, in floating point. -/

namespace Polymers.Lemmas

open Polymers.Ieee Polymers.Spec Polymers.math Polymers.Props Real

variable {P : Platform}

theorem pow_lo : (2 : ℝ) ^ (-1000 : ℤ) ≤ 1e-30 ∧ (1e30 : ℝ) ≤ 2 ^ (1000 : ℤ) ∧ (2 : ℝ) ^ (-990 : ℤ) ≤ 1e-30 ∧
    (1e30 : ℝ) ≤ 2 ^ (990 : ℤ) ∧ (2 : ℝ) ^ (-1022 : ℤ) ≤ 1e-30 := by
  have a : (2 : ℝ) ^ (-100 : ℤ) ≤ 1e-30 := by norm_num
  have b : (1e30 : ℝ) ≤ 2 ^ (100 : ℤ) := by norm_num
  exact ⟨(zpow_two_le (by norm_num)).trans a, b.trans (zpow_two_le (by norm_num)), (zpow_two_le (by norm_num)).trans a,
    b.trans (zpow_two_le (by norm_num)), (zpow_two_le (by norm_num)).trans a⟩

/-- Decimal literals. -/
theorem rel_lit {r : ℝ} (h1 : 1e-30 ≤ |r|) (h2 : |r| ≤ 1e30) : Rel (F64.out (P.rnd r) : F64 P) r (unit P) :=
  rel_rnd (pow_lo.1.trans h1) (h2.trans pow_lo.2.1)

theorem _root_.Polymers.Lemmas.Rel.within_nat {x : F64 P} {r : ℝ} {n : ℕ} (h : Rel x r (n * unit P)) (hn : n ≤ 100000) :
    Within x r ((n + 1) * P.ε * |r|) :=
  h.within.mono (mul_le_mul_of_nonneg_right (exp_units_le hn) (abs_nonneg _))

/-- Simplified forms of the absolute error lemmas for numbers of moderate size. -/
theorem within_add' {x y : F64 P} {r s e e' : ℝ} (hx : Within x r e) (hy : Within y s e') (h : |r + s| + (e + e') ≤ 1e20) :
    Within (x + y) (r + s) (e + e' + P.ε * (|r + s| + (e + e') + 1e-30)) := by
  have h1 := pow_lo.2.1
  refine (within_add hx hy (h.trans (le_trans (by norm_num) h1))).mono ?_
  have := mul_le_mul_of_nonneg_left pow_lo.2.2.2.2 (eps_pos P).le
  generalize (2 : ℝ) ^ (-1022 : ℤ) = c at *
  linarith

theorem within_sub' {x y : F64 P} {r s e e' : ℝ} (hx : Within x r e) (hy : Within y s e') (h : |r - s| + (e + e') ≤ 1e20) :
    Within (x - y) (r - s) (e + e' + P.ε * (|r - s| + (e + e') + 1e-30)) := by
  have h1 := pow_lo.2.1
  refine (within_sub hx hy (h.trans (le_trans (by norm_num) h1))).mono ?_
  have := mul_le_mul_of_nonneg_left pow_lo.2.2.2.2 (eps_pos P).le
  generalize (2 : ℝ) ^ (-1022 : ℤ) = c at *
  linarith

theorem within_refl (r : ℝ) : Within (.fin r : F64 P) r 0 := ⟨r, rfl, by simp⟩

/-- The Padé approximation which starts the iteration, near full extension. -/
noncomputable def padeGuess (y : F64 P) : F64 P :=
  (2.14234 * Elem.powi y 3 - 4.22785 * Elem.powi y 2 + 3.0 * y) / (1.0 - y)
    / (0.71716 * Elem.powi y 3 - 0.41103 * Elem.powi y 2 - 0.39165 * y + 1.0)

theorem rel_mul' {x y : F64 P} {r s d d' : ℝ} (hx : Rel x r d) (hy : Rel y s d') (hd : d + d' ≤ 1) (h1 : 1e-30 ≤ |r * s|)
    (h2 : |r * s| ≤ 1e30) : Rel (x * y) (r * s) (d + d' + unit P) :=
  rel_mul hx hy hd (pow_lo.1.trans h1) (h2.trans pow_lo.2.1)

theorem rel_div' {x y : F64 P} {r s d d' : ℝ} (hx : Rel x r d) (hy : Rel y s d') (hd : d + d' ≤ 1) (h1 : 1e-30 ≤ |r / s|)
    (h2 : |r / s| ≤ 1e30) : Rel (x / y) (r / s) (d + d' + unit P) :=
  rel_div hx hy hd (pow_lo.1.trans h1) (h2.trans pow_lo.2.1)

theorem unit_small (P : Platform) : unit P ≤ 1.1e-12 := by
  have h1 := unit_le P
  have h2 := eps_small P
  nlinarith

/-- A number with a small absolute error has a small relative error. -/
theorem rel_of_within {x : F64 P} {r e d : ℝ} (h : Within x r e) (hr : 0 < r) (he : e ≤ d / 2 * r) (hd : d ≤ 1) : Rel x r d := by
  obtain ⟨v, rfl, hv⟩ := h
  have h1 := abs_le.1 hv
  have he0 : 0 ≤ e := (abs_nonneg _).trans hv
  have hd0 : 0 ≤ d := by
    by_contra hneg
    push Not at hneg
    nlinarith
  have hv0 : 0 < v := by nlinarith
  refine ⟨log (v / r), ?_, ?_⟩
  · have hq : 0 < v / r := by positivity
    have q1 : v / r - 1 ≤ d / 2 := by rw [div_sub_one hr.ne', div_le_iff₀ hr]; linarith
    have q2 : -(d / 2) ≤ v / r - 1 := by rw [div_sub_one hr.ne', le_div_iff₀ hr]; linarith
    have l1 := log_le_sub_one_of_pos hq
    have l2 := one_sub_inv_le_log_of_pos hq
    have l3 : (v / r)⁻¹ ≤ 1 + d := by
      rw [inv_le_iff_one_le_mul₀ hq]
      nlinarith
    rw [abs_le]
    constructor <;> linarith
  · rw [exp_log (by positivity), mul_div_cancel₀ _ hr.ne']

/-- A number with an absolute error divided by one with a relative error. -/
theorem within_div_rel {x y : F64 P} {r s e d : ℝ} (hx : Within x r e) (hy : Rel y s d) (hs : 0 < s)
    (h : |r / s| + (e + (|r| + e) * (exp d - 1)) / s ≤ 1e20) :
    Within (x / y) (r / s) ((e + (|r| + e) * (exp d - 1)) / s +
      P.ε * (|r / s| + (e + (|r| + e) * (exp d - 1)) / s + 1e-30)) := by
  obtain ⟨q, rfl, hq⟩ := hx
  obtain ⟨δ, hδ, rfl⟩ := hy
  have h1 := pow_lo.2.1
  have hd0 : s * exp δ ≠ 0 := by positivity
  have h2 : |q| ≤ |r| + e := by
    have := abs_sub_abs_le_abs_sub q r
    linarith
  have h3 : |q / (s * exp δ) - r / s| ≤ (e + (|r| + e) * (exp d - 1)) / s := by
    have e1 : q / (s * exp δ) - r / s = ((q - r) + q * (exp (-δ) - 1)) / s := by
      rw [exp_neg]
      field_simp
      ring
    rw [e1, abs_div, abs_of_pos hs]
    refine div_le_div_of_nonneg_right ?_ hs.le
    have e2 := abs_exp_sub_one_le (show |-δ| ≤ d by rwa [abs_neg])
    calc |q - r + q * (exp (-δ) - 1)| ≤ |q - r| + |q| * |exp (-δ) - 1| := by rw [← abs_mul]; exact abs_add_le _ _
      _ ≤ _ := add_le_add hq (mul_le_mul h2 e2 (abs_nonneg _) ((abs_nonneg _).trans h2))
  have h4 := within_approx (P := P) (w := P.rnd (q / (s * exp δ))) (rnd_err' P _) h3 (h.trans (le_trans (by norm_num) h1))
  have h5 : (F64.fin q / F64.fin (s * exp δ) : F64 P) = F64.out (P.rnd (q / (s * exp δ))) := by
    show (if _ then _ else _) = _
    rw [if_neg hd0]
  rw [h5]
  refine h4.mono ?_
  have := mul_le_mul_of_nonneg_left pow_lo.2.2.2.2 (eps_pos P).le
  generalize (2 : ℝ) ^ (-1022 : ℤ) = c at *
  linarith

/-- Subtracting zero rounds. -/
theorem rel_sub_zero {x : F64 P} {r d : ℝ} (hx : Rel x r d) (hd : d ≤ 1) (h1 : 1e-30 ≤ |r|) (h2 : |r| ≤ 1e30) :
    Rel (x - (.fin 0 : F64 P)) r (d + unit P) := by
  have h := rel_div' hx (rel_refl (P := P) 1) (by linarith) (by simpa using h1) (by simpa using h2)
  obtain ⟨δ, hδ, rfl⟩ := hx
  have e1 : (F64.fin (r * exp δ) / F64.fin 1 : F64 P) = F64.out (P.rnd (r * exp δ / 1)) := by
    show (if _ then _ else _) = _
    rw [if_neg one_ne_zero]
  rw [e1] at h
  have e2 : (F64.fin (r * exp δ) - F64.fin 0 : F64 P) = F64.out (P.rnd (r * exp δ - 0)) := rfl
  rw [e2]
  simpa using h

theorem coth_large {v : ℝ} (h : 711 ≤ v) : 0 < 1 / tanh v - 1 ∧ 1 / tanh v - 1 ≤ 1e-30 := by
  have h0 : 0 < v := by linarith
  obtain ⟨c1, -, c3⟩ := coth_bounds h0
  refine ⟨by linarith, ?_⟩
  have e1 : (1 : ℝ) * 1e30 * 10 ≤ exp v := by
    refine le_trans ?_ (exp_711 h)
    have : (2 : ℝ) ^ 110 ≤ 2 ^ (1025 : ℕ) := pow_le_pow_right₀ (by norm_num) (by norm_num)
    generalize (2 : ℝ) ^ (1025 : ℕ) = a at *
    norm_num at this ⊢
    linarith
  have e2 : exp (-v) * exp v = 1 := by rw [← exp_add]; simp
  have e3 := exp_pos v
  have e4 := exp_pos (-v)
  rw [tanh_eq_sinh_div_cosh, sinh_eq, cosh_eq]
  have e5 : exp (-v) ≤ 1 := by rw [exp_le_one_iff]; linarith
  rw [one_div_div, div_sub_one (by linarith), div_le_iff₀ (by linarith)]
  nlinarith

/-- One Newton step of the inverse Langevin function near full extension, in floating point. -/
theorem newton_step {γ v : ℝ} (h1 : 1e-8 ≤ 1 - γ) (h2 : 1 - γ ≤ 1.3e-3) (hv : |(1 - γ) * v - 1| ≤ 0.02) :
    ∃ v', (.fin v : F64 P) + ((.fin γ : F64 P) - (1.0 / Elem.tanh (.fin v : F64 P) - 1.0 / (.fin v : F64 P))) /
      (1.0 / Elem.powi (.fin v : F64 P) 2 - 1.0 / Elem.powi (Elem.sinh (.fin v : F64 P)) 2) = .fin v' ∧
      |(1 - γ) * v' - 1| ≤ ((1 - γ) * v - 1) ^ 2 + 7 * P.ε / (1 - γ) := by
  obtain ⟨a1, a2⟩ := abs_le.1 hv
  have hc : 0 < 1 - γ := by linarith
  have hv1 : 753 ≤ v := by nlinarith
  have hv2 : v ≤ 1.02e8 := by nlinarith
  have hv0 : 0 < v := by linarith
  have hε := eps_pos P
  have hε' := eps_small P
  have hεl : 1e-16 ≤ P.ε := le_trans (by norm_num) P.le_ε
  have hu := unit_small P
  have hup := unit_pos P
  obtain ⟨t1, t2⟩ := coth_large (v := v) (by linarith)
  have hiv : 1 / v ≤ 1 / 753 := one_div_le_one_div_of_le (by norm_num) hv1
  have hiv0 : 0 < 1 / v := by positivity
  -- the residual
  have hf : Within ((1.0 : F64 P) / Elem.tanh (.fin v) - (1.0 : F64 P) / (.fin v)) (1 - 1 / v) (6.01 * P.ε) := by
    obtain ⟨w, hw, hw'⟩ := within_langevin (P := P) (η := v) ((zpow_two_le (show (-900 : ℤ) ≤ 0 by norm_num)).trans (by norm_num; linarith))
      (le_trans (by linarith) ((show (1e9 : ℝ) ≤ 2 ^ (40 : ℤ) by norm_num).trans (zpow_two_le (by norm_num))))
    refine ⟨w, hw, ?_⟩
    have e1 : w - (1 - 1 / v) = (w - langevin v) + (1 / tanh v - 1) := by unfold langevin; ring
    rw [e1]
    refine (abs_add_le _ _).trans ?_
    rw [abs_of_pos t1]
    have e2 : P.ε * (6 + 6 / v) ≤ P.ε * 6.008 := by
      refine mul_le_mul_of_nonneg_left ?_ hε.le
      rw [show 6 / v = 6 * (1 / v) by ring]
      linarith
    nlinarith
  have hr : γ - (1 - 1 / v) = 1 / v - (1 - γ) := by ring
  have hrb : |1 / v - (1 - γ)| ≤ 0.003 := by rw [abs_le]; constructor <;> linarith
  have hq : Within ((.fin γ : F64 P) - ((1.0 : F64 P) / Elem.tanh (.fin v) - (1.0 : F64 P) / (.fin v))) (1 / v - (1 - γ))
      (6.1 * P.ε) := by
    have := within_sub' (within_refl (P := P) γ) hf (by rw [hr]; linarith)
    rw [hr] at this
    refine this.mono ?_
    have : P.ε * (|1 / v - (1 - γ)| + (0 + 6.01 * P.ε) + 1e-30) ≤ P.ε * 0.01 := mul_le_mul_of_nonneg_left (by linarith) hε.le
    linarith
  -- the slope
  have hvv : 1e5 ≤ v ^ (2 : ℤ) := by norm_cast; nlinarith
  have hvv' : v ^ (2 : ℤ) ≤ 1.1e16 := by norm_cast; nlinarith
  have hvp : 0 < v ^ (2 : ℤ) := by positivity
  have hp := rel_powi (rel_refl (P := P) v) 2 hv0.ne' (by norm_num) (by norm_num) (by norm_num)
    (by rw [abs_of_pos hvp]; exact pow_lo.2.2.1.trans (by linarith)) (by rw [abs_of_pos hvp]; exact le_trans (by linarith) pow_lo.2.2.2.1)
  have hinf : (1.0 : F64 P) / Elem.powi (Elem.sinh (.fin v : F64 P)) 2 = .fin 0 := by
    rw [sinh_overflow (by linarith), lit_one]
    rfl
  have hfp : Rel ((1.0 : F64 P) / Elem.powi (.fin v : F64 P) 2 - 1.0 / Elem.powi (Elem.sinh (.fin v : F64 P)) 2)
      (1 / v ^ (2 : ℤ)) ((5 : ℕ) * unit P) := by
    rw [hinf, lit_one]
    have l1 : 1e-30 ≤ |1 / v ^ (2 : ℤ)| := by
      rw [abs_of_pos (by positivity), le_div_iff₀ hvp]; linarith
    have l2 : |1 / v ^ (2 : ℤ)| ≤ 1e30 := by
      rw [abs_of_pos (by positivity), div_le_iff₀ hvp]; linarith
    have h3 := rel_div' (rel_refl (P := P) 1) hp (by norm_num; linarith) l1 l2
    have h4 := rel_sub_zero h3 (by norm_num; linarith) l1 l2
    refine h4.mono ?_
    norm_num
    linarith
  -- the quotient
  have hexp := exp_units_le (P := P) (n := 5) (by norm_num)
  have hexp0 : 0 ≤ exp ((5 : ℕ) * unit P) - 1 := by
    have := add_one_le_exp ((5 : ℕ) * unit P)
    have : 0 ≤ (5 : ℕ) * unit P := by positivity
    linarith
  have hqv : (1 / v - (1 - γ)) / (1 / v ^ (2 : ℤ)) = v * (1 - (1 - γ) * v) := by
    rw [zpow_ofNat]; field_simp
  have hE : (6.1 * P.ε + (|1 / v - (1 - γ)| + 6.1 * P.ε) * (exp ((5 : ℕ) * unit P) - 1)) / (1 / v ^ (2 : ℤ)) ≤ 6.2 * P.ε * v ^ 2 := by
    rw [zpow_ofNat, div_div_eq_mul_div, div_one]
    refine mul_le_mul_of_nonneg_right ?_ (by positivity)
    have : (|1 / v - (1 - γ)| + 6.1 * P.ε) * (exp ((5 : ℕ) * unit P) - 1) ≤ 0.004 * (6 * P.ε) :=
      mul_le_mul (by linarith) (hexp.trans (by norm_num)) hexp0 (by norm_num)
    linarith
  have hvb : 6.2 * P.ε * v ^ 2 ≤ 6.2e-12 * v ^ 2 := by nlinarith
  have hvb' : v ^ 2 ≤ 1.1e16 := by rw [zpow_ofNat] at hvv'; exact hvv'
  have hm : |v * (1 - (1 - γ) * v)| ≤ 0.02 * v := by
    rw [abs_mul, abs_of_pos hv0, abs_sub_comm, mul_comm]
    exact mul_le_mul_of_nonneg_right hv hv0.le
  have hd := within_div_rel hq hfp (by positivity) (by rw [hqv]; exact (add_le_add hm hE).trans (by linarith only [hvb, hvb', hv2]))
  rw [hqv] at hd
  have hd' : Within (((.fin γ : F64 P) - ((1.0 : F64 P) / Elem.tanh (.fin v) - (1.0 : F64 P) / (.fin v))) /
      ((1.0 : F64 P) / Elem.powi (.fin v : F64 P) 2 - 1.0 / Elem.powi (Elem.sinh (.fin v : F64 P)) 2)) (v * (1 - (1 - γ) * v))
      (6.3 * P.ε * v ^ 2) := by
    refine hd.mono ?_
    have h5 : P.ε * (|v * (1 - (1 - γ) * v)| + (6.1 * P.ε + (|1 / v - (1 - γ)| + 6.1 * P.ε) * (exp ((5 : ℕ) * unit P) - 1)) / (1 / v ^ (2 : ℤ)) + 1e-30)
        ≤ P.ε * (0.1 * v ^ 2) := by
      refine mul_le_mul_of_nonneg_left ((add_le_add (add_le_add hm hE) le_rfl).trans ?_) hε.le
      nlinarith only [hvb, hv1]
    exact (add_le_add hE h5).trans (by linarith only)
  -- the new iterate
  have h6 : |v + v * (1 - (1 - γ) * v)| ≤ 1.02 * v := by
    have := abs_add_le v (v * (1 - (1 - γ) * v))
    rw [abs_of_pos hv0] at this
    linarith only [this, hm]
  have hvc : 6.3 * P.ε * v ^ 2 ≤ 6.3e-12 * v ^ 2 := by nlinarith only [hε', sq_nonneg v]
  have hs := within_add' (within_refl (P := P) v) hd' (by linarith only [h6, hvc, hvb', hv2])
  obtain ⟨v', e1, e2⟩ := hs
  refine ⟨v', e1, ?_⟩
  have h7 : 0 + 6.3 * P.ε * v ^ 2 + P.ε * (|v + v * (1 - (1 - γ) * v)| + (0 + 6.3 * P.ε * v ^ 2) + 1e-30) ≤ 6.4 * P.ε * v ^ 2 := by
    have : P.ε * (|v + v * (1 - (1 - γ) * v)| + (0 + 6.3 * P.ε * v ^ 2) + 1e-30) ≤ P.ε * (0.1 * v ^ 2) := by
      refine mul_le_mul_of_nonneg_left ?_ hε.le
      nlinarith only [h6, hvc, hv1]
    linarith only [this]
  have h8 := e2.trans h7
  have h9 : (1 - γ) * v' - 1 = -((1 - γ) * v - 1) ^ 2 + (1 - γ) * (v' - (v + v * (1 - (1 - γ) * v))) := by ring
  rw [h9]
  refine (abs_add_le _ _).trans ?_
  rw [abs_neg, abs_of_nonneg (sq_nonneg _), abs_mul, abs_of_pos hc]
  refine add_le_add le_rfl ?_
  rw [le_div_iff₀ hc]
  have h10 : ((1 - γ) * v) ^ 2 ≤ 1.05 := by nlinarith only [a1, a2]
  have h11 := mul_le_mul_of_nonneg_left h8 (mul_pos hc hc).le
  have h12 := mul_le_mul_of_nonneg_left h10 hε.le
  nlinarith only [h11, h12, hε]

theorem pade_bounds {γ : ℝ} (hc : 0 < 1 - γ) (h2 : 1 - γ ≤ 1.3e-3) :
    |2.14234 * γ ^ 3 - 4.22785 * γ ^ 2 + 3 * γ - (0.71716 * γ ^ 3 - 0.41103 * γ ^ 2 - 0.39165 * γ + 1)| ≤ 6e-5 ∧
    0.9 ≤ 0.71716 * γ ^ 3 - 0.41103 * γ ^ 2 - 0.39165 * γ + 1 ∧ 0.71716 * γ ^ 3 - 0.41103 * γ ^ 2 - 0.39165 * γ + 1 ≤ 1 := by
  have e1 : 2.14234 * γ ^ 3 - 4.22785 * γ ^ 2 + 3 * γ - (0.71716 * γ ^ 3 - 0.41103 * γ ^ 2 - 0.39165 * γ + 1) =
    1e-5 - 0.03355 * (1 - γ) + 0.45872 * (1 - γ) ^ 2 - 1.42518 * (1 - γ) ^ 3 := by ring
  have e2 : 0.71716 * γ ^ 3 - 0.41103 * γ ^ 2 - 0.39165 * γ + 1 =
    0.91448 - 0.93777 * (1 - γ) + 1.74045 * (1 - γ) ^ 2 - 0.71716 * (1 - γ) ^ 3 := by ring
  rw [e1, e2]
  generalize 1 - γ = c at *
  have h3 : c ^ 2 ≤ 1.3e-3 * c := by nlinarith
  have h4 : c ^ 3 ≤ 1.3e-3 * c ^ 2 := by nlinarith [sq_nonneg c]
  have h5 : 0 < c ^ 2 := by positivity
  have h6 : 0 < c ^ 3 := by positivity
  refine ⟨abs_le.2 ⟨?_, ?_⟩, ?_, ?_⟩ <;> linarith

set_option maxHeartbeats 1000000 in
/-- The Padé approximation near full extension, in floating point. -/
theorem pade_start {γ : ℝ} (h1 : 1e-8 ≤ 1 - γ) (h2 : 1 - γ ≤ 1.3e-3) :
    ∃ v, padeGuess (.fin γ : F64 P) = .fin v ∧ |(1 - γ) * v - 1| ≤ 2e-4 := by
  have hc : 0 < 1 - γ := by linarith
  have hγ : 0.99 ≤ γ := by linarith
  have hγ' : γ ≤ 1 := by linarith
  have hγ0 : 0 < γ := by linarith
  have hε := eps_pos P
  have hε' := eps_small P
  have hu := unit_small P
  have hup := unit_pos P
  have c2 : γ ^ 2 ≤ 1 := pow_le_one₀ hγ0.le hγ'
  have c3 : γ ^ 3 ≤ 1 := pow_le_one₀ hγ0.le hγ'
  have b2 : 0.97 ≤ γ ^ 2 := by nlinarith
  have b3 : 0.96 ≤ γ ^ 3 := by nlinarith
  have p3 : Rel (Elem.powi (.fin γ : F64 P) 3) (γ ^ 3) (4 * unit P) := by
    have := rel_powi (rel_refl (P := P) γ) 3 hγ0.ne' (by norm_num) (by norm_num) (by norm_num)
      (by rw [zpow_ofNat, abs_of_pos (by positivity)]; exact pow_lo.2.2.1.trans (by linarith))
      (by rw [zpow_ofNat, abs_of_pos (by positivity)]; exact le_trans (by linarith) pow_lo.2.2.2.1)
    rw [zpow_ofNat] at this
    refine this.mono ?_
    norm_num
  have p2 : Rel (Elem.powi (.fin γ : F64 P) 2) (γ ^ 2) (3 * unit P) := by
    have := rel_powi (rel_refl (P := P) γ) 2 hγ0.ne' (by norm_num) (by norm_num) (by norm_num)
      (by rw [zpow_ofNat, abs_of_pos (by positivity)]; exact pow_lo.2.2.1.trans (by linarith))
      (by rw [zpow_ofNat, abs_of_pos (by positivity)]; exact le_trans (by linarith) pow_lo.2.2.2.1)
    rw [zpow_ofNat] at this
    refine this.mono ?_
    norm_num
  have term : ∀ {a r : ℝ} {d : ℝ} {x y : F64 P}, Rel x a (unit P) → Rel y r d → d ≤ 4 * unit P → 0.1 ≤ a → a ≤ 5 → 0.9 ≤ r → r ≤ 1 →
      Within (x * y) (a * r) 5e-11 := by
    intro a r d x y hx hy hd ha ha' hr hr'
    have hp : 0 < a * r := by nlinarith
    have e1 := rel_mul' hx hy (by linarith) (by rw [abs_of_pos hp]; nlinarith) (by rw [abs_of_pos hp]; nlinarith)
    have e2 := (e1.mono (show unit P + d + unit P ≤ (6 : ℕ) * unit P by push_cast; linarith)).within_nat (by norm_num)
    refine e2.mono ?_
    rw [abs_of_pos hp]
    push_cast
    have : a * r ≤ 5 := by nlinarith
    nlinarith
  have t1 := term (rel_lit (P := P) (r := 2.14234) (by norm_num) (by norm_num)) p3 le_rfl (by norm_num) (by norm_num) (by linarith) c3
  have t2 := term (rel_lit (P := P) (r := 4.22785) (by norm_num) (by norm_num)) p2 (by linarith) (by norm_num) (by norm_num) (by linarith) c2
  have l3 : Rel (3.0 : F64 P) 3 (unit P) := by
    have : Rel (3.0 : F64 P) (3.0 : ℝ) (unit P) := rel_lit (by norm_num) (by norm_num)
    rwa [show (3.0 : ℝ) = 3 by norm_num] at this
  have t3 := term l3 (rel_refl γ) (by linarith) (by norm_num) (by norm_num) (by linarith) hγ'
  have s1 := term (rel_lit (P := P) (r := 0.71716) (by norm_num) (by norm_num)) p3 le_rfl (by norm_num) (by norm_num) (by linarith) c3
  have s2 := term (rel_lit (P := P) (r := 0.41103) (by norm_num) (by norm_num)) p2 (by linarith) (by norm_num) (by norm_num) (by linarith) c2
  have s3 := term (rel_lit (P := P) (r := 0.39165) (by norm_num) (by norm_num)) (rel_refl γ) (by linarith) (by norm_num) (by norm_num) (by linarith) hγ'
  have sub1 : ∀ {x y : F64 P} {r s e e' : ℝ}, Within x r e → Within y s e' → |r - s| ≤ 5 → e + e' ≤ 1 → Within (x - y) (r - s) (e + e' + 1e-11) := by
    intro x y r s e e' hx hy h h'
    refine (within_sub' hx hy (by linarith)).mono ?_
    nlinarith
  have add1 : ∀ {x y : F64 P} {r s e e' : ℝ}, Within x r e → Within y s e' → |r + s| ≤ 5 → e + e' ≤ 1 → Within (x + y) (r + s) (e + e' + 1e-11) := by
    intro x y r s e e' hx hy h h'
    refine (within_add' hx hy (by linarith)).mono ?_
    nlinarith
  have n1 := add1 (sub1 t1 t2 (by rw [abs_le]; constructor <;> nlinarith) (by norm_num)) t3 (by rw [abs_le]; constructor <;> nlinarith) (by norm_num)
  have d1 := add1 (sub1 (sub1 s1 s2 (by rw [abs_le]; constructor <;> nlinarith) (by norm_num)) s3
    (by rw [abs_le]; constructor <;> nlinarith) (by norm_num)) (within_refl (P := P) 1) (by rw [abs_le]; constructor <;> nlinarith) (by norm_num)
  set n := 2.14234 * γ ^ 3 - 4.22785 * γ ^ 2 + 3 * γ with hn
  set d := 0.71716 * γ ^ 3 - 0.41103 * γ ^ 2 - 0.39165 * γ + 1 with hd
  obtain ⟨hnd, hdl, hdu⟩ := pade_bounds (γ := γ) hc h2
  rw [← hn, ← hd] at hnd
  rw [← hd] at hdl hdu
  have hn1 : 0.89 ≤ n := by linarith only [(abs_le.1 hnd).1, hdl]
  have hn2 : n ≤ 1.01 := by linarith only [(abs_le.1 hnd).2, hdu]
  clear_value n d
  clear term sub1 add1 t1 t2 t3 s1 s2 s3 p2 p3 b2 b3 c2 c3
  have hnl := (abs_le.1 hnd).1
  have hnu := (abs_le.1 hnd).2
  have rn := rel_of_within (d := 1e-9) n1 (by linarith) (by linarith) (by norm_num)
  have rd := rel_of_within (d := 1e-9) d1 (by linarith) (by linarith) (by norm_num)
  have rc : Rel ((1.0 : F64 P) - .fin γ) (1 - γ) (unit P) := by
    rw [lit_one]
    exact rel_lit (by rw [abs_of_pos hc]; linarith) (by rw [abs_of_pos hc]; linarith)
  have q1b : 0.89 ≤ n / (1 - γ) := by rw [le_div_iff₀ hc]; linarith only [hn1, h2, hc]
  have q1u : n / (1 - γ) ≤ 1.1e8 := by rw [div_le_iff₀ hc]; linarith only [hn2, h1]
  have q1 := rel_div' rn rc (by linarith) (by rw [abs_of_pos (by linarith)]; linarith) (by rw [abs_of_pos (by linarith)]; linarith)
  have q2b : 0.89 ≤ n / (1 - γ) / d := by rw [le_div_iff₀ (by linarith)]; linarith only [q1b, hdu]
  have q2u : n / (1 - γ) / d ≤ 1.3e8 := by rw [div_le_iff₀ (by linarith)]; linarith only [q1u, hdl]
  have q2 := rel_div' q1 rd (by linarith) (by rw [abs_of_pos (by linarith)]; linarith) (by rw [abs_of_pos (by linarith)]; linarith)
  obtain ⟨δ, hδ, hv⟩ := q2
  refine ⟨n / (1 - γ) / d * exp δ, ?_, ?_⟩
  · rw [← hv]
    unfold padeGuess
    rw [show (0.71716 * Elem.powi (.fin γ : F64 P) 3 - 0.41103 * Elem.powi (.fin γ : F64 P) 2 - 0.39165 * (.fin γ : F64 P) + 1.0) =
      (0.71716 * Elem.powi (.fin γ : F64 P) 3 - 0.41103 * Elem.powi (.fin γ : F64 P) 2 - 0.39165 * (.fin γ : F64 P) + .fin 1) by rw [lit_one]]
    rfl
  · have e1 : (1 - γ) * (n / (1 - γ) / d * exp δ) - 1 = (n - d) / d * exp δ + (exp δ - 1) := by
      have : d ≠ 0 := by linarith
      field_simp
      ring
    rw [e1]
    have e2 := abs_exp_sub_one_le hδ
    have e3 : exp (1e-9 + unit P + unit P + 1e-9 + unit P) - 1 ≤ 1e-8 := by
      have := exp_bound_div_one_sub_of_interval (x := 1e-9 + unit P + unit P + 1e-9 + unit P) (by linarith) (by linarith)
      have h3 : 1 / (1 - (1e-9 + unit P + unit P + 1e-9 + unit P)) ≤ 1 + 1e-8 := by
        rw [div_le_iff₀ (by linarith)]
        nlinarith
      linarith
    have e4 : |exp δ| ≤ 1.1 := by
      rw [abs_of_pos (exp_pos _)]
      have := (abs_le.1 e2).2
      linarith
    refine (abs_add_le _ _).trans ?_
    rw [abs_mul, abs_div, abs_of_pos (show 0 < d by linarith)]
    have e5 : |n - d| / d ≤ 7e-5 := by rw [div_le_iff₀ (by linarith)]; nlinarith
    have e6 : |n - d| / d * |exp δ| ≤ 7e-5 * 1.1 := mul_le_mul e5 e4 (abs_nonneg _) (by norm_num)
    linarith

/-- The loop keeps the relative accuracy of its start, and improves it if it runs. -/
theorem newton_loop {γ : ℝ} (h1 : 1e-8 ≤ 1 - γ) (h2 : 1 - γ ≤ 1.3e-3) (tol : F64 P) (k : ℕ) (v : ℝ) (res : F64 P)
    (hv : |(1 - γ) * v - 1| ≤ 5e-8 + 8 * P.ε / (1 - γ)) :
    ∃ v', inverse_newton_raphson_loop (.fin γ : F64 P) (fun x => 1.0 / Elem.tanh x - 1.0 / x)
      (fun x => 1.0 / Elem.powi x 2 - 1.0 / Elem.powi (Elem.sinh x) 2) tol k (.fin v) res = .fin v' ∧
      |(1 - γ) * v' - 1| ≤ 5e-8 + 8 * P.ε / (1 - γ) := by
  have hε := eps_pos P
  have hε' := eps_small P
  have hc : 0 < 1 - γ := by linarith
  have hq : P.ε / (1 - γ) ≤ 1e-4 := by rw [div_le_iff₀ hc]; nlinarith
  have hq0 : 0 < P.ε / (1 - γ) := by positivity
  induction k generalizing v res with
  | zero => exact ⟨v, rfl, hv⟩
  | succ k ih =>
    unfold inverse_newton_raphson_loop
    split
    · rw [mul_div_assoc] at hv
      obtain ⟨w, e1, e2⟩ := newton_step (P := P) h1 h2 (hv.trans (by linarith))
      simp only [e1]
      refine ih w _ (e2.trans ?_)
      rw [mul_div_assoc, mul_div_assoc]
      have : ((1 - γ) * v - 1) ^ 2 ≤ (5e-8 + 8 * (P.ε / (1 - γ))) ^ 2 := sq_le_sq' (by linarith [(abs_le.1 hv).1]) (abs_le.1 hv).2
      nlinarith
    · exact ⟨v, rfl, hv⟩

theorem inverse_langevin_near_one {γ : ℝ} (h1 : 1e-8 ≤ 1 - γ) (h2 : 1 - γ ≤ 1.3e-3) :
    ∃ v, inverse_langevin (.fin γ : F64 P) = .fin v ∧ |(1 - γ) * v - 1| ≤ 5e-8 + 8 * P.ε / (1 - γ) := by
  have hε := eps_pos P
  have hε' := eps_small P
  have hc : 0 < 1 - γ := by linarith
  have hq : P.ε / (1 - γ) ≤ 1e-4 := by rw [div_le_iff₀ hc]; nlinarith
  have hq0 : 0 < P.ε / (1 - γ) := by positivity
  have small : ∀ {r : ℝ}, 1e-30 ≤ r → r ≤ 0.1 → ∃ t, (F64.out (P.rnd r) : F64 P) = .fin t ∧ t ≤ 0.2 := by
    intro r hr hr'
    obtain ⟨t, ht, ht'⟩ := ((rel_lit (P := P) (r := r) (by rw [abs_of_pos (by linarith)]; exact hr)
      (by rw [abs_of_pos (by linarith)]; linarith)).mono (show unit P ≤ (1 : ℕ) * unit P by simp)).within_nat (by norm_num)
    refine ⟨t, ht, ?_⟩
    rw [abs_of_pos (show 0 < r by linarith)] at ht'
    have := (abs_le.1 ht').2
    push_cast at this
    nlinarith
  obtain ⟨t, ht, ht'⟩ := small (r := 1e-3) (by norm_num) (by norm_num)
  obtain ⟨t6, ht6, ht6'⟩ := small (r := 1e-6) (by norm_num) (by norm_num)
  have hle : Elem.le (.fin γ : F64 P) 1e-3 = false := by
    rw [show (1e-3 : F64 P) = .fin t from ht]
    show decide (γ ≤ t) = false
    rw [decide_eq_false_iff_not]
    linarith
  have hlt : Elem.lt (1e-6 : F64 P) 1.0 = true := by
    rw [show (1e-6 : F64 P) = .fin t6 from ht6, lit_one]
    show decide (t6 < 1) = true
    rw [decide_eq_true_iff]
    linarith
  obtain ⟨v, e1, e2⟩ := pade_start (P := P) h1 h2
  unfold inverse_langevin
  rw [hle]
  simp only [Bool.false_eq_true, if_false]
  unfold inverse_newton_raphson
  unfold padeGuess at e1
  rw [e1]
  unfold inverse_newton_raphson_loop
  rw [hlt]
  simp only [if_true]
  obtain ⟨w, f1, f2⟩ := newton_step (P := P) h1 h2 (e2.trans (by norm_num))
  simp only [f1]
  refine newton_loop h1 h2 _ _ _ _ (f2.trans ?_)
  rw [mul_div_assoc, mul_div_assoc]
  have : ((1 - γ) * v - 1) ^ 2 ≤ 2e-4 ^ 2 := sq_le_sq' (by linarith [(abs_le.1 e2).1]) (abs_le.1 e2).2
  linarith

end Polymers.Lemmas

namespace Polymers.Props

open Polymers.Ieee Polymers.Spec Polymers.Lemmas Polymers.ApiF Polymers.math Real

/-- C74: in floating point the inverse Langevin function near full extension is finite and has a relative error of at most
`6e-8 + 9 ε / (1 - γ)`: the rounding errors are amplified by the inverse distance to full extension, and the iteration does not
lose more than that. -/
theorem C74_inverse_langevin_near_full_extension (P : Platform) {γ x : ℝ} (h1 : 1e-8 ≤ 1 - γ) (h2 : 1 - γ ≤ 1.3e-3) (hx : 0 < x)
    (hγ : γ = 1 / tanh x - 1 / x) :
    Within (inverse_langevin (.fin γ : F64 P)) x ((6e-8 + 9 * P.ε / (1 - γ)) * x) := by
  obtain ⟨v, e1, e2⟩ := inverse_langevin_near_one (P := P) h1 h2
  have hc : 0 < 1 - γ := by linarith
  have hx1 : 711 ≤ x := by
    by_contra hlt
    push Not at hlt
    have h3 := langevin_strictMonoOn (Set.mem_Ioi.2 hx) (Set.mem_Ioi.2 (by norm_num : (0 : ℝ) < 711)) hlt
    have h4 := (coth_large (v := 711) le_rfl).2
    unfold langevin at h3
    rw [← hγ] at h3
    norm_num at h2 h3 h4
    linarith
  obtain ⟨t1, t2⟩ := coth_large hx1
  have h5 : (1 - γ) * x = 1 - x * (1 / tanh x - 1) := by rw [hγ]; field_simp; ring
  have h6 : x * (1 / tanh x - 1) ≤ 1e-20 := by
    have : (1 - γ) * x ≤ 1 := by rw [h5]; nlinarith
    have h7 : x ≤ 1e8 := by nlinarith
    nlinarith
  have h8 : 0 ≤ x * (1 / tanh x - 1) := by nlinarith
  refine ⟨v, e1, ?_⟩
  have hε := eps_pos P
  have hq0 : 0 < P.ε / (1 - γ) := by positivity
  have h9 : |(1 - γ) * (v - x)| ≤ (6e-8 + 9 * P.ε / (1 - γ)) * ((1 - γ) * x) := by
    rw [show (1 - γ) * (v - x) = ((1 - γ) * v - 1) + (1 - (1 - γ) * x) by ring]
    refine (abs_add_le _ _).trans ?_
    rw [abs_of_nonneg (show 0 ≤ 1 - (1 - γ) * x by rw [h5]; linarith), h5]
    rw [mul_div_assoc] at e2 ⊢
    nlinarith
  rw [abs_mul, abs_of_pos hc] at h9
  nlinarith

/-- C74: the force of the Legendre approach inherits that accuracy. -/
theorem C74_fjc_legendre_force_near_full_extension (P : Platform) (N : ℕ) (ℓ m T : F64 P) {γ x : ℝ} (h1 : 1e-8 ≤ 1 - γ)
    (h2 : 1 - γ ≤ 1.3e-3) (hx : 0 < x) (hγ : γ = 1 / tanh x - 1 / x) :
    Within ((fjc_isometric_legendre_forces N ℓ m).nd_force (.fin γ) T) x ((6e-8 + 9 * P.ε / (1 - γ)) * x) :=
  C74_inverse_langevin_near_full_extension P h1 h2 hx hγ

/-- C74: but every nondimensional Helmholtz energy of the Legendre approach is lost there, because the hyperbolic sine of the
force overflows; the relative energy per link returned is negative infinity. -/
theorem C74_fjc_legendre_helmholtz_overflow (P : Platform) (N : ℕ) (ℓ m : F64 P) {γ : ℝ} (h1 : 1e-8 ≤ 1 - γ)
    (h2 : 1 - γ ≤ 1.3e-3) :
    NoneFinite (fjc_isometric_legendre_helmholtz N ℓ m) (.fin γ) ∧
    ∀ T, (fjc_isometric_legendre_helmholtz N ℓ m).nd_relative_per_link (.fin γ) T = .inf true := by
  obtain ⟨v, e1, e2⟩ := inverse_langevin_near_one (P := P) h1 h2
  have hc : 0 < 1 - γ := by linarith
  have hε := eps_pos P
  have hε' := eps_small P
  have hq : P.ε / (1 - γ) ≤ 1e-4 := by rw [div_le_iff₀ hc]; nlinarith
  have hv : 711 ≤ v := by
    rw [mul_div_assoc] at e2
    have := (abs_le.1 e2).1
    nlinarith
  have hv' : v ≤ 1.1e8 := by
    rw [mul_div_assoc] at e2
    have := (abs_le.1 e2).2
    nlinarith
  have key : fjc.thermodynamics.isometric.legendre.nondimensional_relative_helmholtz_free_energy_per_link (.fin γ : F64 P) = .inf true := by
    unfold fjc.thermodynamics.isometric.legendre.nondimensional_relative_helmholtz_free_energy_per_link
      fjc.thermodynamics.isometric.legendre.nondimensional_force
    simp only [e1]
    have hp : 0 < v * γ := by nlinarith
    obtain ⟨δ, -, hδ⟩ := rel_mul' (rel_refl (P := P) v) (rel_refl (P := P) γ) (by norm_num) (by rw [abs_of_pos hp]; nlinarith)
      (by rw [abs_of_pos hp]; nlinarith)
    rw [hδ, sinh_overflow hv]
    have hd : (.inf false / .fin v : F64 P) = .inf false := by
      show F64.inf (false ^^ decide (v < 0)) = _
      rw [decide_eq_false (by linarith)]
      rfl
    rw [hd]
    rfl
  have kn : NeverFinite (.inf true : F64 P) := fun v h => by cases h
  refine ⟨⟨fun T => ?_, fun T => ?_, fun T => ?_, fun T => ?_⟩, fun T => key⟩
  · refine neverFinite_sub_left (neverFinite_mul_left ?_)
    rw [key]; exact kn
  · refine neverFinite_sub_left ?_
    rw [key]; exact kn
  · refine neverFinite_mul_left ?_
    rw [key]; exact kn
  · exact (congrArg NeverFinite key).mpr kn

/-- An extension of 99.9 percent on a platform with correct rounding. -/
example : (fjc_isometric_legendre_helmholtz 8 (1.0 : F64 correctlyRounded) 1.0).nd_relative_per_link (.fin 0.999) (.fin 300) = .inf true :=
  (C74_fjc_legendre_helmholtz_overflow correctlyRounded 8 1.0 1.0 (by norm_num) (by norm_num)).2 _

end Polymers.Props
