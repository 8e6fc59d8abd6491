import Verif.Spec.Ieee
import Mathlib.Data.Int.Log
import Mathlib.Algebra.Order.Round
import Mathlib.Analysis.Complex.ExponentialBounds

/-! Rounding to nearest in `binary64`: existence, error, monotonicity; error propagation through the operations. -/

namespace Polymers.Lemmas

open Polymers.Ieee Polymers.Spec Real

/-! ### The format -/

theorem grid_neg {x : ℝ} (h : x ∈ grid) : -x ∈ grid := by
  obtain ⟨m, e, h1, h2, rfl⟩ := h
  exact ⟨-m, e, by simpa using h1, h2, by push_cast; ring⟩

theorem grid_int {n : ℤ} (h : |n| < 2 ^ 53) : (n : ℝ) ∈ grid := ⟨n, 0, h, by norm_num, by simp⟩

theorem grid_nat {n : ℕ} (h : n < 2 ^ 53) : (n : ℝ) ∈ grid := by
  have := grid_int (n := n) (by rw [abs_of_nonneg (by positivity)]; exact_mod_cast h)
  exact_mod_cast this

theorem grid_zero : (0 : ℝ) ∈ grid := by simpa using grid_int (n := 0) (by norm_num)
theorem grid_one : (1 : ℝ) ∈ grid := by simpa using grid_int (n := 1) (by norm_num)

theorem grid_zpow {e : ℤ} (h : -1074 ≤ e) : (2 : ℝ) ^ e ∈ grid := ⟨1, e, by norm_num, h, by simp⟩

theorem grid_mul_zpow {m e : ℤ} (hm : |m| ≤ 2 ^ 53) (h : -1074 ≤ e) : m * (2 : ℝ) ^ e ∈ grid := by
  rcases hm.lt_or_eq with hm | hm
  · exact ⟨m, e, hm, h, rfl⟩
  · have h2 : ((2 ^ 53 : ℤ) : ℝ) * 2 ^ e = 2 ^ (53 + e) := by
      rw [zpow_add₀ (by norm_num)]; norm_num
    rcases abs_eq (by positivity) |>.1 hm with rfl | rfl
    · rw [h2]; exact grid_zpow (by linarith)
    · have := grid_neg (grid_zpow (e := 53 + e) (by linarith))
      rw [Int.cast_neg, neg_mul, h2]; exact this

/-- The exponent of the last bit of the numbers near `x`. -/
noncomputable def lastBit (x : ℝ) : ℤ := Int.log 2 (max |x| (2 ^ (-1022 : ℤ))) - 52

theorem lastBit_low (x : ℝ) : (2 : ℝ) ^ (52 + lastBit x) ≤ max |x| (2 ^ (-1022 : ℤ)) := by
  have := Int.zpow_log_le_self (b := 2) (r := max |x| (2 ^ (-1022 : ℤ))) (by norm_num) (lt_max_of_lt_right (by positivity))
  unfold lastBit
  rw [show (52 : ℤ) + (Int.log 2 (max |x| (2 ^ (-1022 : ℤ))) - 52) = Int.log 2 (max |x| (2 ^ (-1022 : ℤ))) by ring]
  exact_mod_cast this

theorem lastBit_ge (x : ℝ) : -1074 ≤ lastBit x := by
  have h := Int.log_mono_right (b := 2) (by positivity : (0 : ℝ) < 2 ^ (-1022 : ℤ)) (le_max_right |x| (2 ^ (-1022 : ℤ)))
  have h2 := Int.log_zpow (R := ℝ) (b := 2) (by norm_num) (-1022)
  rw [show ((2 : ℕ) : ℝ) = 2 by norm_num] at h2
  rw [h2] at h
  unfold lastBit
  linarith

/-- Rounding to nearest, ties by `round`. -/
noncomputable def nearest (x : ℝ) : ℝ := round (x / 2 ^ lastBit x) * (2 : ℝ) ^ lastBit x

theorem abs_lt_lastBit (x : ℝ) : |x| < 2 ^ (53 + lastBit x) := by
  refine lt_of_le_of_lt (le_max_left _ (2 ^ (-1022 : ℤ))) (lt_of_lt_of_le
    (Int.lt_zpow_succ_log_self (b := 2) (by norm_num) (max |x| (2 ^ (-1022 : ℤ)))) ?_)
  push_cast
  refine zpow_le_zpow_right₀ (by norm_num) ?_
  unfold lastBit; linarith

theorem nearest_mem (x : ℝ) : nearest x ∈ grid := by
  refine grid_mul_zpow ?_ (lastBit_ge x)
  have h := abs_lt_lastBit x
  have h2 : (0 : ℝ) < 2 ^ lastBit x := by positivity
  have h3 : |x / 2 ^ lastBit x| < 2 ^ 53 := by
    rw [abs_div, abs_of_pos h2, div_lt_iff₀ h2]
    rwa [zpow_add₀ (by norm_num)] at h
  have h4 := abs_sub_round (x / 2 ^ lastBit x)
  have h5 : |((round (x / 2 ^ lastBit x) : ℤ) : ℝ)| < 2 ^ 53 + 1 := by
    have := abs_sub_abs_le_abs_sub ((round (x / 2 ^ lastBit x) : ℤ) : ℝ) (x / 2 ^ lastBit x)
    rw [abs_sub_comm] at this
    linarith
  have h6 : |round (x / 2 ^ lastBit x)| < 2 ^ 53 + 1 := by exact_mod_cast h5
  linarith

theorem nearest_err (x : ℝ) : |nearest x - x| ≤ 2 ^ lastBit x / 2 := by
  have h2 : (0 : ℝ) < 2 ^ lastBit x := by positivity
  have h4 := abs_sub_round (x / 2 ^ lastBit x)
  have : nearest x - x = -(x / 2 ^ lastBit x - round (x / 2 ^ lastBit x)) * 2 ^ lastBit x := by
    unfold nearest; field_simp; ring
  rw [this, abs_mul, abs_neg, abs_of_pos h2]
  nlinarith

theorem half_lastBit_le (x : ℝ) : (2 : ℝ) ^ lastBit x / 2 ≤ 2 ^ (-53 : ℤ) * max |x| (2 ^ (-1022 : ℤ)) := by
  have e : ∀ n : ℤ, (2 : ℝ) ^ n / 2 = 2 ^ (-53 : ℤ) * 2 ^ (n + 52) := fun n => by
    rw [← zpow_add₀ (by norm_num), show (-53 : ℤ) + (n + 52) = n - 1 by ring, zpow_sub_one₀ (by norm_num)]; ring
  rw [e]
  refine mul_le_mul_of_nonneg_left ?_ (by positivity)
  rw [add_comm]
  exact lastBit_low x

/-- `nearest` is a rounding to nearest. -/
theorem nearest_le (x : ℝ) {y : ℝ} (hy : y ∈ grid) : |nearest x - x| ≤ |y - x| := by
  set e := lastBit x with he
  have h2 : (0 : ℝ) < 2 ^ e := by positivity
  -- multiples of the last bit
  have hmul : ∀ m : ℤ, |nearest x - x| ≤ |m * 2 ^ e - x| := fun m => by
    have h := round_le (x / 2 ^ e) m
    have e1 : nearest x - x = -(x / 2 ^ e - round (x / 2 ^ e)) * 2 ^ e := by unfold nearest; rw [← he]; field_simp; ring
    have e2 : m * 2 ^ e - x = -(x / 2 ^ e - m) * 2 ^ e := by field_simp; ring
    rw [e1, e2, abs_mul, abs_mul, abs_neg, abs_neg]
    exact mul_le_mul_of_nonneg_right h (abs_nonneg _)
  obtain ⟨m, f, hm, hf, rfl⟩ := hy
  rcases le_or_gt e f with hef | hef
  · obtain ⟨k, rfl⟩ := Int.le.dest hef
    have := hmul (m * 2 ^ k)
    rw [zpow_add₀ (by norm_num), zpow_natCast]
    push_cast at this
    rwa [show (m : ℝ) * (2 ^ e * 2 ^ k) = m * 2 ^ k * 2 ^ e by ring]
  · -- finer numbers lie below the binade
    have hlow : (2 : ℝ) ^ (52 + e) ≤ |x| := by
      have h := lastBit_low x
      rw [← he] at h
      rcases le_max_iff.1 h with h | h
      · exact h
      · exact absurd ((zpow_le_zpow_iff_right₀ (by norm_num : (1 : ℝ) < 2)).1 h) (by omega)
    have hy : |(m : ℝ) * 2 ^ f| ≤ 2 ^ (52 + e) := by
      rw [abs_mul, abs_of_pos (by positivity : (0 : ℝ) < 2 ^ f)]
      have : |(m : ℝ)| ≤ 2 ^ (53 : ℤ) := by
        rw [← Int.cast_abs]
        exact_mod_cast hm.le
      calc |(m : ℝ)| * 2 ^ f ≤ 2 ^ (53 : ℤ) * 2 ^ (e - 1) :=
            mul_le_mul this (zpow_le_zpow_right₀ (by norm_num) (by omega)) (by positivity) (by positivity)
        _ = 2 ^ (52 + e) := by rw [← zpow_add₀ (by norm_num)]; congr 1; ring
    have e52 : (2 : ℝ) ^ (52 + e) = ((2 ^ 52 : ℤ) : ℝ) * 2 ^ e := by rw [zpow_add₀ (by norm_num)]; norm_num
    rcases le_total 0 x with h0 | h0
    · have := hmul (2 ^ 52)
      rw [← e52] at this
      refine this.trans ?_
      rw [abs_of_nonneg h0] at hlow
      rw [abs_of_nonpos (by linarith), abs_of_nonpos (by linarith [abs_le.1 hy])]
      linarith [abs_le.1 hy]
    · have := hmul (-2 ^ 52)
      rw [Int.cast_neg, neg_mul, ← e52] at this
      refine this.trans ?_
      rw [abs_of_nonpos h0] at hlow
      rw [abs_of_nonneg (by linarith), abs_of_nonneg (by linarith [abs_le.1 hy])]
      linarith [abs_le.1 hy]

/-- The platform with correctly rounded functions. -/
noncomputable def correctlyRounded : Platform where
  rnd := nearest
  rnd_mem := nearest_mem
  rnd_nearest := fun x _ hy => nearest_le x hy
  ε := 2 ^ (-53 : ℤ)
  le_ε := le_rfl
  ε_le := zpow_le_zpow_right₀ (by norm_num) (by norm_num)
  fn := fun f x => nearest (f.exact x)
  fn_err := fun _ _ => (nearest_err _).trans (half_lastBit_le _)
  powi := fun x n => nearest (x ^ n)
  powi_err := fun x n h _ => by
    refine (nearest_err _).trans ((half_lastBit_le _).trans ?_)
    have h1 : (2 : ℝ) ^ (-1022 : ℤ) ≤ 2 ^ (-1000 : ℤ) := zpow_le_zpow_right₀ (by norm_num) (by norm_num)
    rw [max_eq_left (h1.trans h)]
    have := le_max_left 1 |(n : ℝ)|
    have h2 : (0 : ℝ) ≤ 2 ^ (-53 : ℤ) * |x ^ n| := by positivity
    nlinarith
  powi_small := fun x n h => by
    have h1 := (nearest_err (x ^ n)).trans (half_lastBit_le _)
    have h2 : (2 : ℝ) ^ (-1022 : ℤ) ≤ 2 ^ (-1000 : ℤ) := zpow_le_zpow_right₀ (by norm_num) (by norm_num)
    have h3 := mul_le_mul_of_nonneg_left (max_le h h2) (by positivity : (0 : ℝ) ≤ 2 ^ (-53 : ℤ))
    have h4 := abs_sub_abs_le_abs_sub (nearest (x ^ n)) (x ^ n)
    have h5 : (2 : ℝ) ^ (-999 : ℤ) = 2 * 2 ^ (-1000 : ℤ) := by rw [← zpow_one_add₀ (by norm_num)]; norm_num
    have h6 : (2 : ℝ) ^ (-53 : ℤ) ≤ 1 := zpow_le_one_of_nonpos₀ (by norm_num) (by norm_num)
    have h7 : (0 : ℝ) < 2 ^ (-1000 : ℤ) := by positivity
    nlinarith
  powi_large := fun x n h => by
    have h1 := (nearest_err (x ^ n)).trans (half_lastBit_le _)
    have h2 : (2 : ℝ) ^ (-1022 : ℤ) ≤ 2 ^ (1000 : ℤ) := zpow_le_zpow_right₀ (by norm_num) (by norm_num)
    rw [max_eq_left (h2.trans h)] at h1
    have h4 := abs_sub_abs_le_abs_sub (x ^ n) (nearest (x ^ n))
    rw [abs_sub_comm] at h4
    have h5 : (2 : ℝ) ^ (1000 : ℤ) = 2 * 2 ^ (999 : ℤ) := by rw [← zpow_one_add₀ (by norm_num)]; norm_num
    have h6 : (2 : ℝ) ^ (-53 : ℤ) ≤ 1 / 2 := by norm_num
    have h8 := mul_le_mul_of_nonneg_right h6 (abs_nonneg (x ^ n))
    generalize (2 : ℝ) ^ (1000 : ℤ) = a at *
    generalize (2 : ℝ) ^ (999 : ℤ) = b at *
    have h9 := h1.trans h8
    linarith
  powf := fun x y => nearest (x ^ y)
  powf_err := fun _ _ => (nearest_err _).trans (half_lastBit_le _)

/-! ### Rounding -/

variable (P : Platform)

theorem rnd_of_mem {x : ℝ} (h : x ∈ grid) : P.rnd x = x := by
  have := P.rnd_nearest x x h
  rw [sub_self, abs_zero] at this
  linarith [abs_nonpos_iff.1 this]

theorem rnd_mono {x y : ℝ} (h : x ≤ y) : P.rnd x ≤ P.rnd y := by
  by_contra hlt
  push Not at hlt
  have h1 := P.rnd_nearest x _ (P.rnd_mem y)
  have h2 := P.rnd_nearest y _ (P.rnd_mem x)
  rcases h.eq_or_lt with rfl | hxy
  · exact lt_irrefl _ hlt
  · have h3 := sq_le_sq.2 h1
    have h4 := sq_le_sq.2 h2
    nlinarith

theorem rnd_err (x : ℝ) : |P.rnd x - x| ≤ 2 ^ (-53 : ℤ) * max |x| (2 ^ (-1022 : ℤ)) :=
  (P.rnd_nearest x _ (nearest_mem x)).trans ((nearest_err x).trans (half_lastBit_le x))

theorem rnd_err' (x : ℝ) : |P.rnd x - x| ≤ P.ε * max |x| (2 ^ (-1022 : ℤ)) :=
  (rnd_err P x).trans (mul_le_mul_of_nonneg_right P.le_ε (le_max_of_le_left (abs_nonneg x)))

theorem rnd_rel {x : ℝ} (h : 2 ^ (-1022 : ℤ) ≤ |x|) : |P.rnd x - x| ≤ P.ε * |x| := by
  have := rnd_err' P x
  rwa [max_eq_left h] at this

theorem eps_pos : 0 < P.ε := lt_of_lt_of_le (by positivity) P.le_ε

theorem eps_small : P.ε ≤ 1e-12 := P.ε_le.trans (by norm_num)

/-! ### Error propagation -/

/-- The unit of relative errors: an operation multiplies the exact result by a factor between `exp (-unit P)` and
`exp (unit P)`. -/
noncomputable def unit : ℝ := -log (1 - P.ε)

theorem one_sub_eps_pos : 0 < 1 - P.ε := by linarith [eps_small P]

theorem exp_neg_unit : exp (-unit P) = 1 - P.ε := by rw [unit, neg_neg, exp_log (one_sub_eps_pos P)]

theorem unit_pos : 0 < unit P := by
  have := log_neg (one_sub_eps_pos P) (by linarith [eps_pos P])
  unfold unit; linarith

theorem unit_le : unit P ≤ P.ε * (1 + 2e-12) := by
  have h := one_sub_inv_le_log_of_pos (one_sub_eps_pos P)
  have h1 := one_sub_eps_pos P
  have h2 := eps_small P
  have h3 := eps_pos P
  have h4 : (1 - P.ε)⁻¹ ≤ 1 + P.ε * (1 + 2e-12) := by
    rw [inv_le_iff_one_le_mul₀ h1]
    nlinarith
  unfold unit
  linarith

/-- The floating-point number is the real number up to a factor `exp δ` with `|δ| ≤ d`. -/
def Rel {P : Platform} (x : F64 P) (r d : ℝ) : Prop := ∃ δ : ℝ, |δ| ≤ d ∧ x = .fin (r * exp δ)

variable {P} {x y : F64 P} {r s d d' e e' k : ℝ}

theorem Rel.mono (h : Rel x r d) (hd : d ≤ d') : Rel x r d' := by
  obtain ⟨δ, h1, h2⟩ := h
  exact ⟨δ, h1.trans hd, h2⟩

theorem _root_.Polymers.Spec.Within.mono (h : Within x r e) (he : e ≤ e') : Within x r e' := by
  obtain ⟨v, h1, h2⟩ := h
  exact ⟨v, h1, h2.trans he⟩

theorem rel_refl (r : ℝ) : Rel (.fin r : F64 P) r 0 := ⟨0, by simp, by simp⟩

theorem abs_exp_sub_one_le {δ d : ℝ} (h : |δ| ≤ d) : |exp δ - 1| ≤ exp d - 1 := by
  have h1 := abs_le.1 h
  have h2 := exp_le_exp.2 h1.2
  have h3 := exp_le_exp.2 h1.1
  have h4 : 1 - exp (-d) ≤ exp d - 1 := by
    rw [exp_neg]
    have h0 := exp_pos d
    have : 0 ≤ (exp d - 1) ^ 2 / exp d := by positivity
    have e : (exp d - 1) ^ 2 / exp d = exp d - 2 + (exp d)⁻¹ := by field_simp; ring
    linarith
  rw [abs_le]
  constructor <;> linarith

theorem Rel.within (h : Rel x r d) : Within x r ((exp d - 1) * |r|) := by
  obtain ⟨δ, h1, rfl⟩ := h
  refine ⟨_, rfl, ?_⟩
  rw [show r * exp δ - r = (exp δ - 1) * r by ring, abs_mul]
  exact mul_le_mul_of_nonneg_right (abs_exp_sub_one_le h1) (abs_nonneg _)

/-- A number of operations below a million costs that many times `ε`, and one more. -/
theorem exp_units_le {n : ℕ} (hn : n ≤ 100000) : exp (n * unit P) - 1 ≤ (n + 1) * P.ε := by
  have h1 := unit_le P
  have h2 := eps_small P
  have h3 := eps_pos P
  have h4 := unit_pos P
  have hn' : (n : ℝ) ≤ 100000 := by exact_mod_cast hn
  have h0 : (0 : ℝ) ≤ n := by positivity
  have h5 : (n : ℝ) * unit P ≤ n * (P.ε * (1 + 2e-12)) := mul_le_mul_of_nonneg_left h1 h0
  have h6 : (n : ℝ) * unit P ≤ 1 := by nlinarith
  have h7 := abs_exp_sub_one_sub_id_le (x := n * unit P) (by rw [abs_of_nonneg (by positivity)]; exact h6)
  have h8 := (abs_le.1 h7).2
  have h9 : ((n : ℝ) * unit P) ^ 2 ≤ (n * (P.ε * (1 + 2e-12))) ^ 2 := pow_le_pow_left₀ (by positivity) h5 2
  have h10 : (n * (P.ε * (1 + 2e-12))) ^ 2 ≤ 0.1 * P.ε := by
    have : (n : ℝ) ^ 2 ≤ 100000 ^ 2 := pow_le_pow_left₀ h0 hn' 2
    have h11 : (n : ℝ) ^ 2 * P.ε ≤ 100000 ^ 2 * 1e-12 := mul_le_mul this h2 h3.le (by norm_num)
    calc (n * (P.ε * (1 + 2e-12))) ^ 2 = ((n : ℝ) ^ 2 * P.ε) * P.ε * (1 + 2e-12) ^ 2 := by ring
      _ ≤ (100000 ^ 2 * 1e-12) * P.ε * (1 + 2e-12) ^ 2 := by gcongr
      _ ≤ 0.1 * P.ε := by nlinarith
  nlinarith

theorem two_pow_1001_le_huge : (2 : ℝ) ^ (1010 : ℤ) ≤ huge := by
  unfold huge
  have h : (2 : ℝ) ^ (1010 : ℤ) ≤ 2 ^ (1023 : ℤ) := zpow_le_zpow_right₀ (by norm_num) (by norm_num)
  have h2 : (2 : ℝ) ^ (1023 : ℤ) = 2 ^ (1023 : ℕ) := zpow_natCast 2 1023
  have h3 : (1 : ℝ) ≤ 2 - 2 ^ (-52 : ℤ) := by norm_num
  have h4 : (0 : ℝ) < 2 ^ (1023 : ℕ) := by positivity
  rw [h2] at h
  generalize (2 : ℝ) ^ (1023 : ℕ) = a at *
  generalize (2 : ℝ) ^ (1010 : ℤ) = b at *
  generalize (2 : ℝ) ^ (-52 : ℤ) = c at *
  have h5 := mul_le_mul_of_nonneg_right h3 h4.le
  linarith

theorem out_of_le {v : ℝ} (h : |v| ≤ 2 ^ (1010 : ℤ)) : (F64.out v : F64 P) = .fin v :=
  if_pos (h.trans two_pow_1001_le_huge)

theorem pow_range : (2 : ℝ) ^ (-1022 : ℤ) * 8 ≤ 2 ^ (-1000 : ℤ) ∧ (8 : ℝ) * 2 ^ (1000 : ℤ) ≤ 2 ^ (1010 : ℤ) := by
  have e1 : (2 : ℝ) ^ (-1022 : ℤ) * 8 = 2 ^ (-1019 : ℤ) := by
    rw [show (8 : ℝ) = 2 ^ (3 : ℤ) by norm_num, ← zpow_add₀ (by norm_num)]; norm_num
  have e2 : (8 : ℝ) * 2 ^ (1000 : ℤ) = 2 ^ (1003 : ℤ) := by
    rw [show (8 : ℝ) = 2 ^ (3 : ℤ) by norm_num, ← zpow_add₀ (by norm_num)]; norm_num
  rw [e1, e2]
  exact ⟨zpow_le_zpow_right₀ (by norm_num) (by norm_num), zpow_le_zpow_right₀ (by norm_num) (by norm_num)⟩

/-- One more approximate operation. -/
theorem rel_approx {w δ : ℝ} (hw : |w - r * exp δ| ≤ P.ε * max |r * exp δ| (2 ^ (-1022 : ℤ))) (hδ : |δ| ≤ d) (hd : d ≤ 1)
    (h1 : 2 ^ (-1000 : ℤ) ≤ |r|) (h2 : |r| ≤ 2 ^ (1000 : ℤ)) : Rel (F64.out w : F64 P) r (d + unit P) := by
  obtain ⟨p1, p2⟩ := pow_range
  have hε := eps_pos P
  have hε' := eps_small P
  have hpos := one_sub_eps_pos P
  have hr : r ≠ 0 := by
    rintro rfl
    rw [abs_zero] at h1
    exact absurd h1 (not_le.2 (by positivity))
  have hδ' := abs_le.1 hδ
  have hexp : exp δ ≤ 3 := (exp_le_exp.2 (hδ'.2.trans hd)).trans (by linarith [exp_one_lt_three])
  have hexp' : 1 / 3 ≤ exp δ := by
    have : exp (-1) ≤ exp δ := exp_le_exp.2 (by linarith [hδ'.1])
    have h3 : (1 / 3 : ℝ) ≤ exp (-1) := by
      rw [exp_neg, one_div]
      exact inv_anti₀ (exp_pos _) (by linarith [exp_one_lt_three])
    linarith
  have habs : |r * exp δ| = |r| * exp δ := by rw [abs_mul, abs_of_pos (exp_pos δ)]
  have hlow : (2 : ℝ) ^ (-1022 : ℤ) ≤ |r * exp δ| := by
    rw [habs]
    have : |r| * (1 / 3) ≤ |r| * exp δ := mul_le_mul_of_nonneg_left hexp' (abs_nonneg _)
    have h0 : (0 : ℝ) < 2 ^ (-1022 : ℤ) := by positivity
    generalize (2 : ℝ) ^ (-1022 : ℤ) = a at *
    generalize (2 : ℝ) ^ (-1000 : ℤ) = b at *
    linarith
  rw [max_eq_left hlow] at hw
  have ht : r * exp δ ≠ 0 := mul_ne_zero hr (exp_pos _).ne'
  set t := r * exp δ with hteq
  -- the factor of the operation
  set q := w / t with hq
  have hqe : |q - 1| ≤ P.ε := by
    rw [hq, div_sub_one ht, abs_div, div_le_iff₀ (abs_pos.2 ht)]
    exact hw
  have hq1 := abs_le.1 hqe
  have hq0 : 0 < q := by linarith
  have hlog : |log q| ≤ unit P := by
    rw [abs_le, unit, neg_neg]
    refine ⟨log_le_log hpos (by linarith), ?_⟩
    rw [← log_inv]
    refine log_le_log hq0 ?_
    rw [le_inv_comm₀ hq0 hpos]
    rw [inv_eq_one_div, le_div_iff₀ hq0]
    nlinarith
  have hwq : w = r * exp (δ + log q) := by
    rw [exp_add, exp_log hq0, hq, ← mul_assoc, ← hteq, mul_div_cancel₀ _ ht]
  have hwb : |w| ≤ 2 ^ (1010 : ℤ) := by
    have h3 := abs_sub_abs_le_abs_sub w t
    have h4 : |t| ≤ |r| * 3 := by rw [habs]; exact mul_le_mul_of_nonneg_left hexp (abs_nonneg _)
    have h5 : P.ε * |t| ≤ 1 * |t| := mul_le_mul_of_nonneg_right (by linarith) (abs_nonneg _)
    have h6 := abs_nonneg r
    generalize (2 : ℝ) ^ (1000 : ℤ) = a at *
    generalize (2 : ℝ) ^ (1010 : ℤ) = b at *
    linarith
  refine ⟨δ + log q, (abs_add_le _ _).trans (add_le_add hδ hlog), ?_⟩
  rw [out_of_le hwb, hwq]

theorem rel_mul (hx : Rel x r d) (hy : Rel y s d') (hd : d + d' ≤ 1) (h1 : 2 ^ (-1000 : ℤ) ≤ |r * s|)
    (h2 : |r * s| ≤ 2 ^ (1000 : ℤ)) : Rel (x * y) (r * s) (d + d' + unit P) := by
  obtain ⟨δ, hδ, rfl⟩ := hx
  obtain ⟨δ', hδ', rfl⟩ := hy
  have e : r * exp δ * (s * exp δ') = r * s * exp (δ + δ') := by rw [exp_add]; ring
  have := rnd_err' P (r * s * exp (δ + δ'))
  have h := rel_approx this ((abs_add_le _ _).trans (add_le_add hδ hδ')) hd h1 h2
  rw [← e] at h
  exact h

theorem rel_div (hx : Rel x r d) (hy : Rel y s d') (hd : d + d' ≤ 1) (h1 : 2 ^ (-1000 : ℤ) ≤ |r / s|)
    (h2 : |r / s| ≤ 2 ^ (1000 : ℤ)) : Rel (x / y) (r / s) (d + d' + unit P) := by
  obtain ⟨δ, hδ, rfl⟩ := hx
  obtain ⟨δ', hδ', rfl⟩ := hy
  have hs : s ≠ 0 := by
    rintro rfl
    rw [div_zero, abs_zero] at h1
    exact absurd h1 (not_le.2 (by positivity))
  have e : r * exp δ / (s * exp δ') = r / s * exp (δ + -δ') := by rw [exp_add, exp_neg]; field_simp
  have := rnd_err' P (r / s * exp (δ + -δ'))
  have h := rel_approx this ((abs_add_le _ _).trans (add_le_add hδ (by rwa [abs_neg]))) hd h1 h2
  rw [← e] at h
  show Rel (F64.bin _ _ _ _ _ _) _ _
  simp only [F64.bin]
  rwa [if_neg (mul_ne_zero hs (exp_pos _).ne')]

theorem rel_neg (hx : Rel x r d) : Rel (-x) (-r) d := by
  obtain ⟨δ, hδ, rfl⟩ := hx
  exact ⟨δ, hδ, by show F64.un _ _ _ _ = _; simp [F64.un]⟩

theorem within_neg (hx : Within x r e) : Within (-x) (-r) e := by
  obtain ⟨v, rfl, hv⟩ := hx
  exact ⟨-v, rfl, by rw [show -v - -r = -(v - r) by ring, abs_neg]; exact hv⟩

theorem rel_sqrt (hx : Rel x r d) (hr : 0 < r) (hd : d ≤ 1) (h1 : 2 ^ (-1000 : ℤ) ≤ √r)
    (h2 : √r ≤ 2 ^ (1000 : ℤ)) : Rel (Elem.sqrt x) (√r) (d / 2 + unit P) := by
  obtain ⟨δ, hδ, rfl⟩ := hx
  have h0 : 0 < r * exp δ := mul_pos hr (exp_pos _)
  have hd0 : 0 ≤ d := (abs_nonneg _).trans hδ
  have e : √(r * exp δ) = √r * exp (δ / 2) := by
    rw [sqrt_mul hr.le, exp_half]
  have := rnd_err' P (√r * exp (δ / 2))
  have hs := abs_of_nonneg (sqrt_nonneg r)
  have h := rel_approx this (show |δ / 2| ≤ d / 2 by rw [abs_div, abs_two]; linarith) (by linarith) (by rwa [hs]) (by rwa [hs])
  show Rel (F64.un _ _ _ _) _ _
  simp only [F64.un]
  rw [if_pos h0.le, e]
  exact h

/-- A literal or another constant rounded to the format. -/
theorem rel_rnd (h1 : 2 ^ (-1000 : ℤ) ≤ |r|) (h2 : |r| ≤ 2 ^ (1000 : ℤ)) : Rel (F64.out (P.rnd r) : F64 P) r (unit P) := by
  have := rnd_err' P r
  have h := rel_approx (P := P) (w := P.rnd r) (r := r) (δ := 0) (d := 0) (by simpa using this) (by simp) (by norm_num) h1 h2
  simpa using h

theorem rel_exact (h : r ∈ grid) (h2 : |r| ≤ 2 ^ (1000 : ℤ)) : (F64.out (P.rnd r) : F64 P) = .fin r := by
  rw [rnd_of_mem P h]
  refine out_of_le (h2.trans ?_)
  exact zpow_le_zpow_right₀ (by norm_num) (by norm_num)

/-- One more approximate operation, absolute error. -/
theorem within_approx {w t : ℝ} (hw : |w - t| ≤ P.ε * max |t| (2 ^ (-1022 : ℤ))) (ht : |t - r| ≤ e)
    (h2 : |r| + e ≤ 2 ^ (1000 : ℤ)) : Within (F64.out w : F64 P) r (e + P.ε * (|r| + e + 2 ^ (-1022 : ℤ))) := by
  obtain ⟨p1, p2⟩ := pow_range
  have hε := eps_pos P
  have hε' := eps_small P
  have ht' : |t| ≤ |r| + e := by
    have := abs_sub_abs_le_abs_sub t r
    linarith
  have h0 : (0 : ℝ) < 2 ^ (-1022 : ℤ) := by positivity
  have hm : max |t| (2 ^ (-1022 : ℤ)) ≤ |r| + e + 2 ^ (-1022 : ℤ) :=
    max_le (by linarith) (by linarith [abs_nonneg t])
  have h3 : |w - t| ≤ P.ε * (|r| + e + 2 ^ (-1022 : ℤ)) := hw.trans (mul_le_mul_of_nonneg_left hm hε.le)
  have h4 : |w| ≤ 2 ^ (1010 : ℤ) := by
    have h5 := abs_sub_abs_le_abs_sub w t
    have h6 : P.ε * (|r| + e + 2 ^ (-1022 : ℤ)) ≤ 1 * (|r| + e + 2 ^ (-1022 : ℤ)) :=
      mul_le_mul_of_nonneg_right (by linarith) (by linarith [abs_nonneg t])
    have h7 : (2 : ℝ) ^ (-1022 : ℤ) ≤ 2 ^ (1000 : ℤ) := zpow_le_zpow_right₀ (by norm_num) (by norm_num)
    have h8 := abs_nonneg t
    generalize (2 : ℝ) ^ (1000 : ℤ) = a at *
    generalize (2 : ℝ) ^ (1010 : ℤ) = b at *
    generalize (2 : ℝ) ^ (-1022 : ℤ) = c at *
    linarith
  refine ⟨w, out_of_le h4, ?_⟩
  rw [show w - r = (w - t) + (t - r) by ring]
  exact (abs_add_le _ _).trans (by linarith)

theorem within_add (hx : Within x r e) (hy : Within y s e') (h : |r + s| + (e + e') ≤ 2 ^ (1000 : ℤ)) :
    Within (x + y) (r + s) (e + e' + P.ε * (|r + s| + (e + e') + 2 ^ (-1022 : ℤ))) := by
  obtain ⟨v, rfl, hv⟩ := hx
  obtain ⟨w, rfl, hw⟩ := hy
  refine within_approx (rnd_err' P (v + w)) ?_ h
  rw [show v + w - (r + s) = (v - r) + (w - s) by ring]
  exact (abs_add_le _ _).trans (add_le_add hv hw)

theorem within_sub (hx : Within x r e) (hy : Within y s e') (h : |r - s| + (e + e') ≤ 2 ^ (1000 : ℤ)) :
    Within (x - y) (r - s) (e + e' + P.ε * (|r - s| + (e + e') + 2 ^ (-1022 : ℤ))) := by
  obtain ⟨v, rfl, hv⟩ := hx
  obtain ⟨w, rfl, hw⟩ := hy
  refine within_approx (rnd_err' P (v - w)) ?_ h
  rw [show v - w - (r - s) = (v - r) - (w - s) by ring]
  exact (abs_sub _ _).trans (add_le_add hv hw)

/-- Sums of positive numbers keep their relative error. -/
theorem rel_add (hx : Rel x r d) (hy : Rel y s d) (hr : 0 < r) (hs : 0 < s) (hd : d ≤ 1) (h1 : 2 ^ (-1000 : ℤ) ≤ r + s)
    (h2 : r + s ≤ 2 ^ (1000 : ℤ)) : Rel (x + y) (r + s) (d + unit P) := by
  obtain ⟨δ, hδ, rfl⟩ := hx
  obtain ⟨δ', hδ', rfl⟩ := hy
  have hrs : 0 < r + s := by linarith
  have hpos : 0 < (r * exp δ + s * exp δ') / (r + s) := by positivity
  have e : r * exp δ + s * exp δ' = (r + s) * exp (log ((r * exp δ + s * exp δ') / (r + s))) := by
    rw [exp_log hpos, mul_div_cancel₀ _ hrs.ne']
  have hb : |log ((r * exp δ + s * exp δ') / (r + s))| ≤ d := by
    have a1 := abs_le.1 hδ
    have a2 := abs_le.1 hδ'
    rw [abs_le]
    constructor
    · rw [← log_exp (-d)]
      refine log_le_log (exp_pos _) ((le_div_iff₀ hrs).2 ?_)
      have := mul_le_mul_of_nonneg_left (exp_le_exp.2 a1.1) hr.le
      have := mul_le_mul_of_nonneg_left (exp_le_exp.2 a2.1) hs.le
      nlinarith
    · rw [← log_exp d]
      refine log_le_log hpos ((div_le_iff₀ hrs).2 ?_)
      have := mul_le_mul_of_nonneg_left (exp_le_exp.2 a1.2) hr.le
      have := mul_le_mul_of_nonneg_left (exp_le_exp.2 a2.2) hs.le
      nlinarith
  have h := rel_approx (rnd_err' P ((r + s) * exp (log ((r * exp δ + s * exp δ') / (r + s))))) hb hd
    (by rwa [abs_of_pos hrs]) (by rwa [abs_of_pos hrs])
  rw [← e] at h
  exact h

/-- A relative error inside a logarithm is an absolute error. -/
theorem within_ln (hx : Rel x r d) (hr : 0 < r) (h2 : |log r| + d ≤ 2 ^ (1000 : ℤ)) :
    Within (Elem.ln x) (log r) (d + P.ε * (|log r| + d + 2 ^ (-1022 : ℤ))) := by
  obtain ⟨δ, hδ, rfl⟩ := hx
  have h0 : 0 < r * exp δ := mul_pos hr (exp_pos _)
  have hl : log (r * exp δ) = log r + δ := by rw [log_mul hr.ne' (exp_pos _).ne', log_exp]
  show Within (F64.un _ _ _ _) _ _
  simp only [F64.un]
  rw [if_pos h0]
  exact within_approx (P.fn_err .ln _) (by show |log _ - _| ≤ _; rw [hl]; simpa using hδ) h2

/-- An absolute error inside an exponential is a relative error. -/
theorem rel_exp (hx : Within x r e) (he : e ≤ 1) (h1 : -690 ≤ r) (h2 : r ≤ 690) : Rel (Elem.exp x) (exp r) (e + unit P) := by
  obtain ⟨v, rfl, hv⟩ := hx
  have ev : exp v = exp r * exp (v - r) := by rw [← exp_add]; ring_nf
  have h := P.fn_err .exp v
  rw [show Fn.exact .exp v = exp r * exp (v - r) from ev] at h
  have hp : |exp r| = exp r := abs_of_pos (exp_pos r)
  have h693 := log_two_gt_d9
  refine rel_approx h hv he ?_ ?_
  · rw [hp, ← exp_log (by positivity : (0 : ℝ) < 2 ^ (-1000 : ℤ)), log_zpow]
    refine exp_le_exp.2 ?_
    push_cast; linarith
  · rw [hp, ← exp_log (by positivity : (0 : ℝ) < 2 ^ (1000 : ℤ)), log_zpow]
    refine exp_le_exp.2 ?_
    push_cast; linarith

/-- A function of the library at an exact argument. -/
theorem rel_fn {f : Fn} {v : ℝ} (h1 : 2 ^ (-1000 : ℤ) ≤ |f.exact v|) (h2 : |f.exact v| ≤ 2 ^ (1000 : ℤ)) :
    Rel (F64.out (P.fn f v) : F64 P) (f.exact v) (unit P) := by
  have h := rel_approx (P := P) (w := P.fn f v) (r := f.exact v) (δ := 0) (d := 0) (by simpa using P.fn_err f v) (by simp)
    (by norm_num) h1 h2
  simpa using h

theorem eps_le_unit (P : Platform) : P.ε ≤ unit P := by
  have := log_le_sub_one_of_pos (one_sub_eps_pos P)
  unfold unit; linarith

/-- Powers with an integer exponent. -/
theorem rel_powi (hx : Rel x r d) (n : ℤ) (hr : r ≠ 0) (hn : n ≠ 0) (hn' : |(n : ℝ)| ≤ 100) (hd : |(n : ℝ)| * d ≤ 1)
    (h1 : 2 ^ (-990 : ℤ) ≤ |r ^ n|) (h2 : |r ^ n| ≤ 2 ^ (990 : ℤ)) :
    Rel (Elem.powi x n) (r ^ n) (|(n : ℝ)| * d + (|(n : ℝ)| + 1) * unit P) := by
  obtain ⟨δ, hδ, rfl⟩ := hx
  have hε := eps_pos P
  have hε' := eps_small P
  have hn1 : 1 ≤ |(n : ℝ)| := by rw [← Int.cast_abs]; exact_mod_cast Int.one_le_abs hn
  have hx0 : r * exp δ ≠ 0 := mul_ne_zero hr (exp_pos _).ne'
  have ht : (r * exp δ) ^ n = r ^ n * exp (n * δ) := by rw [mul_zpow, ← rpow_intCast (exp δ), ← exp_mul, mul_comm δ]
  have hδn : |n * δ| ≤ |(n : ℝ)| * d := by rw [abs_mul]; exact mul_le_mul_of_nonneg_left hδ (abs_nonneg _)
  have hδ1 := abs_le.1 (hδn.trans hd)
  have hexp : exp (n * δ) ≤ 3 := (exp_le_exp.2 hδ1.2).trans (by linarith [exp_one_lt_three])
  have hexp' : 1 / 3 ≤ exp (n * δ) := by
    have : exp (-1) ≤ exp (n * δ) := exp_le_exp.2 hδ1.1
    have h3 : (1 / 3 : ℝ) ≤ exp (-1) := by
      rw [exp_neg, one_div]
      exact inv_anti₀ (exp_pos _) (by linarith [exp_one_lt_three])
    linarith
  have habs : |(r * exp δ) ^ n| = |r ^ n| * exp (n * δ) := by rw [ht, abs_mul, abs_of_pos (exp_pos _)]
  have e1 : (2 : ℝ) ^ (-1000 : ℤ) * 1024 = 2 ^ (-990 : ℤ) := by
    rw [show (1024 : ℝ) = 2 ^ (10 : ℤ) by norm_num, ← zpow_add₀ (by norm_num)]; norm_num
  have e2 : (2 : ℝ) ^ (990 : ℤ) * 1024 = 2 ^ (1000 : ℤ) := by
    rw [show (1024 : ℝ) = 2 ^ (10 : ℤ) by norm_num, ← zpow_add₀ (by norm_num)]; norm_num
  have hpp : (0 : ℝ) < 2 ^ (-1000 : ℤ) := by positivity
  have hlow : (2 : ℝ) ^ (-1000 : ℤ) ≤ |(r * exp δ) ^ n| := by
    rw [habs]
    have : |r ^ n| * (1 / 3) ≤ |r ^ n| * exp (n * δ) := mul_le_mul_of_nonneg_left hexp' (abs_nonneg _)
    generalize (2 : ℝ) ^ (-1000 : ℤ) = a at *
    generalize (2 : ℝ) ^ (-990 : ℤ) = b at *
    linarith
  have hup : |(r * exp δ) ^ n| ≤ |r ^ n| * 3 := by
    rw [habs]; exact mul_le_mul_of_nonneg_left hexp (abs_nonneg _)
  have hhigh : |(r * exp δ) ^ n| ≤ 2 ^ (1000 : ℤ) := by
    have := abs_nonneg (r ^ n)
    generalize (2 : ℝ) ^ (1000 : ℤ) = a at *
    generalize (2 : ℝ) ^ (990 : ℤ) = b at *
    linarith
  have hw := P.powi_err _ n hlow hhigh
  rw [max_eq_right hn1] at hw
  set t := (r * exp δ) ^ n with hteq
  set w := P.powi (r * exp δ) n with hweq
  have ht0 : t ≠ 0 := zpow_ne_zero _ hx0
  have hc : |(n : ℝ)| * P.ε ≤ 1e-10 := by
    calc |(n : ℝ)| * P.ε ≤ 100 * 1e-12 := mul_le_mul hn' hε' hε.le (by norm_num)
      _ = 1e-10 := by norm_num
  set c := |(n : ℝ)| * P.ε with hceq
  have hc0 : 0 < c := by positivity
  set q := w / t with hq
  have hqe : |q - 1| ≤ c := by
    rw [hq, div_sub_one ht0, abs_div, div_le_iff₀ (abs_pos.2 ht0)]
    exact hw
  have hq1 := abs_le.1 hqe
  have hq0 : 0 < q := by linarith
  have hpos : 0 < 1 - c := by linarith
  have hlog : |log q| ≤ (|(n : ℝ)| + 1) * unit P := by
    have hb : -log (1 - c) ≤ (|(n : ℝ)| + 1) * P.ε := by
      have h := one_sub_inv_le_log_of_pos hpos
      have h4 : (1 - c)⁻¹ ≤ 1 + (|(n : ℝ)| + 1) * P.ε := by
        rw [inv_le_iff_one_le_mul₀ hpos]
        have : (|(n : ℝ)| + 1) * c ≤ 1 := by nlinarith
        nlinarith
      linarith
    have hu : (|(n : ℝ)| + 1) * P.ε ≤ (|(n : ℝ)| + 1) * unit P :=
      mul_le_mul_of_nonneg_left (eps_le_unit P) (by positivity)
    have h5 : log (1 - c) ≤ log q := log_le_log hpos (by linarith)
    have h6 : log q ≤ -log (1 - c) := by
      rw [← log_inv]
      refine log_le_log hq0 ?_
      rw [le_inv_comm₀ hq0 hpos, inv_eq_one_div, le_div_iff₀ hq0]
      nlinarith
    rw [abs_le]
    constructor <;> linarith
  have hwq : w = r ^ n * exp (n * δ + log q) := by
    rw [exp_add, exp_log hq0, hq, ← mul_assoc, ← ht, mul_div_cancel₀ _ ht0]
  have hwb : |w| ≤ 2 ^ (1010 : ℤ) := by
    have h3 := abs_sub_abs_le_abs_sub w t
    have h5 : c * |t| ≤ 1 * |t| := mul_le_mul_of_nonneg_right (by linarith) (abs_nonneg _)
    have h6 := pow_range.2
    have h7 := hw.trans h5
    clear e1 e2 h1 h2 hpp hlow
    generalize (2 : ℝ) ^ (1000 : ℤ) = a at *
    generalize (2 : ℝ) ^ (1010 : ℤ) = b at *
    linarith [abs_nonneg t]
  refine ⟨n * δ + log q, (abs_add_le _ _).trans (add_le_add hδn hlog), ?_⟩
  show F64.un _ _ _ _ = _
  simp only [F64.un]
  rw [if_neg (fun h => hx0 h.1), ← hweq, out_of_le hwb, hwq]

/-- Large enough numbers of the format are multiples of a power of two. -/
theorem grid_multiple {y : ℝ} {k : ℤ} (hy : y ∈ grid) (h : 2 ^ (52 + k) ≤ |y|) : ∃ n : ℤ, y = n * 2 ^ k := by
  obtain ⟨m, f, hm, hf, rfl⟩ := hy
  rcases le_or_gt k f with hkf | hkf
  · obtain ⟨j, rfl⟩ := Int.le.dest hkf
    exact ⟨m * 2 ^ j, by rw [zpow_add₀ (by norm_num), zpow_natCast]; push_cast; ring⟩
  · exfalso
    have h1 : |(m : ℝ)| < 2 ^ (53 : ℤ) := by rw [← Int.cast_abs]; exact_mod_cast hm
    have h2 : |(m : ℝ) * 2 ^ f| < 2 ^ (52 + k) := by
      rw [abs_mul, abs_of_pos (by positivity : (0 : ℝ) < 2 ^ f)]
      calc |(m : ℝ)| * 2 ^ f < 2 ^ (53 : ℤ) * 2 ^ f := mul_lt_mul_of_pos_right h1 (by positivity)
        _ ≤ 2 ^ (53 : ℤ) * 2 ^ (k - 1) := by
            refine mul_le_mul_of_nonneg_left (zpow_le_zpow_right₀ (by norm_num) (by omega)) (by positivity)
        _ = 2 ^ (52 + k) := by rw [← zpow_add₀ (by norm_num)]; congr 1; ring
    linarith

/-- The numbers of the format next to `x` are at least `2 ^ (-54) * x` away. -/
theorem grid_gap {x y : ℝ} (hx : x ∈ grid) (hy : y ∈ grid) (h : 2 ^ (-1022 : ℤ) ≤ x) (hne : y ≠ x) :
    2 ^ (-54 : ℤ) * x ≤ |y - x| := by
  have hx0 : 0 < x := lt_of_lt_of_le (by positivity) h
  set e := lastBit x with he
  have hlow := lastBit_low x
  have hup := abs_lt_lastBit x
  rw [abs_of_pos hx0, max_eq_left h, ← he] at hlow
  rw [abs_of_pos hx0, ← he] at hup
  have e1 : (2 : ℝ) ^ (-54 : ℤ) * 2 ^ (53 + e) = 2 ^ (e - 1) := by rw [← zpow_add₀ (by norm_num)]; congr 1; ring
  have e2 : (2 : ℝ) ^ (52 + e) = 2 * 2 ^ (52 + (e - 1)) := by rw [← zpow_one_add₀ (by norm_num)]; congr 1; ring
  have e3 : (2 : ℝ) ^ (52 + (e - 1)) = 2 ^ (52 : ℤ) * 2 ^ (e - 1) := zpow_add₀ (by norm_num) _ _
  have hp : (0 : ℝ) < 2 ^ (e - 1) := by positivity
  have hle : 2 ^ (-54 : ℤ) * x ≤ 2 ^ (e - 1) := by
    rw [← e1]; exact mul_le_mul_of_nonneg_left hup.le (by positivity)
  refine hle.trans ?_
  rcases le_or_gt ((2 : ℝ) ^ (52 + (e - 1))) |y| with hy2 | hy2
  · obtain ⟨n, hn⟩ := grid_multiple hy hy2
    obtain ⟨m, hm⟩ := grid_multiple (k := e - 1) hx (by rw [abs_of_pos hx0]; linarith [(by positivity : (0 : ℝ) < 2 ^ (52 + (e - 1)))])
    have hnm : n - m ≠ 0 := by
      intro h0
      apply hne
      rw [hn, hm, show n = m by omega]
    rw [hn, hm, ← sub_mul, abs_mul, abs_of_pos hp]
    have : (1 : ℝ) ≤ |(n : ℝ) - m| := by
      rw [← Int.cast_sub, ← Int.cast_abs]; exact_mod_cast Int.one_le_abs hnm
    nlinarith
  · have h3 := abs_sub_abs_le_abs_sub x y
    rw [abs_sub_comm, abs_of_pos hx0] at h3
    have h4 : (1 : ℝ) ≤ 2 ^ (52 : ℤ) := by norm_num
    have h5 := mul_le_mul_of_nonneg_right h4 hp.le
    rw [← e3] at h5
    linarith

/-- Rounding returns a number of the format which is close enough. -/
theorem rnd_eq_of_close {x t : ℝ} (hx : x ∈ grid) (h : 2 ^ (-1022 : ℤ) ≤ x) (ht : |t - x| < 2 ^ (-55 : ℤ) * x) : P.rnd t = x := by
  by_contra hne
  have h1 := grid_gap hx (P.rnd_mem t) h hne
  have h2 := P.rnd_nearest t x hx
  have h3 : |P.rnd t - x| ≤ |P.rnd t - t| + |t - x| := abs_sub_le _ _ _
  rw [abs_sub_comm x t] at h2
  have e : (2 : ℝ) ^ (-54 : ℤ) = 2 * 2 ^ (-55 : ℤ) := by rw [← zpow_one_add₀ (by norm_num)]; norm_num
  rw [e] at h1
  linarith

theorem lit_one : ((1.0 : F64 P)) = .fin 1 := by
  show F64.out (P.rnd (1.0 : ℝ)) = _
  rw [show (1.0 : ℝ) = 1 by norm_num]
  refine rel_exact grid_one ?_
  rw [abs_one]
  exact one_le_zpow₀ (by norm_num) (by norm_num)

end Polymers.Lemmas
