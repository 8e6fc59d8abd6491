import Verif.Lemmas.Ieee
import Mathlib.Analysis.Complex.ExponentialBounds

/-!
Products, quotients and powers in floating point keep their relative error as long as no intermediate result leaves the range.
-/

namespace Polymers.Lemmas

open Polymers.Ieee Polymers.Spec Real

variable {P : Platform}

/-- The floating-point number is the real number up to a relative error of `n` units, and its size is between `2 ^ a` and `2 ^ b`. -/
structure Acc (x : F64 P) (r n : ℝ) (a b : ℤ) : Prop where
  rel : Rel x r (n * unit P)
  lo : (2 : ℝ) ^ a ≤ |r|
  hi : |r| ≤ (2 : ℝ) ^ b

variable {x y : F64 P} {r s n m : ℝ} {a b c d : ℤ}

theorem two_zpow_mono {a b : ℤ} (h : a ≤ b) : (2 : ℝ) ^ a ≤ 2 ^ b := zpow_le_zpow_right₀ (by norm_num) h

theorem units_le_one (P : Platform) {n : ℝ} (h : n ≤ 100000) : n * unit P ≤ 1 := by
  have h1 := unit_le P
  have h2 := eps_small P
  have h3 := eps_pos P
  have h4 := unit_pos P
  have h5 : unit P ≤ 1e-5 := by nlinarith
  calc n * unit P ≤ 100000 * unit P := mul_le_mul_of_nonneg_right h h4.le
    _ ≤ 100000 * 1e-5 := by linarith
    _ = 1 := by norm_num

theorem exp_units_le' (P : Platform) {n : ℝ} (h0 : 0 ≤ n) (h : n ≤ 100000) : exp (n * unit P) - 1 ≤ (n + 1) * P.ε := by
  have h1 := unit_le P
  have h2 := eps_small P
  have h3 := eps_pos P
  have h4 := unit_pos P
  have h5 := units_le_one P h
  have h6 : 0 ≤ n * unit P := by positivity
  have h7 := abs_le.1 (abs_exp_sub_one_sub_id_le (x := n * unit P) (by rw [abs_of_nonneg h6]; exact h5))
  have h8 : n * unit P ≤ n * (P.ε * (1 + 2e-12)) := mul_le_mul_of_nonneg_left h1 h0
  have h9 : n * unit P ≤ 1e-6 := by
    calc n * unit P ≤ 100000 * (P.ε * (1 + 2e-12)) := h8.trans (mul_le_mul_of_nonneg_right h (by positivity))
      _ ≤ 1e-6 := by nlinarith
  have h10 : (n * unit P) ^ 2 ≤ 1e-6 * (n * (P.ε * (1 + 2e-12))) := by
    rw [pow_two]
    exact mul_le_mul h9 h8 h6 (by norm_num)
  have h11 : n * P.ε ≤ 100000 * P.ε := mul_le_mul_of_nonneg_right h h3.le
  nlinarith [h7.2]

theorem Acc.ne_zero (h : Acc x r n a b) : r ≠ 0 := by
  rintro rfl
  have := h.lo
  rw [abs_zero] at this
  exact absurd this (not_le.2 (by positivity))

theorem Acc.mul (hx : Acc x r n a b) (hy : Acc y s m c d) (hn : n + m ≤ 100000) (h1 : -1000 ≤ a + c) (h2 : b + d ≤ 1000) :
    Acc (x * y) (r * s) (n + m + 1) (a + c) (b + d) := by
  have lo : (2 : ℝ) ^ (a + c) ≤ |r * s| := by
    rw [zpow_add₀ (by norm_num), abs_mul]
    exact mul_le_mul hx.lo hy.lo (by positivity) (abs_nonneg _)
  have hi : |r * s| ≤ (2 : ℝ) ^ (b + d) := by
    rw [zpow_add₀ (by norm_num), abs_mul]
    exact mul_le_mul hx.hi hy.hi (abs_nonneg _) (by positivity)
  have hu := units_le_one P hn
  have h := rel_mul hx.rel hy.rel (by linarith) ((two_zpow_mono h1).trans lo) (hi.trans (two_zpow_mono h2))
  exact ⟨h.mono (by linarith), lo, hi⟩

theorem Acc.div (hx : Acc x r n a b) (hy : Acc y s m c d) (hn : n + m ≤ 100000) (h1 : -1000 ≤ a - d) (h2 : b - c ≤ 1000) :
    Acc (x / y) (r / s) (n + m + 1) (a - d) (b - c) := by
  have hs : 0 < |s| := abs_pos.2 hy.ne_zero
  have lo : (2 : ℝ) ^ (a - d) ≤ |r / s| := by
    rw [zpow_sub₀ (by norm_num), abs_div]
    exact div_le_div₀ (abs_nonneg _) hx.lo hs hy.hi
  have hi : |r / s| ≤ (2 : ℝ) ^ (b - c) := by
    rw [zpow_sub₀ (by norm_num), abs_div]
    exact div_le_div₀ (by positivity) hx.hi (by positivity) hy.lo
  have hu := units_le_one P hn
  have h := rel_div hx.rel hy.rel (by linarith) ((two_zpow_mono h1).trans lo) (hi.trans (two_zpow_mono h2))
  exact ⟨h.mono (by linarith), lo, hi⟩

theorem Acc.neg (hx : Acc x r n a b) : Acc (-x) (-r) n a b := ⟨rel_neg hx.rel, by rw [abs_neg]; exact hx.lo, by rw [abs_neg]; exact hx.hi⟩

theorem Acc.sq (hx : Acc x r n a b) (hn : n ≤ 50000) (h1 : -990 ≤ 2 * a) (h2 : 2 * b ≤ 990) :
    Acc (Elem.powi x 2) (Elem.powi r 2) (2 * n + 3) (2 * a) (2 * b) := by
  rw [show (Elem.powi r 2 : ℝ) = r ^ 2 by show r ^ (2 : ℤ) = _; norm_cast]
  have lo : (2 : ℝ) ^ (2 * a) ≤ |r ^ 2| := by
    rw [zpow_mul', abs_pow]
    exact pow_le_pow_left₀ (by positivity) hx.lo 2
  have hi : |r ^ 2| ≤ (2 : ℝ) ^ (2 * b) := by
    rw [zpow_mul', abs_pow]
    exact pow_le_pow_left₀ (abs_nonneg _) hx.hi 2
  have hu := units_le_one P (n := 2 * n) (by linarith)
  have h := rel_powi hx.rel 2 hx.ne_zero (by norm_num) (by norm_num) (by norm_num; linarith)
    (by exact_mod_cast (two_zpow_mono h1).trans lo) (by exact_mod_cast hi.trans (two_zpow_mono h2))
  have e : r ^ (2 : ℤ) = r ^ 2 := by norm_cast
  rw [e] at h
  refine ⟨h.mono ?_, lo, hi⟩
  norm_num
  linarith

/-- An argument. -/
theorem acc_arg {v : ℝ} (h1 : (2 : ℝ) ^ a ≤ |v|) (h2 : |v| ≤ (2 : ℝ) ^ b) : Acc (.fin v : F64 P) v 0 a b :=
  ⟨by simpa using rel_refl v, h1, h2⟩

/-- A constant rounded to the format. -/
theorem acc_rnd {v : ℝ} (h1 : (2 : ℝ) ^ a ≤ |v|) (h2 : |v| ≤ (2 : ℝ) ^ b) (ha : -1000 ≤ a) (hb : b ≤ 1000) :
    Acc (F64.out (P.rnd v) : F64 P) v 1 a b :=
  ⟨by simpa using rel_rnd ((two_zpow_mono ha).trans h1) (h2.trans (two_zpow_mono hb)), h1, h2⟩

/-- A number of links. -/
theorem acc_nat {N : ℕ} (h1 : 0 < N) (h2 : N ≤ 255) : Acc (N : F64 P) N 0 0 8 := by
  have e : ((N : F64 P)) = .fin (N : ℝ) := by
    show F64.out (P.rnd (N : ℝ)) = _
    refine rel_exact (grid_nat (by omega)) ?_
    rw [Nat.abs_cast]
    calc (N : ℝ) ≤ 255 := by exact_mod_cast h2
      _ ≤ 2 ^ (8 : ℤ) := by norm_num
      _ ≤ _ := two_zpow_mono (by norm_num)
  rw [e]
  refine acc_arg ?_ ?_
  · rw [Nat.abs_cast, zpow_zero]; exact_mod_cast h1
  · rw [Nat.abs_cast]
    calc (N : ℝ) ≤ 255 := by exact_mod_cast h2
      _ ≤ 2 ^ (8 : ℤ) := by norm_num

theorem acc_lit {mm : ℕ} {sg : Bool} {e : ℕ} (h1 : (2 : ℝ) ^ a ≤ |(OfScientific.ofScientific mm sg e : ℝ)|)
    (h2 : |(OfScientific.ofScientific mm sg e : ℝ)| ≤ (2 : ℝ) ^ b) (ha : -1000 ≤ a) (hb : b ≤ 1000) :
    Acc (OfScientific.ofScientific mm sg e : F64 P) (OfScientific.ofScientific mm sg e) 1 a b := acc_rnd h1 h2 ha hb

theorem acc_boltzmann : Acc (Polymers.BOLTZMANN_CONSTANT : F64 P) (Polymers.BOLTZMANN_CONSTANT : ℝ) 1 3 4 := by
  refine acc_lit (a := 3) (b := 4) ?_ ?_ (by norm_num) (by norm_num) <;> norm_num

theorem acc_planck : Acc (Polymers.PLANCK_CONSTANT : F64 P) (Polymers.PLANCK_CONSTANT : ℝ) 1 (-4) (-3) := by
  refine acc_lit (a := -4) (b := -3) ?_ ?_ (by norm_num) (by norm_num) <;> norm_num

theorem acc_pi : Acc (Elem.pi : F64 P) π 1 1 2 := by
  have h1 : (2 : ℝ) ^ (1 : ℤ) ≤ |π| := by rw [abs_of_pos pi_pos]; norm_num; exact two_le_pi
  have h2 : |π| ≤ (2 : ℝ) ^ (2 : ℤ) := by rw [abs_of_pos pi_pos]; norm_num; exact pi_le_four
  have h := acc_rnd (P := P) h1 h2 (by norm_num) (by norm_num)
  have e : (F64.out (P.rnd π) : F64 P) = .fin (P.rnd π) := by
    refine out_of_le ?_
    have h3 := rnd_mono P pi_le_four
    have h4 := rnd_mono P (show (0 : ℝ) ≤ π from pi_pos.le)
    rw [rnd_of_mem P grid_zero] at h4
    have h5 : (4 : ℝ) ∈ grid := by simpa using grid_int (n := 4) (by norm_num)
    rw [rnd_of_mem P h5] at h3
    rw [abs_of_nonneg h4]
    calc P.rnd π ≤ 2 ^ (2 : ℤ) := by norm_num; exact h3
      _ ≤ _ := two_zpow_mono (by norm_num)
  rwa [e] at h

/-- An exponential: the error of the argument counts in proportion to its size. -/
theorem Acc.exp (hx : Acc x r n a b) (hn0 : 0 ≤ n) (hn : n ≤ 100) (h1 : -300 ≤ r) (h2 : r ≤ 0) :
    Acc (Elem.exp x) (Elem.exp r) ((n + 1) * |r| + 1) (-440) 0 := by
  have hw := hx.rel.within.mono (mul_le_mul_of_nonneg_right (exp_units_le' P hn0 (by linarith)) (abs_nonneg r))
  have he := eps_le_unit P
  have hs := eps_small P
  have hp := eps_pos P
  have hr : |r| ≤ 300 := by rw [abs_of_nonpos h2]; linarith
  have h3 : (n + 1) * P.ε * |r| ≤ 1 := by
    calc (n + 1) * P.ε * |r| ≤ (101 * 1e-12) * 300 := by
          refine mul_le_mul (mul_le_mul (by linarith) hs hp.le (by norm_num)) hr (abs_nonneg _) (by norm_num)
      _ ≤ 1 := by norm_num
  have h := rel_exp hw h3 (by linarith) (by linarith)
  have hpos : 0 < Real.exp r := exp_pos r
  show Acc (Elem.exp x) (Real.exp r) _ _ _
  refine ⟨h.mono ?_, ?_, ?_⟩
  · have : (n + 1) * P.ε * |r| ≤ (n + 1) * unit P * |r| :=
      mul_le_mul_of_nonneg_right (mul_le_mul_of_nonneg_left he (by linarith)) (abs_nonneg _)
    linarith
  · rw [abs_of_pos hpos]
    have h4 : Real.exp 1 ^ 300 ≤ (2 : ℝ) ^ 440 := by
      have h5 : Real.exp 1 ^ 30 ≤ (2 : ℝ) ^ 44 := by
        calc Real.exp 1 ^ 30 ≤ (2.7182818286 : ℝ) ^ 30 := pow_le_pow_left₀ (exp_pos _).le exp_one_lt_d9.le _
          _ ≤ 2 ^ 44 := by norm_num
      calc Real.exp 1 ^ 300 = (Real.exp 1 ^ 30) ^ 10 := by rw [← pow_mul]
        _ ≤ ((2 : ℝ) ^ 44) ^ 10 := pow_le_pow_left₀ (by positivity) h5 _
        _ = 2 ^ 440 := by rw [← pow_mul]
    rw [← exp_nat_mul] at h4
    calc (2 : ℝ) ^ (-440 : ℤ) = ((2 : ℝ) ^ 440)⁻¹ := by rw [zpow_neg]; norm_cast
      _ ≤ (Real.exp ((300 : ℕ) * 1))⁻¹ := inv_anti₀ (exp_pos _) h4
      _ = Real.exp (-300) := by rw [← exp_neg]; norm_num
      _ ≤ Real.exp r := exp_le_exp.2 h1
  · rw [abs_of_pos hpos, zpow_zero]
    exact exp_le_one_iff.2 h2

/-- The power `3 / 2` of a positive number. -/
theorem Acc.powf (hx : Acc x r n a b) (hr : 0 < r) (hn : n ≤ 50000) (h1 : -1000 ≤ 2 * a) (h2 : 2 * b ≤ 1000) (ha : a ≤ 0)
    (hb : 0 ≤ b) :
    Acc (Elem.powf x 1.5) (Elem.powf r 1.5) (3 / 2 * n + 1) (2 * a) (2 * b) := by
  obtain ⟨⟨δ, hδ, rfl⟩, lo, hi⟩ := hx
  rw [abs_of_pos hr] at lo hi
  have e15 : (1.5 : F64 P) = .fin (3 / 2) := by
    show F64.out (P.rnd (1.5 : ℝ)) = _
    rw [show (1.5 : ℝ) = 3 / 2 by norm_num]
    refine rel_exact ⟨3, -1, by norm_num, by norm_num, by norm_num⟩ ?_
    rw [abs_of_pos (by norm_num)]
    calc (3 / 2 : ℝ) ≤ 2 ^ (1 : ℤ) := by norm_num
      _ ≤ _ := two_zpow_mono (by norm_num)
  have er : (Elem.powf r 1.5 : ℝ) = r ^ (3 / 2 : ℝ) := by show r ^ (1.5 : ℝ) = _; norm_num
  have hpos : 0 < r ^ (3 / 2 : ℝ) := rpow_pos_of_pos hr _
  have lo' : (2 : ℝ) ^ (2 * a) ≤ r ^ (3 / 2 : ℝ) := by
    have h3 : ((2 : ℝ) ^ a) ^ (3 / 2 : ℝ) ≤ r ^ (3 / 2 : ℝ) := rpow_le_rpow (by positivity) lo (by norm_num)
    refine le_trans ?_ h3
    rw [← rpow_intCast, ← rpow_intCast, ← rpow_mul (by norm_num)]
    refine rpow_le_rpow_of_exponent_le (by norm_num) ?_
    have : (a : ℝ) ≤ 0 := by exact_mod_cast ha
    push_cast; linarith
  have hi' : r ^ (3 / 2 : ℝ) ≤ (2 : ℝ) ^ (2 * b) := by
    have h3 : r ^ (3 / 2 : ℝ) ≤ ((2 : ℝ) ^ b) ^ (3 / 2 : ℝ) := rpow_le_rpow hr.le hi (by norm_num)
    refine h3.trans ?_
    rw [← rpow_intCast, ← rpow_intCast, ← rpow_mul (by norm_num)]
    refine rpow_le_rpow_of_exponent_le (by norm_num) ?_
    have : (0 : ℝ) ≤ b := by exact_mod_cast hb
    push_cast; linarith
  rw [er, e15]
  have hv : 0 < r * Real.exp δ := mul_pos hr (exp_pos _)
  have ev : (r * Real.exp δ) ^ (3 / 2 : ℝ) = r ^ (3 / 2 : ℝ) * Real.exp (3 / 2 * δ) := by
    rw [mul_rpow hr.le (exp_pos _).le, ← exp_mul, mul_comm δ]
  have hP := P.powf_err (r * Real.exp δ) (3 / 2)
  rw [ev] at hP
  have hu := units_le_one P (n := 3 / 2 * n) (by linarith)
  have h := rel_approx hP (show |3 / 2 * δ| ≤ 3 / 2 * n * unit P by rw [abs_mul, abs_of_pos (by norm_num)]; linarith) hu
    (by rw [abs_of_pos hpos]; exact (two_zpow_mono h1).trans lo') (by rw [abs_of_pos hpos]; exact hi'.trans (two_zpow_mono h2))
  refine ⟨?_, by rw [abs_of_pos hpos]; exact lo', by rw [abs_of_pos hpos]; exact hi'⟩
  show Rel (F64.bin _ _ _ _ _ _) _ _
  simp only [F64.bin]
  rw [if_pos (Or.inl hv)]
  exact h.mono (by linarith)

/-- A logarithm: the relative error of the argument becomes an absolute error. -/
theorem Acc.ln (hx : Acc x r n a b) (hr : 0 < r) (hn : n ≤ 1000) (ha : -1000 ≤ a) (hb : b ≤ 1000) :
    Within (Elem.ln x) (Elem.ln r) (P.ε * (|Real.log r| + n + 2)) := by
  obtain ⟨⟨δ, hδ, rfl⟩, lo, hi⟩ := hx
  rw [abs_of_pos hr] at lo hi
  have hv : 0 < r * Real.exp δ := mul_pos hr (exp_pos _)
  have hlog : Real.log (r * Real.exp δ) = Real.log r + δ := by rw [Real.log_mul hr.ne' (exp_pos _).ne', log_exp]
  have hs := eps_small P
  have hp := eps_pos P
  have hu := unit_le P
  have hn0 : 0 ≤ n := by
    by_contra hneg
    have := mul_neg_of_neg_of_pos (not_le.1 hneg) (unit_pos P)
    linarith [abs_nonneg δ]
  have hδ' : |δ| ≤ n * P.ε + P.ε / 2 := by
    have : n * unit P ≤ n * (P.ε * (1 + 2e-12)) := mul_le_mul_of_nonneg_left hu hn0
    have h2 : n * P.ε ≤ 1000 * P.ε := mul_le_mul_of_nonneg_right hn hp.le
    nlinarith
  have hδ1 : |δ| ≤ 1 / 4 := by nlinarith
  have hl : |Real.log r| ≤ 1000 := by
    have h1 : ((2 : ℝ) ^ (-1000 : ℤ)) ≤ r := (two_zpow_mono ha).trans lo
    have h2 : r ≤ (2 : ℝ) ^ (1000 : ℤ) := hi.trans (two_zpow_mono hb)
    have h3 := log_le_log (by positivity) h1
    have h4 := log_le_log hr h2
    rw [log_zpow] at h3 h4
    have h5 := log_two_lt_d9
    rw [abs_le]
    push_cast at h3 h4
    constructor <;> linarith
  have hP := P.fn_err .ln (r * Real.exp δ)
  simp only [Fn.exact] at hP
  rw [hlog] at hP
  have ht : (2 : ℝ) ^ (-1022 : ℤ) ≤ 1 / 4 := by
    calc (2 : ℝ) ^ (-1022 : ℤ) ≤ 2 ^ (-2 : ℤ) := two_zpow_mono (by norm_num)
      _ = 1 / 4 := by norm_num
  have hmax : max |Real.log r + δ| ((2 : ℝ) ^ (-1022 : ℤ)) ≤ |Real.log r| + 1 / 2 :=
    max_le ((abs_add_le _ _).trans (by linarith)) (by linarith [abs_nonneg (Real.log r)])
  have hP' := hP.trans (mul_le_mul_of_nonneg_left hmax hp.le)
  have hbig : |P.fn .ln (r * Real.exp δ)| ≤ 2 ^ (1010 : ℤ) := by
    have h1 := abs_sub_abs_le_abs_sub (P.fn .ln (r * Real.exp δ)) (Real.log r + δ)
    have h2 := abs_add_le (Real.log r) δ
    have h3 : P.ε * (|Real.log r| + 1 / 2) ≤ 1 := by nlinarith [abs_nonneg (Real.log r)]
    calc |P.fn .ln (r * Real.exp δ)| ≤ 2 ^ (20 : ℤ) := by norm_num; linarith
      _ ≤ _ := two_zpow_mono (by norm_num)
  show Within (F64.un _ _ _ _) (Real.log r) _
  simp only [F64.un]
  rw [if_pos hv, out_of_le hbig]
  refine ⟨_, rfl, ?_⟩
  rw [show P.fn .ln (r * Real.exp δ) - Real.log r = (P.fn .ln (r * Real.exp δ) - (Real.log r + δ)) + δ by ring]
  refine (abs_add_le _ _).trans ?_
  linarith

/-- A number with an absolute error, multiplied by a number with a relative error. -/
theorem Acc.scale {e c : ℝ} (hx : Acc x r n a b) (hy : Within y s e) (hn0 : 0 ≤ n) (hn : n ≤ 1000) (hc : 2 ^ (-1000 : ℤ) ≤ |r| * c) (hb : b ≤ 300)
    (hs : |s| ≤ 2 ^ (600 : ℤ)) (he0 : 0 ≤ e) (he : e ≤ 2 ^ (600 : ℤ)) :
    Within (x * y) (r * s) (|r| * (1.01 * e + P.ε * ((n + 3) * |s| + c))) := by
  obtain ⟨v, rfl, hv⟩ := hx.rel.within.mono (mul_le_mul_of_nonneg_right (exp_units_le' P hn0 (by linarith)) (abs_nonneg r))
  obtain ⟨w, rfl, hw⟩ := hy
  have hsm := eps_small P
  have hp := eps_pos P
  have h1 : (n + 1) * P.ε ≤ 0.001 := by nlinarith
  have hr := abs_nonneg r
  have hs0 := abs_nonneg s
  have hv2 : |v| ≤ 1.001 * |r| := by
    have h2 := abs_sub_abs_le_abs_sub v r
    have h3 : (n + 1) * P.ε * |r| ≤ 0.001 * |r| := mul_le_mul_of_nonneg_right h1 hr
    linarith
  have ht : |v * w - r * s| ≤ 1.001 * |r| * e + (n + 1) * P.ε * |r| * |s| := by
    rw [show v * w - r * s = v * (w - s) + (v - r) * s by ring]
    refine (abs_add_le _ _).trans ?_
    rw [abs_mul, abs_mul]
    exact add_le_add (mul_le_mul hv2 hw (abs_nonneg _) (by positivity)) (mul_le_mul_of_nonneg_right hv hs0)
  have h901 : (4 : ℝ) * 2 ^ (900 : ℤ) ≤ 2 ^ (1000 : ℤ) := by
    calc (4 : ℝ) * 2 ^ (900 : ℤ) = 2 ^ (2 : ℤ) * 2 ^ (900 : ℤ) := by norm_num
      _ = 2 ^ (902 : ℤ) := by rw [← zpow_add₀ (by norm_num)]; norm_num
      _ ≤ _ := two_zpow_mono (by norm_num)
  have h900 : (2 : ℝ) ^ (300 : ℤ) * 2 ^ (600 : ℤ) = 2 ^ (900 : ℤ) := by rw [← zpow_add₀ (by norm_num)]; norm_num
  have hb' : |r| ≤ 2 ^ (300 : ℤ) := hx.hi.trans (two_zpow_mono hb)
  have q1 : |r| * |s| ≤ 2 ^ (900 : ℤ) := by rw [← h900]; exact mul_le_mul hb' hs hs0 (by positivity)
  have q2 : |r| * e ≤ 2 ^ (900 : ℤ) := by rw [← h900]; exact mul_le_mul hb' he he0 (by positivity)
  have q3 : (n + 1) * P.ε * |r| * |s| ≤ 0.001 * (|r| * |s|) := by
    rw [mul_assoc]; exact mul_le_mul_of_nonneg_right h1 (by positivity)
  have hrange : |r * s| + (1.001 * |r| * e + (n + 1) * P.ε * |r| * |s|) ≤ 2 ^ (1000 : ℤ) := by
    rw [abs_mul]
    have q4 : 0 ≤ |r| * |s| := by positivity
    generalize (2 : ℝ) ^ (900 : ℤ) = A at *
    generalize (2 : ℝ) ^ (1000 : ℤ) = B at *
    linarith
  have h := within_approx (rnd_err' P (v * w)) ht hrange
  refine h.mono ?_
  have hlo : (2 : ℝ) ^ (-1022 : ℤ) ≤ |r| * c := (two_zpow_mono (by norm_num)).trans hc
  rw [abs_mul]
  have k1 : P.ε * (1.001 * |r| * e) ≤ 1e-12 * (1.001 * |r| * e) := mul_le_mul_of_nonneg_right hsm (by positivity)
  have k2 : P.ε * ((n + 1) * P.ε * |r| * |s|) ≤ P.ε * (0.001 * (|r| * |s|)) := mul_le_mul_of_nonneg_left q3 hp.le
  have k3 : P.ε * (2 : ℝ) ^ (-1022 : ℤ) ≤ P.ε * (|r| * c) := mul_le_mul_of_nonneg_left hlo hp.le
  have k4 : 0 ≤ |r| * e := by positivity
  have k5 : 0 ≤ P.ε * (|r| * |s|) := by positivity
  nlinarith only [k1, k2, k3, k4, k5]

/-- The sum of a number with a relative error and one with an absolute error of the scale `c`. -/
theorem Acc.add_within {c : ℝ} (hx : Acc x r n a b) (hy : Within y s (P.ε * (7 * |s| + 28 * c))) (hn0 : 0 ≤ n) (hn : n ≤ 20) (hb : b ≤ 990)
    (hs : |s| ≤ 2 ^ (990 : ℤ)) (hc : 2 ^ (-1000 : ℤ) ≤ c) (hc' : c ≤ 2 ^ (990 : ℤ)) :
    Within (x + y) (r + s) (P.ε * (23 * |r| + 9 * |s| + 30 * c)) := by
  have hw := hx.rel.within.mono (mul_le_mul_of_nonneg_right (exp_units_le' P hn0 (by linarith)) (abs_nonneg r))
  have hsm := eps_small P
  have hp := eps_pos P
  have hr := abs_nonneg r
  have hs0 := abs_nonneg s
  have hc0 : 0 < c := lt_of_lt_of_le (by positivity) hc
  have h1 : (n + 1) * P.ε * |r| ≤ 21 * P.ε * |r| := mul_le_mul_of_nonneg_right (mul_le_mul_of_nonneg_right (by linarith) hp.le) hr
  have hw := hw.mono h1
  have hb' : |r| ≤ 2 ^ (990 : ℤ) := hx.hi.trans (two_zpow_mono hb)
  have habs := abs_add_le r s
  have q1 : P.ε * |r| ≤ 1e-12 * |r| := mul_le_mul_of_nonneg_right hsm hr
  have q2 : P.ε * |s| ≤ 1e-12 * |s| := mul_le_mul_of_nonneg_right hsm hs0
  have q3 : P.ε * c ≤ 1e-12 * c := mul_le_mul_of_nonneg_right hsm hc0.le
  have h1000 : (4 : ℝ) * 2 ^ (990 : ℤ) ≤ 2 ^ (1000 : ℤ) := by
    calc (4 : ℝ) * 2 ^ (990 : ℤ) = 2 ^ (2 : ℤ) * 2 ^ (990 : ℤ) := by norm_num
      _ = 2 ^ (992 : ℤ) := by rw [← zpow_add₀ (by norm_num)]; norm_num
      _ ≤ _ := two_zpow_mono (by norm_num)
  have hpow : (0 : ℝ) < 2 ^ (990 : ℤ) := by positivity
  have h := within_add hw hy (by
    generalize (2 : ℝ) ^ (990 : ℤ) = A at *
    generalize (2 : ℝ) ^ (1000 : ℤ) = B at *
    linarith)
  refine h.mono ?_
  have ht : (2 : ℝ) ^ (-1022 : ℤ) ≤ c := (two_zpow_mono (by norm_num)).trans hc
  have hin : |r + s| + (21 * P.ε * |r| + P.ε * (7 * |s| + 28 * c)) + 2 ^ (-1022 : ℤ) ≤ 2 * |r| + 2 * |s| + 2 * c := by
    generalize (2 : ℝ) ^ (-1022 : ℤ) = A at *
    linarith
  have h2 := mul_le_mul_of_nonneg_left hin hp.le
  generalize (2 : ℝ) ^ (-1022 : ℤ) = A at *
  linarith

theorem sub_eq_add_neg' (x y : F64 P) : x - y = x + -y := by
  rcases x with u | s | _ | _ <;> rcases y with v | t | _ | _ <;> (try cases s) <;> (try cases t) <;> rfl

/-- The difference of a number with a relative error and one with an absolute error of the scale `c`. -/
theorem Acc.sub_within {c : ℝ} (hx : Acc x r n a b) (hy : Within y s (P.ε * (7 * |s| + 28 * c))) (hn0 : 0 ≤ n) (hn : n ≤ 20) (hb : b ≤ 990)
    (hs : |s| ≤ 2 ^ (990 : ℤ)) (hc : 2 ^ (-1000 : ℤ) ≤ c) (hc' : c ≤ 2 ^ (990 : ℤ)) :
    Within (x - y) (r - s) (P.ε * (23 * |r| + 9 * |s| + 30 * c)) := by
  have h := hx.add_within (c := c) (s := -s) (y := -y) (by rw [abs_neg]; exact within_neg hy) hn0 hn hb (by rwa [abs_neg]) hc hc'
  rw [abs_neg] at h
  rw [sub_eq_add_neg', sub_eq_add_neg]
  exact h

/-- A scaled sum. -/
theorem Acc.scale_sum {A B c : ℝ} (hx : Acc x r n a b) (hy : Within y s (P.ε * (23 * |A| + 9 * |B| + 30 * c))) (hs : |s| ≤ |A| + |B|) (hn0 : 0 ≤ n)
    (hn : n ≤ 5) (hb : b ≤ 300) (hA : |A| ≤ 2 ^ (590 : ℤ)) (hB : |B| ≤ 2 ^ (590 : ℤ)) (hc : 2 ^ (-1000 : ℤ) ≤ |r| * c) (hc' : c ≤ 2 ^ (590 : ℤ)) :
    Within (x * y) (r * s) (P.ε * (40 * |r * A| + 20 * |r * B| + 40 * (|r| * c))) := by
  have hsm := eps_small P
  have hp := eps_pos P
  have hA0 := abs_nonneg A
  have hB0 := abs_nonneg B
  have hr0 := abs_nonneg r
  have hr : 0 < |r| := abs_pos.2 hx.ne_zero
  have hc0 : 0 < c := by
    have : 0 < |r| * c := lt_of_lt_of_le (by positivity) hc
    exact pos_of_mul_pos_right this hr0
  have h600 : (2 : ℝ) * 2 ^ (590 : ℤ) ≤ 2 ^ (600 : ℤ) := by
    calc (2 : ℝ) * 2 ^ (590 : ℤ) = 2 ^ (591 : ℤ) := by rw [← zpow_one_add₀ (by norm_num)]; norm_num
      _ ≤ _ := two_zpow_mono (by norm_num)
  have he : P.ε * (23 * |A| + 9 * |B| + 30 * c) ≤ 2 ^ (600 : ℤ) := by
    have h1 : P.ε * (23 * |A| + 9 * |B| + 30 * c) ≤ 1e-12 * (23 * |A| + 9 * |B| + 30 * c) := mul_le_mul_of_nonneg_right hsm (by positivity)
    have h2 : (0 : ℝ) < 2 ^ (590 : ℤ) := by positivity
    generalize (2 : ℝ) ^ (590 : ℤ) = U at *
    generalize (2 : ℝ) ^ (600 : ℤ) = V at *
    linarith
  have hs' : |s| ≤ 2 ^ (600 : ℤ) := by
    generalize (2 : ℝ) ^ (590 : ℤ) = U at *
    generalize (2 : ℝ) ^ (600 : ℤ) = V at *
    linarith
  have h := hx.scale hy hn0 (by linarith) hc hb hs' (by positivity) he
  refine h.mono ?_
  rw [abs_mul, abs_mul]
  have k1 : (n + 3) * |s| ≤ 8 * (|A| + |B|) := mul_le_mul (by linarith) hs (abs_nonneg _) (by norm_num)
  have k2 : |r| * (1.01 * (P.ε * (23 * |A| + 9 * |B| + 30 * c)) + P.ε * ((n + 3) * |s| + c)) ≤
      |r| * (P.ε * (40 * |A| + 20 * |B| + 40 * c)) := by
    refine mul_le_mul_of_nonneg_left ?_ hr0
    have : 1.01 * (P.ε * (23 * |A| + 9 * |B| + 30 * c)) + P.ε * ((n + 3) * |s| + c) =
        P.ε * (1.01 * (23 * |A| + 9 * |B| + 30 * c) + ((n + 3) * |s| + c)) := by ring
    rw [this]
    refine mul_le_mul_of_nonneg_left ?_ hp.le
    linarith
  refine k2.trans (le_of_eq ?_)
  ring

/-- Final bound on the error. -/
theorem Acc.accurate (h : Acc x r n a b) (hn0 : 0 ≤ n) (hn : n ≤ 100000) {k : ℝ} (hk : n + 1 ≤ k) : Accurate k x r :=
  h.rel.within.mono (mul_le_mul_of_nonneg_right ((exp_units_le' P hn0 hn).trans
    (mul_le_mul_of_nonneg_right hk (eps_pos P).le)) (abs_nonneg _))

end Polymers.Lemmas
