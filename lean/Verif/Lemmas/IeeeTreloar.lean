import Verif.Lemmas.IeeeScale
import Verif.Lemmas.Treloar
import Mathlib.Algebra.Order.Ring.Abs

/-! Rounding in the sums of Treloar. -/

namespace Polymers.Lemmas

open Polymers.Ieee Polymers.Spec Finset Polymers.fjc.thermodynamics

variable {P : Platform} {x y : F64 P} {r s e : ℝ}

theorem cast_exact {n : ℕ} (h : n < 2 ^ 53) : ((n : F64 P)) = .fin n := by
  refine rel_exact (grid_nat h) ?_
  rw [Nat.abs_cast]
  calc (n : ℝ) ≤ 2 ^ (53 : ℕ) := by exact_mod_cast h.le
    _ ≤ 2 ^ (1000 : ℤ) := by rw [← zpow_natCast]; exact two_zpow_mono (by norm_num)

theorem lit_half : (0.5 : F64 P) = .fin (1 / 2) := by
  show F64.out (P.rnd (0.5 : ℝ)) = _
  rw [show (0.5 : ℝ) = 2 ^ (-1 : ℤ) by norm_num]
  rw [rel_exact (grid_zpow (by norm_num)) (by rw [abs_of_pos (by positivity)]; exact two_zpow_mono (by norm_num))]
  norm_num

theorem tiny_le {a : ℝ} (h : (1e-9 : ℝ) ≤ a) : (2 : ℝ) ^ (-1022 : ℤ) ≤ a := by
  calc (2 : ℝ) ^ (-1022 : ℤ) ≤ 2 ^ (-30 : ℤ) := two_zpow_mono (by norm_num)
    _ ≤ 1e-9 := by norm_num
    _ ≤ a := h

theorem thousand_le {a : ℝ} (h : a ≤ 1000) : a ≤ (2 : ℝ) ^ (1000 : ℤ) := by
  calc a ≤ 1000 := h
    _ ≤ 2 ^ (10 : ℤ) := by norm_num
    _ ≤ _ := two_zpow_mono (by norm_num)

/-- A sum of numbers in floating point. -/
theorem within_fsum {f : ℕ → F64 P} {g W : ℕ → ℝ} {a : ℝ} (n : ℕ) (ha : 0 ≤ a) (han : a + 2 * n ≤ 10000) (hf : ∀ i < n, Within (f i) (g i) (P.ε * (a * W i)))
    (hg : ∀ i < n, |g i| ≤ W i) (hW : ∀ i < n, 2 ^ (-1000 : ℤ) ≤ W i) (hS : ∑ i ∈ range n, W i ≤ 2 ^ (900 : ℤ)) :
    Within (Polymers.fsum ((List.range n).map f)) (∑ i ∈ range n, g i) (P.ε * ((a + 2 * n) * ∑ i ∈ range n, W i)) := by
  induction n with
  | zero =>
    refine ⟨0, ?_, by simp⟩
    show F64.out (P.rnd (0.0 : ℝ)) = _
    rw [show (0.0 : ℝ) = 0 by norm_num]
    exact rel_exact grid_zero (by simp)
  | succ n ih =>
    have hp := eps_pos P
    have hs := eps_small P
    rw [sum_range_succ] at hS ⊢
    rw [sum_range_succ]
    have hWn := hW n (by omega)
    have hW0 : 0 < W n := lt_of_lt_of_le (by positivity) hWn
    have hT0 : 0 ≤ ∑ i ∈ range n, W i := sum_nonneg fun i hi => by
      have := hW i (by have := mem_range.1 hi; omega)
      exact (lt_of_lt_of_le (by positivity) this).le
    push_cast at han ⊢
    have h1 := ih (by linarith) (fun i hi => hf i (by omega)) (fun i hi => hg i (by omega)) (fun i hi => hW i (by omega)) (by linarith)
    have hgs : |∑ i ∈ range n, g i| ≤ ∑ i ∈ range n, W i := (abs_sum_le_sum_abs _ _).trans (sum_le_sum fun i hi => hg i (by have := mem_range.1 hi; omega))
    rw [List.range_succ, List.map_append]
    show Within (List.foldl (fun a x => a + x) 0.0 (List.map f (List.range n) ++ [f n])) _ _
    rw [List.foldl_append]
    show Within (Polymers.fsum (List.map f (List.range n)) + f n) _ _
    set T := ∑ i ∈ range n, W i with hT
    set G := ∑ i ∈ range n, g i with hG
    have hn0 : (0 : ℝ) ≤ n := Nat.cast_nonneg n
    have hgn := hg n (by omega)
    have habs : |G + g n| ≤ T + W n := (abs_add_le _ _).trans (add_le_add hgs hgn)
    have k1 : P.ε * ((a + 2 * n) * T) ≤ 1e-4 * T := by
      rw [← mul_assoc]
      refine mul_le_mul_of_nonneg_right ?_ hT0
      nlinarith
    have k2 : P.ε * (a * W n) ≤ 1e-4 * W n := by
      rw [← mul_assoc]
      refine mul_le_mul_of_nonneg_right ?_ hW0.le
      nlinarith
    have h901 : (2 : ℝ) * 2 ^ (900 : ℤ) ≤ 2 ^ (1000 : ℤ) := by
      rw [← zpow_one_add₀ (by norm_num)]; exact two_zpow_mono (by norm_num)
    have ht : (2 : ℝ) * 2 ^ (-1022 : ℤ) ≤ 2 ^ (-1000 : ℤ) := by
      rw [← zpow_one_add₀ (by norm_num)]; exact two_zpow_mono (by norm_num)
    have h2 := within_add h1 (hf n (by omega)) (by
      generalize (2 : ℝ) ^ (900 : ℤ) = A at *
      generalize (2 : ℝ) ^ (1000 : ℤ) = B at *
      linarith)
    refine h2.mono ?_
    have k3 : |G + g n| + (P.ε * ((a + 2 * n) * T) + P.ε * (a * W n)) + 2 ^ (-1022 : ℤ) ≤ 2 * (T + W n) := by
      generalize (2 : ℝ) ^ (-1022 : ℤ) = A at *
      generalize (2 : ℝ) ^ (-1000 : ℤ) = B at *
      linarith
    have k4 := mul_le_mul_of_nonneg_left k3 hp.le
    have k5 : 0 ≤ P.ε * (n * W n) := by positivity
    generalize (2 : ℝ) ^ (-1022 : ℤ) = A at *
    nlinarith only [k4, k5]

/-- The rounded fraction of the contour length left on one side. -/
theorem within_half {γ : ℝ} (hy : Within y γ (P.ε * 7)) (h0 : 0 < γ) (h1 : γ < 1) : Within ((-y) * 0.5 + 0.5) ((1 - γ) / 2) (P.ε * 5) := by
  obtain ⟨v, rfl, hv⟩ := hy
  have hp := eps_pos P
  have hs := eps_small P
  have ht := tiny_le (a := 1e-9) le_rfl
  have e1 : (-(F64.fin v : F64 P)) * 0.5 = F64.out (P.rnd (-v * (1 / 2))) := by rw [lit_half]; rfl
  have k1 : |(-v * (1 / 2)) - (-γ / 2)| ≤ P.ε * 3.5 := by
    rw [show (-v * (1 / 2)) - (-γ / 2) = -((v - γ) / 2) by ring, abs_neg, abs_div, abs_two]
    linarith
  have a1 : |(-γ / 2 : ℝ)| = γ / 2 := by rw [abs_div, abs_neg, abs_of_pos h0, abs_two]
  have h2 := within_approx (P := P) (rnd_err' P (-v * (1 / 2))) k1 (thousand_le (by rw [a1]; linarith))
  rw [a1, ← e1] at h2
  have h3 : Within (0.5 : F64 P) (1 / 2) 0 := ⟨1 / 2, lit_half, by simp⟩
  have h2' := h2.mono (show _ ≤ P.ε * 4.1 by
    generalize (2 : ℝ) ^ (-1022 : ℤ) = A at *
    nlinarith)
  have a2 : |-γ / 2 + 1 / 2| ≤ 1 / 2 := by rw [abs_le]; constructor <;> linarith
  have h4 := within_add h2' h3 (thousand_le (by linarith))
  rw [show -γ / 2 + 1 / 2 = (1 - γ) / 2 by ring] at h4 a2
  refine h4.mono ?_
  generalize (2 : ℝ) ^ (-1022 : ℤ) = A at *
  nlinarith

/-- The number of terms of the sum. -/
theorem treloar_k_rounded {γ : ℝ} {N : ℕ} (hN : N ≤ 34) (hN0 : 0 < N) (hy : Within y γ (P.ε * 7)) (h0 : 0 < γ) (h1 : γ ≤ 1 - 1e-6) :
    ∃ ξ : ℝ, treloar_k N y = ⌈ξ⌉₊ ∧ |ξ - N * ((1 - γ) / 2)| ≤ P.ε * (6 * N) ∧ 0 < ξ := by
  obtain ⟨μ, hμ, hd⟩ := within_half hy h0 (by linarith)
  have hp := eps_pos P
  have hs := eps_small P
  have ht := tiny_le (a := 1e-9) le_rfl
  have hN1 : (1 : ℝ) ≤ N := by exact_mod_cast hN0
  have hN2 : (N : ℝ) ≤ 34 := by exact_mod_cast hN
  have e1 : (N : F64 P) * ((-y) * 0.5 + 0.5) = F64.out (P.rnd (N * μ)) := by rw [hμ, cast_exact (by omega)]; rfl
  have k1 : |N * μ - N * ((1 - γ) / 2)| ≤ N * (P.ε * 5) := by
    rw [← mul_sub, abs_mul, Nat.abs_cast]
    exact mul_le_mul_of_nonneg_left hd (by linarith)
  have a1 : |(N : ℝ) * ((1 - γ) / 2)| ≤ N * (1 / 2) := by
    rw [abs_of_nonneg (mul_nonneg (by linarith) (by linarith))]
    exact mul_le_mul_of_nonneg_left (by linarith) (by linarith)
  have k0 : N * (P.ε * 5) ≤ 1e-3 := by nlinarith
  obtain ⟨ξ, hξ, hξd⟩ := within_approx (P := P) (rnd_err' P (N * μ)) k1 (thousand_le (by linarith))
  rw [← e1] at hξ
  have hξ' : |ξ - N * ((1 - γ) / 2)| ≤ P.ε * (6 * N) := by
    refine hξd.trans ?_
    have : |(N : ℝ) * ((1 - γ) / 2)| + N * (P.ε * 5) + 2 ^ (-1022 : ℤ) ≤ N := by
      generalize (2 : ℝ) ^ (-1022 : ℤ) = A at *
      linarith
    have := mul_le_mul_of_nonneg_left this hp.le
    linarith
  have k2 : P.ε * (6 * N) ≤ 3e-7 * N := by nlinarith
  obtain ⟨q1, q2⟩ := abs_le.1 hξ'
  have hpos : 0 < ξ := by nlinarith
  refine ⟨ξ, ?_, hξ', hpos⟩
  have hle : ξ ≤ 40 := by
    have : (N : ℝ) * ((1 - γ) / 2) ≤ N * (1 / 2) := mul_le_mul_of_nonneg_left (by linarith) (by linarith)
    nlinarith
  unfold treloar_k
  rw [hξ]
  show min _ ⌊((⌈ξ⌉ : ℤ) : ℝ)⌋₊ = _
  have hc : ⌊((⌈ξ⌉ : ℤ) : ℝ)⌋₊ = ⌈ξ⌉₊ := by
    rw [← Int.natCast_inj, Int.natCast_ceil_eq_ceil hpos.le, Int.natCast_floor_eq_floor (by exact_mod_cast (Int.ceil_pos.2 hpos).le), Int.floor_intCast]
  rw [hc]
  refine min_eq_right ?_
  have : ⌈ξ⌉₊ ≤ 40 := Nat.ceil_le.2 (by exact_mod_cast hle)
  omega

/-- The base of a power in the sum. -/
theorem within_base {m : ℝ} {z : F64 P} {N j : ℕ} (hz : Within z m (P.ε * 5)) (hm0 : 0 ≤ m) (hm : m ≤ 1 / 2) (hN0 : 0 < N) (hN : N ≤ 34) (hj : j ≤ N) :
    Within (z - (j : F64 P) / (N : F64 P)) (m - j / N) (P.ε * 8) := by
  have hp := eps_pos P
  have hs := eps_small P
  have ht := tiny_le (a := 1e-9) le_rfl
  have hN1 : (0 : ℝ) < N := by exact_mod_cast hN0
  have hq0 : (0 : ℝ) ≤ j / N := by positivity
  have hq1 : (j / N : ℝ) ≤ 1 := by rw [div_le_one hN1]; exact_mod_cast hj
  have e1 : ((j : F64 P) / (N : F64 P)) = F64.out (P.rnd (j / N)) := by
    rw [cast_exact (by omega), cast_exact (by omega)]
    show F64.bin _ _ _ _ _ _ = _
    simp only [F64.bin]
    rw [if_neg hN1.ne']
  have h1 := within_approx (P := P) (r := j / N) (e := 0) (rnd_err' P (j / N)) (by simp) (thousand_le (by rw [abs_of_nonneg hq0]; linarith))
  rw [← e1, abs_of_nonneg hq0] at h1
  have h1' := h1.mono (show _ ≤ P.ε * 1.1 by
    generalize (2 : ℝ) ^ (-1022 : ℤ) = A at *
    nlinarith)
  have a2 : |m - j / N| ≤ 1 := by rw [abs_le]; constructor <;> linarith
  have h2 := within_sub hz h1' (thousand_le (by linarith))
  refine h2.mono ?_
  generalize (2 : ℝ) ^ (-1022 : ℤ) = A at *
  nlinarith

/-- A power in the sum. -/
theorem within_power {z : F64 P} {b p : ℝ} {q : ℕ} (hz : Within z b (P.ε * 8)) (hb : |b| + 1e-8 ≤ p) (hp1 : p ≤ 1) (hp0 : 1e-7 ≤ p) (hq : 1 ≤ q)
    (hq' : q ≤ 33) : Within (Elem.powi z (q : ℤ)) (b ^ q) (P.ε * (10 * q * p ^ (q - 1))) := by
  obtain ⟨β, rfl, hβ⟩ := hz
  have hp := eps_pos P
  have hs := eps_small P
  have hp' : 0 < p := by linarith
  have hβp : |β| ≤ p := by
    have := abs_sub_abs_le_abs_sub β b
    linarith
  have hbp : |b| ≤ p := by linarith
  have hq1 : (1 : ℝ) ≤ q := by exact_mod_cast hq
  have hw0 : 0 < p ^ (q - 1) := by positivity
  have hw1 : p ^ (q - 1) ≤ 1 := pow_le_one₀ hp'.le hp1
  have hpq : p ^ q ≤ p ^ (q - 1) := pow_le_pow_of_le_one hp'.le hp1 (by omega)
  have hβq : |β ^ q| ≤ p ^ (q - 1) := by
    rw [abs_pow]; exact (pow_le_pow_left₀ (abs_nonneg _) hβp q).trans hpq
  have hwlo : (2 : ℝ) ^ (-900 : ℤ) ≤ p ^ (q - 1) := by
    calc (2 : ℝ) ^ (-900 : ℤ) ≤ 2 ^ (-(24 * 32) : ℤ) := two_zpow_mono (by norm_num)
      _ = ((2 : ℝ) ^ (-24 : ℤ)) ^ 32 := by rw [← zpow_natCast, ← zpow_mul]; norm_num
      _ ≤ p ^ 32 := pow_le_pow_left₀ (by positivity) (le_trans (by norm_num) hp0) 32
      _ ≤ p ^ (q - 1) := pow_le_pow_of_le_one hp'.le hp1 (by omega)
  have htiny : (2 : ℝ) ^ (-998 : ℤ) ≤ P.ε * p ^ (q - 1) := by
    calc (2 : ℝ) ^ (-998 : ℤ) ≤ 2 ^ (-53 : ℤ) * 2 ^ (-900 : ℤ) := by rw [← zpow_add₀ (by norm_num)]; exact two_zpow_mono (by norm_num)
      _ ≤ P.ε * p ^ (q - 1) := mul_le_mul P.le_ε hwlo (by positivity) hp.le
  have hpow : |P.powi β q - β ^ q| ≤ P.ε * (2 * q * p ^ (q - 1)) := by
    rcases le_total (2 ^ (-1000 : ℤ)) |β ^ (q : ℤ)| with h | h
    · have h2 := P.powi_err β q h (by
        rw [zpow_natCast]
        exact (hβq.trans hw1).trans (thousand_le (by norm_num)))
      rw [zpow_natCast] at h2
      have hm : max 1 |((q : ℤ) : ℝ)| = q := by
        rw [Int.cast_natCast, Nat.abs_cast]; exact max_eq_right hq1
      rw [hm] at h2
      have : q * P.ε * |β ^ q| ≤ q * P.ε * p ^ (q - 1) := mul_le_mul_of_nonneg_left hβq (by positivity)
      have h5 : 0 ≤ q * P.ε * p ^ (q - 1) := by positivity
      linarith
    · have h2 := P.powi_small β q h
      rw [zpow_natCast] at h
      have h3 : (2 : ℝ) ^ (-999 : ℤ) + 2 ^ (-1000 : ℤ) ≤ 2 ^ (-998 : ℤ) := by
        rw [show (-998 : ℤ) = -999 + 1 by norm_num, zpow_add₀ (by norm_num), zpow_one]
        have : (2 : ℝ) ^ (-1000 : ℤ) ≤ 2 ^ (-999 : ℤ) := two_zpow_mono (by norm_num)
        generalize (2 : ℝ) ^ (-999 : ℤ) = A at *
        linarith
      have h4 : |P.powi β q - β ^ q| ≤ |P.powi β q| + |β ^ q| := abs_sub _ _
      have h5 : P.ε * p ^ (q - 1) ≤ P.ε * (2 * q * p ^ (q - 1)) := mul_le_mul_of_nonneg_left (by nlinarith) hp.le
      linarith
  have hfin : (Elem.powi (F64.fin β) (q : ℤ) : F64 P) = .fin (P.powi β q) := by
    show F64.un _ _ _ _ = _
    simp only [F64.un]
    rw [if_neg (by omega)]
    refine out_of_le ?_
    have h3 := abs_sub_abs_le_abs_sub (P.powi β q) (β ^ q)
    have h4 : P.ε * (2 * q * p ^ (q - 1)) ≤ 1 := by
      have hq33 : (q : ℝ) ≤ 33 := by exact_mod_cast hq'
      have : 2 * q * p ^ (q - 1) ≤ 66 * 1 := mul_le_mul (by linarith) hw1 hw0.le (by norm_num)
      nlinarith
    have : |P.powi β q| ≤ 1000 := by linarith
    exact (thousand_le this).trans (two_zpow_mono (by norm_num))
  refine ⟨_, hfin, ?_⟩
  have hdiff : |β ^ q - b ^ q| ≤ P.ε * (8 * q * p ^ (q - 1)) := by
    refine (abs_pow_sub_pow_le _ _ _).trans ?_
    have : max |β| |b| ^ (q - 1) ≤ p ^ (q - 1) := pow_le_pow_left₀ (le_max_of_le_left (abs_nonneg _)) (max_le hβp hbp) _
    calc |β - b| * q * max |β| |b| ^ (q - 1) ≤ (P.ε * 8) * q * p ^ (q - 1) := by gcongr
      _ = _ := by ring
  have := abs_sub_le (P.powi β q) (β ^ q) (b ^ q)
  linarith

/-- The sign of a term. -/
theorem acc_sign {j : ℕ} (hj : j < 2 ^ 53) : Acc (Elem.powf (-1.0 : F64 P) (j : F64 P)) ((-1) ^ j) 1 0 0 := by
  have e : (Elem.powf (-1.0 : F64 P) (j : F64 P)) = F64.out (P.powf (-1) j) := by
    rw [cast_exact hj, show (-1.0 : F64 P) = .fin (-1) by show -(1.0 : F64 P) = _; rw [lit_one]; rfl]
    show F64.bin _ _ _ _ _ _ = _
    simp only [F64.bin]
    rw [if_pos (Or.inr (Or.inr ⟨by norm_num, j, by norm_num⟩))]
  have h := P.powf_err (-1) j
  rw [Real.rpow_natCast] at h
  have habs : |((-1 : ℝ)) ^ j| = 1 := by rw [abs_pow]; simp
  have hone : (2 : ℝ) ^ (-1000 : ℤ) ≤ 1 := zpow_le_one_of_nonpos₀ (by norm_num) (by norm_num)
  refine ⟨?_, by rw [habs]; simp, by rw [habs]; simp⟩
  rw [e]
  have := rel_approx (P := P) (w := P.powf (-1) j) (r := (-1) ^ j) (δ := 0) (d := 0) (by simpa using h) (by simp) (by norm_num) (by rwa [habs])
    (by rw [habs]; exact thousand_le (by norm_num))
  simpa using this

theorem acc_choose {N j : ℕ} (hN : N ≤ 34) (hj : j ≤ N) : Acc ((N.choose j : ℕ) : F64 P) ((N.choose j : ℕ) : ℝ) 1 0 34 := by
  have h1 : (1 : ℝ) ≤ N.choose j := by exact_mod_cast Nat.choose_pos hj
  have h2 : (N.choose j : ℝ) ≤ 2 ^ (34 : ℤ) := by
    have h3 : N.choose j ≤ 2 ^ 34 := (Nat.choose_le_two_pow N j).trans (Nat.pow_le_pow_right (by norm_num) hN)
    exact_mod_cast h3
  exact acc_rnd (by rw [Nat.abs_cast]; simpa using h1) (by rw [Nat.abs_cast]; exact h2) (by norm_num) (by norm_num)

theorem power_lo {p : ℝ} {q : ℕ} (hp0 : 1e-7 ≤ p) (hp1 : p ≤ 1) (hq' : q ≤ 32) : (2 : ℝ) ^ (-900 : ℤ) ≤ p ^ q := by
  calc (2 : ℝ) ^ (-900 : ℤ) ≤ 2 ^ (-(24 * 32) : ℤ) := two_zpow_mono (by norm_num)
    _ = ((2 : ℝ) ^ (-24 : ℤ)) ^ 32 := by rw [← zpow_natCast, ← zpow_mul]; norm_num
    _ ≤ p ^ 32 := pow_le_pow_left₀ (by positivity) (le_trans (by norm_num) hp0) 32
    _ ≤ p ^ q := pow_le_pow_of_le_one (by linarith) hp1 (by omega)

/-- A term of the sum. -/
theorem within_term {m : ℝ} {z : F64 P} {N j q : ℕ} (hz : Within z m (P.ε * 5)) (hm0 : 0 ≤ m) (hm : m ≤ 1 / 2) (hN0 : 0 < N) (hN : N ≤ 34) (hj : j ≤ N)
    {p : ℝ} (hb : |m - j / N| + 1e-8 ≤ p) (hp1 : p ≤ 1) (hp0 : 1e-7 ≤ p) (hq : 1 ≤ q) (hq' : q ≤ 33) :
    Within (Elem.powf (-1.0 : F64 P) (j : F64 P) * ((N.choose j : ℕ) : F64 P) * Elem.powi (z - (j : F64 P) / (N : F64 P)) (q : ℤ))
      ((-1) ^ j * (N.choose j : ℝ) * (m - j / N) ^ q) (P.ε * (18 * q * (N.choose j * p ^ (q - 1)))) := by
  have hp := eps_pos P
  have hs := eps_small P
  have h1 := within_power (within_base hz hm0 hm hN0 hN hj) hb hp1 hp0 hq hq'
  have h2 := (acc_sign (P := P) (j := j) (by omega)).mul (acc_choose hN hj) (by norm_num) (by norm_num) (by norm_num)
  have hp' : 0 < p := by linarith
  have hw0 : 0 < p ^ (q - 1) := by positivity
  have hw1 : p ^ (q - 1) ≤ 1 := pow_le_one₀ hp'.le hp1
  have hq1 : (1 : ℝ) ≤ q := by exact_mod_cast hq
  have hq33 : (q : ℝ) ≤ 33 := by exact_mod_cast hq'
  have hc1 : (1 : ℝ) ≤ N.choose j := by exact_mod_cast Nat.choose_pos hj
  have habs : |(-1 : ℝ) ^ j * (N.choose j : ℝ)| = N.choose j := by rw [abs_mul, abs_pow, Nat.abs_cast]; simp
  have hbq : |(m - j / N) ^ q| ≤ p ^ (q - 1) := by
    rw [abs_pow]
    exact (pow_le_pow_left₀ (abs_nonneg _) (by linarith) q).trans (pow_le_pow_of_le_one hp'.le hp1 (by omega))
  have h600 : (1000 : ℝ) ≤ 2 ^ (600 : ℤ) := by
    calc (1000 : ℝ) ≤ 2 ^ (10 : ℤ) := by norm_num
      _ ≤ _ := two_zpow_mono (by norm_num)
  have he : P.ε * (10 * q * p ^ (q - 1)) ≤ 1000 := by
    have : 10 * q * p ^ (q - 1) ≤ 330 * 1 := mul_le_mul (by linarith) hw1 hw0.le (by norm_num)
    nlinarith
  have h3 := h2.scale h1 (c := p ^ (q - 1)) (by norm_num) (by norm_num) (by
      rw [habs]
      calc (2 : ℝ) ^ (-1000 : ℤ) ≤ 1 * 2 ^ (-900 : ℤ) := by rw [one_mul]; exact two_zpow_mono (by norm_num)
        _ ≤ _ := mul_le_mul hc1 (power_lo hp0 hp1 (by omega)) (by positivity) (by linarith)) (by norm_num)
    ((hbq.trans hw1).trans (le_trans (by norm_num) h600)) (by positivity) (he.trans h600)
  refine h3.mono ?_
  rw [habs]
  have k : 1.01 * (P.ε * (10 * q * p ^ (q - 1))) + P.ε * ((1 + 1 + 1 + 3) * |(m - j / N) ^ q| + p ^ (q - 1)) ≤ P.ε * (18 * q * p ^ (q - 1)) := by
    have k1 : (1 + 1 + 1 + 3) * |(m - j / N) ^ q| ≤ 6 * p ^ (q - 1) := by linarith
    have k2 := mul_le_mul_of_nonneg_left k1 hp.le
    have k3 : P.ε * p ^ (q - 1) ≤ P.ε * p ^ (q - 1) * q := le_mul_of_one_le_right (by positivity) hq1
    generalize p ^ (q - 1) = w at *
    generalize |(m - j / N) ^ q| = t at *
    have k4 : P.ε * (18 * q * w) = 18 * (P.ε * w * q) := by ring
    have k5 : 1.01 * (P.ε * (10 * q * w)) = 10.1 * (P.ε * w * q) := by ring
    have k6 : P.ε * ((1 + 1 + 1 + 3) * t + w) = P.ε * ((1 + 1 + 1 + 3) * t) + P.ε * w := by ring
    have k7 : 0 ≤ P.ε * w * q := by positivity
    rw [k4, k5, k6]
    linarith
  have := mul_le_mul_of_nonneg_left k (by linarith : (0 : ℝ) ≤ N.choose j)
  linarith

theorem sum_range_ite {g : ℕ → ℝ} {K M : ℕ} (h : K ≤ M) : ∑ j ∈ range K, g j = ∑ j ∈ range M, if j < K then g j else 0 := by
  rw [← sum_filter]
  congr 1
  ext j
  simp
  omega

/-- The rounding error of a sum of Treloar. -/
theorem within_treloar {γ : ℝ} {N q : ℕ} (hN : 3 ≤ N) (hN' : N ≤ 34) (hq : 1 ≤ q) (hqN : q + 1 ≤ N) (hy : Within y γ (P.ε * 7)) (h0 : 0 < γ)
    (h1 : γ ≤ 1 - 1e-6) :
    Within (treloar_sum N y (q : ℤ)) (treloar_sum N γ (q : ℤ)) (P.ε * (22 * N * treloarSize N (q - 1) γ)) ∧
    |treloar_sum N γ (q : ℤ)| ≤ treloarSize N (q - 1) γ ∧ 2 ^ (-900 : ℤ) ≤ treloarSize N (q - 1) γ ∧ treloarSize N (q - 1) γ ≤ 2 ^ (34 : ℤ) := by
  have hp := eps_pos P
  have hs := eps_small P
  have hN0 : (0 : ℝ) < N := by exact_mod_cast (by omega : 0 < N)
  obtain ⟨ξ, hK, hξ, hξ0⟩ := treloar_k_rounded hN' (by omega) hy h0 h1
  have hz := within_half hy h0 (by linarith)
  set m := (1 - γ) / 2 with hm
  have hm0 : 5e-7 ≤ m := by rw [hm]; linarith
  have hm1 : m ≤ 1 / 2 := by rw [hm]; linarith
  set p : ℕ → ℝ := fun j => max 0 (m + 1e-6 - j / N) with hpd
  set W : ℕ → ℝ := fun j => (N.choose j : ℝ) * p j ^ (q - 1) with hWd
  set g : ℕ → ℝ := fun j => (-1) ^ j * (N.choose j : ℝ) * (m - j / N) ^ q with hgd
  have hA : treloarSize N (q - 1) γ = ∑ j ∈ range (N + 1), W j := rfl
  have hWn : ∀ j, 0 ≤ W j := fun j => by have := le_max_left 0 (m + 1e-6 - (j : ℝ) / N); positivity
  have hk : ⌈treloarX N γ⌉₊ ≤ N := by
    refine Nat.ceil_le.2 ?_
    unfold treloarX
    show (N : ℝ) * m ≤ N
    nlinarith
  have e2 := treloar_sum_eq (N := N) (by omega) hN' (by linarith : -1 ≤ γ) (by linarith) (q : ℤ)
  simp only [zpow_natCast] at e2
  have e2' : treloar_sum N γ (q : ℤ) = ∑ j ∈ range ⌈treloarX N γ⌉₊, g j := e2
  obtain ⟨q1, q2⟩ := abs_le.1 hξ
  have hεN : P.ε * (6 * N) ≤ 1e-9 * N := by nlinarith
  have hKN : ⌈ξ⌉₊ ≤ N := Nat.ceil_le.2 (by nlinarith)
  -- the terms of either sum
  have hbase : ∀ j : ℕ, (j : ℝ) < ξ ∨ (j : ℝ) < N * m → -(6 * P.ε) ≤ m - j / N := by
    intro j hj
    have h2 : (j : ℝ) ≤ N * (m + 6 * P.ε) := by
      rcases hj with hj | hj
      · nlinarith
      · nlinarith
    have : (j / N : ℝ) ≤ m + 6 * P.ε := by rw [div_le_iff₀ hN0]; linarith
    linarith
  have hpj : ∀ j : ℕ, (j : ℝ) < ξ ∨ (j : ℝ) < N * m → |m - j / N| + 1e-8 ≤ p j ∧ p j ≤ 1 ∧ 1e-7 ≤ p j := by
    intro j hj
    have h2 := hbase j hj
    have h3 : p j = m + 1e-6 - j / N := max_eq_right (by linarith)
    have h4 : (0 : ℝ) ≤ j / N := by positivity
    have h5 : |m - j / N| ≤ m - j / N + 12 * P.ε := by
      rw [abs_le]; constructor <;> linarith
    refine ⟨?_, ?_, ?_⟩ <;> rw [h3] <;> linarith
  have hgW : ∀ j : ℕ, (j : ℝ) < ξ ∨ (j : ℝ) < N * m → |g j| ≤ W j := by
    intro j hj
    obtain ⟨h2, h3, h4⟩ := hpj j hj
    have : |g j| = N.choose j * |m - j / N| ^ q := by rw [hgd]; simp only [abs_mul, abs_pow, Nat.abs_cast]; simp
    rw [this]
    refine mul_le_mul_of_nonneg_left ?_ (Nat.cast_nonneg _)
    exact (pow_le_pow_left₀ (abs_nonneg _) (by linarith) q).trans (pow_le_pow_of_le_one (by linarith) h3 (by omega))
  have hAhi : ∑ j ∈ range (N + 1), W j ≤ 2 ^ (34 : ℤ) := by
    calc ∑ j ∈ range (N + 1), W j ≤ ∑ j ∈ range (N + 1), (N.choose j : ℝ) := by
          refine sum_le_sum fun j _ => mul_le_of_le_one_right (Nat.cast_nonneg _) (pow_le_one₀ (le_max_left _ _) (max_le (by norm_num) ?_))
          have : (0 : ℝ) ≤ j / N := by positivity
          linarith
      _ = 2 ^ N := by exact_mod_cast Nat.sum_range_choose N
      _ ≤ 2 ^ (34 : ℤ) := by rw [← zpow_natCast]; exact two_zpow_mono (by exact_mod_cast hN')
  have hAlo : (2 : ℝ) ^ (-900 : ℤ) ≤ ∑ j ∈ range (N + 1), W j := by
    have h2 := hpj 0 (Or.inl (by simpa using hξ0))
    have h3 : W 0 ≤ ∑ j ∈ range (N + 1), W j := single_le_sum (fun j _ => hWn j) (mem_range.2 (by omega))
    refine le_trans ?_ h3
    show _ ≤ ((N.choose 0 : ℕ) : ℝ) * p 0 ^ (q - 1)
    rw [Nat.choose_zero_right, Nat.cast_one, one_mul]
    exact power_lo h2.2.2 h2.2.1 (by omega)
  have hsub : ∀ K ≤ N, ∑ j ∈ range K, W j ≤ ∑ j ∈ range (N + 1), W j := fun K hK =>
    sum_le_sum_of_subset_of_nonneg (range_subset_range.2 (by omega)) (fun j _ _ => hWn j)
  have hlt : ∀ j < ⌈ξ⌉₊, (j : ℝ) < ξ := fun j hj => Nat.lt_ceil.1 hj
  have hlt' : ∀ j < ⌈treloarX N γ⌉₊, (j : ℝ) < N * m := fun j hj => Nat.lt_ceil.1 hj
  have hqr : (q : ℝ) + 1 ≤ N := by exact_mod_cast hqN
  have hNr : (N : ℝ) ≤ 34 := by exact_mod_cast hN'
  have hN3 : (3 : ℝ) ≤ N := by exact_mod_cast hN
  refine ⟨?_, ?_, by rw [hA]; exact hAlo, by rw [hA]; exact hAhi⟩
  · have hKr : ((⌈ξ⌉₊ : ℕ) : ℝ) ≤ N := by exact_mod_cast hKN
    have hsum := within_fsum (P := P) (f := fun j : ℕ => Elem.powf (-1.0 : F64 P) (j : F64 P) * ((N.choose j : ℕ) : F64 P) *
        Elem.powi ((-y) * 0.5 + 0.5 - (j : F64 P) / (N : F64 P)) (q : ℤ)) (g := g) (W := W) (a := 18 * q) ⌈ξ⌉₊ (by positivity) (by linarith)
      (fun j hj => by
        obtain ⟨h2, h3, h4⟩ := hpj j (Or.inl (hlt j hj))
        exact within_term hz (by linarith) hm1 (by omega) hN' (by omega) h2 h3 h4 hq (by omega))
      (fun j hj => hgW j (Or.inl (hlt j hj)))
      (fun j hj => by
        obtain ⟨h2, h3, h4⟩ := hpj j (Or.inl (hlt j hj))
        have hc1 : (1 : ℝ) ≤ N.choose j := by exact_mod_cast Nat.choose_pos (by omega)
        calc (2 : ℝ) ^ (-1000 : ℤ) ≤ 1 * 2 ^ (-900 : ℤ) := by rw [one_mul]; exact two_zpow_mono (by norm_num)
          _ ≤ _ := mul_le_mul hc1 (power_lo h4 h3 (by omega)) (by positivity) (by linarith))
      (((hsub _ hKN).trans hAhi).trans (two_zpow_mono (by norm_num)))
    have e1 : treloar_sum N y (q : ℤ) = Polymers.fsum ((List.range ⌈ξ⌉₊).map fun j : ℕ => Elem.powf (-1.0 : F64 P) (j : F64 P) *
        ((N.choose j : ℕ) : F64 P) * Elem.powi ((-y) * 0.5 + 0.5 - (j : F64 P) / (N : F64 P)) (q : ℤ)) := by
      unfold treloar_sum
      have hK0 : ⌈ξ⌉₊ ≠ 0 := (Nat.ceil_pos.2 hξ0).ne'
      simp only [hK, beq_iff_eq, hK0, if_false]
      congr 1
      refine List.map_congr_left fun j hj => ?_
      have := List.mem_range.1 hj
      rw [treloar_coefficient_eq hN' (by omega)]
    rw [e1, e2']
    obtain ⟨w, hw, hwd⟩ := hsum
    refine ⟨w, hw, ?_⟩
    have hdiff : |∑ j ∈ range ⌈ξ⌉₊, g j - ∑ j ∈ range ⌈treloarX N γ⌉₊, g j| ≤ P.ε * (6 * ∑ j ∈ range (N + 1), W j) := by
      rw [sum_range_ite (show ⌈ξ⌉₊ ≤ N + 1 by omega), sum_range_ite (show ⌈treloarX N γ⌉₊ ≤ N + 1 by omega), ← sum_sub_distrib]
      refine (abs_sum_le_sum_abs _ _).trans ?_
      rw [mul_sum, mul_sum]
      refine sum_le_sum fun j _ => ?_
      have hz : 0 ≤ P.ε * (6 * W j) := by have := hWn j; positivity
      have key : ∀ h : (j : ℝ) < ξ ∨ (j : ℝ) < N * m, |m - j / N| ≤ 6 * P.ε → |g j| ≤ P.ε * (6 * W j) := by
        intro h hb
        obtain ⟨h2, h3, h4⟩ := hpj j h
        have : |g j| = N.choose j * (|m - j / N| ^ (q - 1) * |m - j / N|) := by
          rw [← pow_succ, Nat.sub_add_cancel hq]
          rw [hgd]; simp only [abs_mul, abs_pow, Nat.abs_cast]; simp
        rw [this]
        have h5 : |m - j / N| ^ (q - 1) * |m - j / N| ≤ p j ^ (q - 1) * (6 * P.ε) :=
          mul_le_mul (pow_le_pow_left₀ (abs_nonneg _) (by linarith) _) hb (abs_nonneg _) (pow_nonneg (by linarith) _)
        have h6 := mul_le_mul_of_nonneg_left h5 (Nat.cast_nonneg (α := ℝ) (N.choose j))
        refine h6.trans (le_of_eq ?_)
        rw [hWd]; ring
      by_cases c1 : j < ⌈ξ⌉₊ <;> by_cases c2 : j < ⌈treloarX N γ⌉₊
      · rw [if_pos c1, if_pos c2]; simpa using hz
      · rw [if_pos c1, if_neg c2, sub_zero]
        have l1 := hlt j c1
        have l2 : N * m ≤ (j : ℝ) := Nat.ceil_le.1 (not_lt.1 c2)
        refine key (Or.inl l1) ?_
        have l3 : m - j / N = (N * m - j) / N := by field_simp
        rw [l3, abs_div, Nat.abs_cast, div_le_iff₀ hN0, abs_le]
        constructor <;> linarith
      · rw [if_neg c1, if_pos c2, zero_sub, abs_neg]
        have l1 := hlt' j c2
        have l2 : ξ ≤ (j : ℝ) := Nat.ceil_le.1 (not_lt.1 c1)
        refine key (Or.inr l1) ?_
        have l3 : m - j / N = (N * m - j) / N := by field_simp
        rw [l3, abs_div, Nat.abs_cast, div_le_iff₀ hN0, abs_le]
        constructor <;> linarith
      · rw [if_neg c1, if_neg c2]; simpa using hz
    have h3 := abs_sub_le w (∑ j ∈ range ⌈ξ⌉₊, g j) (∑ j ∈ range ⌈treloarX N γ⌉₊, g j)
    have h4 : P.ε * ((18 * q + 2 * (⌈ξ⌉₊ : ℕ)) * ∑ j ∈ range ⌈ξ⌉₊, W j) ≤ P.ε * (20 * N * ∑ j ∈ range (N + 1), W j) :=
      mul_le_mul_of_nonneg_left (mul_le_mul (by linarith) (hsub _ hKN) (sum_nonneg fun j _ => hWn j) (by positivity)) hp.le
    have hA0 : 0 ≤ P.ε * ∑ j ∈ range (N + 1), W j := mul_nonneg hp.le (sum_nonneg fun j _ => hWn j)
    rw [hA]
    nlinarith only [h3, h4, hwd, hdiff, hA0, hN3]
  · rw [e2', hA]
    refine (abs_sum_le_sum_abs _ _).trans ((sum_le_sum fun j hj => hgW j (Or.inr (hlt' j (mem_range.1 hj)))).trans (hsub _ hk))

end Polymers.Lemmas
