import Verif.Lemmas.IeeeTreloar

/-! Floating-point numbers with an absolute error in proportion to a size. -/

namespace Polymers.Lemmas

open Polymers.Ieee Polymers.Spec Real

variable {P : Platform} {x y : F64 P} {r s n q q' M M' ρ : ℝ} {a b : ℤ}

/-- The floating-point number is the real number up to `q` units of the size `M`, which is at least the size of the number. -/
structure Sized (x : F64 P) (r q M : ℝ) : Prop where
  within : Within x r (P.ε * (q * M))
  size : |r| ≤ M
  lo : 2 ^ (-1000 : ℤ) ≤ M
  hi : M ≤ 2 ^ (590 : ℤ)
  err_nonneg : 0 ≤ q
  err_le : q ≤ 10000

theorem Sized.pos (h : Sized x r q M) : 0 < M := lt_of_lt_of_le (by positivity) h.lo

theorem Sized.weaken (h : Sized x r q M) (hq : q ≤ q') (hq' : q' ≤ 10000) (hr : r = s) (hM : M ≤ M') (hM' : M' ≤ 2 ^ (590 : ℤ)) : Sized x s q' M' := by
  subst hr
  have h0 := h.pos
  have h1 := h.err_nonneg
  refine ⟨h.within.mono (mul_le_mul_of_nonneg_left (mul_le_mul hq hM h0.le (h1.trans hq)) (eps_pos P).le), h.size.trans hM, h.lo.trans hM, hM', h1.trans hq, hq'⟩

theorem Acc.sized (h : Acc x r n a b) (hn0 : 0 ≤ n) (hn : n ≤ 100) (ha : -1000 ≤ a) (hb : b ≤ 590) : Sized x r (n + 1) |r| :=
  ⟨(h.accurate hn0 (by linarith) le_rfl).mono (le_of_eq (by ring)), le_rfl, (two_zpow_mono ha).trans h.lo, h.hi.trans (two_zpow_mono hb), by linarith, by linarith⟩

/-- A product with an accurate number. -/
theorem Sized.mul (h : Sized x r q M) (hy : Acc y ρ n a b) (hn0 : 0 ≤ n) (hn : n ≤ 100) (hb : b ≤ 300) (hlo : 2 ^ (-1000 : ℤ) ≤ M * |ρ|)
    (hhi : M * |ρ| ≤ 2 ^ (590 : ℤ)) (hq : 1.01 * q + n + 4 ≤ 10000) : Sized (y * x) (ρ * r) (1.01 * q + n + 4) (M * |ρ|) := by
  have hp := eps_pos P
  have hs := eps_small P
  have h0 := h.pos
  have h590 : (2 : ℝ) ^ (590 : ℤ) ≤ 2 ^ (600 : ℤ) := two_zpow_mono (by norm_num)
  have hqM : q * M ≤ 10000 * M := mul_le_mul_of_nonneg_right h.err_le h0.le
  have hqM0 : 0 ≤ q * M := mul_nonneg h.err_nonneg h0.le
  have he : P.ε * (q * M) ≤ M := by nlinarith
  have h1 := hy.scale h.within (c := M) hn0 (by linarith) (by rwa [mul_comm]) hb (h.size.trans (h.hi.trans h590)) (by positivity) (he.trans (h.hi.trans h590))
  refine ⟨h1.mono ?_, ?_, hlo, hhi, by linarith [h.err_nonneg], hq⟩
  · have h2 : (n + 3) * |r| ≤ (n + 3) * M := mul_le_mul_of_nonneg_left h.size (by linarith)
    have h3 : |ρ| * (1.01 * (P.ε * (q * M)) + P.ε * ((n + 3) * |r| + M)) ≤ |ρ| * (1.01 * (P.ε * (q * M)) + P.ε * ((n + 3) * M + M)) := by gcongr
    refine h3.trans (le_of_eq (by ring))
  · rw [abs_mul, mul_comm]
    exact mul_le_mul_of_nonneg_right h.size (abs_nonneg _)

/-- Division is a product with the inverse. -/
theorem Acc.inv (hy : Acc y ρ n a b) : ∃ z : F64 P, Acc z (1 / ρ) n (-b) (-a) ∧ ∀ v : ℝ, (.fin v : F64 P) / y = z * .fin v := by
  obtain ⟨δ, hδ, rfl⟩ := hy.rel
  have hρ := hy.ne_zero
  have hρ' : 0 < |ρ| := abs_pos.2 hρ
  refine ⟨.fin (1 / ρ * Real.exp (-δ)), ⟨⟨-δ, by rwa [abs_neg], rfl⟩, ?_, ?_⟩, fun v => ?_⟩
  · rw [abs_div, abs_one, zpow_neg, ← one_div]
    exact one_div_le_one_div_of_le hρ' hy.hi
  · rw [abs_div, abs_one, zpow_neg, ← one_div]
    exact one_div_le_one_div_of_le (by positivity) hy.lo
  · show (if ρ * Real.exp δ = 0 then _ else F64.out (P.rnd (v / (ρ * Real.exp δ)))) = F64.out (P.rnd (1 / ρ * Real.exp (-δ) * v))
    rw [if_neg (mul_ne_zero hρ (exp_pos _).ne'), Real.exp_neg]
    congr 2
    field_simp

theorem Sized.div (h : Sized x r q M) (hy : Acc y ρ n a b) (hn0 : 0 ≤ n) (hn : n ≤ 100) (ha : -300 ≤ a) (hlo : 2 ^ (-1000 : ℤ) ≤ M / |ρ|)
    (hhi : M / |ρ| ≤ 2 ^ (590 : ℤ)) (hq : 1.01 * q + n + 4 ≤ 10000) : Sized (x / y) (r / ρ) (1.01 * q + n + 4) (M / |ρ|) := by
  obtain ⟨z, hz, hzd⟩ := hy.inv
  have e : M / |ρ| = M * |1 / ρ| := by rw [abs_div, abs_one]; ring
  rw [e] at hlo hhi ⊢
  have h1 := h.mul hz hn0 hn (by omega) hlo hhi hq
  obtain ⟨v, hv, -⟩ := h.within
  rw [show 1 / ρ * r = r / ρ by ring] at h1
  rwa [hv, hzd, ← hv]

theorem Sized.add (h : Sized x r q M) (h' : Sized y s q M') (hM : M + M' ≤ 2 ^ (590 : ℤ)) (hq : q + 2 ≤ 10000) : Sized (x + y) (r + s) (q + 2) (M + M') := by
  have hp := eps_pos P
  have hs := eps_small P
  have h0 := h.pos
  have h0' := h'.pos
  have h1 := h.err_nonneg
  have hqM : q * (M + M') ≤ 10000 * (M + M') := mul_le_mul_of_nonneg_right h.err_le (by linarith)
  have hqM0 : 0 ≤ q * (M + M') := by positivity
  have he : P.ε * (q * M) + P.ε * (q * M') = P.ε * (q * (M + M')) := by ring
  have he' : P.ε * (q * (M + M')) ≤ 0.1 * (M + M') := by nlinarith
  have habs : |r + s| ≤ M + M' := (abs_add_le _ _).trans (add_le_add h.size h'.size)
  have h590 : 2 * (2 : ℝ) ^ (590 : ℤ) ≤ 2 ^ (1000 : ℤ) := by
    calc 2 * (2 : ℝ) ^ (590 : ℤ) = 2 ^ (1 : ℤ) * 2 ^ (590 : ℤ) := by norm_num
      _ = 2 ^ (591 : ℤ) := by rw [← zpow_add₀ (by norm_num)]; norm_num
      _ ≤ _ := two_zpow_mono (by norm_num)
  have h2 := within_add h.within h'.within (by
    rw [he]
    generalize (2 : ℝ) ^ (1000 : ℤ) = A at *
    generalize (2 : ℝ) ^ (590 : ℤ) = B at *
    linarith)
  have hlo : (2 : ℝ) ^ (-1022 : ℤ) * 8 ≤ M := pow_range.1.trans h.lo
  refine ⟨h2.mono ?_, habs, h.lo.trans (by linarith), hM, by linarith, hq⟩
  rw [he]
  have h3 : P.ε * (|r + s| + P.ε * (q * (M + M')) + 2 ^ (-1022 : ℤ)) ≤ P.ε * (2 * (M + M')) := by
    refine mul_le_mul_of_nonneg_left ?_ hp.le
    generalize (2 : ℝ) ^ (-1022 : ℤ) = A at *
    linarith
  linarith

/-- A quotient, when the error of the denominator is a fraction of it. -/
theorem Sized.quot (h : Sized x r q M) (h' : Sized y s q' M') (hs : 0 < s) (hq : q' ≤ q) (hM : P.ε * (q' * M') ≤ s / 4) {W : ℝ} (hW : M / s + |r| * M' / s ^ 2 ≤ W)
    (hWlo : 2 ^ (-1000 : ℤ) ≤ M / s) (hWhi : W ≤ 2 ^ (590 : ℤ)) (hq'' : 1.4 * q + 2 ≤ 10000) : Sized (x / y) (r / s) (1.4 * q + 2) W := by
  have hp := eps_pos P
  have hsm := eps_small P
  have h0 := h.pos
  have h0' := h'.pos
  have h1 := h.err_nonneg
  have h590 : 2 * (2 : ℝ) ^ (590 : ℤ) ≤ 2 ^ (1000 : ℤ) := by
    calc 2 * (2 : ℝ) ^ (590 : ℤ) = 2 ^ (1 : ℤ) * 2 ^ (590 : ℤ) := by norm_num
      _ = 2 ^ (591 : ℤ) := by rw [← zpow_add₀ (by norm_num)]; norm_num
      _ ≤ _ := two_zpow_mono (by norm_num)
  obtain ⟨v, rfl, hv⟩ := h.within
  obtain ⟨w, rfl, hw⟩ := h'.within
  obtain ⟨w1, w2⟩ := abs_le.1 (hw.trans hM)
  have hw0 : 3 / 4 * s ≤ w := by linarith
  have hwp : 0 < w := by linarith
  have hr := abs_nonneg r
  have habs : |r / s| ≤ M / s := by rw [abs_div, abs_of_pos hs]; exact div_le_div_of_nonneg_right h.size hs.le
  have hrest : 0 ≤ |r| * M' / s ^ 2 := by positivity
  have hMW : M / s ≤ W := by linarith
  have hW0 : 0 < W := lt_of_lt_of_le (by positivity) hMW
  have ht : |v / w - r / s| ≤ P.ε * (4 / 3 * q * W) := by
    rw [show v / w - r / s = (v - r) / w + r * (s - w) / (w * s) by field_simp; ring]
    refine (abs_add_le _ _).trans ?_
    rw [abs_div, abs_div, abs_mul, abs_of_pos hwp, abs_of_pos (mul_pos hwp hs), abs_sub_comm s w]
    have k1 : |v - r| / w ≤ P.ε * (q * M) / (3 / 4 * s) := div_le_div₀ (by positivity) hv (by positivity) hw0
    have k2 : |r| * |w - s| / (w * s) ≤ |r| * (P.ε * (q * M')) / (3 / 4 * s * s) := by
      refine div_le_div₀ (by positivity) (mul_le_mul_of_nonneg_left (hw.trans ?_) hr) (by positivity) (mul_le_mul_of_nonneg_right hw0 hs.le)
      exact mul_le_mul_of_nonneg_left (mul_le_mul_of_nonneg_right hq h0'.le) hp.le
    have k3 : P.ε * (q * M) / (3 / 4 * s) + |r| * (P.ε * (q * M')) / (3 / 4 * s * s) = P.ε * (4 / 3 * q * (M / s + |r| * M' / s ^ 2)) := by
      field_simp
    have k4 : P.ε * (4 / 3 * q * (M / s + |r| * M' / s ^ 2)) ≤ P.ε * (4 / 3 * q * W) := by gcongr
    linarith
  have hqW : q * W ≤ 10000 * W := mul_le_mul_of_nonneg_right h.err_le hW0.le
  have hqW0 : 0 ≤ q * W := by positivity
  have he' : P.ε * (4 / 3 * q * W) ≤ 0.1 * W := by nlinarith
  have h2 := within_approx (rnd_err' P (v / w)) ht (by
    generalize (2 : ℝ) ^ (1000 : ℤ) = A at *
    generalize (2 : ℝ) ^ (590 : ℤ) = B at *
    linarith)
  have hlo : (2 : ℝ) ^ (-1022 : ℤ) * 8 ≤ M / s := pow_range.1.trans hWlo
  have e : (.fin v / .fin w : F64 P) = F64.out (P.rnd (v / w)) := by
    show (if w = 0 then _ else _) = _
    rw [if_neg hwp.ne']
  refine ⟨?_, habs.trans hMW, hWlo.trans hMW, hWhi, by linarith, hq''⟩
  rw [e]
  refine h2.mono ?_
  have h3 : P.ε * (|r / s| + P.ε * (4 / 3 * q * W) + 2 ^ (-1022 : ℤ)) ≤ P.ε * (2 * W) := by
    refine mul_le_mul_of_nonneg_left ?_ hp.le
    generalize (2 : ℝ) ^ (-1022 : ℤ) = A at *
    linarith
  nlinarith only [h3, mul_nonneg hp.le hqW0]

/-- The relative error of a number with a small absolute error. -/
theorem Sized.rel (h : Sized x r q M) (hr : 0 < r) (hM : P.ε * (q * M) ≤ r / 4) : Rel x r (P.ε * (4 / 3 * (q * M / r))) := by
  obtain ⟨v, rfl, hv⟩ := h.within
  obtain ⟨v1, v2⟩ := abs_le.1 (hv.trans hM)
  have hv0 : 3 / 4 * r ≤ v := by linarith
  have hvp : 0 < v := by linarith
  obtain ⟨u1, u2⟩ := abs_le.1 hv
  have h0 : 0 ≤ P.ε * (q * M) := mul_nonneg (eps_pos P).le (mul_nonneg h.err_nonneg h.pos.le)
  refine ⟨log (v / r), ?_, ?_⟩
  · have e : P.ε * (4 / 3 * (q * M / r)) = 4 / 3 * (P.ε * (q * M)) / r := by ring
    rw [e, abs_le]
    constructor
    · have k := one_sub_inv_le_log_of_pos (div_pos hvp hr)
      refine le_trans ?_ k
      rw [inv_div, neg_le_sub_iff_le_add, add_comm, ← sub_le_iff_le_add]
      rw [show r / v - 1 = (r - v) / v by field_simp]
      have k2 : (r - v) / v ≤ P.ε * (q * M) / (3 / 4 * r) := div_le_div₀ h0 (by linarith) (by positivity) hv0
      refine k2.trans (le_of_eq (by field_simp))
    · have k := log_le_sub_one_of_pos (div_pos hvp hr)
      refine k.trans ?_
      rw [show v / r - 1 = (v - r) / r by field_simp]
      exact div_le_div_of_nonneg_right (by linarith) hr.le
  · rw [exp_log (div_pos hvp hr)]
    congr 1
    field_simp

end Polymers.Lemmas
