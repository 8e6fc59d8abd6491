import Verif.Lemmas.Defined
import Verif.Props.LambertW

/-! Definedness of the Lambert W function above `-1/e`. -/

namespace Polymers.Props

open Polymers.SReal Polymers.math Real

theorem is_lambert_iterations {x : ℝ} (hx : -1 < x) :
    lambert_w_amount_of_iterations (SReal.val x) = lambert_w_amount_of_iterations x := by
  rw [lambert_w_amount_of_iterations, lambert_w_amount_of_iterations]
  rcases lt_or_ge 0 x with h | h
  · have h1 : Is (Elem.log10 (SReal.val x) / 3.0) (Elem.log10 x / 3.0) := by defined
    rw [Is] at h1
    rw [h1, ceil_val]
    rfl
  · have h1 : Elem.log10 (SReal.val x) = undef := log10_undef h
    have h2 : Elem.toNat 255 (Elem.ceil (Elem.log10 x / 3.0)) = 0 := by
      simp only [model_real]
      have : log x ≤ 0 := by
        rw [← log_abs]
        exact log_nonpos (abs_nonneg x) (by rw [abs_le]; constructor <;> linarith)
      have h3 : (log x / log 10 / 3) ≤ 0 := div_nonpos_of_nonpos_of_nonneg
        (div_nonpos_of_nonpos_of_nonneg this (log_nonneg (by norm_num))) (by norm_num)
      have h4 : ((⌈log x / log 10 / 3⌉ : ℤ) : ℝ) ≤ 0 := by exact_mod_cast Int.ceil_le.2 (by exact_mod_cast h3)
      rw [logb, Nat.floor_of_nonpos h4]; rfl
    rw [h1, h2]
    rfl

theorem is_lambert_update {x v w : ℝ} (hw : -1 < w) (hx : w * exp w = x) (hv : -1 < v) (h : v ≤ 0 ∨ 0 ≤ w) :
    Is (lambert_w_update (SReal.val x) (SReal.val v)) (lambert_w_update x v) := by
  have h1 : 0 < v + 1 := by linarith
  have h2 : 0 < 2.0 * v + 2.0 := by norm_num; linarith
  have hD : 0 < lwD x v := by
    rcases le_total w v with h' | h'
    · rw [← hx]; exact lwD_pos_of_ge hw h' h
    · exact lwD_pos_of_nonpos hv (by rw [← hx]; exact strictMonoOn_mul_exp.monotoneOn hv.le hw.le h')
  have h3 : 0 < Elem.exp v * (v + 1.0) - (v + 2.0) * (v * Elem.exp v - x) / (2.0 * v + 2.0) := by
    have : exp v * (v + 1) - (v + 2) * (v * exp v - x) / (2 * v + 2) = lwD x v / (2 * (v + 1)) := by
      rw [lwD, show 2 * v + 2 = 2 * (v + 1) by ring]; field_simp; try ring
    simp only [model_real]
    rw [this]; positivity
  defined

theorem is_lambert_loop {x w : ℝ} (hw : -1 < w) (hx : w * exp w = x) : ∀ (n : ℕ) {v : ℝ}, -1 < v → (v ≤ 0 ∨ 0 ≤ w) →
    Is (lambert_w_loop (SReal.val x) n (SReal.val v)) (lambert_w_loop x n v)
  | 0, v, _, _ => rfl
  | n + 1, v, hv, h => by
    have h1 : lambert_w_update (SReal.val x) (SReal.val v) = SReal.val (lambert_w_update x v) := is_lambert_update hw hx hv h
    rw [lambert_w_loop, lambert_w_loop, h1]
    have hb := lambert_w_update_between hw hv h
    rw [hx] at hb
    refine is_lambert_loop hw hx n ?_ ?_
    · rcases le_total w v with h' | h'
      · exact hw.trans_le (hb.1 h').1
      · exact hv.trans_le (hb.2 h').1
    · rcases h with h | h
      · rcases le_total w v with h' | h'
        · exact .inl ((hb.1 h').2.trans h)
        · rcases le_total w 0 with h0 | h0
          · exact .inl ((hb.2 h').2.trans h0)
          · exact .inr h0
      · exact .inr h

theorem is_lambert {x' : SReal} {x : ℝ} (e : Is x' x) (hx : -exp (-1) < x) : Is (lambert_w x') (lambert_w x) := by
  rw [Is] at e
  subst e
  have he : exp (-1) < 1 := by rw [exp_lt_one_iff]; norm_num
  obtain ⟨w, ⟨hw, h⟩, -⟩ := exists_unique_lambert hx
  obtain ⟨h1, h2⟩ := lambert_w_start hx
  have hs : Is (0.75 * Elem.ln (SReal.val x + 1.0)) (3 / 4 * log (x + 1)) := by
    have h0 : 0 < x + 1.0 := by norm_num; linarith
    have : Is (0.75 * Elem.ln (SReal.val x + 1.0)) (0.75 * Elem.ln (x + 1.0)) := by defined
    simpa only [model_real] using this
  rw [Is] at hs
  rw [lambert_w_real, lambert_w, is_lambert_iterations (by linarith), hs]
  refine is_lambert_loop hw h _ h1 ?_
  rcases lt_or_ge x 0 with h0 | h0
  · exact .inl (h2 h0)
  · refine .inr ?_
    by_contra hn
    have := mul_neg_of_neg_of_pos (not_le.1 hn) (exp_pos w)
    linarith

/-- C46: the Lambert W routine returns an ordinary number for every argument above `-1/e`. -/
theorem C46_lambert_w {x : ℝ} (hx : -exp (-1) < x) : lambert_w (SReal.val x) = SReal.val (lambert_w x) := is_lambert rfl hx

example : lambert_w (SReal.val 5) = SReal.val (lambert_w 5) := C46_lambert_w (by linarith [exp_pos (-1)])

end Polymers.Props
