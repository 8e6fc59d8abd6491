import Verif.Lemmas.Ieee
import Verif.Lemmas.Langevin
import Verif.Model.Fjc

/-! C72, C73: the freely jointed chain at fixed force in floating point. -/

namespace Polymers.Props

open Polymers.Ieee Polymers.Spec Polymers.Lemmas Polymers.math Real

variable {P : Platform}

theorem zpow_two_le {a b : ℤ} (h : a ≤ b) : (2 : ℝ) ^ a ≤ 2 ^ b := zpow_le_zpow_right₀ (by norm_num) h

theorem coth_bounds {η : ℝ} (hη : 0 < η) : 1 < 1 / tanh η ∧ 1 / tanh η < 1 + 1 / η ∧ 0 < tanh η := by
  have h1 := langevin_lt_one hη
  have h2 := tanh_lt_one η
  have h3 : 0 < tanh η := by rw [tanh_eq_sinh_div_cosh]; exact div_pos (sinh_pos_iff.2 hη) (cosh_pos η)
  refine ⟨by rw [lt_div_iff₀ h3]; linarith, ?_, h3⟩
  unfold langevin at h1
  linarith

/-- The terms of the Langevin function. -/
theorem rel_coth {η : ℝ} (h1 : 2 ^ (-900 : ℤ) ≤ η) (h2 : η ≤ 2 ^ (900 : ℤ)) :
    Rel ((1.0 : F64 P) / Elem.tanh (.fin η)) (1 / tanh η) (2 * unit P) ∧ Rel ((1.0 : F64 P) / (.fin η)) (1 / η) (unit P) := by
  have hη : 0 < η := lt_of_lt_of_le (by positivity) h1
  obtain ⟨c1, c2, c3⟩ := coth_bounds hη
  have hinv : 1 / η ≤ 2 ^ (900 : ℤ) := by
    rw [div_le_iff₀ hη]
    calc (1 : ℝ) = 2 ^ (900 : ℤ) * 2 ^ (-900 : ℤ) := by rw [← zpow_add₀ (by norm_num)]; norm_num
      _ ≤ _ := mul_le_mul_of_nonneg_left h1 (by positivity)
  have hinv' : (2 : ℝ) ^ (-900 : ℤ) ≤ 1 / η := by
    rw [le_div_iff₀ hη]
    calc (2 : ℝ) ^ (-900 : ℤ) * η ≤ 2 ^ (-900 : ℤ) * 2 ^ (900 : ℤ) := mul_le_mul_of_nonneg_left h2 (by positivity)
      _ = 1 := by rw [← zpow_add₀ (by norm_num)]; norm_num
  have hone : (1 : ℝ) ≤ 2 ^ (900 : ℤ) := one_le_zpow₀ (by norm_num) (by norm_num)
  have h901 : (2 : ℝ) * 2 ^ (900 : ℤ) ≤ 2 ^ (1000 : ℤ) := by
    rw [← zpow_one_add₀ (by norm_num)]; exact zpow_two_le (by norm_num)
  have hc : 1 / tanh η ≤ 2 ^ (1000 : ℤ) := by
    generalize (2 : ℝ) ^ (1000 : ℤ) = a at *
    generalize (2 : ℝ) ^ (900 : ℤ) = b at *
    linarith
  have hsmall := unit_le P
  have he := eps_small P
  have hu := unit_pos P
  have ht : 2 ^ (-1000 : ℤ) ≤ tanh η := by
    rw [div_le_iff₀ c3] at hc
    calc (2 : ℝ) ^ (-1000 : ℤ) = 2 ^ (-1000 : ℤ) * 1 := by ring
      _ ≤ 2 ^ (-1000 : ℤ) * (2 ^ (1000 : ℤ) * tanh η) := mul_le_mul_of_nonneg_left hc (by positivity)
      _ = tanh η := by rw [← mul_assoc, ← zpow_add₀ (by norm_num)]; norm_num
  have hone' : (1 : ℝ) ≤ 2 ^ (1000 : ℤ) := one_le_zpow₀ (by norm_num) (by norm_num)
  have rt : Rel (Elem.tanh (.fin η) : F64 P) (tanh η) (unit P) :=
    rel_fn (f := .tanh) (v := η) (by show _ ≤ |tanh η|; rwa [abs_of_pos c3])
      (by show |tanh η| ≤ _; rw [abs_of_pos c3]; exact (tanh_lt_one η).le.trans hone')
  have hsm : (2 : ℝ) ^ (-1000 : ℤ) ≤ 1 := zpow_le_one_of_nonpos₀ (by norm_num) (by norm_num)
  have hpos : (0 : ℝ) < 1 / η := by positivity
  constructor
  · rw [lit_one]
    have := rel_div (rel_refl (P := P) 1) rt (by nlinarith) (by rw [abs_of_pos (by linarith)]; linarith)
      (by rw [abs_of_pos (by linarith)]; exact hc)
    exact this.mono (by linarith)
  · rw [lit_one]
    have := rel_div (rel_refl (P := P) 1) (rel_refl (P := P) η) (by norm_num)
      (by rw [abs_of_pos hpos]; exact (zpow_two_le (by norm_num)).trans hinv')
      (by rw [abs_of_pos hpos]; exact hinv.trans (zpow_two_le (by norm_num)))
    exact this.mono (by linarith)

theorem within_langevin {η : ℝ} (h1 : 2 ^ (-900 : ℤ) ≤ η) (h2 : η ≤ 2 ^ (900 : ℤ)) :
    Within ((1.0 : F64 P) / Elem.tanh (.fin η) - (1.0 : F64 P) / (.fin η)) (langevin η) (P.ε * (6 + 6 / η)) := by
  have hη : 0 < η := lt_of_lt_of_le (by positivity) h1
  obtain ⟨c1, c2, c3⟩ := coth_bounds hη
  obtain ⟨r1, r2⟩ := rel_coth (P := P) h1 h2
  have w1 := r1.within
  have w2 := r2.within
  have u1 := exp_units_le (P := P) (n := 2) (by norm_num)
  have u2 := exp_units_le (P := P) (n := 1) (by norm_num)
  have hpos : (0 : ℝ) < 1 / η := by positivity
  have hε := eps_pos P
  have hε' := eps_small P
  norm_num at u1 u2
  have w1' : Within ((1.0 : F64 P) / Elem.tanh (.fin η)) (1 / tanh η) (P.ε * (3 * (1 / tanh η))) := w1.mono (by
    rw [abs_of_pos (by linarith)]
    nlinarith)
  have w2' : Within ((1.0 : F64 P) / (.fin η)) (1 / η) (P.ε * (2 * (1 / η))) := w2.mono (by
    rw [abs_of_pos hpos]
    nlinarith)
  have hl0 := langevin_pos hη
  have hl1 := langevin_lt_one hη
  have hinv : 1 / η ≤ 2 ^ (900 : ℤ) := by
    rw [div_le_iff₀ hη]
    calc (1 : ℝ) = 2 ^ (900 : ℤ) * 2 ^ (-900 : ℤ) := by rw [← zpow_add₀ (by norm_num)]; norm_num
      _ ≤ _ := mul_le_mul_of_nonneg_left h1 (by positivity)
  have hone : (1 : ℝ) ≤ 2 ^ (900 : ℤ) := one_le_zpow₀ (by norm_num) (by norm_num)
  have h901 : (8 : ℝ) * 2 ^ (900 : ℤ) ≤ 2 ^ (1000 : ℤ) := by
    rw [show (8 : ℝ) = 2 ^ (3 : ℤ) by norm_num, ← zpow_add₀ (by norm_num)]; exact zpow_two_le (by norm_num)
  have htiny : (2 : ℝ) ^ (-1022 : ℤ) ≤ 1 / 2 := by
    calc (2 : ℝ) ^ (-1022 : ℤ) ≤ 2 ^ (-1 : ℤ) := zpow_two_le (by norm_num)
      _ = 1 / 2 := by norm_num
  have hsum : P.ε * (3 * (1 / tanh η)) + P.ε * (2 * (1 / η)) ≤ P.ε * (3 + 5 * (1 / η)) := by nlinarith
  have hsum' : P.ε * (3 + 5 * (1 / η)) ≤ 1e-11 * (1 + 1 / η) := by nlinarith
  have h := within_sub w1' w2' (by
    show |langevin η| + _ ≤ _
    rw [abs_of_pos hl0]
    generalize (2 : ℝ) ^ (1000 : ℤ) = a at *
    generalize (2 : ℝ) ^ (900 : ℤ) = b at *
    linarith)
  refine h.mono ?_
  have habs : |1 / tanh η - 1 / η| < 1 := by
    rw [abs_lt]
    have e : langevin η = 1 / tanh η - 1 / η := rfl
    constructor <;> linarith
  have hb : |1 / tanh η - 1 / η| + (P.ε * (3 * (1 / tanh η)) + P.ε * (2 * (1 / η))) + 2 ^ (-1022 : ℤ) ≤ 2 + 1 / η := by
    generalize (2 : ℝ) ^ (-1022 : ℤ) = c at *
    linarith
  have hc := mul_le_mul_of_nonneg_left hb hε.le
  rw [show (6 : ℝ) / η = 6 * (1 / η) by ring]
  nlinarith

/-- C72: in floating point the extension of the freely jointed chain under a force is accurate up to a few units of rounding for
forces of order one and more; the error grows as the inverse of the force below that. -/
theorem C72_fjc_length_accuracy (P : Platform) (N : ℕ) (ℓ m : F64 P) {η : ℝ} (h1 : 2 ^ (-900 : ℤ) ≤ η) (h2 : η ≤ 2 ^ (900 : ℤ)) :
    Within ((fjc.FJC.init N ℓ m).thermodynamics.isotensional.nondimensional_end_to_end_length_per_link (.fin η))
      (1 / tanh η - 1 / η) (P.ε * (6 + 6 / η)) := within_langevin h1 h2

/-- C72: at every force of the format below `2 ^ (-27)`, about `7.5e-9`, the extension returned is zero if the library rounds `tanh` correctly
there: all digits are lost.  The exact extension is about a third of the force. -/
theorem C72_fjc_length_zero (P : Platform) (N : ℕ) (ℓ m : F64 P) {η : ℝ} (hη : η ∈ grid) (h1 : 2 ^ (-900 : ℤ) ≤ η)
    (h2 : η ≤ 2 ^ (-27 : ℤ)) (hP : P.fn .tanh η = P.rnd (tanh η)) :
    (fjc.FJC.init N ℓ m).thermodynamics.isotensional.nondimensional_end_to_end_length_per_link (.fin η) = .fin 0 ∧
    η / 4 < 1 / tanh η - 1 / η := by
  have h0 : 0 < η := lt_of_lt_of_le (by positivity) h1
  have h27 : (2 : ℝ) ^ (-27 : ℤ) ≤ 1e-8 := by norm_num
  obtain ⟨c1, c2, c3⟩ := coth_bounds h0
  constructor
  · have hclose : |tanh η - η| < 2 ^ (-55 : ℤ) * η := by
      clear h1 hP
      have h3 := langevin_lt_third h0
      have h4 : langevin η = (η - tanh η) / (η * tanh η) := by unfold langevin; field_simp
      rw [h4, div_lt_iff₀ (by positivity)] at h3
      have h5 : tanh η < η := by
        have := langevin_pos h0
        rw [h4, div_pos_iff_of_pos_right (by positivity)] at this
        linarith
      rw [abs_of_neg (by linarith)]
      have h6 : η ^ 2 ≤ (2 ^ (-27 : ℤ)) ^ 2 := pow_le_pow_left₀ h0.le h2 2
      have h7 : η / 3 * (η * tanh η) ≤ η ^ 2 / 3 * η := by nlinarith
      have h8 : ((2 : ℝ) ^ (-27 : ℤ)) ^ 2 / 3 < 2 ^ (-55 : ℤ) := by norm_num
      generalize (2 : ℝ) ^ (-55 : ℤ) = a at *
      generalize (2 : ℝ) ^ (-27 : ℤ) = b at *
      have h9 : η ^ 2 / 3 * η < a * η := mul_lt_mul_of_pos_right (by linarith) h0
      linarith
    have hr : P.fn .tanh η = η := by
      rw [hP]
      exact rnd_eq_of_close hη ((zpow_two_le (by norm_num)).trans h1) hclose
    have hbig : |η| ≤ 2 ^ (1010 : ℤ) := by
      rw [abs_of_pos h0]
      exact h2.trans (zpow_two_le (by norm_num))
    have ht : (Elem.tanh (.fin η) : F64 P) = .fin η := by
      show F64.out (P.fn .tanh η) = _
      rw [hr, out_of_le hbig]
    show (1.0 : F64 P) / Elem.tanh (.fin η) - (1.0 : F64 P) / (.fin η) = .fin 0
    rw [ht]
    obtain ⟨δ, -, hδ⟩ := (rel_coth (P := P) h1 (h2.trans (zpow_two_le (by norm_num)))).2
    rw [hδ]
    show F64.out (P.rnd (_ - _)) = _
    rw [sub_self, rnd_of_mem P grid_zero]
    exact out_of_le (by simp)
  · have := langevin_gt_cubic h0
    unfold langevin at this
    have h6 : η ^ 2 ≤ 1e-8 ^ 2 := pow_le_pow_left₀ h0.le (h2.trans h27) 2
    have h7 : η ^ 3 ≤ 1e-8 ^ 2 * η := by nlinarith
    nlinarith

/-- The force `2 ^ (-30)` on a platform with correct rounding. -/
example : (fjc.FJC.init 8 (1.0 : F64 correctlyRounded) 1.0).thermodynamics.isotensional.nondimensional_end_to_end_length_per_link
    (.fin (2 ^ (-30 : ℤ))) = .fin 0 :=
  (C72_fjc_length_zero correctlyRounded 8 1.0 1.0 (grid_zpow (by norm_num)) (zpow_two_le (by norm_num)) (zpow_two_le (by norm_num)) rfl).1

/-- The argument of the logarithm in the Gibbs energy. -/
theorem rel_sinh_div {η : ℝ} (h1 : 2 ^ (-900 : ℤ) ≤ η) (h2 : η ≤ 690) :
    Rel ((Elem.sinh (.fin η) : F64 P) / (.fin η)) (sinh η / η) (2 * unit P) ∧ 1 < sinh η / η ∧ sinh η / η ≤ exp η := by
  have hη : 0 < η := lt_of_lt_of_le (by positivity) h1
  have hs := self_lt_sinh' hη
  have hq1 : 1 < sinh η / η := (one_lt_div hη).2 hs
  have hse : sinh η ≤ exp η := by
    rw [sinh_eq]; have := exp_pos η; have := exp_pos (-η); linarith
  have hq2 : sinh η / η ≤ exp η := by
    rw [div_le_iff₀ hη]
    have h3 : sinh η ≤ η * cosh η := (sinh_lt_self_mul_cosh hη).le
    have h4 : cosh η ≤ exp η := by
      rw [cosh_eq]; have := exp_le_exp.2 (show -η ≤ η by linarith); linarith
    nlinarith
  have hbig : exp η ≤ 2 ^ (1000 : ℤ) := by
    have h693 := log_two_gt_d9
    rw [← exp_log (by positivity : (0 : ℝ) < 2 ^ (1000 : ℤ)), log_zpow]
    refine exp_le_exp.2 ?_
    push_cast; linarith
  have h1000 : (2 : ℝ) ^ (-1000 : ℤ) ≤ 2 ^ (-900 : ℤ) := zpow_two_le (by norm_num)
  have hone : (2 : ℝ) ^ (-1000 : ℤ) ≤ 1 := zpow_le_one_of_nonpos₀ (by norm_num) (by norm_num)
  have rs : Rel (Elem.sinh (.fin η) : F64 P) (sinh η) (unit P) :=
    rel_fn (f := .sinh) (v := η) (by show _ ≤ |sinh η|; rw [abs_of_pos (by linarith)]; exact (h1000.trans h1).trans hs.le)
      (by show |sinh η| ≤ _; rw [abs_of_pos (by linarith)]; exact hse.trans hbig)
  have hu := unit_le P
  have he := eps_small P
  have := rel_div rs (rel_refl (P := P) η) (by nlinarith) (by rw [abs_of_pos (by linarith)]; exact hone.trans hq1.le)
    (by rw [abs_of_pos (by linarith)]; exact hq2.trans hbig)
  exact ⟨this.mono (by linarith), hq1, hq2⟩

theorem within_fjc_gibbs {η : ℝ} (h1 : 2 ^ (-900 : ℤ) ≤ η) (h2 : η ≤ 690) :
    Within (Elem.ln ((Elem.sinh (.fin η) : F64 P) / (.fin η))) (log (sinh η / η)) (P.ε * (4 + η)) ∧
    0 ≤ log (sinh η / η) ∧ log (sinh η / η) ≤ η := by
  have hη : 0 < η := lt_of_lt_of_le (by positivity) h1
  obtain ⟨r, q1, q2⟩ := rel_sinh_div (P := P) h1 h2
  have l1 : 0 ≤ log (sinh η / η) := log_nonneg q1.le
  have l2 : log (sinh η / η) ≤ η := (log_le_log (by linarith) q2).trans (log_exp η).le
  refine ⟨?_, l1, l2⟩
  have hu := unit_le P
  have hup := unit_pos P
  have he := eps_small P
  have hep := eps_pos P
  have hbig : (1000 : ℝ) ≤ 2 ^ (1000 : ℤ) := by
    calc (1000 : ℝ) ≤ 2 ^ (10 : ℤ) := by norm_num
      _ ≤ _ := zpow_two_le (by norm_num)
  have htiny : (2 : ℝ) ^ (-1022 : ℤ) ≤ 1 / 2 := by
    calc (2 : ℝ) ^ (-1022 : ℤ) ≤ 2 ^ (-1 : ℤ) := zpow_two_le (by norm_num)
      _ = 1 / 2 := by norm_num
  clear h1
  have hsm : 2 * unit P ≤ 2.1 * P.ε := by nlinarith
  have w := within_ln r (by linarith) (by
    rw [abs_of_nonneg l1]
    generalize (2 : ℝ) ^ (1000 : ℤ) = a at *
    linarith)
  refine w.mono ?_
  rw [abs_of_nonneg l1]
  generalize (2 : ℝ) ^ (-1022 : ℤ) = c at *
  have : P.ε * (log (sinh η / η) + 2 * unit P + c) ≤ P.ε * (η + 0.6) := mul_le_mul_of_nonneg_left (by linarith) hep.le
  linarith

/-- C73: below the nondimensional force 690 the Gibbs energy of the freely jointed chain is accurate up to a few units of
rounding, relative to the force. -/
theorem C73_fjc_gibbs_accuracy (P : Platform) (N : ℕ) (ℓ m : F64 P) {η : ℝ} (h1 : 2 ^ (-900 : ℤ) ≤ η) (h2 : η ≤ 690) :
    Within ((fjc.FJC.init N ℓ m).thermodynamics.isotensional.nondimensional_relative_gibbs_free_energy_per_link (.fin η))
      (-log (sinh η / η)) (P.ε * (4 + η)) := within_neg (within_fjc_gibbs h1 h2).1

end Polymers.Props
