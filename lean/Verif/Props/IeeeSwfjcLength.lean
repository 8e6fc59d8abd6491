import Verif.Props.IeeeSwfjc

/-! C99: the lengths of the square-well chain at fixed force in floating point. -/

namespace Polymers.Props

open Polymers.Ieee Polymers.Spec Polymers.Lemmas
open Polymers.swfjc.thermodynamics.isotensional

variable {P : Platform} {N : ℕ} {ℓ m c T f η W n s t : ℝ} {a b : ℤ} {x y z : F64 P}

theorem well_length_eq (hc : c = 1 + W / ℓ) : nondimensional_end_to_end_length_per_link ℓ W η = wellSlope c η / wellSum c η - 3 / η := by
  have e : (1.0 : ℝ) + W / ℓ = c := by rw [hc]; norm_num
  unfold nondimensional_end_to_end_length_per_link
  rw [e]
  show (Elem.powi c 2 * η * Real.sinh (c * η) - η * Real.sinh η) / (c * η * Real.cosh (c * η) - Real.sinh (c * η) - η * Real.cosh η + Real.sinh η) - 3.0 / η = _
  rw [powi_two, show (3.0 : ℝ) = 3 by norm_num, show c * η * Real.cosh (c * η) - Real.sinh (c * η) - η * Real.cosh η + Real.sinh η = wellSum c η by
    unfold wellSum; ring]
  rfl

/-- C99: the nondimensional lengths of the square-well chain, where the partition function of a link is resolved: the error is measured by the terms of the
partition function and of its derivative, and by the term that is subtracted from their quotient. -/
theorem C99_swfjc_nondimensional_lengths (P : Platform) (hN : 0 < N) (hN' : N ≤ 255) (mF : F64 P) (m : ℝ) (TF : F64 P) (T : ℝ) (hℓ : Moderate ℓ) (hℓ0 : 0 < ℓ)
    (hW : Moderate W) (hW0 : 0 < W) (hc : c = 1 + W / ℓ) (hc' : c ≤ 2 ^ (20 : ℤ)) (hη : Moderate η) (h0 : 0 < η) (h300 : c * η ≤ 300)
    (hD : P.ε * (84 * wellSumSize c η) ≤ wellSum c η) :
    Within ((ApiF.swfjc_isotensional_lengths N (.fin ℓ : F64 P) mF (.fin W)).nd_length (.fin η) TF)
      ((Api.swfjc_isotensional_lengths N ℓ m W).nd_length η T) (P.ε * (58 * (N * wellLengthSize c η))) ∧
    Within ((ApiF.swfjc_isotensional_lengths N (.fin ℓ : F64 P) mF (.fin W)).nd_length_per_link (.fin η) TF)
      ((Api.swfjc_isotensional_lengths N ℓ m W).nd_length_per_link η T) (P.ε * (53 * wellLengthSize c η)) := by
  have aN := acc_nat (P := P) hN hN'
  have hc1 : 1 ≤ c := by rw [hc]; have : 0 < W / ℓ := by positivity
                         linarith
  obtain ⟨k, lo, hi⟩ := sized_well_length (P := P) (acc_well hℓ hℓ0 hW hW0 hc hc') hc1 hc' (acc_moderate hη) h0 h300 (by norm_num) (by norm_num) hD
  have r := range_mono (mul_range lo hi aN.lo aN.hi) (c := -1000) (d := 590) (by norm_num) (by norm_num)
  have k' := k.mul aN (by norm_num) (by norm_num) (by norm_num) r.1 r.2 (by norm_num)
  rw [Nat.abs_cast] at k'
  have k'' := (k'.weaken (q' := 58) (by norm_num) (by norm_num) rfl (le_of_eq (mul_comm _ _)) (by rw [mul_comm]; exact k'.hi)).within
  have w := k.within
  rw [← well_length_eq hc] at w k''
  exact ⟨k'', w⟩

/-- C99: the lengths of the square-well chain under a force. -/
theorem C99_swfjc_lengths (P : Platform) (hN : 0 < N) (hN' : N ≤ 255) (mF : F64 P) (m : ℝ) (hℓ : Moderate ℓ) (hℓ0 : 0 < ℓ)
    (hW : Moderate W) (hW0 : 0 < W) (hc : c = 1 + W / ℓ) (hc' : c ≤ 2 ^ (20 : ℤ)) (hf : Moderate f) (hT : Moderate T) {k : ℝ}
    (hk : k = Polymers.BOLTZMANN_CONSTANT) (hη : η = f * ℓ / (k * T)) (hη' : Moderate η) (h0 : 0 < η) (h300 : c * η ≤ 300)
    (hD : P.ε * (84 * wellSumSize c η) ≤ wellSum c η) :
    Within ((ApiF.swfjc_isotensional_lengths N (.fin ℓ : F64 P) mF (.fin W)).length (.fin f) (.fin T))
      ((Api.swfjc_isotensional_lengths N ℓ m W).length f T) (P.ε * (59 * (N * ℓ * wellLengthSize c η))) ∧
    Within ((ApiF.swfjc_isotensional_lengths N (.fin ℓ : F64 P) mF (.fin W)).length_per_link (.fin f) (.fin T))
      ((Api.swfjc_isotensional_lengths N ℓ m W).length_per_link f T) (P.ε * (58 * (ℓ * wellLengthSize c η))) := by
  subst hk
  have aN := acc_nat (P := P) hN hN'
  have hN0 : (0 : ℝ) < N := by exact_mod_cast hN
  have aℓ := acc_moderate (P := P) hℓ
  have hc1 : 1 ≤ c := by rw [hc]; have : 0 < W / ℓ := by positivity
                         linarith
  have ay := Acc.div (Acc.div (Acc.mul (acc_moderate (P := P) hf) aℓ (by norm_num) (by norm_num) (by norm_num)) acc_boltzmann (by norm_num) (by norm_num) (by norm_num))
    (acc_moderate hT) (by norm_num) (by norm_num) (by norm_num)
  have e1 : f * ℓ / (Polymers.BOLTZMANN_CONSTANT : ℝ) / T = η := by rw [hη, div_div]
  have hy : Acc _ (f * ℓ / (Polymers.BOLTZMANN_CONSTANT : ℝ) / T) 4 (-100) 100 :=
    ⟨ay.rel.mono (mul_le_mul_of_nonneg_right (by norm_num) (unit_pos P).le), by rw [e1]; exact hη'.1, by rw [e1]; exact hη'.2⟩
  rw [e1] at hy
  obtain ⟨k, lo, hi⟩ := sized_well_length (P := P) (acc_well hℓ hℓ0 hW hW0 hc hc') hc1 hc' hy h0 h300 (by norm_num) (by norm_num) hD
  have a2 := Acc.mul aN aℓ (by norm_num) (by norm_num) (by norm_num)
  have r1 := range_mono (mul_range lo hi aℓ.lo aℓ.hi) (c := -1000) (d := 590) (by norm_num) (by norm_num)
  have r2 := range_mono (mul_range lo hi a2.lo a2.hi) (c := -1000) (d := 590) (by norm_num) (by norm_num)
  have k1 := k.mul aℓ (by norm_num) (by norm_num) (by norm_num) r1.1 r1.2 (by norm_num)
  have k2 := k.mul a2 (by norm_num) (by norm_num) (by norm_num) r2.1 r2.2 (by norm_num)
  rw [abs_of_pos hℓ0] at k1
  rw [abs_of_pos (by positivity)] at k2
  have w1 := (k1.weaken (q' := 58) (by norm_num) (by norm_num) rfl (le_of_eq (mul_comm _ _)) (by rw [mul_comm]; exact k1.hi)).within
  have w2 := (k2.weaken (q' := 59) (by norm_num) (by norm_num) rfl (le_of_eq (mul_comm _ _)) (by rw [mul_comm]; exact k2.hi)).within
  rw [← well_length_eq hc, ← e1] at w1 w2
  rw [← e1]
  exact ⟨w2, w1⟩

/-- The hypothesis on the partition function holds from a force of a millionth on for a well as wide as the link. -/
theorem well_two (h0 : 1e-6 ≤ η) (h1 : η ≤ 0.1) (hP : P.ε ≤ 2 ^ (-50 : ℤ)) : P.ε * (84 * wellSumSize 2 η) ≤ wellSum 2 η := by
  have hη : 0 < η := lt_of_lt_of_le (by norm_num) h0
  have g1 := le_swG (x := 2 * η) (by positivity)
  have g2 := swG_le hη.le (by linarith)
  have hs : wellSum 2 η = swG (2 * η) - swG η := rfl
  have lo : 2 * η ^ 3 ≤ wellSum 2 η := by
    rw [hs]
    have : η ^ 5 ≤ η ^ 3 := pow_le_pow_of_le_one hη.le (by linarith) (by norm_num)
    nlinarith
  have e : ∀ r : ℝ, 0 < r → r ≤ 0.2 → Real.cosh r ≤ 1.3 ∧ Real.sinh r ≤ 1.3 * r := by
    intro r h2 h3
    have k1 : Real.cosh r ≤ Real.exp r := cosh_le_exp' h2.le
    have k2 : Real.exp r ≤ 1.3 := by
      have := Real.abs_exp_sub_one_sub_id_le (x := r) (by rw [abs_of_pos h2]; linarith)
      have := (abs_le.1 this).2
      nlinarith
    have k3 := swG_pos h2
    unfold swG at k3
    refine ⟨k1.trans k2, ?_⟩
    nlinarith
  obtain ⟨c1, s1⟩ := e (2 * η) (by positivity) (by linarith)
  obtain ⟨c2, s2⟩ := e η hη (by linarith)
  have hi : wellSumSize 2 η ≤ 10 * η := by
    unfold wellSumSize
    have k1 : 2 * η * Real.cosh (2 * η) ≤ 2 * η * 1.3 := mul_le_mul_of_nonneg_left c1 (by positivity)
    have k2 : η * Real.cosh η ≤ η * 1.3 := mul_le_mul_of_nonneg_left c2 hη.le
    have k3 := Real.sinh_pos_iff.2 hη
    have k4 := Real.sinh_pos_iff.2 (show 0 < 2 * η by positivity)
    calc (1 + 2 * η) * (2 * η * Real.cosh (2 * η) + Real.sinh (2 * η) + η * Real.cosh η + Real.sinh η) ≤ 1.2 * (7.8 * η) :=
          mul_le_mul (by linarith) (by linarith) (by have := Real.cosh_pos (2 * η); have := Real.cosh_pos η; positivity) (by norm_num)
      _ ≤ 10 * η := by linarith
  have hp := eps_pos P
  calc P.ε * (84 * wellSumSize 2 η) ≤ 2 ^ (-50 : ℤ) * (84 * (10 * η)) := mul_le_mul hP (by linarith) (by have := wellSumSize_pos (c := 2) (by norm_num) hη; positivity) (by positivity)
    _ ≤ 2 * ((1e-6) ^ 2 * η) := by norm_num; linarith
    _ ≤ 2 * (η ^ 2 * η) := by gcongr
    _ = 2 * η ^ 3 := by ring
    _ ≤ _ := lo

/-! ### Concrete cases: twenty links of unit length with a well of unit width on a machine which rounds correctly -/

example := C99_swfjc_nondimensional_lengths correctlyRounded (N := 20) (by norm_num) (by norm_num) (.fin 1) 1 (.fin 300) 300 moderate_one one_pos moderate_one one_pos
  (c := 2) (η := 0.1) (by norm_num) (by norm_num) (moderate_of (by norm_num) (by norm_num)) (by norm_num) (by norm_num)
  (well_two (by norm_num) le_rfl (two_zpow_mono (by norm_num)))

example := C99_swfjc_lengths correctlyRounded (N := 20) (by norm_num) (by norm_num) (.fin 1) 1 moderate_one one_pos moderate_one one_pos
  (c := 2) (f := 200) (by norm_num) (by norm_num) (moderate_of (by norm_num) (by norm_num)) moderate_300 rfl rfl
  (by unfold Polymers.BOLTZMANN_CONSTANT; constructor <;> norm_num) (by unfold Polymers.BOLTZMANN_CONSTANT; norm_num)
  (by unfold Polymers.BOLTZMANN_CONSTANT; norm_num)
  (well_two (by unfold Polymers.BOLTZMANN_CONSTANT; norm_num) (by unfold Polymers.BOLTZMANN_CONSTANT; norm_num) (two_zpow_mono (by norm_num)))

end Polymers.Props
