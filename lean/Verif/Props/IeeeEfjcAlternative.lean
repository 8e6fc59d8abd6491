import Verif.Props.IeeeEfjc
import Verif.Props.IeeeSwfjc
import Verif.Spec.IeeeEfjcAlternative

/-! C100: the lengths of the extensible freely jointed chain at fixed force in floating point, in the alternative asymptotic approach. -/

namespace Polymers.Props

open Polymers.Ieee Polymers.Spec Polymers.Lemmas
open Polymers.efjc.thermodynamics.isotensional.asymptotic

variable {P : Platform} {N : ℕ} {ℓ m c T f η κ n s t : ℝ} {a b : ℤ} {x y z : F64 P}

local macro:70 a:term:70 " ⊗ " b:term:71 : term => `(Acc.mul $a $b (by norm_num) (by norm_num) (by norm_num))
local macro:70 a:term:70 " ⊘ " b:term:71 : term => `(Acc.div $a $b (by norm_num) (by norm_num) (by norm_num))

theorem sinh_quotient_le (h0 : 0 < η) : (1 + η) * (η / Real.sinh η ^ 2) ≤ 1 + 1 / η := by
  have h1 : η ≤ Real.sinh η := Real.self_le_sinh_iff.2 h0.le
  have h2 : η / Real.sinh η ^ 2 ≤ η / η ^ 2 := div_le_div_of_nonneg_left h0.le (by positivity) (by gcongr)
  calc (1 + η) * (η / Real.sinh η ^ 2) ≤ (1 + η) * (η / η ^ 2) := mul_le_mul_of_nonneg_left h2 (by positivity)
    _ = 1 + 1 / η := by field_simp; ring

/-- The stretch of a link in units of the stiffness. -/
theorem sized_alternative_stretch (hy : Acc y η n (-100) 100) (h0 : 0 < η) (h300 : η ≤ 300) (hn0 : 0 ≤ n) (hn : n ≤ 9) :
    Sized (y + 1.0 / Elem.tanh y - y / Elem.powi (Elem.sinh y) 2) (η + 1.0 / Real.tanh η - η / Elem.powi (Real.sinh η) 2) (3 * n + 12) (2 + η + 2 / η) ∧
    (2 : ℝ) ^ (0 : ℤ) ≤ 2 + η + 2 / η ∧ 2 + η + 2 / η ≤ 2 ^ (120 : ℤ) := by
  obtain ⟨c1, c2, c3⟩ := coth_bounds h0
  have hi : (0 : ℝ) < 1 / η := by positivity
  have a1 : Acc (1.0 : F64 P) (1.0 : ℝ) 1 0 0 := by
    refine acc_lit ?_ ?_ (by norm_num) (by norm_num) <;> norm_num
  have e1 : (1.0 : ℝ) = 1 := by norm_num
  have at' := Acc.div a1 (hy.tanh h0 (by linarith) (by norm_num) (by norm_num)) (by linarith) (by norm_num) (by norm_num)
  have as := hy.sinh h0 h300 hn0 (by linarith) (by norm_num)
  have p1 : 0 ≤ n * η := by positivity
  have p2 : n * η ≤ 9 * η := mul_le_mul_of_nonneg_right hn h0.le
  have aq := Acc.div hy (as.sq (by linarith) (by norm_num) (by norm_num)) (by linarith) (by norm_num) (by norm_num)
  have iη : 1 / η ≤ 2 ^ (100 : ℤ) := by
    have := hy.lo
    rw [abs_of_pos h0] at this
    rw [show (100 : ℤ) = - -100 by norm_num, zpow_neg, ← one_div]
    exact one_div_le_one_div_of_le (by positivity) this
  have hB : 1 + η + 1 / η ≤ 2 ^ (110 : ℤ) := by
    have : (2 : ℝ) ^ (100 : ℤ) + 301 ≤ 2 ^ (110 : ℤ) := by norm_num
    linarith
  have hB2 : 2 + η + 2 * (1 / η) ≤ 2 ^ (120 : ℤ) := by
    have : 2 * (2 : ℝ) ^ (110 : ℤ) ≤ 2 ^ (120 : ℤ) := by norm_num
    linarith
  have up : ∀ {M : ℝ}, M ≤ 2 + η + 2 * (1 / η) → M ≤ 2 ^ (590 : ℤ) := fun h => h.trans (hB2.trans (two_zpow_mono (by norm_num)))
  have t1 : |η / (Elem.powi (Real.sinh η) 2 : ℝ)| = η / Real.sinh η ^ 2 := by
    rw [powi_two]; exact abs_of_pos (div_pos h0 (pow_pos (Real.sinh_pos_iff.2 h0) 2))
  have t2 : |(1.0 : ℝ) / Real.tanh η| = 1 / Real.tanh η := by rw [e1]; exact abs_of_pos (by positivity)
  have hq := sinh_quotient_le h0
  have k4 := aq.sized_by (q := 3 * n + 10) (C := 1 + η) (by linarith) (by linarith) (by norm_num) (by linarith) (by linarith) (by linarith) (by linarith)
    (by rw [t1]; exact up (by linarith))
  rw [t1] at k4
  have k4' := k4.weaken (q' := 3 * n + 10) le_rfl (by linarith) rfl hq (up (by linarith))
  have k3 := at'.sized (by linarith) (by linarith) (by norm_num) (by norm_num)
  rw [t2] at k3
  have k3' := k3.weaken (q' := 3 * n + 8) (by linarith) (by linarith) rfl c2.le (up (by linarith))
  have k2 := hy.sized hn0 (by linarith) (by norm_num) (by norm_num)
  rw [abs_of_pos h0] at k2
  have k2' := k2.weaken (q' := 3 * n + 8) (by linarith) (by linarith) rfl le_rfl k2.hi
  have k5 := k2'.add k3' (up (by linarith)) (by linarith)
  have k6 := k5.sub k4' (up (by linarith)) (by linarith) (by linarith)
  have e2 : η + (1 + 1 / η) + (1 + 1 / η) = 2 + η + 2 / η := by ring
  rw [e2] at k6
  have hD : 2 + η + 2 / η ≤ 2 ^ (120 : ℤ) := by rw [← e2]; exact le_trans (by linarith) hB2
  have hD0 : 0 < 2 / η := by positivity
  exact ⟨k6.weaken (by linarith) (by linarith) rfl le_rfl k6.hi, by rw [zpow_zero]; linarith, hD⟩

/-- The nondimensional length per link. -/
theorem sized_alternative_length (hy : Acc y η n (-100) 100) (h0 : 0 < η) (h300 : η ≤ 300) (hn0 : 0 ≤ n) (hn : n ≤ 5) (hz : Acc z κ 7 (-100) 100) (hκ : 0 < κ) :
    Sized ((1.0 : F64 P) / Elem.tanh y - 1.0 / y + (y + 1.0 / Elem.tanh y - y / Elem.powi (Elem.sinh y) 2) / z)
      (1.0 / Real.tanh η - 1.0 / η + (η + 1.0 / Real.tanh η - η / Elem.powi (Real.sinh η) 2) / κ) 41 (efjcAlternativeLengthSize κ η) ∧
    (2 : ℝ) ^ (0 : ℤ) ≤ efjcAlternativeLengthSize κ η ∧ efjcAlternativeLengthSize κ η ≤ 2 ^ (221 : ℤ) := by
  have k1 := sized_langevin hy h0 hn0 hn (by norm_num) (by norm_num)
  obtain ⟨k6, lD, hD⟩ := sized_alternative_stretch hy h0 h300 hn0 (by linarith)
  replace k6 := k6.weaken (q' := 27) (by linarith) (by norm_num) rfl le_rfl k6.hi
  have hi : (0 : ℝ) < 1 / η := by positivity
  have hD0 : 0 < 2 / η := by positivity
  have iη : 1 / η ≤ 2 ^ (100 : ℤ) := by
    have := hy.lo
    rw [abs_of_pos h0] at this
    rw [show (100 : ℤ) = - -100 by norm_num, zpow_neg, ← one_div]
    exact one_div_le_one_div_of_le (by positivity) this
  have rD := div_range lD hD hz.lo hz.hi
  have qD := range_mono rD (c := -1000) (d := 590) (by norm_num) (by norm_num)
  have k7 := k6.div hz (by norm_num) (by norm_num) (by norm_num) qD.1 qD.2 (by norm_num)
  rw [abs_of_pos hκ] at k7 rD
  have hE := rD.2
  have hE0 : 0 < (2 + η + 2 / η) / κ := by positivity
  have hT : efjcAlternativeLengthSize κ η ≤ 2 ^ (221 : ℤ) := by
    have h1 : (1 : ℝ) + 2 ^ (100 : ℤ) + 2 ^ (120 - -100 : ℤ) ≤ 2 ^ (221 : ℤ) := by norm_num
    unfold efjcAlternativeLengthSize
    exact le_trans (add_le_add (by linarith) hE) h1
  have k8 := (k1.weaken (q' := 1.01 * 27 + 7 + 4) (by norm_num) (by norm_num) rfl le_rfl k1.hi).add k7 (hT.trans (two_zpow_mono (by norm_num))) (by norm_num)
  exact ⟨k8.weaken (by norm_num) (by norm_num) rfl le_rfl k8.hi, by rw [zpow_zero]; unfold efjcAlternativeLengthSize; linarith, hT⟩

/-- C100: the nondimensional lengths of the extensible chain in the alternative approach, at nondimensional forces up to 300. -/
theorem C100_efjc_alternative_nondimensional_lengths (P : Platform) (hN : 0 < N) (hN' : N ≤ 255) (mF : F64 P) (m : ℝ) (hℓ : Moderate ℓ) (hc : Moderate c)
    (hT : Moderate T) (hκ : κ = c * ℓ ^ 2 / (Polymers.BOLTZMANN_CONSTANT * T)) (hκ' : Moderate κ) (hκ0 : 0 < κ) (hη : Moderate η) (h0 : 0 < η) (h300 : η ≤ 300) :
    Within ((ApiF.efjc_isotensional_asymptotic_alternative_lengths N (.fin ℓ : F64 P) mF (.fin c)).nd_length (.fin η) (.fin T))
      ((Api.efjc_isotensional_asymptotic_alternative_lengths N ℓ m c).nd_length η T) (P.ε * (46 * (N * efjcAlternativeLengthSize κ η))) ∧
    Within ((ApiF.efjc_isotensional_asymptotic_alternative_lengths N (.fin ℓ : F64 P) mF (.fin c)).nd_length_per_link (.fin η) (.fin T))
      ((Api.efjc_isotensional_asymptotic_alternative_lengths N ℓ m c).nd_length_per_link η T) (P.ε * (41 * efjcAlternativeLengthSize κ η)) := by
  have aN := acc_nat (P := P) hN hN'
  have az := acc_stiffness (P := P) hc hℓ hT
  have e2 := stiffness_eq hκ
  have hz : Acc _ (c * Elem.powi ℓ 2 / (Polymers.BOLTZMANN_CONSTANT : ℝ) / T) 7 (-100) 100 := ⟨az.rel, by rw [e2]; exact hκ'.1, by rw [e2]; exact hκ'.2⟩
  obtain ⟨k, lo, hi⟩ := sized_alternative_length (acc_moderate (P := P) hη) h0 h300 le_rfl (by norm_num) hz (by rwa [e2])
  have r := range_mono (mul_range lo hi aN.lo aN.hi) (c := -1000) (d := 590) (by norm_num) (by norm_num)
  have k' := k.mul aN (by norm_num) (by norm_num) (by norm_num) r.1 r.2 (by norm_num)
  rw [Nat.abs_cast] at k'
  have w := (k'.weaken (q' := 46) (by norm_num) (by norm_num) rfl (le_of_eq (mul_comm _ _)) (by rw [mul_comm]; exact k'.hi)).within
  rw [← e2]
  exact ⟨w, k.within⟩

/-- C100: the lengths of the extensible chain in the alternative approach, under a force with `f ℓ ≤ 300 k T`. -/
theorem C100_efjc_alternative_lengths (P : Platform) (hN : 0 < N) (hN' : N ≤ 255) (mF : F64 P) (m : ℝ) (hℓ : Moderate ℓ) (hℓ0 : 0 < ℓ) (hc : Moderate c)
    (hf : Moderate f) (hT : Moderate T) {k : ℝ} (hk : k = Polymers.BOLTZMANN_CONSTANT) (hη : η = f * ℓ / (k * T)) (hη' : Moderate η) (h0 : 0 < η)
    (h300 : η ≤ 300) (hκ : κ = c * ℓ ^ 2 / (k * T)) (hκ' : Moderate κ) (hκ0 : 0 < κ) :
    Within ((ApiF.efjc_isotensional_asymptotic_alternative_lengths N (.fin ℓ : F64 P) mF (.fin c)).length (.fin f) (.fin T))
      ((Api.efjc_isotensional_asymptotic_alternative_lengths N ℓ m c).length f T) (P.ε * (47 * (N * ℓ * efjcAlternativeLengthSize κ η))) ∧
    Within ((ApiF.efjc_isotensional_asymptotic_alternative_lengths N (.fin ℓ : F64 P) mF (.fin c)).length_per_link (.fin f) (.fin T))
      ((Api.efjc_isotensional_asymptotic_alternative_lengths N ℓ m c).length_per_link f T) (P.ε * (46 * (ℓ * efjcAlternativeLengthSize κ η))) := by
  subst hk
  have aN := acc_nat (P := P) hN hN'
  have hN0 : (0 : ℝ) < N := by exact_mod_cast hN
  have aℓ := acc_moderate (P := P) hℓ
  have az := acc_stiffness (P := P) hc hℓ hT
  have e2 := stiffness_eq hκ
  have hz : Acc _ (c * Elem.powi ℓ 2 / (Polymers.BOLTZMANN_CONSTANT : ℝ) / T) 7 (-100) 100 := ⟨az.rel, by rw [e2]; exact hκ'.1, by rw [e2]; exact hκ'.2⟩
  have ay := acc_moderate (P := P) hf ⊗ aℓ ⊘ acc_boltzmann ⊘ acc_moderate hT
  have e1 : f * ℓ / (Polymers.BOLTZMANN_CONSTANT : ℝ) / T = η := by rw [hη, div_div]
  have hy : Acc _ (f * ℓ / (Polymers.BOLTZMANN_CONSTANT : ℝ) / T) 4 (-100) 100 :=
    ⟨ay.rel.mono (mul_le_mul_of_nonneg_right (by norm_num) (unit_pos P).le), by rw [e1]; exact hη'.1, by rw [e1]; exact hη'.2⟩
  obtain ⟨k, lo, hi⟩ := sized_alternative_length hy (by rwa [e1]) (by rwa [e1]) (by norm_num) (by norm_num) hz (by rwa [e2])
  have aL := aN ⊗ aℓ
  have r1 := range_mono (mul_range lo hi aL.lo aL.hi) (c := -1000) (d := 590) (by norm_num) (by norm_num)
  have r2 := range_mono (mul_range lo hi aℓ.lo aℓ.hi) (c := -1000) (d := 590) (by norm_num) (by norm_num)
  have k1 := k.mul aL (by norm_num) (by norm_num) (by norm_num) r1.1 r1.2 (by norm_num)
  have k2 := k.mul aℓ (by norm_num) (by norm_num) (by norm_num) r2.1 r2.2 (by norm_num)
  rw [abs_of_pos (by positivity), mul_comm (efjcAlternativeLengthSize _ _)] at k1 k2
  have w1 := (k1.weaken (q' := 47) (by norm_num) (by norm_num) rfl le_rfl k1.hi).within
  have w2 := (k2.weaken (q' := 46) (by norm_num) (by norm_num) rfl le_rfl k2.hi).within
  rw [← e1, ← e2]
  exact ⟨w1, w2⟩

/-! ### Concrete cases: twenty links of unit length with the stiffness 50000 under the force 5000 at 300 K on a machine which rounds correctly -/

example := C100_efjc_alternative_nondimensional_lengths correctlyRounded (N := 20) (by norm_num) (by norm_num) (.fin 1) 1 moderate_one (c := 50000)
  ⟨by norm_num, by norm_num⟩ moderate_300 rfl (by unfold Polymers.BOLTZMANN_CONSTANT; constructor <;> norm_num) (by unfold Polymers.BOLTZMANN_CONSTANT; norm_num)
  (η := 2) ⟨by norm_num, by norm_num⟩ (by norm_num) (by norm_num)
example := C100_efjc_alternative_lengths correctlyRounded (N := 20) (by norm_num) (by norm_num) (.fin 1) 1 moderate_one one_pos (c := 50000)
  ⟨by norm_num, by norm_num⟩ (f := 5000) ⟨by norm_num, by norm_num⟩ moderate_300 rfl rfl (by unfold Polymers.BOLTZMANN_CONSTANT; constructor <;> norm_num)
  (by unfold Polymers.BOLTZMANN_CONSTANT; norm_num) (by unfold Polymers.BOLTZMANN_CONSTANT; norm_num) rfl
  (by unfold Polymers.BOLTZMANN_CONSTANT; constructor <;> norm_num) (by unfold Polymers.BOLTZMANN_CONSTANT; norm_num)

end Polymers.Props
