import Verif.Props.IeeeMorse
import Verif.Props.IeeeSwfjc
import Verif.Spec.IeeeEfjcAsymptotic

/-! C104: the lengths of the extensible freely jointed chain at fixed force in floating point, in the asymptotic approach. -/

namespace Polymers.Props

open Polymers.Ieee Polymers.Spec Polymers.Lemmas

variable {P : Platform} {N : ℕ} {ℓ m c T f η κ n : ℝ} {y z : F64 P}

local macro:70 a:term:70 " ⊗ " b:term:71 : term => `(Acc.mul $a $b (by norm_num) (by norm_num) (by norm_num))
local macro:70 a:term:70 " ⊘ " b:term:71 : term => `(Acc.div $a $b (by norm_num) (by norm_num) (by norm_num))

/-- The factor of the extension of a link: one and the coupling with the orientation of the link. -/
theorem sized_asymptotic_factor (hy : Acc y η n (-100) 100) (h0 : 0 < η) (hn0 : 0 ≤ n) (hn : n ≤ 9) (hz : Acc z κ 7 (-100) 100) (hκ : 0 < κ) :
    Acc (y / z) (η / κ) (n + 8) (-200) 200 ∧
    Sized ((1.0 : F64 P) + (Elem.tanh y - 1.0 / Elem.tanh y + 1.0 / y) / (Elem.tanh y + y / z))
      (1 + (Real.tanh η - 1 / Real.tanh η + 1 / η) / (Real.tanh η + η / κ)) (2.01 * n + 24.1) (1 + (1 + (1 + 1 / η) + 1 / η) / (Real.tanh η + η / κ)) ∧
    0 < (1 + (1 + 1 / η) + 1 / η) / (Real.tanh η + η / κ) ∧
    (1 + (1 + (1 + 1 / η) + 1 / η) / (Real.tanh η + η / κ)) * (η / κ) ≤ η / κ + (2 + 2 * (1 / η)) := by
  obtain ⟨c1, c2, c3⟩ := coth_bounds h0
  have c4 := Real.tanh_lt_one η
  have hi : (0 : ℝ) < 1 / η := by positivity
  have hE : (0 : ℝ) < η / κ := by positivity
  have iη : 1 / η ≤ 2 ^ (100 : ℤ) := by
    have := hy.lo
    rw [abs_of_pos h0] at this
    rw [show (100 : ℤ) = - -100 by norm_num, zpow_neg, ← one_div]
    exact one_div_le_one_div_of_le (by positivity) this
  have up : ∀ {M : ℝ}, M ≤ 2 + 2 * (1 / η) → M ≤ 2 ^ (590 : ℤ) := fun h => h.trans (by
    have h1 : (2 : ℝ) + 2 * 2 ^ (100 : ℤ) ≤ 2 ^ (102 : ℤ) := by norm_num
    exact (le_trans (by linarith) h1).trans (two_zpow_mono (by norm_num)))
  -- the numerator
  have at' := hy.tanh h0 (by linarith) (by norm_num) (by norm_num)
  have k1 := at'.sized (by linarith) (by linarith) (by norm_num) (by norm_num)
  rw [abs_of_pos c3] at k1
  have k2 := (Acc.div (acc_one (P := P)) at' (by linarith) (by norm_num) (by norm_num)).sized (by linarith) (by linarith) (by norm_num) (by norm_num)
  have k3 := (Acc.div (acc_one (P := P)) hy (by linarith) (by norm_num) (by norm_num)).sized (by linarith) (by linarith) (by norm_num) (by norm_num)
  have e1 : (1.0 : ℝ) = 1 := by norm_num
  rw [e1, abs_of_pos (by positivity)] at k2 k3
  have r1 := (k1.weaken (q' := n + 5) (by linarith) (by linarith) rfl (M' := 1) c4.le (up (by linarith))).sub
    (k2.weaken (q' := n + 5) (by linarith) (by linarith) rfl (M' := 1 + 1 / η) c2.le (up (by linarith))) (up (by linarith)) le_rfl (by linarith)
  have r2 := r1.add (k3.weaken (q' := n + 5 + 2) (by linarith) (by linarith) rfl le_rfl k3.hi) (up (by linarith)) (by linarith)
  -- the denominator
  have aE := Acc.div hy hz (by linarith) (by norm_num) (by norm_num)
  have aE' : Acc (y / z) (η / κ) (n + 8) (-200) 200 :=
    ⟨aE.rel.mono (mul_le_mul_of_nonneg_right (by linarith) (unit_pos P).le), aE.lo.trans' (two_zpow_mono (by norm_num)), aE.hi.trans (two_zpow_mono (by norm_num))⟩
  have aT : Acc (Elem.tanh y) (Real.tanh η) (n + 8) (-101) 200 :=
    ⟨at'.rel.mono (mul_le_mul_of_nonneg_right (by linarith) (unit_pos P).le), at'.lo.trans' (two_zpow_mono (by norm_num)), at'.hi.trans (two_zpow_mono (by norm_num))⟩
  have aD := aT.add_pos aE' c3 hE (by linarith) (by norm_num) (by norm_num) (by norm_num)
  have hD : 0 < Real.tanh η + η / κ := by positivity
  have hTE : η / κ / (Real.tanh η + η / κ) ≤ 1 := by rw [div_le_one hD]; linarith
  have lD := aD.lo
  rw [abs_of_pos hD] at lD
  have uD := aD.hi
  rw [abs_of_pos hD] at uD
  have iD : 1 / (Real.tanh η + η / κ) ≤ 2 ^ (101 : ℤ) := by
    rw [show (101 : ℤ) = - -101 by norm_num, zpow_neg, ← one_div]
    exact one_div_le_one_div_of_le (by positivity) lD
  have jD : 2 ^ (-201 : ℤ) ≤ 1 / (Real.tanh η + η / κ) := by
    rw [zpow_neg, ← one_div]
    exact one_div_le_one_div_of_le hD uD
  have hM1 : (2 : ℝ) ^ (0 : ℤ) ≤ 1 + (1 + 1 / η) + 1 / η := by rw [zpow_zero]; linarith
  have hM2 : 1 + (1 + 1 / η) + 1 / η ≤ 2 ^ (102 : ℤ) := by
    have h1 : (2 : ℝ) + 2 * 2 ^ (100 : ℤ) ≤ 2 ^ (102 : ℤ) := by norm_num
    exact le_trans (by linarith) h1
  have rM := mul_range hM1 hM2 jD iD
  have eM : (1 + (1 + 1 / η) + 1 / η) * (1 / (Real.tanh η + η / κ)) = (1 + (1 + 1 / η) + 1 / η) / |Real.tanh η + η / κ| := by rw [abs_of_pos hD, mul_one_div]
  rw [eM] at rM
  have qM := range_mono rM (c := -1000) (d := 590) (by norm_num) (by norm_num)
  have r3 := r2.div aD (by linarith) (by linarith) (by norm_num) qM.1 qM.2 (by linarith)
  rw [abs_of_pos hD] at r3 rM
  -- the coupling
  have w0 : 0 < (1 + (1 + 1 / η) + 1 / η) / (Real.tanh η + η / κ) := by positivity
  have hW : 1 + (1 + (1 + 1 / η) + 1 / η) / (Real.tanh η + η / κ) ≤ 2 ^ (204 : ℤ) := by
    have h1 : (1 : ℝ) + 2 ^ (102 + 101 : ℤ) ≤ 2 ^ (204 : ℤ) := by norm_num
    exact le_trans (add_le_add le_rfl rM.2) h1
  have one := sized_one (P := P)
  rw [e1] at one
  have r4 := (one.weaken (by linarith) (by linarith) rfl le_rfl one.hi).add r3 (hW.trans (two_zpow_mono (by norm_num))) (by linarith)
  have h5 : (1 + (1 + (1 + 1 / η) + 1 / η) / (Real.tanh η + η / κ)) * (η / κ) ≤ η / κ + (2 + 2 * (1 / η)) := by
    calc _ = η / κ + (1 + (1 + 1 / η) + 1 / η) * (η / κ / (Real.tanh η + η / κ)) := by ring
      _ ≤ η / κ + (1 + (1 + 1 / η) + 1 / η) * 1 := by gcongr
      _ = _ := by ring
  exact ⟨aE', r4.weaken (by linarith) (by linarith) rfl le_rfl r4.hi, w0, h5⟩

/-- The length of a link of the extensible chain in the asymptotic approach. -/
theorem sized_asymptotic_length (hy : Acc y η n (-100) 100) (h0 : 0 < η) (hn0 : 0 ≤ n) (hn : n ≤ 4) (hz : Acc z κ 7 (-100) 100) (hκ : 0 < κ) :
    Sized ((1.0 : F64 P) / Elem.tanh y - 1.0 / y + y / z * (1.0 + (Elem.tanh y - 1.0 / Elem.tanh y + 1.0 / y) / (Elem.tanh y + y / z)))
      (1.0 / Real.tanh η - 1.0 / η + η / κ * (1.0 + (Real.tanh η - 1.0 / Real.tanh η + 1.0 / η) / (Real.tanh η + η / κ))) 51 (efjcAsymptoticLengthSize κ η) ∧
    (2 : ℝ) ^ (0 : ℤ) ≤ efjcAsymptoticLengthSize κ η ∧ efjcAsymptoticLengthSize κ η ≤ 2 ^ (221 : ℤ) := by
  have hi : (0 : ℝ) < 1 / η := by positivity
  have hE : (0 : ℝ) < η / κ := by positivity
  have iη : 1 / η ≤ 2 ^ (100 : ℤ) := by
    have := hy.lo
    rw [abs_of_pos h0] at this
    rw [show (100 : ℤ) = - -100 by norm_num, zpow_neg, ← one_div]
    exact one_div_le_one_div_of_le (by positivity) this
  have iE : η / κ ≤ 2 ^ (200 : ℤ) := by
    have h1 := hy.hi
    have h2 := hz.lo
    rw [abs_of_pos h0] at h1
    rw [abs_of_pos hκ] at h2
    calc η / κ ≤ 2 ^ (100 : ℤ) / 2 ^ (-100 : ℤ) := div_le_div₀ (by positivity) h1 (by positivity) h2
      _ = _ := by rw [← zpow_sub₀ (by norm_num)]; norm_num
  have hT : efjcAsymptoticLengthSize κ η ≤ 2 ^ (221 : ℤ) := by
    have e : 3 / η = 3 * (1 / η) := by ring
    unfold efjcAsymptoticLengthSize
    rw [e]
    have h1 : (3 : ℝ) + 3 * 2 ^ (100 : ℤ) + 2 ^ (200 : ℤ) ≤ 2 ^ (221 : ℤ) := by norm_num
    exact le_trans (add_le_add (by linarith) iE) h1
  have hS : efjcAsymptoticLengthSize κ η = 3 + 3 * (1 / η) + η / κ := by unfold efjcAsymptoticLengthSize; ring
  have up : ∀ {M : ℝ}, M ≤ 3 + 3 * (1 / η) + η / κ → M ≤ 2 ^ (590 : ℤ) := fun h => (h.trans_eq hS.symm).trans (hT.trans (two_zpow_mono (by norm_num)))
  obtain ⟨aE', r4, w0, h5⟩ := sized_asymptotic_factor hy h0 hn0 (by linarith) hz hκ
  have l5 : (2 : ℝ) ^ (-1000 : ℤ) ≤ (1 + (1 + (1 + 1 / η) + 1 / η) / (Real.tanh η + η / κ)) * (η / κ) := by
    have h1 : (2 : ℝ) ^ (-1000 : ℤ) ≤ η / κ := by
      have := aE'.lo
      rw [abs_of_pos hE] at this
      exact this.trans' (two_zpow_mono (by norm_num))
    exact h1.trans (le_mul_of_one_le_left hE.le (by linarith))
  have r5 := r4.mul aE' (by linarith) (by linarith) (by norm_num) (by rw [abs_of_pos hE]; exact l5) (by rw [abs_of_pos hE]; exact up (h5.trans (by linarith)))
    (by linarith)
  rw [abs_of_pos hE] at r5
  have r6 := r5.weaken (q' := 49) (by linarith) (by norm_num) rfl h5 (up (by linarith))
  have kL := sized_langevin hy h0 hn0 (by linarith) (by norm_num) (by norm_num)
  have r7 := (kL.weaken (q' := 49) (by norm_num) (by norm_num) rfl le_rfl kL.hi).add r6 (up (by linarith)) (by norm_num)
  refine ⟨?_, by rw [zpow_zero, hS]; linarith, hT⟩
  have e1 : (1.0 : ℝ) = 1 := by norm_num
  rw [e1] at r7 ⊢
  exact r7.weaken (by norm_num) (by norm_num) rfl (by rw [hS]; linarith) (hT.trans (two_zpow_mono (by norm_num)))

/-- C104: the nondimensional lengths of the extensible chain in the asymptotic approach: the error is measured by the terms of the Langevin function
and the extension of the link. -/
theorem C104_efjc_asymptotic_nondimensional_lengths (P : Platform) (hN : 0 < N) (hN' : N ≤ 255) (mF : F64 P) (m : ℝ) (hℓ : Moderate ℓ) (hc : Moderate c)
    (hT : Moderate T) {k : ℝ} (hk : k = Polymers.BOLTZMANN_CONSTANT) (hκ : κ = c * ℓ ^ 2 / (k * T)) (hκ' : Moderate κ) (hκ0 : 0 < κ)
    (hη : Moderate η) (h0 : 0 < η) :
    Within ((ApiF.efjc_isotensional_asymptotic_lengths N (.fin ℓ : F64 P) mF (.fin c)).nd_length (.fin η) (.fin T))
      ((Api.efjc_isotensional_asymptotic_lengths N ℓ m c).nd_length η T) (P.ε * (56 * (N * efjcAsymptoticLengthSize κ η))) ∧
    Within ((ApiF.efjc_isotensional_asymptotic_lengths N (.fin ℓ : F64 P) mF (.fin c)).nd_length_per_link (.fin η) (.fin T))
      ((Api.efjc_isotensional_asymptotic_lengths N ℓ m c).nd_length_per_link η T) (P.ε * (51 * efjcAsymptoticLengthSize κ η)) := by
  subst hk
  have aN := acc_nat (P := P) hN hN'
  have az := acc_stiffness (P := P) hc hℓ hT
  have e2 := stiffness_eq hκ
  rw [e2] at az
  obtain ⟨k, lo, hi⟩ := sized_asymptotic_length (acc_moderate (P := P) hη) h0 le_rfl (by norm_num) ⟨az.rel, hκ'.1, hκ'.2⟩ hκ0
  have r := range_mono (mul_range lo hi aN.lo aN.hi) (c := -1000) (d := 590) (by norm_num) (by norm_num)
  have k' := k.mul aN (by norm_num) (by norm_num) (by norm_num) r.1 r.2 (by norm_num)
  rw [Nat.abs_cast] at k'
  have w1 := (k'.weaken (q' := 56) (by norm_num) (by norm_num) rfl (le_of_eq (mul_comm _ _)) (by rw [mul_comm]; exact k'.hi)).within
  have w2 := k.within
  rw [← e2] at w1 w2 ⊢
  exact ⟨w1, w2⟩

/-- C104: the lengths of the extensible chain in the asymptotic approach. -/
theorem C104_efjc_asymptotic_lengths (P : Platform) (hN : 0 < N) (hN' : N ≤ 255) (mF : F64 P) (m : ℝ) (hℓ : Moderate ℓ) (hℓ0 : 0 < ℓ) (hc : Moderate c)
    (hf : Moderate f) (hT : Moderate T) {k : ℝ} (hk : k = Polymers.BOLTZMANN_CONSTANT) (hκ : κ = c * ℓ ^ 2 / (k * T)) (hκ' : Moderate κ) (hκ0 : 0 < κ)
    (hη : η = f * ℓ / (k * T)) (hη' : Moderate η) (h0 : 0 < η) :
    Within ((ApiF.efjc_isotensional_asymptotic_lengths N (.fin ℓ : F64 P) mF (.fin c)).length (.fin f) (.fin T))
      ((Api.efjc_isotensional_asymptotic_lengths N ℓ m c).length f T) (P.ε * (61 * (N * ℓ * efjcAsymptoticLengthSize κ η))) ∧
    Within ((ApiF.efjc_isotensional_asymptotic_lengths N (.fin ℓ : F64 P) mF (.fin c)).length_per_link (.fin f) (.fin T))
      ((Api.efjc_isotensional_asymptotic_lengths N ℓ m c).length_per_link f T) (P.ε * (56 * (ℓ * efjcAsymptoticLengthSize κ η))) := by
  subst hk
  have aN := acc_nat (P := P) hN hN'
  have hN0 : (0 : ℝ) < N := by exact_mod_cast hN
  have aℓ := acc_moderate (P := P) hℓ
  have az := acc_stiffness (P := P) hc hℓ hT
  have e1 : f * ℓ / (Polymers.BOLTZMANN_CONSTANT : ℝ) / T = η := by rw [hη, div_div]
  have e2 := stiffness_eq hκ
  have ay := acc_moderate (P := P) hf ⊗ aℓ ⊘ acc_boltzmann ⊘ acc_moderate hT
  rw [e1] at ay
  rw [e2] at az
  obtain ⟨k, lo, hi⟩ := sized_asymptotic_length (n := 4) ⟨ay.rel.mono (mul_le_mul_of_nonneg_right (by norm_num) (unit_pos P).le), hη'.1, hη'.2⟩ h0 (by norm_num)
    le_rfl ⟨az.rel, hκ'.1, hκ'.2⟩ hκ0
  have p1 := mul_range lo hi aN.lo aN.hi
  have r1 := range_mono p1 (c := -1000) (d := 590) (by norm_num) (by norm_num)
  have k1 := k.mul aN (by norm_num) (by norm_num) (by norm_num) r1.1 r1.2 (by norm_num)
  have r2 := range_mono (mul_range p1.1 p1.2 aℓ.lo aℓ.hi) (c := -1000) (d := 590) (by norm_num) (by norm_num)
  have k2 := k1.mul aℓ (by norm_num) (by norm_num) (by norm_num) r2.1 r2.2 (by norm_num)
  have r3 := range_mono (mul_range lo hi aℓ.lo aℓ.hi) (c := -1000) (d := 590) (by norm_num) (by norm_num)
  have k3 := k.mul aℓ (by norm_num) (by norm_num) (by norm_num) r3.1 r3.2 (by norm_num)
  rw [Nat.abs_cast, abs_of_pos hℓ0] at k2
  rw [abs_of_pos hℓ0] at k3
  have m2 : efjcAsymptoticLengthSize κ η * N * ℓ = N * ℓ * efjcAsymptoticLengthSize κ η := by ring
  have w1 := (k2.weaken (q' := 61) (by norm_num) (by norm_num) rfl (le_of_eq m2) (by rw [← m2]; exact k2.hi)).within
  have w2 := (k3.weaken (q' := 56) (by norm_num) (by norm_num) rfl (le_of_eq (mul_comm _ _)) (by rw [mul_comm]; exact k3.hi)).within
  rw [← e1, ← e2] at w1 w2 ⊢
  exact ⟨w1, w2⟩

/-! ### Concrete cases: twenty links of unit length with the stiffness 50000 under the nondimensional force 2, or the force 5000, at 300 K -/

example := C104_efjc_asymptotic_nondimensional_lengths correctlyRounded (N := 20) (by norm_num) (by norm_num) (.fin 1) 1 moderate_one (c := 50000)
  ⟨by norm_num, by norm_num⟩ moderate_300 rfl rfl (by unfold Polymers.BOLTZMANN_CONSTANT; constructor <;> norm_num)
  (by unfold Polymers.BOLTZMANN_CONSTANT; norm_num) (η := 2) ⟨by norm_num, by norm_num⟩ (by norm_num)
example := C104_efjc_asymptotic_lengths correctlyRounded (N := 20) (by norm_num) (by norm_num) (.fin 1) 1 moderate_one one_pos (c := 50000)
  ⟨by norm_num, by norm_num⟩ (f := 5000) ⟨by norm_num, by norm_num⟩ moderate_300 rfl rfl
  (by unfold Polymers.BOLTZMANN_CONSTANT; constructor <;> norm_num) (by unfold Polymers.BOLTZMANN_CONSTANT; norm_num) rfl
  (by unfold Polymers.BOLTZMANN_CONSTANT; constructor <;> norm_num) (by unfold Polymers.BOLTZMANN_CONSTANT; norm_num)

end Polymers.Props
