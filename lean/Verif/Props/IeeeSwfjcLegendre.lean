import Verif.Props.IeeeSwfjcEnergy
import Verif.Spec.IeeeSwfjcLegendre

/-! C99: the Helmholtz energies of the square-well chain at fixed force in floating point. -/

namespace Polymers.Props

open Polymers.Ieee Polymers.Spec Polymers.Lemmas
open Polymers.swfjc.thermodynamics.isotensional.legendre

variable {P : Platform} {N : ℕ} {ℓ m c T f η W n s t : ℝ} {a b : ℤ} {x y z : F64 P}

theorem well_slope_nonneg (hc : 1 ≤ c) (h0 : 0 < η) : 0 ≤ wellSlope c η := by
  have h1 : Real.sinh η ≤ Real.sinh (c * η) := Real.sinh_le_sinh.2 (le_mul_of_one_le_left h0.le hc)
  have h2 := Real.sinh_pos_iff.2 h0
  have h3 : 1 ≤ c ^ 2 := one_le_pow₀ hc
  unfold wellSlope
  have h4 : η * Real.sinh η ≤ c ^ 2 * (η * Real.sinh (c * η)) :=
    (mul_le_mul_of_nonneg_left h1 h0.le).trans (le_mul_of_one_le_left (by positivity) h3)
  linarith

/-- The force times the derivative of the partition function. -/
theorem sized_well_work (hz : Acc z c 2 0 20) (hc : 1 ≤ c) (hc' : c ≤ 2 ^ (20 : ℤ)) (hy : Acc y η n (-100) 100) (h0 : 0 < η) (h300 : c * η ≤ 300) (hn0 : 0 ≤ n)
    (hn : n ≤ 9) :
    Sized (Elem.powi z 2 * Elem.powi y 2 * Elem.sinh (z * y) - Elem.powi y 2 * Elem.sinh y) (η * wellSlope c η) 48 (η * wellSlopeSize c η) := by
  have hη : η ≤ c * η := le_mul_of_one_le_left h0.le hc
  have ha : 0 < c * η := by linarith
  have hC : 1 ≤ 1 + c * η := by linarith
  have az := Acc.mul hz hy (by linarith) (by norm_num) (by norm_num)
  have a2 := az.sinh ha h300 (by linarith) (by linarith) (by norm_num)
  have a4 := hy.sinh h0 (hη.trans h300) (by linarith) (by linarith) (by norm_num)
  have p1 : 0 ≤ n * (c * η) := by positivity
  have p2 : 0 ≤ n * η := by positivity
  have p3 : n * (c * η) ≤ 9 * (c * η) := mul_le_mul_of_nonneg_right hn ha.le
  have p4 : n * η ≤ 9 * η := mul_le_mul_of_nonneg_right hn h0.le
  have u2 : (2 + n + 1 + 1) * (1 + c * η) + 1 ≤ 5000 := by linarith
  have u4 : (n + 1) * (1 + η) + 1 ≤ 5000 := by linarith
  have ay := hy.sq (by linarith) (by norm_num) (by norm_num)
  have b5 := Acc.mul (Acc.mul (hz.sq (by norm_num) (by norm_num) (by norm_num)) ay (by linarith) (by norm_num) (by norm_num)) a2 (by linarith) (by norm_num) (by norm_num)
  have b6 := Acc.mul ay a4 (by linarith) (by norm_num) (by norm_num)
  have hS0 : 0 ≤ wellSlopeSize c η := by
    have := Real.sinh_pos_iff.2 ha
    have := Real.sinh_pos_iff.2 h0
    unfold wellSlopeSize; positivity
  have hM2 : wellSlopeSize c η ≤ 2 ^ (480 : ℤ) := by
    refine (wellSlopeSize_le hc h0).trans ?_
    rw [show (480 : ℤ) = 20 + 460 by norm_num, zpow_add₀ (by norm_num)]
    exact mul_le_mul hc' (wellSumSize_le hc h0 h300) (wellSumSize_pos hc h0).le (by positivity)
  have hM3 : η * wellSlopeSize c η ≤ 2 ^ (590 : ℤ) := by
    have h9 : η ≤ 2 ^ (9 : ℤ) := le_trans (by linarith) (show (300 : ℝ) ≤ 2 ^ (9 : ℤ) by norm_num)
    calc η * wellSlopeSize c η ≤ 2 ^ (9 : ℤ) * 2 ^ (480 : ℤ) := mul_le_mul h9 hM2 hS0 (by positivity)
      _ = 2 ^ (489 : ℤ) := by rw [← zpow_add₀ (by norm_num)]; norm_num
      _ ≤ _ := two_zpow_mono (by norm_num)
  have t5 : |Elem.powi c 2 * Elem.powi η 2 * Real.sinh (c * η)| = η * (c ^ 2 * η * Real.sinh (c * η)) := by
    rw [powi_two, powi_two, abs_of_pos (mul_pos (by positivity) (Real.sinh_pos_iff.2 ha))]; ring
  have t6 : |Elem.powi η 2 * Real.sinh η| = η * (η * Real.sinh η) := by
    rw [powi_two, abs_of_pos (mul_pos (by positivity) (Real.sinh_pos_iff.2 h0))]; ring
  have n5 := abs_nonneg (Elem.powi c 2 * Elem.powi η 2 * Real.sinh (c * η))
  have n6 := abs_nonneg (Elem.powi η 2 * Real.sinh η)
  have eD : η * wellSlopeSize c η = (1 + c * η) * |Elem.powi c 2 * Elem.powi η 2 * Real.sinh (c * η)| + (1 + c * η) * |Elem.powi η 2 * Real.sinh η| := by
    rw [t5, t6]; unfold wellSlopeSize; ring
  have m5 := mul_nonneg (show 0 ≤ 1 + c * η by linarith) n5
  have m6 := mul_nonneg (show 0 ≤ 1 + c * η by linarith) n6
  have up' : ∀ {M : ℝ}, M ≤ η * wellSlopeSize c η → M ≤ 2 ^ (590 : ℤ) := fun h => h.trans hM3
  have k5 := b5.sized_by (q := 46) (C := 1 + c * η) (by linarith) (by linarith) (by norm_num) hC (by linarith) (by norm_num) (by norm_num) (up' (by linarith))
  have k6 := b6.sized_by (q := 46) (C := 1 + c * η) (by linarith) (by linarith) (by norm_num) hC (by linarith) (by norm_num) (by norm_num) (up' (by linarith))
  have r4 := k5.sub k6 (up' (by linarith)) (by norm_num) (by norm_num)
  refine r4.weaken (by norm_num) (by norm_num) ?_ (by linarith) (up' le_rfl)
  rw [powi_two, powi_two]; unfold wellSlope; ring

/-- The nondimensional Helmholtz energy per link. -/
theorem sized_well_helmholtz (hz : Acc z c 2 0 20) (hc : 1 ≤ c) (hc' : c ≤ 2 ^ (20 : ℤ)) (hy : Acc y η n (-100) 100) (h0 : 0 < η) (h300 : c * η ≤ 300) (hn0 : 0 ≤ n)
    (hn : n ≤ 9) (hD : P.ε * (84 * wellSumSize c η) ≤ wellSum c η) (hℓ : Moderate ℓ) (hm : Moderate m) (hm0 : 0 < m) (hT : Moderate T) (hT0 : 0 < T) :
    Sized ((Elem.powi z 2 * Elem.powi y 2 * Elem.sinh (z * y) - Elem.powi y 2 * Elem.sinh y) /
          (z * y * Elem.cosh (z * y) - Elem.sinh (z * y) - y * Elem.cosh y + Elem.sinh y) - 3.0 + 3.0 * Elem.ln y -
        Elem.ln (z * y * Elem.cosh (z * y) - Elem.sinh (z * y) - y * Elem.cosh y + Elem.sinh y) -
        Elem.ln (8.0 * Elem.powi (Elem.pi : F64 P) 2 * (.fin m) * Elem.powi (.fin ℓ) 2 * (Polymers.BOLTZMANN_CONSTANT : F64 P) * (.fin T) /
          Elem.powi (Polymers.PLANCK_CONSTANT : F64 P) 2))
      (η * wellSlope c η / wellSum c η - 3.0 + 3.0 * Real.log η - Real.log (wellSum c η) - logRatio ℓ m T) 78 (wellHelmholtzSize ℓ m T c η) ∧
    (2 : ℝ) ^ (0 : ℤ) ≤ wellHelmholtzSize ℓ m T c η ∧ wellHelmholtzSize ℓ m T c η ≤ 2 ^ (200 : ℤ) := by
  obtain ⟨-, loL, hiL⟩ := sized_well_length hz hc hc' hy h0 h300 hn0 hn hD
  obtain ⟨-, loG, hiG⟩ := sized_well_gibbs hz hc hc' hy h0 h300 hn0 hn hD hℓ hm hm0 hT hT0
  obtain ⟨kd, ks⟩ := sized_well hz hc hc' hy h0 h300 hn0 hn
  have kw := sized_well_work hz hc hc' hy h0 h300 hn0 hn
  obtain ⟨hs, hR, -⟩ := well_resolved hc h0 hD
  obtain ⟨k2, hR1, hR⟩ := sized_log_well hz hc hc' hy h0 h300 hn0 hn hD
  obtain ⟨k3, l3⟩ := sized_hinge (P := P) hℓ hm hm0 hT hT0
  have w1 := hy.ln h0 (by linarith) (by norm_num) (by norm_num)
  have l1 := acc_log_le hy h0 (by norm_num) (by norm_num)
  have hp := eps_pos P
  have n1 := abs_nonneg (Real.log η)
  have n2 := abs_nonneg (Real.log (wellSum c η))
  have n3 := abs_nonneg (logRatio ℓ m T)
  have hη9 : η ≤ 2 ^ (9 : ℤ) := by
    have hη : η ≤ c * η := le_mul_of_one_le_left h0.le hc
    exact le_trans (by linarith) (show (300 : ℝ) ≤ 2 ^ (9 : ℤ) by norm_num)
  have hM : wellGibbsSize ℓ m T c η = 3 * (|Real.log η| + 1) + (wellSumSize c η / wellSum c η + |Real.log (wellSum c η)|) + (|logRatio ℓ m T| + 1) := by
    rw [hingeLog_eq]; unfold wellGibbsSize; ring
  have hslope := well_slope_nonneg hc h0
  have hL : η * wellLengthSize c η = (η * wellSlopeSize c η / wellSum c η + η * wellSlope c η * wellSumSize c η / wellSum c η ^ 2) + 3 := by
    unfold wellLengthSize; field_simp
  have hLhi : η * wellLengthSize c η ≤ 2 ^ (199 : ℤ) := by
    rw [show (199 : ℤ) = 9 + 190 by norm_num, zpow_add₀ (by norm_num)]
    exact mul_le_mul hη9 hiL ((by positivity : (0 : ℝ) ≤ 2 ^ (-100 : ℤ)).trans loL) (by positivity)
  have hi : wellHelmholtzSize ℓ m T c η ≤ 2 ^ (200 : ℤ) := by
    have h1 : (2 : ℝ) ^ (190 : ℤ) ≤ 2 ^ (199 : ℤ) := two_zpow_mono (by norm_num)
    have h2 : (2 : ℝ) ^ (200 : ℤ) = 2 ^ (199 : ℤ) + 2 ^ (199 : ℤ) := by norm_num
    unfold wellHelmholtzSize
    rw [h2]
    exact add_le_add hLhi (hiG.trans h1)
  have up : ∀ {M : ℝ}, M ≤ wellHelmholtzSize ℓ m T c η → M ≤ 2 ^ (590 : ℤ) := fun h => h.trans (hi.trans (two_zpow_mono (by norm_num)))
  have nA : 0 ≤ η * wellSlope c η * wellSumSize c η / wellSum c η ^ 2 := by
    have := wellSumSize_pos hc h0
    positivity
  have hS0 := kw.pos
  have nB : 0 ≤ η * wellSlopeSize c η / wellSum c η := by positivity
  have hH : wellHelmholtzSize ℓ m T c η = (η * wellSlopeSize c η / wellSum c η + η * wellSlope c η * wellSumSize c η / wellSum c η ^ 2) + 3 +
      3 * (|Real.log η| + 1) + (wellSumSize c η / wellSum c η + |Real.log (wellSum c η)|) + (|logRatio ℓ m T| + 1) := by
    unfold wellHelmholtzSize; rw [hL, hM]; ring
  have hQ : (2 : ℝ) ^ (-1000 : ℤ) ≤ η * wellSlopeSize c η / wellSum c η := by
    have ha : 0 < c * η := by positivity
    have l := hy.lo
    rw [abs_of_pos h0] at l
    have h1 := Real.self_le_sinh_iff.2 h0.le
    have h2 := Real.sinh_pos_iff.2 ha
    have h3 := Real.sinh_pos_iff.2 h0
    have h4 : 0 ≤ c ^ 2 * η * Real.sinh (c * η) := by positivity
    have h5 : η * η ≤ η * Real.sinh η := mul_le_mul_of_nonneg_left h1 h0.le
    have lo1 : (2 : ℝ) ^ (-200 : ℤ) ≤ wellSlopeSize c η := by
      calc (2 : ℝ) ^ (-200 : ℤ) = 2 ^ (-100 : ℤ) * 2 ^ (-100 : ℤ) := by rw [← zpow_add₀ (by norm_num)]; norm_num
        _ ≤ η * η := mul_le_mul l l (by positivity) h0.le
        _ ≤ 1 * (c ^ 2 * η * Real.sinh (c * η) + η * Real.sinh η) := by linarith
        _ ≤ wellSlopeSize c η := by
          unfold wellSlopeSize
          exact mul_le_mul_of_nonneg_right (by linarith) (by positivity)
    have hsM : wellSum c η ≤ 2 ^ (460 : ℤ) := (le_abs_self _).trans (kd.size.trans (wellSumSize_le hc h0 h300))
    calc (2 : ℝ) ^ (-1000 : ℤ) ≤ 2 ^ (-300 - 460 : ℤ) := two_zpow_mono (by norm_num)
      _ = 2 ^ (-300 : ℤ) / 2 ^ (460 : ℤ) := zpow_sub₀ (by norm_num) _ _
      _ ≤ _ := div_le_div₀ hS0.le (by
        rw [show (-300 : ℤ) = -100 + -200 by norm_num, zpow_add₀ (by norm_num)]
        exact mul_le_mul l lo1 (by positivity) h0.le) hs hsM
  have q1 := kw.quot kd hs (by norm_num) (by linarith)
    (W := η * wellSlopeSize c η / wellSum c η + η * wellSlope c η * wellSumSize c η / wellSum c η ^ 2)
    (by rw [abs_of_nonneg (mul_nonneg h0.le hslope)]) hQ (up (by linarith)) (by norm_num)
  have e3 : |(3.0 : ℝ)| = 3 := by norm_num
  have s0 := (acc_three (P := P)).sized (by norm_num) (by norm_num) (by norm_num) (by norm_num)
  rw [e3] at s0
  have q2 := q1.sub (s0.weaken (q' := 70) (by norm_num) (by norm_num) rfl le_rfl s0.hi) (up (by linarith)) (by norm_num) (by norm_num)
  have s1 : Sized (Elem.ln y) (Real.log η) 11 (|Real.log η| + 1) :=
    ⟨w1.mono (mul_le_mul_of_nonneg_left (by linarith) hp.le), by linarith, lo_of_one (by linarith), up (by linarith), by norm_num,
      by norm_num⟩
  have s2 := s1.mul (acc_three (P := P)) (by norm_num) (by norm_num) (by norm_num) (by rw [e3]; exact lo_of_one (by linarith))
    (by rw [e3]; exact up (by linarith)) (by norm_num)
  rw [e3, mul_comm _ (3 : ℝ)] at s2
  have q3 := q2.add (s2.weaken (q' := 70 + 2) (by norm_num) (by norm_num) rfl le_rfl s2.hi) (up (by linarith)) (by norm_num)
  have q4 := q3.sub (k2.weaken (q' := 74) (by norm_num) (by norm_num) rfl le_rfl k2.hi) (up (by linarith)) (by norm_num) (by norm_num)
  have s3 : Sized (Elem.ln (8.0 * Elem.powi (Elem.pi : F64 P) 2 * (.fin m) * Elem.powi (.fin ℓ) 2 * (Polymers.BOLTZMANN_CONSTANT : F64 P) * (.fin T) /
          Elem.powi (Polymers.PLANCK_CONSTANT : F64 P) 2)) (logRatio ℓ m T) 76 (|logRatio ℓ m T| + 1) :=
    ⟨k3.within.mono (mul_le_mul_of_nonneg_left (by linarith) hp.le), by linarith, lo_of_one (by linarith), up (by linarith), by norm_num,
      by norm_num⟩
  have q5 := q4.sub s3 (up (by linarith)) (by norm_num) (by norm_num)
  refine ⟨q5.weaken (by norm_num) (by norm_num) rfl (by linarith) (up le_rfl), ?_, hi⟩
  rw [zpow_zero, hH]; linarith

theorem well_helmholtz_eq (hc : c = 1 + W / ℓ) :
    nondimensional_helmholtz_free_energy_per_link ℓ m W η T =
      η * wellSlope c η / wellSum c η - 3.0 + 3.0 * Real.log η - Real.log (wellSum c η) - logRatio ℓ m T := by
  have e : (1.0 : ℝ) + W / ℓ = c := by rw [hc]; norm_num
  unfold nondimensional_helmholtz_free_energy_per_link
  rw [e]
  show (Elem.powi c 2 * Elem.powi η 2 * Real.sinh (c * η) - Elem.powi η 2 * Real.sinh η) /
    (c * η * Real.cosh (c * η) - Real.sinh (c * η) - η * Real.cosh η + Real.sinh η) - 3.0 + 3.0 * Real.log η -
    Real.log (c * η * Real.cosh (c * η) - Real.sinh (c * η) - η * Real.cosh η + Real.sinh η) - logRatio ℓ m T = _
  rw [powi_two, powi_two, show c * η * Real.cosh (c * η) - Real.sinh (c * η) - η * Real.cosh η + Real.sinh η = wellSum c η by unfold wellSum; ring,
    show c ^ 2 * η ^ 2 * Real.sinh (c * η) - η ^ 2 * Real.sinh η = η * wellSlope c η by unfold wellSlope; ring]

/-- The Helmholtz energy of a chain and of a link under a force that is known with a relative error. -/
theorem sized_well_legendre (hN : 0 < N) (hN' : N ≤ 255) (hℓ : Moderate ℓ) (hℓ0 : 0 < ℓ) (hm : Moderate m) (hm0 : 0 < m) (hW : Moderate W) (hW0 : 0 < W)
    (hc : c = 1 + W / ℓ) (hc' : c ≤ 2 ^ (20 : ℤ)) (hT : Moderate T) (hT0 : 0 < T) (hy : Acc y η n (-100) 100) (h0 : 0 < η) (h300 : c * η ≤ 300) (hn0 : 0 ≤ n)
    (hn : n ≤ 9) (hD : P.ε * (84 * wellSumSize c η) ≤ wellSum c η) :
    Sized (nondimensional_helmholtz_free_energy N (.fin ℓ) (.fin m) (.fin W) y (.fin T)) (nondimensional_helmholtz_free_energy N ℓ m W η T) 83
      (N * wellHelmholtzSize ℓ m T c η) ∧
    Sized (nondimensional_helmholtz_free_energy_per_link (.fin ℓ) (.fin m) (.fin W) y (.fin T)) (nondimensional_helmholtz_free_energy_per_link ℓ m W η T) 78
      (wellHelmholtzSize ℓ m T c η) ∧
    (2 : ℝ) ^ (0 : ℤ) ≤ wellHelmholtzSize ℓ m T c η ∧ wellHelmholtzSize ℓ m T c η ≤ 2 ^ (200 : ℤ) ∧
    (2 : ℝ) ^ (0 : ℤ) ≤ N * wellHelmholtzSize ℓ m T c η ∧ N * wellHelmholtzSize ℓ m T c η ≤ 2 ^ (210 : ℤ) := by
  have aN := acc_nat (P := P) hN hN'
  have hc1 : 1 ≤ c := by rw [hc]; have : 0 < W / ℓ := by positivity
                         linarith
  obtain ⟨k, lo, hi⟩ := sized_well_helmholtz (acc_well (P := P) hℓ hℓ0 hW hW0 hc hc') hc1 hc' hy h0 h300 hn0 hn hD hℓ hm hm0 hT hT0
  have r1 := mul_range lo hi aN.lo aN.hi
  have q1 := range_mono r1 (c := -1000) (d := 590) (by norm_num) (by norm_num)
  have k1 := k.mul aN (by norm_num) (by norm_num) (by norm_num) q1.1 q1.2 (by norm_num)
  rw [Nat.abs_cast, mul_comm (wellHelmholtzSize ℓ m T c η)] at k1 r1
  have r2 := range_mono r1 (c := 0) (d := 210) (by norm_num) (by norm_num)
  have v1 := k1.weaken (q' := 83) (by norm_num) (by norm_num) rfl le_rfl k1.hi
  rw [← well_helmholtz_eq hc] at k v1
  exact ⟨v1, k, lo, hi, r2.1, r2.2⟩

/-- The relative energies of a chain and of a link. -/
theorem sized_well_relative (hN : 0 < N) (hN' : N ≤ 255) (hℓ : Moderate ℓ) (hℓ0 : 0 < ℓ) (hW : Moderate W) (hW0 : 0 < W)
    (hc : c = 1 + W / ℓ) (hc' : c ≤ 2 ^ (20 : ℤ)) (hy : Acc y η n (-100) 100) (h0 : 0 < η) (h300 : c * η ≤ 300) (hn0 : 0 ≤ n)
    (hn : n ≤ 9) (hD : P.ε * (84 * wellSumSize c η) ≤ wellSum c η) (hD0 : P.ε * (84 * wellSumSize c 1e-6) ≤ wellSum c 1e-6) :
    ∃ M, M = wellHelmholtzSize ℓ 1 300 c η + wellHelmholtzSize ℓ 1 300 c 1e-6 ∧
    Sized (nondimensional_relative_helmholtz_free_energy N (.fin ℓ) (.fin W) y) (nondimensional_relative_helmholtz_free_energy N ℓ W η) 85 (N * M) ∧
    Sized (nondimensional_relative_helmholtz_free_energy_per_link (.fin ℓ) (.fin W) y) (nondimensional_relative_helmholtz_free_energy_per_link ℓ W η) 80 M ∧
    (2 : ℝ) ^ (0 : ℤ) ≤ M ∧ M ≤ 2 ^ (220 : ℤ) ∧ (2 : ℝ) ^ (0 : ℤ) ≤ N * M ∧ N * M ≤ 2 ^ (220 : ℤ) := by
  have ez : (Polymers.ZERO : ℝ) = 1e-6 := by unfold Polymers.ZERO; norm_num
  have a0 : Acc (Polymers.ZERO : F64 P) (1e-6 : ℝ) 1 (-100) 100 := ⟨by rw [← ez]; exact zero_lit.rel, moderate_zero.1, moderate_zero.2⟩
  obtain ⟨s1, s2, l1, u1, l2, u2⟩ := sized_well_legendre (P := P) hN hN' hℓ hℓ0 moderate_one one_pos hW hW0 hc hc' moderate_300 (by norm_num) hy h0 h300 hn0 hn hD
  obtain ⟨s3, s4, l3, u3, l4, u4⟩ := sized_well_legendre (P := P) hN hN' hℓ hℓ0 moderate_one one_pos hW hW0 hc hc' moderate_300 (by norm_num) a0 (by norm_num)
    (by norm_num at hc' ⊢; linarith) (by norm_num) (by norm_num) hD0
  have b : (2 : ℝ) ^ (210 : ℤ) + 2 ^ (210 : ℤ) ≤ 2 ^ (220 : ℤ) := by norm_num
  have b' : (2 : ℝ) ^ (220 : ℤ) ≤ 2 ^ (590 : ℤ) := two_zpow_mono (by norm_num)
  have b1 : (2 : ℝ) ^ (200 : ℤ) ≤ 2 ^ (210 : ℤ) := two_zpow_mono (by norm_num)
  have v1 := (add_le_add u2 u4).trans b
  have v2 := (add_le_add (u1.trans b1) (u3.trans b1)).trans b
  have w1 := s1.sub s3 (v1.trans b') le_rfl (by norm_num)
  have w2 := s2.sub s4 (v2.trans b') le_rfl (by norm_num)
  rw [← mul_add] at w1 v1
  rw [zpow_zero] at *
  have e1 : nondimensional_relative_helmholtz_free_energy N (.fin ℓ : F64 P) (.fin W) y = nondimensional_helmholtz_free_energy N (.fin ℓ) (.fin 1) (.fin W) y (.fin 300) -
      nondimensional_helmholtz_free_energy N (.fin ℓ) (.fin 1) (.fin W) Polymers.ZERO (.fin 300) := by
    unfold nondimensional_relative_helmholtz_free_energy; rw [lit_one, lit_300]
  have e2 : nondimensional_relative_helmholtz_free_energy N ℓ W η = nondimensional_helmholtz_free_energy N ℓ 1 W η 300 -
      nondimensional_helmholtz_free_energy N ℓ 1 W 1e-6 300 := by
    unfold nondimensional_relative_helmholtz_free_energy; rw [show (1.0 : ℝ) = 1 by norm_num, show (300.0 : ℝ) = 300 by norm_num, ez]
  have e3 : nondimensional_relative_helmholtz_free_energy_per_link (.fin ℓ : F64 P) (.fin W) y =
      nondimensional_helmholtz_free_energy_per_link (.fin ℓ) (.fin 1) (.fin W) y (.fin 300) -
      nondimensional_helmholtz_free_energy_per_link (.fin ℓ) (.fin 1) (.fin W) Polymers.ZERO (.fin 300) := by
    unfold nondimensional_relative_helmholtz_free_energy_per_link; rw [lit_one, lit_300]
  have e4 : nondimensional_relative_helmholtz_free_energy_per_link ℓ W η = nondimensional_helmholtz_free_energy_per_link ℓ 1 W η 300 -
      nondimensional_helmholtz_free_energy_per_link ℓ 1 W 1e-6 300 := by
    unfold nondimensional_relative_helmholtz_free_energy_per_link; rw [show (1.0 : ℝ) = 1 by norm_num, show (300.0 : ℝ) = 300 by norm_num, ez]
  rw [← e1, ← e2] at w1
  rw [← e3, ← e4] at w2
  exact ⟨_, rfl, w1.weaken (by norm_num) (by norm_num) rfl le_rfl w1.hi, w2.weaken (by norm_num) (by norm_num) rfl le_rfl w2.hi, by linarith, v2,
    by rw [mul_add]; linarith, v1⟩

/-- C99: the nondimensional Helmholtz energies of the square-well chain; the relative energies where the partition function is also resolved at the force the
energy is relative to. -/
theorem C99_swfjc_nondimensional_helmholtz (P : Platform) (hN : 0 < N) (hN' : N ≤ 255) (hℓ : Moderate ℓ) (hℓ0 : 0 < ℓ) (hm : Moderate m) (hm0 : 0 < m)
    (hW : Moderate W) (hW0 : 0 < W) (hc : c = 1 + W / ℓ) (hc' : c ≤ 2 ^ (20 : ℤ)) (hT : Moderate T) (hT0 : 0 < T) (hη : Moderate η) (h0 : 0 < η)
    (h300 : c * η ≤ 300) (hD : P.ε * (84 * wellSumSize c η) ≤ wellSum c η)
    {F : ApiF.EnergyMethodsF P} (hF : F = ApiF.swfjc_isotensional_legendre_helmholtz N (.fin ℓ) (.fin m) (.fin W))
    {R : EnergyMethods} (hR : R = Api.swfjc_isotensional_legendre_helmholtz N ℓ m W) :
    Within (F.nd_energy (.fin η) (.fin T)) (R.nd_energy η T) (P.ε * (83 * (N * wellHelmholtzSize ℓ m T c η))) ∧
    Within (F.nd_energy_per_link (.fin η) (.fin T)) (R.nd_energy_per_link η T) (P.ε * (78 * wellHelmholtzSize ℓ m T c η)) ∧
    (P.ε * (84 * wellSumSize c 1e-6) ≤ wellSum c 1e-6 →
      Within (F.nd_relative (.fin η) (.fin T)) (R.nd_relative η T)
        (P.ε * (85 * (N * (wellHelmholtzSize ℓ 1 300 c η + wellHelmholtzSize ℓ 1 300 c 1e-6)))) ∧
      Within (F.nd_relative_per_link (.fin η) (.fin T)) (R.nd_relative_per_link η T)
        (P.ε * (80 * (wellHelmholtzSize ℓ 1 300 c η + wellHelmholtzSize ℓ 1 300 c 1e-6)))) := by
  subst hF hR
  have aη : Acc (.fin η : F64 P) η 0 (-100) 100 := acc_moderate hη
  obtain ⟨s1, s2, -⟩ := sized_well_legendre (P := P) hN hN' hℓ hℓ0 hm hm0 hW hW0 hc hc' hT hT0 aη h0 h300 le_rfl (by norm_num) hD
  refine ⟨s1.within, s2.within, fun hD0 => ?_⟩
  obtain ⟨M, rfl, s3, s4, -⟩ := sized_well_relative (P := P) hN hN' hℓ hℓ0 hW hW0 hc hc' aη h0 h300 le_rfl (by norm_num) hD hD0
  exact ⟨s3.within, s4.within⟩

/-- C99: the Helmholtz energies of the square-well chain under a force. -/
theorem C99_swfjc_helmholtz (P : Platform) (hN : 0 < N) (hN' : N ≤ 255) (hℓ : Moderate ℓ) (hℓ0 : 0 < ℓ) (hm : Moderate m) (hm0 : 0 < m) (hW : Moderate W)
    (hW0 : 0 < W) (hc : c = 1 + W / ℓ) (hc' : c ≤ 2 ^ (20 : ℤ)) (hf : Moderate f) (hT : Moderate T) (hT0 : 0 < T) {k : ℝ} (hk : k = Polymers.BOLTZMANN_CONSTANT)
    (hη : η = f * ℓ / (k * T)) (hη' : Moderate η) (h0 : 0 < η) (h300 : c * η ≤ 300) (hD : P.ε * (84 * wellSumSize c η) ≤ wellSum c η)
    {F : ApiF.EnergyMethodsF P} (hF : F = ApiF.swfjc_isotensional_legendre_helmholtz N (.fin ℓ) (.fin m) (.fin W))
    {R : EnergyMethods} (hR : R = Api.swfjc_isotensional_legendre_helmholtz N ℓ m W) :
    Within (F.energy (.fin f) (.fin T)) (R.energy f T) (P.ε * (95 * (N * wellHelmholtzSize ℓ m T c η * k * T))) ∧
    Within (F.energy_per_link (.fin f) (.fin T)) (R.energy_per_link f T) (P.ε * (95 * (wellHelmholtzSize ℓ m T c η * k * T))) ∧
    (P.ε * (84 * wellSumSize c 1e-6) ≤ wellSum c 1e-6 →
      Within (F.relative (.fin f) (.fin T)) (R.relative f T)
        (P.ε * (97 * (N * (wellHelmholtzSize ℓ 1 300 c η + wellHelmholtzSize ℓ 1 300 c 1e-6) * k * T))) ∧
      Within (F.relative_per_link (.fin f) (.fin T)) (R.relative_per_link f T)
        (P.ε * (97 * ((wellHelmholtzSize ℓ 1 300 c η + wellHelmholtzSize ℓ 1 300 c 1e-6) * k * T)))) := by
  subst hF hR hk
  have ay := Acc.mul (Acc.div (Acc.div (acc_moderate (P := P) hf) acc_boltzmann (by norm_num) (by norm_num) (by norm_num)) (acc_moderate hT) (by norm_num)
    (by norm_num) (by norm_num)) (acc_moderate hℓ) (by norm_num) (by norm_num) (by norm_num)
  have e1 : f / (Polymers.BOLTZMANN_CONSTANT : ℝ) / T * ℓ = η := by rw [hη]; field_simp
  have hy : Acc _ (f / (Polymers.BOLTZMANN_CONSTANT : ℝ) / T * ℓ) 4 (-100) 100 :=
    ⟨ay.rel.mono (mul_le_mul_of_nonneg_right (by norm_num) (unit_pos P).le), by rw [e1]; exact hη'.1, by rw [e1]; exact hη'.2⟩
  rw [e1] at hy
  obtain ⟨s1, s2, l2, u2, l1, u1⟩ := sized_well_legendre (P := P) hN hN' hℓ hℓ0 hm hm0 hW hW0 hc hc' hT hT0 hy h0 h300 (by norm_num) (by norm_num) hD
  have w1 := s1.thermal hT0 hT l1 u1 (by norm_num) (by norm_num) (by norm_num)
  have w2 := s2.thermal hT0 hT l2 u2 (by norm_num) (by norm_num) (by norm_num)
  have v1 := (w1.weaken (q' := 95) (by norm_num) (by norm_num) rfl le_rfl w1.hi).within
  have v2 := (w2.weaken (q' := 95) (by norm_num) (by norm_num) rfl le_rfl w2.hi).within
  rw [← e1] at v1 v2
  refine ⟨by rw [← e1]; exact v1, by rw [← e1]; exact v2, fun hD0 => ?_⟩
  obtain ⟨M, hM, s3, s4, l4, u4, l3, u3⟩ := sized_well_relative (P := P) hN hN' hℓ hℓ0 hW hW0 hc hc' hy h0 h300 (by norm_num) (by norm_num) hD hD0
  have w3 := s3.thermal hT0 hT l3 u3 (by norm_num) (by norm_num) (by norm_num)
  have w4 := s4.thermal hT0 hT l4 u4 (by norm_num) (by norm_num) (by norm_num)
  have v3 := (w3.weaken (q' := 97) (by norm_num) (by norm_num) rfl le_rfl w3.hi).within
  have v4 := (w4.weaken (q' := 97) (by norm_num) (by norm_num) rfl le_rfl w4.hi).within
  rw [← hM]
  rw [← e1] at v3 v4
  exact ⟨v3, v4⟩

/-! ### Concrete cases: twenty links of unit length with a well of unit width on a machine which rounds correctly -/

example := (C99_swfjc_nondimensional_helmholtz correctlyRounded (N := 20) (by norm_num) (by norm_num) moderate_one one_pos moderate_one one_pos moderate_one one_pos
  (c := 2) (η := 0.1) (by norm_num) (by norm_num) moderate_300 (by norm_num) (moderate_of (by norm_num) (by norm_num)) (by norm_num) (by norm_num)
  (well_two (by norm_num) le_rfl (two_zpow_mono (by norm_num))) rfl rfl).2.2 (well_two le_rfl (by norm_num) (two_zpow_mono (by norm_num)))
example := (C99_swfjc_helmholtz correctlyRounded (N := 20) (by norm_num) (by norm_num) moderate_one one_pos moderate_one one_pos moderate_one one_pos
  (c := 2) (f := 200) (by norm_num) (by norm_num) (moderate_of (by norm_num) (by norm_num)) moderate_300 (by norm_num) rfl rfl
  (by unfold Polymers.BOLTZMANN_CONSTANT; constructor <;> norm_num) (by unfold Polymers.BOLTZMANN_CONSTANT; norm_num)
  (by unfold Polymers.BOLTZMANN_CONSTANT; norm_num)
  (well_two (by unfold Polymers.BOLTZMANN_CONSTANT; norm_num) (by unfold Polymers.BOLTZMANN_CONSTANT; norm_num) (two_zpow_mono (by norm_num))) rfl rfl).2.2
  (well_two le_rfl (by norm_num) (two_zpow_mono (by norm_num)))

end Polymers.Props
