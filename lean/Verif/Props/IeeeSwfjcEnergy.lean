import Verif.Props.IeeeSwfjcLength

/-! C99: the Gibbs energies of the square-well chain in floating point. -/

namespace Polymers.Props

open Polymers.Ieee Polymers.Spec Polymers.Lemmas
open Polymers.swfjc.thermodynamics.isotensional

variable {P : Platform} {N : ℕ} {ℓ m c T f η W n s t : ℝ} {a b : ℤ} {x y z : F64 P}

theorem big_590 {M : ℝ} (h : M ≤ 2 ^ (190 : ℤ)) : M ≤ 2 ^ (590 : ℤ) := h.trans (two_zpow_mono (by norm_num))

/-- The logarithm of the partition function of a link. -/
theorem sized_log_well (hz : Acc z c 2 0 20) (hc : 1 ≤ c) (hc' : c ≤ 2 ^ (20 : ℤ)) (hy : Acc y η n (-100) 100) (h0 : 0 < η) (h300 : c * η ≤ 300) (hn0 : 0 ≤ n)
    (hn : n ≤ 9) (hD : P.ε * (84 * wellSumSize c η) ≤ wellSum c η) :
    Sized (Elem.ln (z * y * Elem.cosh (z * y) - Elem.sinh (z * y) - y * Elem.cosh y + Elem.sinh y)) (Real.log (wellSum c η)) 29
      (wellSumSize c η / wellSum c η + |Real.log (wellSum c η)|) ∧ 1 ≤ wellSumSize c η / wellSum c η ∧
    wellSumSize c η / wellSum c η + |Real.log (wellSum c η)| ≤ 2 ^ (100 : ℤ) := by
  obtain ⟨k1, -⟩ := sized_well hz hc hc' hy h0 h300 hn0 hn
  obtain ⟨hs, hR, hεR⟩ := well_resolved hc h0 hD
  have hp := eps_pos P
  have r := k1.rel hs (by linarith)
  set R := wellSumSize c η / wellSum c η with hRdef
  have hR1 : 1 ≤ R := by
    rw [hRdef, one_le_div hs]; exact (le_abs_self _).trans k1.size
  have ed : P.ε * (4 / 3 * (21 * wellSumSize c η / wellSum c η)) = 28 * (P.ε * R) := by rw [hRdef]; ring
  rw [ed] at r
  have hlog : |Real.log (wellSum c η)| ≤ 1000 := by
    have lo : (2 : ℝ) ^ (-1047 : ℤ) ≤ wellSum c η := by
      have h1 := k1.lo
      have h2 : wellSumSize c η ≤ 2 ^ (47 : ℤ) * wellSum c η := by rwa [hRdef, div_le_iff₀ hs] at hR
      rw [show (-1047 : ℤ) = -1000 - 47 by norm_num, zpow_sub₀ (by norm_num), div_le_iff₀ (by positivity), mul_comm]
      exact h1.trans h2
    have hi : wellSum c η ≤ 2 ^ (460 : ℤ) := (le_abs_self _).trans (k1.size.trans (wellSumSize_le hc h0 h300))
    have j1 := Real.log_le_log (by positivity) lo
    have j2 := Real.log_le_log hs hi
    rw [Real.log_zpow] at j1 j2
    push_cast at j1 j2
    have j3 := Real.log_two_lt_d9
    have j4 := Real.log_pos (by norm_num : (1 : ℝ) < 2)
    rw [abs_le]
    constructor <;> nlinarith
  have big : (2000 : ℝ) ≤ 2 ^ (1000 : ℤ) := by
    calc (2000 : ℝ) ≤ 2 ^ (11 : ℤ) := by norm_num
      _ ≤ _ := two_zpow_mono (by norm_num)
  have w := within_ln r hs (le_trans (by linarith) big)
  have htiny : (2 : ℝ) ^ (-1022 : ℤ) ≤ 1e-9 := tiny_le le_rfl
  have hL := abs_nonneg (Real.log (wellSum c η))
  have hhi : R + |Real.log (wellSum c η)| ≤ 2 ^ (100 : ℤ) := by
    calc R + |Real.log (wellSum c η)| ≤ 2 ^ (47 : ℤ) + 1000 := add_le_add hR hlog
      _ ≤ _ := by norm_num
  refine ⟨⟨w.mono ?_, by linarith, lo_of_one (by linarith), hhi.trans (two_zpow_mono (by norm_num)), by norm_num, by norm_num⟩, hR1, hhi⟩
  generalize |Real.log (wellSum c η)| = L at *
  generalize (2 : ℝ) ^ (-1022 : ℤ) = t at *
  have k2 : P.ε * (L + 28 * (P.ε * R) + t) ≤ P.ε * (L + 1 / 3 + 1e-9) := mul_le_mul_of_nonneg_left (by linarith) hp.le
  have k3 : 28 * (P.ε * R) + P.ε * (L + 1 / 3 + 1e-9) ≤ P.ε * (29 * (R + L)) := by
    rw [show 28 * (P.ε * R) + P.ε * (L + 1 / 3 + 1e-9) = P.ε * (28 * R + (L + 1 / 3 + 1e-9)) by ring]
    exact mul_le_mul_of_nonneg_left (by linarith) hp.le
  linarith

/-- The nondimensional Gibbs energy per link. -/
theorem sized_well_gibbs (hz : Acc z c 2 0 20) (hc : 1 ≤ c) (hc' : c ≤ 2 ^ (20 : ℤ)) (hy : Acc y η n (-100) 100) (h0 : 0 < η) (h300 : c * η ≤ 300) (hn0 : 0 ≤ n)
    (hn : n ≤ 9) (hD : P.ε * (84 * wellSumSize c η) ≤ wellSum c η) (hℓ : Moderate ℓ) (hm : Moderate m) (hm0 : 0 < m) (hT : Moderate T) (hT0 : 0 < T) :
    Sized (3.0 * Elem.ln y - Elem.ln (z * y * Elem.cosh (z * y) - Elem.sinh (z * y) - y * Elem.cosh y + Elem.sinh y) -
        Elem.ln (8.0 * Elem.powi (Elem.pi : F64 P) 2 * (.fin m) * Elem.powi (.fin ℓ) 2 * (Polymers.BOLTZMANN_CONSTANT : F64 P) * (.fin T) /
          Elem.powi (Polymers.PLANCK_CONSTANT : F64 P) 2))
      (3.0 * Real.log η - Real.log (wellSum c η) - logRatio ℓ m T) 33 (wellGibbsSize ℓ m T c η) ∧
    (2 : ℝ) ^ (0 : ℤ) ≤ wellGibbsSize ℓ m T c η ∧ wellGibbsSize ℓ m T c η ≤ 2 ^ (190 : ℤ) := by
  obtain ⟨k2, hR1, hR⟩ := sized_log_well hz hc hc' hy h0 h300 hn0 hn hD
  obtain ⟨k3, l3⟩ := sized_hinge (P := P) hℓ hm hm0 hT hT0
  have w1 := hy.ln h0 (by linarith) (by norm_num) (by norm_num)
  have l1 := acc_log_le hy h0 (by norm_num) (by norm_num)
  have hp := eps_pos P
  have n1 := abs_nonneg (Real.log η)
  have n2 := abs_nonneg (Real.log (wellSum c η))
  have n3 := abs_nonneg (logRatio ℓ m T)
  have big : (1e5 : ℝ) ≤ 2 ^ (100 : ℤ) := by norm_num
  have hM : wellGibbsSize ℓ m T c η = 3 * (|Real.log η| + 1) + (wellSumSize c η / wellSum c η + |Real.log (wellSum c η)|) + (|logRatio ℓ m T| + 1) := by
    rw [hingeLog_eq]; unfold wellGibbsSize; ring
  have hi : wellGibbsSize ℓ m T c η ≤ 2 ^ (190 : ℤ) := by
    rw [hM]
    have h4 : (2 : ℝ) ^ (100 : ℤ) + 1e5 ≤ 2 ^ (190 : ℤ) := by norm_num
    refine le_trans ?_ h4
    linarith
  have s1 : Sized (Elem.ln y) (Real.log η) 11 (|Real.log η| + 1) :=
    ⟨w1.mono (mul_le_mul_of_nonneg_left (by linarith) hp.le), by linarith, lo_of_one (by linarith), big_590 (le_trans (by linarith) hi), by norm_num,
      by norm_num⟩
  have e3 : |(3.0 : ℝ)| = 3 := by norm_num
  have s2 := s1.mul (acc_three (P := P)) (by norm_num) (by norm_num) (by norm_num) (by rw [e3]; exact lo_of_one (by linarith))
    (by rw [e3]; exact big_590 (le_trans (by linarith) hi)) (by norm_num)
  rw [e3, mul_comm _ (3 : ℝ)] at s2
  have s3 : Sized (Elem.ln (8.0 * Elem.powi (Elem.pi : F64 P) 2 * (.fin m) * Elem.powi (.fin ℓ) 2 * (Polymers.BOLTZMANN_CONSTANT : F64 P) * (.fin T) /
          Elem.powi (Polymers.PLANCK_CONSTANT : F64 P) 2)) (logRatio ℓ m T) 31 (|logRatio ℓ m T| + 1) :=
    ⟨k3.within.mono (mul_le_mul_of_nonneg_left (by linarith) hp.le), by linarith, lo_of_one (by linarith), big_590 (le_trans (by linarith) hi), by norm_num,
      by norm_num⟩
  have s4 := s2.sub k2 (big_590 (le_trans (by linarith) hi)) (by norm_num) (by norm_num)
  have s5 := (s4.weaken (q' := 31) (by norm_num) (by norm_num) rfl le_rfl s4.hi).sub s3 (big_590 (le_trans (by linarith) hi)) le_rfl (by norm_num)
  exact ⟨s5.weaken (by norm_num) (by norm_num) rfl (le_of_eq hM.symm) (big_590 hi), by rw [zpow_zero, hM]; linarith, hi⟩

theorem well_gibbs_eq (hc : c = 1 + W / ℓ) :
    nondimensional_gibbs_free_energy_per_link ℓ m W η T = 3.0 * Real.log η - Real.log (wellSum c η) - logRatio ℓ m T := by
  have e : (1.0 : ℝ) + W / ℓ = c := by rw [hc]; norm_num
  unfold nondimensional_gibbs_free_energy_per_link
  rw [e]
  show 3.0 * Real.log η - Real.log (c * η * Real.cosh (c * η) - Real.sinh (c * η) - η * Real.cosh η + Real.sinh η) - logRatio ℓ m T = _
  rw [show c * η * Real.cosh (c * η) - Real.sinh (c * η) - η * Real.cosh η + Real.sinh η = wellSum c η by unfold wellSum; ring]

/-- C99: the nondimensional Gibbs energies of the square-well chain; the relative energies where the partition function is also resolved at the force the
energy is relative to. -/
theorem C99_swfjc_nondimensional_gibbs (P : Platform) (hN : 0 < N) (hN' : N ≤ 255) (hℓ : Moderate ℓ) (hℓ0 : 0 < ℓ) (hm : Moderate m) (hm0 : 0 < m) (hW : Moderate W)
    (hW0 : 0 < W) (hc : c = 1 + W / ℓ) (hc' : c ≤ 2 ^ (20 : ℤ)) (hT : Moderate T) (hT0 : 0 < T) (hη : Moderate η) (h0 : 0 < η) (h300 : c * η ≤ 300)
    (hD : P.ε * (84 * wellSumSize c η) ≤ wellSum c η)
    {F : ApiF.EnergyMethodsF P} (hF : F = ApiF.swfjc_isotensional_gibbs N (.fin ℓ) (.fin m) (.fin W))
    {R : EnergyMethods} (hR : R = Api.swfjc_isotensional_gibbs N ℓ m W) :
    Within (F.nd_energy (.fin η) (.fin T)) (R.nd_energy η T) (P.ε * (38 * (N * wellGibbsSize ℓ m T c η))) ∧
    Within (F.nd_energy_per_link (.fin η) (.fin T)) (R.nd_energy_per_link η T) (P.ε * (33 * wellGibbsSize ℓ m T c η)) ∧
    (P.ε * (84 * wellSumSize c 1e-6) ≤ wellSum c 1e-6 →
      Within (F.nd_relative (.fin η) (.fin T)) (R.nd_relative η T) (P.ε * (40 * (N * (wellGibbsSize ℓ 1 300 c η + wellGibbsSize ℓ 1 300 c 1e-6)))) ∧
      Within (F.nd_relative_per_link (.fin η) (.fin T)) (R.nd_relative_per_link η T)
        (P.ε * (35 * (wellGibbsSize ℓ 1 300 c η + wellGibbsSize ℓ 1 300 c 1e-6)))) := by
  subst hF hR
  have hN0 : (0 : ℝ) < N := by exact_mod_cast hN
  have aN := acc_nat (P := P) hN hN'
  have hc1 : 1 ≤ c := by rw [hc]; have : 0 < W / ℓ := by positivity
                         linarith
  have az := acc_well (P := P) hℓ hℓ0 hW hW0 hc hc'
  have aη : Acc (.fin η : F64 P) η 0 (-100) 100 := acc_moderate hη
  have ez : (Polymers.ZERO : ℝ) = 1e-6 := by unfold Polymers.ZERO; norm_num
  have a0 : Acc (Polymers.ZERO : F64 P) (1e-6 : ℝ) 1 (-100) 100 := ⟨by rw [← ez]; exact zero_lit.rel, moderate_zero.1, moderate_zero.2⟩
  have scale : ∀ {u : F64 P} {r M : ℝ}, Sized u r 33 M → (2 : ℝ) ^ (0 : ℤ) ≤ M → M ≤ 2 ^ (190 : ℤ) →
      Sized ((N : F64 P) * u) (N * r) 38 (N * M) ∧ N * M ≤ 2 ^ (500 : ℤ) := by
    intro u r M h lo hi
    have r1 := mul_range lo hi aN.lo aN.hi
    have q1 := range_mono r1 (c := -1000) (d := 590) (by norm_num) (by norm_num)
    have k1 := h.mul aN (by norm_num) (by norm_num) (by norm_num) q1.1 q1.2 (by norm_num)
    rw [Nat.abs_cast, mul_comm M] at k1 r1
    exact ⟨k1.weaken (by norm_num) (by norm_num) rfl le_rfl k1.hi, r1.2.trans (two_zpow_mono (by norm_num))⟩
  obtain ⟨s1, lo1, hi1⟩ := sized_well_gibbs az hc1 hc' aη h0 h300 (by norm_num) (by norm_num) hD hℓ hm hm0 hT hT0
  obtain ⟨w1, -⟩ := scale s1 lo1 hi1
  rw [← well_gibbs_eq hc] at s1 w1
  refine ⟨w1.within, s1.within, fun hD0 => ?_⟩
  obtain ⟨s2, lo2, hi2⟩ := sized_well_gibbs az hc1 hc' aη h0 h300 (by norm_num) (by norm_num) hD hℓ moderate_one one_pos moderate_300 (by norm_num)
  obtain ⟨s3, lo3, hi3⟩ := sized_well_gibbs az hc1 hc' a0 (by norm_num) (by norm_num at hc' ⊢; linarith) (by norm_num) (by norm_num) hD0 hℓ moderate_one one_pos moderate_300
    (by norm_num)
  obtain ⟨w2, b2⟩ := scale s2 lo2 hi2
  obtain ⟨w3, b3⟩ := scale s3 lo3 hi3
  have h590 : (2 : ℝ) ^ (500 : ℤ) + 2 ^ (500 : ℤ) ≤ 2 ^ (590 : ℤ) := by
    rw [← two_mul, ← zpow_one_add₀ (by norm_num)]; exact two_zpow_mono (by norm_num)
  have h500 : (2 : ℝ) ^ (190 : ℤ) ≤ 2 ^ (500 : ℤ) := two_zpow_mono (by norm_num)
  have w4 := w2.sub w3 ((add_le_add b2 b3).trans h590) le_rfl (by norm_num)
  have w5 := s2.sub s3 ((add_le_add (hi2.trans h500) (hi3.trans h500)).trans h590) le_rfl (by norm_num)
  rw [← mul_add] at w4
  have y4 := w4.within
  have y5 := w5.within
  rw [show (38 : ℝ) + 2 = 40 by norm_num, ← well_gibbs_eq hc, ← well_gibbs_eq hc] at y4
  rw [show (33 : ℝ) + 2 = 35 by norm_num, ← well_gibbs_eq hc, ← well_gibbs_eq hc] at y5
  constructor
  · show Within (nondimensional_relative_gibbs_free_energy N _ _ _) (nondimensional_relative_gibbs_free_energy N _ _ _) _
    unfold nondimensional_relative_gibbs_free_energy
    rw [lit_one, lit_300, show (1.0 : ℝ) = 1 by norm_num, show (300.0 : ℝ) = 300 by norm_num, ez]
    exact y4
  · show Within (nondimensional_relative_gibbs_free_energy_per_link _ _ _) (nondimensional_relative_gibbs_free_energy_per_link _ _ _) _
    unfold nondimensional_relative_gibbs_free_energy_per_link
    rw [lit_one, lit_300, show (1.0 : ℝ) = 1 by norm_num, show (300.0 : ℝ) = 300 by norm_num, ez]
    exact y5

/-- The Gibbs energy per link under a force that is known with a relative error. -/
theorem sized_well_energy (hℓ : Moderate ℓ) (hℓ0 : 0 < ℓ) (hm : Moderate m) (hm0 : 0 < m) (hW : Moderate W) (hW0 : 0 < W) (hc : c = 1 + W / ℓ)
    (hc' : c ≤ 2 ^ (20 : ℤ)) (hT : Moderate T) (hT0 : 0 < T) (hx : Acc x f n a b) (hn0 : 0 ≤ n) (hn : n ≤ 5) (ha : -400 ≤ a) (hb : b ≤ 400)
    (hη : η = f * ℓ / (Polymers.BOLTZMANN_CONSTANT * T)) (hη' : Moderate η) (h0 : 0 < η) (h300 : c * η ≤ 300) (hD : P.ε * (84 * wellSumSize c η) ≤ wellSum c η) :
    ∃ (u : F64 P) (r : ℝ), Sized u r 33 (wellGibbsSize ℓ m T c η) ∧ (2 : ℝ) ^ (0 : ℤ) ≤ wellGibbsSize ℓ m T c η ∧ wellGibbsSize ℓ m T c η ≤ 2 ^ (190 : ℤ) ∧
      (∀ N : ℕ, gibbs_free_energy N (.fin ℓ) (.fin m) (.fin W) x (.fin T) = (N : F64 P) * (Polymers.BOLTZMANN_CONSTANT : F64 P) * .fin T * u) ∧
      (∀ N : ℕ, gibbs_free_energy N ℓ m W f T = N * (Polymers.BOLTZMANN_CONSTANT : ℝ) * T * r) ∧
      gibbs_free_energy_per_link (.fin ℓ) (.fin m) (.fin W) x (.fin T) = (Polymers.BOLTZMANN_CONSTANT : F64 P) * .fin T * u ∧
      gibbs_free_energy_per_link ℓ m W f T = (Polymers.BOLTZMANN_CONSTANT : ℝ) * T * r := by
  have aT := acc_moderate (P := P) hT
  have aℓ := acc_moderate (P := P) hℓ
  have hc1 : 1 ≤ c := by rw [hc]; have : 0 < W / ℓ := by positivity
                         linarith
  have ay := Acc.div (Acc.div (Acc.mul hx aℓ (by linarith) (by omega) (by omega)) acc_boltzmann (by linarith) (by omega) (by omega)) aT (by linarith) (by omega)
    (by omega)
  have e1 : f * ℓ / (Polymers.BOLTZMANN_CONSTANT : ℝ) / T = η := by rw [hη, div_div]
  have hy : Acc _ (f * ℓ / (Polymers.BOLTZMANN_CONSTANT : ℝ) / T) (n + 4) (-100) 100 :=
    ⟨ay.rel.mono (mul_le_mul_of_nonneg_right (by linarith) (unit_pos P).le), by rw [e1]; exact hη'.1, by rw [e1]; exact hη'.2⟩
  rw [e1] at hy
  obtain ⟨k, lo, hi⟩ := sized_well_gibbs (acc_well (P := P) hℓ hℓ0 hW hW0 hc hc') hc1 hc' hy h0 h300 (by linarith) (by linarith) hD hℓ hm hm0 hT hT0
  rw [← well_gibbs_eq hc] at k
  refine ⟨_, _, k, lo, hi, fun _ => rfl, fun _ => ?_, rfl, ?_⟩ <;> rw [← e1] <;> rfl

/-- C99: the Gibbs energies of the square-well chain under a force. -/
theorem C99_swfjc_gibbs (P : Platform) (hN : 0 < N) (hN' : N ≤ 255) (hℓ : Moderate ℓ) (hℓ0 : 0 < ℓ) (hm : Moderate m) (hm0 : 0 < m) (hW : Moderate W)
    (hW0 : 0 < W) (hc : c = 1 + W / ℓ) (hc' : c ≤ 2 ^ (20 : ℤ)) (hf : Moderate f) (hT : Moderate T) (hT0 : 0 < T) {k : ℝ} (hk : k = Polymers.BOLTZMANN_CONSTANT)
    (hη : η = f * ℓ / (k * T)) (hη' : Moderate η) (h0 : 0 < η) (h300 : c * η ≤ 300) (hD : P.ε * (84 * wellSumSize c η) ≤ wellSum c η)
    {F : ApiF.EnergyMethodsF P} (hF : F = ApiF.swfjc_isotensional_gibbs N (.fin ℓ) (.fin m) (.fin W))
    {R : EnergyMethods} (hR : R = Api.swfjc_isotensional_gibbs N ℓ m W) :
    Within (F.energy (.fin f) (.fin T)) (R.energy f T) (P.ε * (41 * (N * (k * T) * wellGibbsSize ℓ m T c η))) ∧
    Within (F.energy_per_link (.fin f) (.fin T)) (R.energy_per_link f T) (P.ε * (41 * (k * T * wellGibbsSize ℓ m T c η))) ∧
    (P.ε * (84 * wellSumSize c 1e-6) ≤ wellSum c 1e-6 →
      Within (F.relative (.fin f) (.fin T)) (R.relative f T) (P.ε * (43 * (N * (k * T) * (wellGibbsSize ℓ 1 T c η + wellGibbsSize ℓ 1 T c 1e-6)))) ∧
      Within (F.relative_per_link (.fin f) (.fin T)) (R.relative_per_link f T)
        (P.ε * (43 * (k * T * (wellGibbsSize ℓ 1 T c η + wellGibbsSize ℓ 1 T c 1e-6))))) := by
  subst hF hR hk
  have hk0 := boltzmann_pos
  have hN0 : (0 : ℝ) < N := by exact_mod_cast hN
  have aN := acc_nat (P := P) hN hN'
  have aT := acc_moderate (P := P) hT
  have aK := acc_boltzmann (P := P)
  have a1 := Acc.mul (Acc.mul aN aK (by norm_num) (by norm_num) (by norm_num)) aT (by norm_num) (by norm_num) (by norm_num)
  have a2 := Acc.mul aK aT (by norm_num) (by norm_num) (by norm_num)
  have scale : ∀ {u : F64 P} {r M : ℝ}, Sized u r 33 M → (2 : ℝ) ^ (0 : ℤ) ≤ M → M ≤ 2 ^ (190 : ℤ) →
      Sized ((N : F64 P) * (Polymers.BOLTZMANN_CONSTANT : F64 P) * .fin T * u) (N * (Polymers.BOLTZMANN_CONSTANT : ℝ) * T * r) 41
        (N * (Polymers.BOLTZMANN_CONSTANT * T) * M) ∧ N * (Polymers.BOLTZMANN_CONSTANT * T) * M ≤ 2 ^ (500 : ℤ) ∧
      Sized ((Polymers.BOLTZMANN_CONSTANT : F64 P) * .fin T * u) ((Polymers.BOLTZMANN_CONSTANT : ℝ) * T * r) 41
        (Polymers.BOLTZMANN_CONSTANT * T * M) ∧ Polymers.BOLTZMANN_CONSTANT * T * M ≤ 2 ^ (500 : ℤ) := by
    intro u r M h lo hi
    have r1 := mul_range lo hi a1.lo a1.hi
    have r2 := mul_range lo hi a2.lo a2.hi
    have q1 := range_mono r1 (c := -1000) (d := 590) (by norm_num) (by norm_num)
    have q2 := range_mono r2 (c := -1000) (d := 590) (by norm_num) (by norm_num)
    have k1 := h.mul a1 (by norm_num) (by norm_num) (by norm_num) q1.1 q1.2 (by norm_num)
    have k2 := h.mul a2 (by norm_num) (by norm_num) (by norm_num) q2.1 q2.2 (by norm_num)
    have g1 : M * |N * (Polymers.BOLTZMANN_CONSTANT : ℝ) * T| = N * (Polymers.BOLTZMANN_CONSTANT * T) * M := by rw [abs_of_pos (by positivity)]; ring
    have g2 : M * |(Polymers.BOLTZMANN_CONSTANT : ℝ) * T| = Polymers.BOLTZMANN_CONSTANT * T * M := by rw [abs_of_pos (by positivity)]; ring
    rw [g1] at k1 r1
    rw [g2] at k2 r2
    exact ⟨k1.weaken (by norm_num) (by norm_num) rfl le_rfl k1.hi, r1.2.trans (two_zpow_mono (by norm_num)),
      k2.weaken (by norm_num) (by norm_num) rfl le_rfl k2.hi, r2.2.trans (two_zpow_mono (by norm_num))⟩
  have af := acc_moderate (P := P) hf
  obtain ⟨u, r, s1, lo1, hi1, p1, p2, p3, p4⟩ := sized_well_energy (P := P) hℓ hℓ0 hm hm0 hW hW0 hc hc' hT hT0 af (by norm_num) (by norm_num) (by norm_num)
    (by norm_num) hη hη' h0 h300 hD
  obtain ⟨w1, -, w2, -⟩ := scale s1 lo1 hi1
  rw [← p1, ← p2] at w1
  rw [← p3, ← p4] at w2
  refine ⟨w1.within, w2.within, fun hD0 => ?_⟩
  obtain ⟨u', r', s2, lo2, hi2, p5, p6, p7, p8⟩ := sized_well_energy (P := P) hℓ hℓ0 moderate_one one_pos hW hW0 hc hc' hT hT0 af (by norm_num) (by norm_num)
    (by norm_num) (by norm_num) hη hη' h0 h300 hD
  have az := Acc.div (Acc.mul (Acc.mul (zero_lit (P := P)) aK (by norm_num) (by norm_num) (by norm_num)) aT (by norm_num) (by norm_num) (by norm_num)) (acc_moderate hℓ)
    (by norm_num) (by norm_num) (by norm_num)
  obtain ⟨v, q, s3, lo3, hi3, p9, p10, p11, p12⟩ := sized_well_energy (P := P) (η := 1e-6) hℓ hℓ0 moderate_one one_pos hW hW0 hc hc' hT hT0 az (by norm_num)
    (by norm_num) (by norm_num) (by norm_num) (by unfold Polymers.ZERO; field_simp) moderate_zero (by norm_num) (by norm_num at hc' ⊢; linarith) hD0
  obtain ⟨w3, b3, w4, b4⟩ := scale s2 lo2 hi2
  obtain ⟨w5, b5, w6, b6⟩ := scale s3 lo3 hi3
  have h590 : (2 : ℝ) ^ (500 : ℤ) + 2 ^ (500 : ℤ) ≤ 2 ^ (590 : ℤ) := by
    rw [← two_mul, ← zpow_one_add₀ (by norm_num)]; exact two_zpow_mono (by norm_num)
  have w7 := w3.sub w5 ((add_le_add b3 b5).trans h590) le_rfl (by norm_num)
  have w8 := w4.sub w6 ((add_le_add b4 b6).trans h590) le_rfl (by norm_num)
  rw [← mul_add] at w7 w8
  have z1 := w7.within
  have z2 := w8.within
  rw [show (41 : ℝ) + 2 = 43 by norm_num] at z1 z2
  rw [← p5, ← p6, ← p9, ← p10] at z1
  rw [← p7, ← p8, ← p11, ← p12] at z2
  constructor
  · show Within (relative_gibbs_free_energy N _ _ _ _) (relative_gibbs_free_energy N _ _ _ _) _
    unfold relative_gibbs_free_energy
    rw [lit_one, show (1.0 : ℝ) = 1 by norm_num]
    exact z1
  · show Within (relative_gibbs_free_energy_per_link _ _ _ _) (relative_gibbs_free_energy_per_link _ _ _ _) _
    unfold relative_gibbs_free_energy_per_link
    rw [lit_one, show (1.0 : ℝ) = 1 by norm_num]
    exact z2

/-! ### Concrete cases: twenty links of unit length with a well of unit width on a machine which rounds correctly -/

example := (C99_swfjc_nondimensional_gibbs correctlyRounded (N := 20) (by norm_num) (by norm_num) moderate_one one_pos moderate_one one_pos moderate_one one_pos
  (c := 2) (η := 0.1) (by norm_num) (by norm_num) moderate_300 (by norm_num) (moderate_of (by norm_num) (by norm_num)) (by norm_num) (by norm_num)
  (well_two (by norm_num) le_rfl (two_zpow_mono (by norm_num))) rfl rfl).2.2 (well_two le_rfl (by norm_num) (two_zpow_mono (by norm_num)))
example := (C99_swfjc_gibbs correctlyRounded (N := 20) (by norm_num) (by norm_num) moderate_one one_pos moderate_one one_pos moderate_one one_pos
  (c := 2) (f := 200) (by norm_num) (by norm_num) (moderate_of (by norm_num) (by norm_num)) moderate_300 (by norm_num) rfl rfl
  (by unfold Polymers.BOLTZMANN_CONSTANT; constructor <;> norm_num) (by unfold Polymers.BOLTZMANN_CONSTANT; norm_num)
  (by unfold Polymers.BOLTZMANN_CONSTANT; norm_num)
  (well_two (by unfold Polymers.BOLTZMANN_CONSTANT; norm_num) (by unfold Polymers.BOLTZMANN_CONSTANT; norm_num) (two_zpow_mono (by norm_num))) rfl rfl).2.2
  (well_two le_rfl (by norm_num) (two_zpow_mono (by norm_num)))

end Polymers.Props
