import Verif.Lemmas.IeeeScale
import Verif.Props.IeeeFjc
import Verif.Props.IeeeIdeal

/-! C95: the freely jointed chain at fixed force in floating point, with its dimensions. -/

namespace Polymers.Props

open Polymers.Ieee Polymers.Spec Polymers.Lemmas

variable {P : Platform} {N : ℕ} {ℓ m T f η n : ℝ} {a b : ℤ} {y : F64 P}

local macro:70 a:term:70 " ⊗ " b:term:71 : term => `(Acc.mul $a $b (by norm_num) (by norm_num) (by norm_num))
local macro:70 a:term:70 " ⊘ " b:term:71 : term => `(Acc.div $a $b (by norm_num) (by norm_num) (by norm_num))

/-- A number in floating point near a positive real number. -/
theorem _root_.Polymers.Lemmas.Acc.near (h : Acc y η n a b) (h0 : 0 < η) (hn0 : 0 ≤ n) (hn : n ≤ 5) (ha : -350 ≤ a) (hb : b ≤ 350) :
    ∃ v, y = .fin v ∧ |v - η| ≤ 6 * P.ε * η ∧ 0 < v ∧ 2 ^ (-900 : ℤ) ≤ v ∧ v ≤ 2 ^ (900 : ℤ) ∧ 1 / v ≤ 1.01 * (1 / η) ∧ v ≤ 1.01 * η := by
  obtain ⟨v, hv, hd⟩ := h.rel.within.mono (mul_le_mul_of_nonneg_right (exp_units_le' P hn0 (by linarith)) (abs_nonneg η))
  rw [abs_of_pos h0] at hd
  have hp := eps_pos P
  have hs := eps_small P
  have hd' : |v - η| ≤ 6 * P.ε * η := hd.trans (mul_le_mul_of_nonneg_right (mul_le_mul_of_nonneg_right (by linarith) hp.le) h0.le)
  have hd'' : |v - η| ≤ 1e-3 * η := hd'.trans (mul_le_mul_of_nonneg_right (by linarith) h0.le)
  obtain ⟨d1, d2⟩ := abs_le.1 hd''
  have hv0 : 0 < v := by linarith
  have lo := (two_zpow_mono ha).trans h.lo
  have hi := h.hi.trans (two_zpow_mono hb)
  rw [abs_of_pos h0] at lo hi
  have g1 : 2 * (2 : ℝ) ^ (-900 : ℤ) ≤ 2 ^ (-350 : ℤ) := by
    rw [← zpow_one_add₀ (by norm_num)]; exact two_zpow_mono (by norm_num)
  have g2 : 2 * (2 : ℝ) ^ (350 : ℤ) ≤ 2 ^ (900 : ℤ) := by
    rw [← zpow_one_add₀ (by norm_num)]; exact two_zpow_mono (by norm_num)
  refine ⟨v, hv, hd', hv0, ?_, ?_, ?_, by linarith⟩
  · generalize (2 : ℝ) ^ (-900 : ℤ) = A at *
    generalize (2 : ℝ) ^ (-350 : ℤ) = B at *
    linarith
  · generalize (2 : ℝ) ^ (900 : ℤ) = A at *
    generalize (2 : ℝ) ^ (350 : ℤ) = B at *
    linarith
  · rw [mul_one_div, div_le_div_iff₀ hv0 h0]; linarith

theorem langevin_close {u v : ℝ} (hu : 0 < u) (hv : 0 < v) : |langevin v - langevin u| ≤ |v - u| * (1 / v) * (1 / u) := by
  have key : ∀ {u v : ℝ}, 0 < u → u < v → |langevin v - langevin u| ≤ |v - u| * (1 / v) * (1 / u) := by
    intro u v hu h
    have hv := hu.trans h
    have h1 := langevin_strictMonoOn (Set.mem_Ioi.2 hu) (Set.mem_Ioi.2 hv) h
    rw [abs_of_pos (by linarith), abs_of_pos (by linarith)]
    have h2 : 1 / Real.tanh v ≤ 1 / Real.tanh u := by
      have hd := Real.sinh_pos_iff.2 (sub_pos.2 h)
      rw [Real.sinh_sub] at hd
      rw [one_div_tanh, one_div_tanh, div_le_div_iff₀ (Real.sinh_pos_iff.2 hv) (Real.sinh_pos_iff.2 hu)]
      linarith [mul_comm (Real.sinh v) (Real.cosh u)]
    have e : (v - u) * (1 / v) * (1 / u) = 1 / u - 1 / v := by field_simp
    rw [e]
    unfold langevin
    linarith
  rcases lt_trichotomy u v with h | h | h
  · exact key hu h
  · subst h; simp
  · have := key hv h
    rw [abs_sub_comm, abs_sub_comm v u]
    linarith [this, mul_right_comm |u - v| (1 / u) (1 / v)]

theorem one_le_cap : (1 : ℝ) ≤ cap := by unfold cap; exact one_le_zpow₀ (by norm_num) (by norm_num)

theorem scale_one : (2 : ℝ) ^ (-150 : ℤ) ≤ 1 ∧ (1 : ℝ) ≤ 2 ^ (150 : ℤ) := ⟨zpow_le_one_of_nonpos₀ (by norm_num) (by norm_num), one_le_zpow₀ (by norm_num) (by norm_num)⟩

theorem scaled_langevin (h : Acc y η n a b) (h0 : 0 < η) (hn0 : 0 ≤ n) (hn : n ≤ 5) (ha : -350 ≤ a) (hb : b ≤ 350) (hc : 7 + 14 * (1 / η) ≤ cap) :
    Scaled ((1.0 : F64 P) / Elem.tanh y - 1.0 / y) (1.0 / Real.tanh η - 1.0 / η) 1 (7 + 14 * (1 / η)) 1 := by
  rw [show (1.0 : ℝ) = 1 by norm_num]
  obtain ⟨v, rfl, hd, hv0, hlo, hhi, hinv, -⟩ := h.near h0 hn0 hn ha hb
  obtain ⟨w, hw, hwd⟩ := within_langevin (P := P) hlo hhi
  have hp := eps_pos P
  have hl1 := langevin_lt_one h0
  have hl0 := langevin_pos h0
  have h1 : (0 : ℝ) < 1 / η := by positivity
  refine ⟨⟨w, hw, ?_⟩, ?_, scale_one.1, scale_one.2, by positivity, hc, one_le_cap⟩
  · have k1 := langevin_close h0 hv0
    have k2 : |v - η| * (1 / v) * (1 / η) ≤ 6 * P.ε * η * (1.01 * (1 / η)) * (1 / η) := by gcongr
    have e : 6 * P.ε * η * (1.01 * (1 / η)) * (1 / η) = P.ε * (6.06 * (1 / η)) := by field_simp; norm_num
    have k3 : |w - langevin η| ≤ |w - langevin v| + |langevin v - langevin η| := abs_sub_le _ _ _
    have k4 : P.ε * (6 + 6 / v) ≤ P.ε * (6 + 6.06 * (1 / η)) := by
      refine mul_le_mul_of_nonneg_left ?_ hp.le
      rw [show (6 : ℝ) / v = 6 * (1 / v) by ring]; linarith
    have k5 : P.ε * (6 + 6.06 * (1 / η)) + P.ε * (6.06 * (1 / η)) ≤ P.ε * (1 * (7 + 14 * (1 / η))) := by
      rw [← mul_add]; exact mul_le_mul_of_nonneg_left (by linarith) hp.le
    show |w - langevin η| ≤ _
    linarith
  · show |langevin η| ≤ _
    rw [abs_of_pos hl0]; linarith

theorem log_sinh_div_close {u v : ℝ} (hu : 0 < u) (hv : 0 < v) : |Real.log (Real.sinh v / v) - Real.log (Real.sinh u / u)| ≤ |v - u| := by
  have h := (convex_Ioi (0 : ℝ)).norm_image_sub_le_of_norm_hasDerivWithin_le (C := 1) (f := fun x => Real.log (Real.sinh x / x)) (f' := langevin)
    (fun x hx => (hasDerivAt_log_sinh_div (ne_of_gt hx)).hasDerivWithinAt)
    (fun x hx => by
      rw [Real.norm_eq_abs, abs_of_pos (langevin_pos hx)]; exact (langevin_lt_one hx).le) (Set.mem_Ioi.2 hu) (Set.mem_Ioi.2 hv)
  simpa [Real.norm_eq_abs] using h

theorem scaled_gibbs (h : Acc y η n a b) (h0 : 0 < η) (h600 : η ≤ 600) (hn0 : 0 ≤ n) (hn : n ≤ 5) (ha : -350 ≤ a) (hb : b ≤ 350) (hc : 4 + 8 * η ≤ cap) :
    Scaled (Elem.ln (Elem.sinh y / y)) (Real.log (Real.sinh η / η)) 1 (4 + 8 * η) η := by
  obtain ⟨v, rfl, hd, hv0, hlo, -, -, hle⟩ := h.near h0 hn0 hn ha hb
  obtain ⟨⟨w, hw, hwd⟩, -, -⟩ := within_fjc_gibbs (P := P) hlo (by linarith)
  have hp := eps_pos P
  have q2 : 0 ≤ Real.log (Real.sinh η / η) := Real.log_nonneg ((one_lt_div h0).2 (self_lt_sinh' h0)).le
  have q3 : Real.log (Real.sinh η / η) ≤ η := by
    obtain ⟨lo⟩ := h
    have hlo' := (two_zpow_mono (show (-900 : ℤ) ≤ a by omega)).trans (by assumption : (2 : ℝ) ^ a ≤ |η|)
    rw [abs_of_pos h0] at hlo'
    exact (within_fjc_gibbs (P := P) hlo' (by linarith)).2.2
  refine ⟨⟨w, hw, ?_⟩, by rw [abs_of_nonneg q2]; linarith, scale_one.1, scale_one.2, by positivity, hc, by linarith⟩
  have k1 := log_sinh_div_close h0 hv0
  have k3 : |w - Real.log (Real.sinh η / η)| ≤ |w - Real.log (Real.sinh v / v)| + |Real.log (Real.sinh v / v) - Real.log (Real.sinh η / η)| := abs_sub_le _ _ _
  have k4 : P.ε * (4 + v) ≤ P.ε * (4 + 1.01 * η) := mul_le_mul_of_nonneg_left (by linarith) hp.le
  have k5 : P.ε * (4 + 1.01 * η) + P.ε * (6 * η) ≤ P.ε * (1 * (4 + 8 * η)) := by
    rw [← mul_add]; exact mul_le_mul_of_nonneg_left (by linarith) hp.le
  linarith

/-- The nondimensional force computed from a force. -/
theorem acc_force (hℓ : Moderate ℓ) (hf : Moderate f) (hT : Moderate T) :
    Acc ((.fin f : F64 P) / (Polymers.BOLTZMANN_CONSTANT : F64 P) / .fin T * .fin ℓ) (f / (Polymers.BOLTZMANN_CONSTANT : ℝ) / T * ℓ) 4 (-310) 310 := by
  have h := acc_moderate (P := P) hf ⊘ acc_boltzmann ⊘ acc_moderate hT ⊗ acc_moderate hℓ
  exact ⟨h.rel.mono (mul_le_mul_of_nonneg_right (by norm_num) (unit_pos P).le), (two_zpow_mono (by norm_num)).trans h.lo,
    h.hi.trans (two_zpow_mono (by norm_num))⟩

theorem cap_force (h : Acc y η n a b) (h0 : 0 < η) (ha : -310 ≤ a) : 100 + 100 * (1 / η) ≤ cap := by
  have lo := (two_zpow_mono ha).trans h.lo
  rw [abs_of_pos h0] at lo
  have h1 : 1 / η ≤ 2 ^ (310 : ℤ) := by
    rw [div_le_iff₀ h0]
    calc (1 : ℝ) = 2 ^ (310 : ℤ) * 2 ^ (-310 : ℤ) := by rw [← zpow_add₀ (by norm_num)]; norm_num
      _ ≤ _ := mul_le_mul_of_nonneg_left lo (by positivity)
  have h2 : (128 : ℝ) * 2 ^ (310 : ℤ) ≤ cap := by
    unfold cap
    rw [show (128 : ℝ) = 2 ^ (7 : ℤ) by norm_num, ← zpow_add₀ (by norm_num)]; exact two_zpow_mono (by norm_num)
  have h3 : (100 : ℝ) ≤ 2 ^ (310 : ℤ) := by
    calc (100 : ℝ) ≤ 2 ^ (7 : ℤ) := by norm_num
      _ ≤ _ := two_zpow_mono (by norm_num)
  have h4 : (256 : ℝ) * 2 ^ (310 : ℤ) ≤ cap := by
    unfold cap
    rw [show (256 : ℝ) = 2 ^ (8 : ℤ) by norm_num, ← zpow_add₀ (by norm_num)]; exact two_zpow_mono (by norm_num)
  generalize (2 : ℝ) ^ (310 : ℤ) = A at *
  linarith

theorem _root_.Polymers.Lemmas.Acc.scale_range (h : Acc y η n a b) (h0 : 0 < η) (ha : -150 ≤ a) (hb : b ≤ 150) : 2 ^ (-150 : ℤ) ≤ η ∧ η ≤ 2 ^ (150 : ℤ) := by
  have lo := (two_zpow_mono ha).trans h.lo
  have hi := h.hi.trans (two_zpow_mono hb)
  rw [abs_of_pos h0] at lo hi
  exact ⟨lo, hi⟩

theorem acc_nd (h : Moderate η) : Acc (.fin η : F64 P) η 4 (-310) 310 := by
  have h1 := acc_moderate (P := P) h
  exact ⟨h1.rel.mono (mul_le_mul_of_nonneg_right (by norm_num) (unit_pos P).le), (two_zpow_mono (by norm_num)).trans h1.lo,
    h1.hi.trans (two_zpow_mono (by norm_num))⟩

theorem boltzmann_pos : (0 : ℝ) < Polymers.BOLTZMANN_CONSTANT := by unfold Polymers.BOLTZMANN_CONSTANT; norm_num

/-- C95: the lengths of the freely jointed chain under a force: the error is measured by the length of the straight chain, and grows as the
inverse of the nondimensional force below one. -/
theorem C95_fjc_lengths (P : Platform) (hN : 0 < N) (hN' : N ≤ 255) (mF : F64 P) (m : ℝ) (hℓ : Moderate ℓ) (hℓ0 : 0 < ℓ) (hf : Moderate f)
    (hf0 : 0 < f) (hT : Moderate T) (hT0 : 0 < T) (hη : η = f * ℓ / (Polymers.BOLTZMANN_CONSTANT * T)) :
    Within ((ApiF.fjc_isotensional_lengths N (.fin ℓ : F64 P) mF).length (.fin f) (.fin T)) ((Api.fjc_isotensional_lengths N ℓ m).length f T)
      (P.ε * (N * ℓ * (30 + 30 / η))) ∧
    Within ((ApiF.fjc_isotensional_lengths N (.fin ℓ : F64 P) mF).length_per_link (.fin f) (.fin T))
      ((Api.fjc_isotensional_lengths N ℓ m).length_per_link f T) (P.ε * (ℓ * (30 + 30 / η))) := by
  have aℓ := acc_moderate (P := P) hℓ
  have aN := acc_nat (P := P) hN hN'
  have ay := acc_force (P := P) hℓ hf hT
  have hN0 : (0 : ℝ) < N := by exact_mod_cast hN
  have hk0 := boltzmann_pos
  have e : η = f / (Polymers.BOLTZMANN_CONSTANT : ℝ) / T * ℓ := by rw [hη]; field_simp
  have h0 : 0 < η := by rw [hη]; positivity
  clear hη
  subst e
  set η := f / (Polymers.BOLTZMANN_CONSTANT : ℝ) / T * ℓ with hη
  have hc := cap_force ay h0 (by norm_num)
  have hi : (0 : ℝ) < 1 / η := by positivity
  have hL := scaled_langevin ay h0 (by norm_num) (by norm_num) (by norm_num) (by norm_num) (by linarith)
  have s1 := hL.times aN (by norm_num) (by norm_num) (by norm_num) (Nat.abs_cast N) (by rw [one_mul]; exact aN.scale_range hN0 (by norm_num) (by norm_num))
    (by linarith)
  have s2 := s1.times aℓ (by norm_num) (by norm_num) (by norm_num) (abs_of_pos hℓ0)
    (by rw [one_mul]; exact (aN ⊗ aℓ).scale_range (by positivity) (by norm_num) (by norm_num)) (by linarith)
  have s3 := hL.times aℓ (by norm_num) (by norm_num) (by norm_num) (abs_of_pos hℓ0)
    (by rw [one_mul]; exact aℓ.scale_range hℓ0 (by norm_num) (by norm_num)) (by linarith)
  have h30 : 30 / η = 30 * (1 / η) := by ring
  refine ⟨s2.within_le (e := N * ℓ * (30 + 30 / η)) ?_, s3.within_le (e := ℓ * (30 + 30 / η)) ?_⟩
  · rw [one_mul, h30]
    exact mul_le_mul_of_nonneg_left (by linarith) (by positivity)
  · rw [one_mul, h30]
    exact mul_le_mul_of_nonneg_left (by linarith) (by positivity)

/-- C95: the nondimensional lengths. -/
theorem C95_fjc_nondimensional_lengths (P : Platform) (hN : 0 < N) (hN' : N ≤ 255) (ℓF mF : F64 P) (ℓ m T : ℝ) (TF : F64 P) (hη : Moderate η)
    (h0 : 0 < η) :
    Within ((ApiF.fjc_isotensional_lengths N ℓF mF).nd_length (.fin η) TF) ((Api.fjc_isotensional_lengths N ℓ m).nd_length η T)
      (P.ε * (N * (30 + 30 / η))) ∧
    Within ((ApiF.fjc_isotensional_lengths N ℓF mF).nd_length_per_link (.fin η) TF)
      ((Api.fjc_isotensional_lengths N ℓ m).nd_length_per_link η T) (P.ε * (30 + 30 / η)) := by
  have aN := acc_nat (P := P) hN hN'
  have ay := acc_nd (P := P) hη
  have hN0 : (0 : ℝ) < N := by exact_mod_cast hN
  have hc := cap_force ay h0 (by norm_num)
  have hi : (0 : ℝ) < 1 / η := by positivity
  have hL := scaled_langevin ay h0 (by norm_num) (by norm_num) (by norm_num) (by norm_num) (by linarith)
  have s1 := hL.times aN (by norm_num) (by norm_num) (by norm_num) (Nat.abs_cast N) (by rw [one_mul]; exact aN.scale_range hN0 (by norm_num) (by norm_num))
    (by linarith)
  have h30 : 30 / η = 30 * (1 / η) := by ring
  refine ⟨s1.within_le (e := N * (30 + 30 / η)) ?_, hL.within_le (e := 30 + 30 / η) ?_⟩
  · rw [one_mul, h30]
    exact mul_le_mul_of_nonneg_left (by linarith) (by positivity)
  · rw [one_mul, h30]
    linarith

theorem million_le_cap : (1e9 : ℝ) ≤ cap := by
  unfold cap
  calc (1e9 : ℝ) ≤ 2 ^ (30 : ℤ) := by norm_num
    _ ≤ _ := two_zpow_mono (by norm_num)

theorem scaled_logRatio (hℓ : Moderate ℓ) (hm : Moderate m) (hm0 : 0 < m) (hT : Moderate T) (hT0 : 0 < T) :
    Scaled (Elem.ln (8.0 * Elem.powi (Elem.pi : F64 P) 2 * (.fin m) * Elem.powi (.fin ℓ) 2 * (Polymers.BOLTZMANN_CONSTANT : F64 P) * (.fin T) /
        Elem.powi (Polymers.PLANCK_CONSTANT : F64 P) 2)) (logRatio ℓ m T) 1 (|logRatio ℓ m T| + 24) |logRatio ℓ m T| := by
  obtain ⟨h1, h2⟩ := within_logRatio (P := P) hℓ hm hm0 hT hT0
  have h3 := abs_nonneg (logRatio ℓ m T)
  have h4 := million_le_cap
  refine ⟨by rwa [one_mul], by rw [one_mul], scale_one.1, scale_one.2, by positivity, by linarith, by linarith⟩

/-- The ranges of the scales of the energies. -/
theorem scale_ranges (P : Platform) (hN : 0 < N) (hN' : N ≤ 255) (hT : Moderate T) (hT0 : 0 < T) :
    (2 ^ (-150 : ℤ) ≤ (N : ℝ) ∧ (N : ℝ) ≤ 2 ^ (150 : ℤ)) ∧
    (2 ^ (-150 : ℤ) ≤ (Polymers.BOLTZMANN_CONSTANT : ℝ) ∧ (Polymers.BOLTZMANN_CONSTANT : ℝ) ≤ 2 ^ (150 : ℤ)) ∧
    (2 ^ (-150 : ℤ) ≤ (Polymers.BOLTZMANN_CONSTANT : ℝ) * T ∧ (Polymers.BOLTZMANN_CONSTANT : ℝ) * T ≤ 2 ^ (150 : ℤ)) ∧
    (2 ^ (-150 : ℤ) ≤ N * (Polymers.BOLTZMANN_CONSTANT : ℝ) ∧ N * (Polymers.BOLTZMANN_CONSTANT : ℝ) ≤ 2 ^ (150 : ℤ)) ∧
    (2 ^ (-150 : ℤ) ≤ N * (Polymers.BOLTZMANN_CONSTANT : ℝ) * T ∧ N * (Polymers.BOLTZMANN_CONSTANT : ℝ) * T ≤ 2 ^ (150 : ℤ)) := by
  have aT := acc_moderate (P := P) hT
  have aN := acc_nat (P := P) hN hN'
  have hN0 : (0 : ℝ) < N := by exact_mod_cast hN
  have hk0 := boltzmann_pos
  exact ⟨aN.scale_range hN0 (by norm_num) (by norm_num), (acc_boltzmann (P := P)).scale_range hk0 (by norm_num) (by norm_num),
    (acc_boltzmann ⊗ aT).scale_range (by positivity) (by norm_num) (by norm_num),
    (aN ⊗ acc_boltzmann).scale_range (by positivity) (by norm_num) (by norm_num),
    (aN ⊗ acc_boltzmann ⊗ aT).scale_range (by positivity) (by norm_num) (by norm_num)⟩

/-- C95: the Gibbs energies of the freely jointed chain under a force with `f ℓ ≤ 600 k T`: the error is measured by the work `N f ℓ` of the
force on the straight chain, by the reference energy and by the thermal energy of the chain. -/
theorem C95_fjc_gibbs (P : Platform) (hN : 0 < N) (hN' : N ≤ 255) (hℓ : Moderate ℓ) (hℓ0 : 0 < ℓ) (hm : Moderate m) (hm0 : 0 < m) (hf : Moderate f)
    (hf0 : 0 < f) (hT : Moderate T) (hT0 : 0 < T) {k : ℝ} (hk : k = Polymers.BOLTZMANN_CONSTANT) (h600 : f * ℓ ≤ 600 * (k * T))
    {F : ApiF.EnergyMethodsF P} (hF : F = ApiF.fjc_isotensional_gibbs N (.fin ℓ) (.fin m))
    {R : EnergyMethods} (hR : R = Api.fjc_isotensional_gibbs N ℓ m) :
    Within (F.relative (.fin f) (.fin T)) (R.relative f T) (P.ε * (40 * (N * (f * ℓ)) + 10 * (N * (k * T)))) ∧
    Within (F.relative_per_link (.fin f) (.fin T)) (R.relative_per_link f T) (P.ε * (40 * (f * ℓ) + 10 * (k * T))) ∧
    Within (F.energy (.fin f) (.fin T)) (R.energy f T)
      (P.ε * (40 * (N * (f * ℓ)) + 20 * |R.energy f T - R.relative f T| + 40 * (N * (k * T)))) ∧
    Within (F.energy_per_link (.fin f) (.fin T)) (R.energy_per_link f T)
      (P.ε * (40 * (f * ℓ) + 20 * |R.energy_per_link f T - R.relative_per_link f T| + 40 * (k * T))) := by
  subst hF hR hk
  have aℓ := acc_moderate (P := P) hℓ
  have aT := acc_moderate (P := P) hT
  have aN := acc_nat (P := P) hN hN'
  have ay := acc_force (P := P) hℓ hf hT
  have hN0 : (0 : ℝ) < N := by exact_mod_cast hN
  have hk0 := boltzmann_pos
  obtain ⟨r1, r2, r3, r4, r5⟩ := scale_ranges P hN hN' hT hT0
  set η := f / (Polymers.BOLTZMANN_CONSTANT : ℝ) / T * ℓ with hη
  have hfl : f * ℓ = Polymers.BOLTZMANN_CONSTANT * T * η := by rw [hη]; field_simp
  have h0 : 0 < η := by positivity
  have hη' : η ≤ 600 := by
    rw [hfl] at h600
    nlinarith [mul_pos hk0 hT0]
  have hcap := million_le_cap
  have hB := (within_logRatio (P := P) hℓ hm hm0 hT hT0).2
  have sB := scaled_logRatio (P := P) hℓ hm hm0 hT hT0
  set B := logRatio ℓ m T with hBdef
  have hB0 := abs_nonneg B
  have sG := scaled_gibbs ay h0 hη' (by norm_num) (by norm_num) (by norm_num) (by norm_num) (by linarith)
  have aK := acc_boltzmann (P := P)
  have g1 := ((sG.times' aN.neg (by norm_num) (by norm_num) (by norm_num) ((abs_neg _).trans (Nat.abs_cast N)) (by rwa [one_mul]) (by linarith)).times aK
    (by norm_num) (by norm_num) (by norm_num) (abs_of_pos hk0) (by rwa [one_mul]) (by linarith)).times aT (by norm_num) (by norm_num) (by norm_num)
    (abs_of_pos hT0) (by rwa [one_mul]) (by linarith)
  have g2 := (sG.neg.times aK (by norm_num) (by norm_num) (by norm_num) (abs_of_pos hk0) (by rwa [one_mul]) (by linarith)).times aT (by norm_num)
    (by norm_num) (by norm_num) (abs_of_pos hT0) (by rwa [one_mul]) (by linarith)
  have b1 := (sB.times' (aN ⊗ aK ⊗ aT) (by norm_num) (by norm_num) (by norm_num) (abs_of_pos (by positivity)) (by rwa [one_mul]) (by linarith)).weaken
    rfl (σ' := 1 * N * Polymers.BOLTZMANN_CONSTANT * T) (by ring) le_rfl le_rfl (by linarith) (by linarith)
  have b2 := (sB.times' (aK ⊗ aT) (by norm_num) (by norm_num) (by norm_num) (abs_of_pos (by positivity)) (by rwa [one_mul]) (by linarith)).weaken
    rfl (σ' := 1 * Polymers.BOLTZMANN_CONSTANT * T) (by ring) le_rfl le_rfl (by linarith) (by linarith)
  have t1 := g1.sub b1 (by linarith) (by linarith)
  have t2 := g2.sub b2 (by linarith) (by linarith)
  have c1 : 0 < (1 * N * Polymers.BOLTZMANN_CONSTANT * T : ℝ) := by positivity
  have c2 : 0 < (1 * Polymers.BOLTZMANN_CONSTANT * T : ℝ) := by positivity
  refine ⟨g1.within_le ?_, g2.within_le ?_, t1.within_le ?_, t2.within_le ?_⟩
  · rw [hfl, show 40 * (N * ((Polymers.BOLTZMANN_CONSTANT : ℝ) * T * η)) + 10 * (N * (Polymers.BOLTZMANN_CONSTANT * T)) =
      1 * N * Polymers.BOLTZMANN_CONSTANT * T * (40 * η + 10) by ring]
    exact mul_le_mul_of_nonneg_left (by linarith) c1.le
  · rw [hfl, show 40 * ((Polymers.BOLTZMANN_CONSTANT : ℝ) * T * η) + 10 * (Polymers.BOLTZMANN_CONSTANT * T) =
      1 * Polymers.BOLTZMANN_CONSTANT * T * (40 * η + 10) by ring]
    exact mul_le_mul_of_nonneg_left (by linarith) c2.le
  · have e2 : (Api.fjc_isotensional_gibbs N ℓ m).energy f T - (Api.fjc_isotensional_gibbs N ℓ m).relative f T =
        -(N * (Polymers.BOLTZMANN_CONSTANT : ℝ) * T * B) := sub_sub_cancel_left _ _
    rw [e2, abs_neg, abs_mul, abs_of_pos (by positivity : 0 < N * (Polymers.BOLTZMANN_CONSTANT : ℝ) * T), hfl,
      show 40 * (N * ((Polymers.BOLTZMANN_CONSTANT : ℝ) * T * η)) + 20 * (N * Polymers.BOLTZMANN_CONSTANT * T * |B|) +
        40 * (N * (Polymers.BOLTZMANN_CONSTANT * T)) = 1 * N * Polymers.BOLTZMANN_CONSTANT * T * (40 * η + 20 * |B| + 40) by ring]
    exact mul_le_mul_of_nonneg_left (by linarith) c1.le
  · have e2 : (Api.fjc_isotensional_gibbs N ℓ m).energy_per_link f T - (Api.fjc_isotensional_gibbs N ℓ m).relative_per_link f T =
        -((Polymers.BOLTZMANN_CONSTANT : ℝ) * T * B) := sub_sub_cancel_left _ _
    rw [e2, abs_neg, abs_mul, abs_of_pos (by positivity : 0 < (Polymers.BOLTZMANN_CONSTANT : ℝ) * T), hfl,
      show 40 * ((Polymers.BOLTZMANN_CONSTANT : ℝ) * T * η) + 20 * (Polymers.BOLTZMANN_CONSTANT * T * |B|) +
        40 * (Polymers.BOLTZMANN_CONSTANT * T) = 1 * Polymers.BOLTZMANN_CONSTANT * T * (40 * η + 20 * |B| + 40) by ring]
    exact mul_le_mul_of_nonneg_left (by linarith) c2.le

/-- C95: the nondimensional Gibbs energies of the freely jointed chain. -/
theorem C95_fjc_nondimensional_gibbs (P : Platform) (hN : 0 < N) (hN' : N ≤ 255) (hℓ : Moderate ℓ) (hm : Moderate m) (hm0 : 0 < m)
    (hη : Moderate η) (h0 : 0 < η) (h600 : η ≤ 600) (hT : Moderate T) (hT0 : 0 < T)
    {F : ApiF.EnergyMethodsF P} (hF : F = ApiF.fjc_isotensional_gibbs N (.fin ℓ) (.fin m))
    {R : EnergyMethods} (hR : R = Api.fjc_isotensional_gibbs N ℓ m) :
    Within (F.nd_relative (.fin η) (.fin T)) (R.nd_relative η T) (P.ε * (N * (40 * η + 10))) ∧
    Within (F.nd_relative_per_link (.fin η) (.fin T)) (R.nd_relative_per_link η T) (P.ε * (40 * η + 10)) ∧
    Within (F.nd_energy (.fin η) (.fin T)) (R.nd_energy η T) (P.ε * (N * (40 * η + 60) + 20 * |R.nd_energy η T - R.nd_relative η T|)) ∧
    Within (F.nd_energy_per_link (.fin η) (.fin T)) (R.nd_energy_per_link η T)
      (P.ε * (40 * η + 60 + 20 * |R.nd_energy_per_link η T - R.nd_relative_per_link η T|)) := by
  subst hF hR
  have aN := acc_nat (P := P) hN hN'
  have ay := acc_nd (P := P) hη
  have hN0 : (0 : ℝ) < N := by exact_mod_cast hN
  obtain ⟨r1, -⟩ := scale_ranges P hN hN' hT hT0
  have hcap := million_le_cap
  have hB := (within_logRatio (P := P) hℓ hm hm0 hT hT0).2
  have sB := scaled_logRatio (P := P) hℓ hm hm0 hT hT0
  set B := logRatio ℓ m T with hBdef
  have hB0 := abs_nonneg B
  have sG := scaled_gibbs ay h0 h600 (by norm_num) (by norm_num) (by norm_num) (by norm_num) (by linarith)
  have g1 := sG.times' aN.neg (by norm_num) (by norm_num) (by norm_num) ((abs_neg _).trans (Nat.abs_cast N)) (by rwa [one_mul]) (by linarith)
  have t2 := sG.neg.sub sB (by linarith) (by linarith)
  have t1 := t2.times' aN (by norm_num) (by norm_num) (by norm_num) (Nat.abs_cast N) (by rwa [one_mul]) (by linarith)
  refine ⟨g1.within_le ?_, sG.neg.within_le ?_, t1.within_le ?_, t2.within_le ?_⟩
  · rw [one_mul]
    exact mul_le_mul_of_nonneg_left (by linarith) hN0.le
  · linarith
  · have e1 : (Api.fjc_isotensional_gibbs N ℓ m).nd_relative η T = -(N : ℝ) * Real.log (Real.sinh η / η) := rfl
    have e2 : (Api.fjc_isotensional_gibbs N ℓ m).nd_energy η T = N * (-Real.log (Real.sinh η / η) - B) := rfl
    rw [e1, e2, show N * (-Real.log (Real.sinh η / η) - B) - -(N : ℝ) * Real.log (Real.sinh η / η) = -(N * B) by ring, abs_neg, abs_mul, Nat.abs_cast,
      one_mul, show N * (40 * η + 60) + 20 * (N * |B|) = N * (40 * η + 60 + 20 * |B|) by ring]
    exact mul_le_mul_of_nonneg_left (by linarith) hN0.le
  · have e2 : (Api.fjc_isotensional_gibbs N ℓ m).nd_energy_per_link η T - (Api.fjc_isotensional_gibbs N ℓ m).nd_relative_per_link η T = -B :=
      sub_sub_cancel_left _ _
    rw [e2, abs_neg]
    linarith

/-- The product of the force and the hyperbolic cotangent. -/
theorem scaled_mul_coth (h : Acc y η n a b) (h0 : 0 < η) (hn0 : 0 ≤ n) (hn : n ≤ 5) (ha : -350 ≤ a) (hb : b ≤ 350) (hc : 10 + 10 * η ≤ cap) :
    Scaled (y / Elem.tanh y) (η / Real.tanh η) 1 (10 + 10 * η) (1 + η) := by
  obtain ⟨v, rfl, hd, hv0, hlo, hhi, hinv, hle⟩ := h.near h0 hn0 hn ha hb
  have hp := eps_pos P
  have hs := eps_small P
  have hu := unit_le P
  have hup := unit_pos P
  obtain ⟨c1, c2, c3⟩ := coth_bounds hv0
  have e1 : ∀ x : ℝ, x ≠ 0 → x / Real.tanh x = 1 + x * langevin x := by
    intro x hx
    unfold langevin
    field_simp
    ring
  have hl1 := langevin_lt_one hv0
  have hl0 := langevin_pos hv0
  have hm1 := langevin_lt_one h0
  have hm0 := langevin_pos h0
  have rt : Rel (Elem.tanh (.fin v) : F64 P) (Real.tanh v) (unit P) := by
    have hone' : (1 : ℝ) ≤ 2 ^ (1000 : ℤ) := one_le_zpow₀ (by norm_num) (by norm_num)
    have hinv' : 1 / v ≤ 2 ^ (900 : ℤ) := by
      rw [div_le_iff₀ hv0]
      calc (1 : ℝ) = 2 ^ (900 : ℤ) * 2 ^ (-900 : ℤ) := by rw [← zpow_add₀ (by norm_num)]; norm_num
        _ ≤ _ := mul_le_mul_of_nonneg_left hlo (by positivity)
    have h901 : (2 : ℝ) * 2 ^ (900 : ℤ) ≤ 2 ^ (1000 : ℤ) := by
      rw [← zpow_one_add₀ (by norm_num)]; exact two_zpow_mono (by norm_num)
    have hone : (1 : ℝ) ≤ 2 ^ (900 : ℤ) := one_le_zpow₀ (by norm_num) (by norm_num)
    have hc' : 1 / Real.tanh v ≤ 2 ^ (1000 : ℤ) := by
      generalize (2 : ℝ) ^ (1000 : ℤ) = A at *
      generalize (2 : ℝ) ^ (900 : ℤ) = B at *
      linarith
    have ht : 2 ^ (-1000 : ℤ) ≤ Real.tanh v := by
      rw [div_le_iff₀ c3] at hc'
      calc (2 : ℝ) ^ (-1000 : ℤ) = 2 ^ (-1000 : ℤ) * 1 := by ring
        _ ≤ 2 ^ (-1000 : ℤ) * (2 ^ (1000 : ℤ) * Real.tanh v) := mul_le_mul_of_nonneg_left hc' (by positivity)
        _ = Real.tanh v := by rw [← mul_assoc, ← zpow_add₀ (by norm_num)]; norm_num
    exact rel_fn (f := .tanh) (v := v) (by show _ ≤ |Real.tanh v|; rwa [abs_of_pos c3])
      (by show |Real.tanh v| ≤ _; rw [abs_of_pos c3]; exact (Real.tanh_lt_one v).le.trans hone')
  have ev := e1 v hv0.ne'
  have b1 : 1 ≤ v / Real.tanh v := by rw [ev]; nlinarith
  have b2 : v / Real.tanh v ≤ 1 + v := by rw [ev]; nlinarith
  have hr := rel_div (rel_refl (P := P) v) rt (by linarith) (by
      rw [abs_of_pos (by linarith)]
      exact (zpow_le_one_of_nonpos₀ (by norm_num) (by norm_num)).trans b1) (by
      rw [abs_of_pos (by linarith)]
      refine b2.trans ?_
      have h901 : (2 : ℝ) * 2 ^ (900 : ℤ) ≤ 2 ^ (1000 : ℤ) := by
        rw [← zpow_one_add₀ (by norm_num)]; exact two_zpow_mono (by norm_num)
      have hone : (1 : ℝ) ≤ 2 ^ (900 : ℤ) := one_le_zpow₀ (by norm_num) (by norm_num)
      generalize (2 : ℝ) ^ (1000 : ℤ) = A at *
      generalize (2 : ℝ) ^ (900 : ℤ) = B at *
      linarith)
  obtain ⟨w, hw, hwd⟩ := (hr.mono (show _ ≤ 2 * unit P by linarith)).within.mono (mul_le_mul_of_nonneg_right (exp_units_le' P (by norm_num) (by norm_num))
    (abs_nonneg _))
  rw [abs_of_pos (by linarith : 0 < v / Real.tanh v)] at hwd
  refine ⟨⟨w, hw, ?_⟩, ?_, scale_one.1, scale_one.2, by positivity, hc, by linarith⟩
  · have k1 := langevin_close h0 hv0
    have e2 : |v - η| * (1 / v) * (1 / η) * η ≤ P.ε * 6.06 := by
      have : |v - η| * (1 / v) * (1 / η) ≤ 6 * P.ε * η * (1.01 * (1 / η)) * (1 / η) := by gcongr
      calc |v - η| * (1 / v) * (1 / η) * η ≤ 6 * P.ε * η * (1.01 * (1 / η)) * (1 / η) * η := mul_le_mul_of_nonneg_right this h0.le
        _ = P.ε * 6.06 := by field_simp; norm_num
    have k2 : |v / Real.tanh v - η / Real.tanh η| ≤ P.ε * (6.06 + 6 * η) := by
      rw [ev, e1 η h0.ne', show 1 + v * langevin v - (1 + η * langevin η) = (v - η) * langevin v + (langevin v - langevin η) * η by ring]
      refine (abs_add_le _ _).trans ?_
      rw [abs_mul, abs_mul, abs_of_pos hl0, abs_of_pos h0]
      have := mul_le_mul_of_nonneg_right k1 h0.le
      have : |v - η| * langevin v ≤ |v - η| * 1 := mul_le_mul_of_nonneg_left hl1.le (abs_nonneg _)
      linarith
    have k3 : |w - η / Real.tanh η| ≤ |w - v / Real.tanh v| + |v / Real.tanh v - η / Real.tanh η| := abs_sub_le _ _ _
    have k4 : (2 + 1) * P.ε * (v / Real.tanh v) ≤ (2 + 1) * P.ε * (1 + 1.01 * η) := mul_le_mul_of_nonneg_left (by linarith) (by positivity)
    have k5 : (2 + 1) * P.ε * (1 + 1.01 * η) + P.ε * (6.06 + 6 * η) ≤ P.ε * (1 * (10 + 10 * η)) := by
      rw [show (2 + 1) * P.ε * (1 + 1.01 * η) + P.ε * (6.06 + 6 * η) = P.ε * (9.06 + 9.03 * η) by ring]
      exact mul_le_mul_of_nonneg_left (by linarith) hp.le
    linarith
  · rw [e1 η h0.ne', abs_of_pos (by positivity)]
    nlinarith

theorem scaled_one : Scaled (1.0 : F64 P) (1.0 : ℝ) 1 0 1 := by
  have h := million_le_cap
  refine ⟨⟨1, lit_one, by norm_num⟩, by norm_num, scale_one.1, scale_one.2, le_rfl, by linarith, by linarith⟩

/-- The nondimensional relative Helmholtz energy per link from the Legendre transform. -/
theorem scaled_legendre (h : Acc y η n a b) (h0 : 0 < η) (h600 : η ≤ 600) (hn0 : 0 ≤ n) (hn : n ≤ 5) (ha : -350 ≤ a) (hb : b ≤ 350) :
    Scaled (y / Elem.tanh y - 1.0 - Elem.ln (Elem.sinh y / y)) (η / Real.tanh η - 1.0 - Real.log (Real.sinh η / η)) 1 (22 + 22 * η) (2 + 2 * η) := by
  have hcap := million_le_cap
  have h1 := scaled_mul_coth h h0 hn0 hn ha hb (by linarith)
  have h2 := h1.sub scaled_one (by linarith) (by linarith)
  have h3 := h2.sub (scaled_gibbs h h0 h600 hn0 hn ha hb (by linarith)) (by linarith) (by linarith)
  exact h3.weaken rfl rfl (by linarith) (by linarith) (by linarith) (by linarith)

/-- C95: the Helmholtz energies of the freely jointed chain from the Legendre transform, as functions of the force. -/
theorem C95_fjc_legendre_helmholtz (P : Platform) (hN : 0 < N) (hN' : N ≤ 255) (hℓ : Moderate ℓ) (hℓ0 : 0 < ℓ) (hm : Moderate m) (hm0 : 0 < m)
    (hf : Moderate f) (hf0 : 0 < f) (hT : Moderate T) (hT0 : 0 < T) {k : ℝ} (hk : k = Polymers.BOLTZMANN_CONSTANT) (h600 : f * ℓ ≤ 600 * (k * T))
    {F : ApiF.EnergyMethodsF P} (hF : F = ApiF.fjc_isotensional_legendre_helmholtz N (.fin ℓ) (.fin m))
    {R : EnergyMethods} (hR : R = Api.fjc_isotensional_legendre_helmholtz N ℓ m) :
    Within (F.relative (.fin f) (.fin T)) (R.relative f T) (P.ε * (50 * (N * (f * ℓ)) + 50 * (N * (k * T)))) ∧
    Within (F.relative_per_link (.fin f) (.fin T)) (R.relative_per_link f T) (P.ε * (50 * (f * ℓ) + 50 * (k * T))) ∧
    Within (F.energy (.fin f) (.fin T)) (R.energy f T)
      (P.ε * (50 * (N * (f * ℓ)) + 20 * |R.energy f T - R.relative f T| + 80 * (N * (k * T)))) ∧
    Within (F.energy_per_link (.fin f) (.fin T)) (R.energy_per_link f T)
      (P.ε * (50 * (f * ℓ) + 20 * |R.energy_per_link f T - R.relative_per_link f T| + 80 * (k * T))) := by
  subst hF hR hk
  have aT := acc_moderate (P := P) hT
  have aN := acc_nat (P := P) hN hN'
  have ay := acc_force (P := P) hℓ hf hT
  have hN0 : (0 : ℝ) < N := by exact_mod_cast hN
  have hk0 := boltzmann_pos
  obtain ⟨r1, r2, r3, r4, r5⟩ := scale_ranges P hN hN' hT hT0
  set η := f / (Polymers.BOLTZMANN_CONSTANT : ℝ) / T * ℓ with hη
  have hfl : f * ℓ = Polymers.BOLTZMANN_CONSTANT * T * η := by rw [hη]; field_simp
  have h0 : 0 < η := by positivity
  have hη' : η ≤ 600 := by
    rw [hfl] at h600
    nlinarith [mul_pos hk0 hT0]
  have hcap := million_le_cap
  have hB := (within_logRatio (P := P) hℓ hm hm0 hT hT0).2
  have sB := scaled_logRatio (P := P) hℓ hm hm0 hT hT0
  set B := logRatio ℓ m T with hBdef
  have hB0 := abs_nonneg B
  have sH := scaled_legendre ay h0 hη' (by norm_num) (by norm_num) (by norm_num) (by norm_num)
  have sE := sH.sub sB (by linarith) (by linarith)
  have aK := acc_boltzmann (P := P)
  have c1 : 0 < (N * Polymers.BOLTZMANN_CONSTANT * T : ℝ) := by positivity
  have c2 : 0 < (Polymers.BOLTZMANN_CONSTANT * T : ℝ) := by positivity
  have g1 := sH.times' (aN ⊗ aK ⊗ aT) (by norm_num) (by norm_num) (by norm_num) (abs_of_pos c1) (by rwa [one_mul]) (by linarith)
  have g2 := sH.times' (aK ⊗ aT) (by norm_num) (by norm_num) (by norm_num) (abs_of_pos c2) (by rwa [one_mul]) (by linarith)
  have t1 := sE.times' (aN ⊗ aK ⊗ aT) (by norm_num) (by norm_num) (by norm_num) (abs_of_pos c1) (by rwa [one_mul]) (by linarith)
  have t2 := sE.times' (aK ⊗ aT) (by norm_num) (by norm_num) (by norm_num) (abs_of_pos c2) (by rwa [one_mul]) (by linarith)
  refine ⟨g1.within_le ?_, g2.within_le ?_, t1.within_le ?_, t2.within_le ?_⟩
  · rw [one_mul, hfl, show 50 * (N * ((Polymers.BOLTZMANN_CONSTANT : ℝ) * T * η)) + 50 * (N * (Polymers.BOLTZMANN_CONSTANT * T)) =
      N * Polymers.BOLTZMANN_CONSTANT * T * (50 * η + 50) by ring]
    exact mul_le_mul_of_nonneg_left (by linarith) c1.le
  · rw [one_mul, hfl, show 50 * ((Polymers.BOLTZMANN_CONSTANT : ℝ) * T * η) + 50 * (Polymers.BOLTZMANN_CONSTANT * T) =
      Polymers.BOLTZMANN_CONSTANT * T * (50 * η + 50) by ring]
    exact mul_le_mul_of_nonneg_left (by linarith) c2.le
  · have e2 : (Api.fjc_isotensional_legendre_helmholtz N ℓ m).energy f T - (Api.fjc_isotensional_legendre_helmholtz N ℓ m).relative f T =
        -(N * (Polymers.BOLTZMANN_CONSTANT : ℝ) * T * B) := by
      have e3 : ∀ A C D : ℝ, C * (A - D) - C * A = -(C * D) := fun A C D => by ring
      exact e3 _ _ _
    rw [e2, abs_neg, abs_mul, abs_of_pos c1, hfl, one_mul,
      show 50 * (N * ((Polymers.BOLTZMANN_CONSTANT : ℝ) * T * η)) + 20 * (N * Polymers.BOLTZMANN_CONSTANT * T * |B|) +
        80 * (N * (Polymers.BOLTZMANN_CONSTANT * T)) = N * Polymers.BOLTZMANN_CONSTANT * T * (50 * η + 20 * |B| + 80) by ring]
    exact mul_le_mul_of_nonneg_left (by linarith) c1.le
  · have e2 : (Api.fjc_isotensional_legendre_helmholtz N ℓ m).energy_per_link f T -
        (Api.fjc_isotensional_legendre_helmholtz N ℓ m).relative_per_link f T = -((Polymers.BOLTZMANN_CONSTANT : ℝ) * T * B) := by
      have e3 : ∀ A C D : ℝ, C * (A - D) - C * A = -(C * D) := fun A C D => by ring
      exact e3 _ _ _
    rw [e2, abs_neg, abs_mul, abs_of_pos c2, hfl, one_mul,
      show 50 * ((Polymers.BOLTZMANN_CONSTANT : ℝ) * T * η) + 20 * (Polymers.BOLTZMANN_CONSTANT * T * |B|) +
        80 * (Polymers.BOLTZMANN_CONSTANT * T) = Polymers.BOLTZMANN_CONSTANT * T * (50 * η + 20 * |B| + 80) by ring]
    exact mul_le_mul_of_nonneg_left (by linarith) c2.le

/-- C95: the nondimensional Helmholtz energies from the Legendre transform. -/
theorem C95_fjc_nondimensional_legendre_helmholtz (P : Platform) (hN : 0 < N) (hN' : N ≤ 255) (hℓ : Moderate ℓ) (hm : Moderate m) (hm0 : 0 < m)
    (hη : Moderate η) (h0 : 0 < η) (h600 : η ≤ 600) (hT : Moderate T) (hT0 : 0 < T)
    {F : ApiF.EnergyMethodsF P} (hF : F = ApiF.fjc_isotensional_legendre_helmholtz N (.fin ℓ) (.fin m))
    {R : EnergyMethods} (hR : R = Api.fjc_isotensional_legendre_helmholtz N ℓ m) :
    Within (F.nd_relative (.fin η) (.fin T)) (R.nd_relative η T) (P.ε * (N * (50 * η + 50))) ∧
    Within (F.nd_relative_per_link (.fin η) (.fin T)) (R.nd_relative_per_link η T) (P.ε * (50 * η + 50)) ∧
    Within (F.nd_energy (.fin η) (.fin T)) (R.nd_energy η T) (P.ε * (N * (50 * η + 80) + 20 * |R.nd_energy η T - R.nd_relative η T|)) ∧
    Within (F.nd_energy_per_link (.fin η) (.fin T)) (R.nd_energy_per_link η T)
      (P.ε * (50 * η + 80 + 20 * |R.nd_energy_per_link η T - R.nd_relative_per_link η T|)) := by
  subst hF hR
  have aN := acc_nat (P := P) hN hN'
  have ay := acc_nd (P := P) hη
  have hN0 : (0 : ℝ) < N := by exact_mod_cast hN
  obtain ⟨r1, -⟩ := scale_ranges P hN hN' hT hT0
  have hcap := million_le_cap
  have hB := (within_logRatio (P := P) hℓ hm hm0 hT hT0).2
  have sB := scaled_logRatio (P := P) hℓ hm hm0 hT hT0
  set B := logRatio ℓ m T with hBdef
  have hB0 := abs_nonneg B
  have sH := scaled_legendre ay h0 h600 (by norm_num) (by norm_num) (by norm_num) (by norm_num)
  have sE := sH.sub sB (by linarith) (by linarith)
  have g1 := sH.times' aN (by norm_num) (by norm_num) (by norm_num) (Nat.abs_cast N) (by rwa [one_mul]) (by linarith)
  have t1 := sE.times' aN (by norm_num) (by norm_num) (by norm_num) (Nat.abs_cast N) (by rwa [one_mul]) (by linarith)
  refine ⟨g1.within_le ?_, sH.within_le ?_, t1.within_le ?_, sE.within_le ?_⟩
  · rw [one_mul]
    exact mul_le_mul_of_nonneg_left (by linarith) hN0.le
  · linarith
  · have e2 : (Api.fjc_isotensional_legendre_helmholtz N ℓ m).nd_energy η T - (Api.fjc_isotensional_legendre_helmholtz N ℓ m).nd_relative η T =
        -((N : ℝ) * B) := by
      have e3 : ∀ A C D : ℝ, C * (A - D) - C * A = -(C * D) := fun A C D => by ring
      exact e3 _ _ _
    rw [e2, abs_neg, abs_mul, Nat.abs_cast, one_mul, show N * (50 * η + 80) + 20 * (N * |B|) = N * (50 * η + 80 + 20 * |B|) by ring]
    exact mul_le_mul_of_nonneg_left (by linarith) hN0.le
  · have e2 : (Api.fjc_isotensional_legendre_helmholtz N ℓ m).nd_energy_per_link η T -
        (Api.fjc_isotensional_legendre_helmholtz N ℓ m).nd_relative_per_link η T = -B := sub_sub_cancel_left _ _
    rw [e2, abs_neg]
    linarith

/-! ### Concrete cases: eight links of length one and mass two at 300 degrees on a machine which rounds correctly -/

example := C95_fjc_lengths correctlyRounded (N := 8) (by norm_num) (by norm_num) (.fin 2) 2 (moderate_of (v := 1) (by norm_num) (by norm_num))
  (by norm_num) (moderate_of (v := 3000) (by norm_num) (by norm_num)) (by norm_num) (moderate_of (v := 300) (by norm_num) (by norm_num)) (by norm_num) rfl
example := C95_fjc_nondimensional_lengths correctlyRounded (N := 8) (by norm_num) (by norm_num) (.fin 1) (.fin 2) 1 2 300 (.fin 300)
  (moderate_of (v := 3) (by norm_num) (by norm_num)) (by norm_num)
example := C95_fjc_gibbs correctlyRounded (N := 8) (by norm_num) (by norm_num) (moderate_of (v := 1) (by norm_num) (by norm_num)) (by norm_num)
  (moderate_of (v := 2) (by norm_num) (by norm_num)) (by norm_num) (moderate_of (v := 3000) (by norm_num) (by norm_num)) (by norm_num)
  (moderate_of (v := 300) (by norm_num) (by norm_num)) (by norm_num) rfl (by unfold Polymers.BOLTZMANN_CONSTANT; norm_num) rfl rfl
example := C95_fjc_nondimensional_gibbs correctlyRounded (N := 8) (by norm_num) (by norm_num) (moderate_of (v := 1) (by norm_num) (by norm_num))
  (moderate_of (v := 2) (by norm_num) (by norm_num)) (by norm_num) (moderate_of (v := 3) (by norm_num) (by norm_num)) (by norm_num) (by norm_num)
  (moderate_of (v := 300) (by norm_num) (by norm_num)) (by norm_num) rfl rfl
example := C95_fjc_legendre_helmholtz correctlyRounded (N := 8) (by norm_num) (by norm_num) (moderate_of (v := 1) (by norm_num) (by norm_num))
  (by norm_num) (moderate_of (v := 2) (by norm_num) (by norm_num)) (by norm_num) (moderate_of (v := 3000) (by norm_num) (by norm_num)) (by norm_num)
  (moderate_of (v := 300) (by norm_num) (by norm_num)) (by norm_num) rfl (by unfold Polymers.BOLTZMANN_CONSTANT; norm_num) rfl rfl
example := C95_fjc_nondimensional_legendre_helmholtz correctlyRounded (N := 8) (by norm_num) (by norm_num)
  (moderate_of (v := 1) (by norm_num) (by norm_num)) (moderate_of (v := 2) (by norm_num) (by norm_num)) (by norm_num)
  (moderate_of (v := 3) (by norm_num) (by norm_num)) (by norm_num) (by norm_num) (moderate_of (v := 300) (by norm_num) (by norm_num)) (by norm_num) rfl rfl

end Polymers.Props
