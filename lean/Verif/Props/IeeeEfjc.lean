import Verif.Props.IeeeTreloarEnergy
import Verif.Lemmas.EfjcAsymptotic
import Verif.Spec.IeeeEfjc

/-! C98: the extensible freely jointed chain at fixed force in floating point, in the reduced approach. -/

namespace Polymers.Props

open Polymers.Ieee Polymers.Spec Polymers.Lemmas
open Polymers.efjc.thermodynamics.isotensional.asymptotic

variable {P : Platform} {N : ℕ} {ℓ m c T f η κ n s t : ℝ} {a b : ℤ} {x y z : F64 P}

local macro:70 a:term:70 " ⊗ " b:term:71 : term => `(Acc.mul $a $b (by norm_num) (by norm_num) (by norm_num))
local macro:70 a:term:70 " ⊘ " b:term:71 : term => `(Acc.div $a $b (by norm_num) (by norm_num) (by norm_num))

/-- The hyperbolic tangent grows, but slower than its argument. -/
theorem tanh_close {u v : ℝ} (hu : 0 < u) (h : u ≤ v) : Real.tanh u ≤ Real.tanh v ∧ u * Real.tanh v ≤ v * Real.tanh u := by
  have hv := hu.trans_le h
  have c1 := Real.cosh_pos u
  have c2 := Real.cosh_pos v
  rw [Real.tanh_eq_sinh_div_cosh, Real.tanh_eq_sinh_div_cosh, ← mul_div_assoc, ← mul_div_assoc, div_le_div_iff₀ c1 c2, div_le_div_iff₀ c2 c1]
  have hd := Real.sinh_nonneg_iff.2 (sub_nonneg.2 h)
  have hs := Real.sinh_sub v u
  have ha := Real.sinh_add v u
  refine ⟨by linarith [mul_comm (Real.sinh v) (Real.cosh u), mul_comm (Real.cosh v) (Real.sinh u)], ?_⟩
  rcases h.eq_or_lt with rfl | h
  · exact le_rfl
  · have := sinh_div_mono (sub_pos.2 h) (by linarith : v - u ≤ v + u)
    rw [hs, ha] at this
    nlinarith

theorem _root_.Polymers.Lemmas.Acc.tanh (hx : Acc x η n a b) (h0 : 0 < η) (hn : n ≤ 100) (ha : -900 ≤ a) (ha' : a ≤ 0) :
    Acc (Elem.tanh x) (Real.tanh η) (n + 1) (a - 1) 0 := by
  obtain ⟨⟨δ, hδ, rfl⟩, lo, hi⟩ := hx
  rw [abs_of_pos h0] at lo
  have t0 : 0 < Real.tanh η := (coth_bounds h0).2.2
  have t1 := Real.tanh_lt_one η
  have key : (2 : ℝ) ^ (a - 1) ≤ Real.tanh η := by
    have h2 := (coth_bounds h0).2.1
    rw [div_lt_iff₀ t0] at h2
    have h3 : 1 / η ≤ 2 ^ (-a) := by
      rw [zpow_neg, ← one_div]; exact one_div_le_one_div_of_le (by positivity) lo
    have h4 : (1 : ℝ) ≤ 2 ^ (-a) := one_le_zpow₀ (by norm_num) (by omega)
    have h5 : (1 + 1 / η) * Real.tanh η ≤ 2 ^ (1 - a) * Real.tanh η := by
      rw [sub_eq_add_neg, zpow_add₀ (by norm_num), zpow_one]
      exact mul_le_mul_of_nonneg_right (by linarith) t0.le
    calc (2 : ℝ) ^ (a - 1) = 2 ^ (a - 1) * 1 := by ring
      _ ≤ 2 ^ (a - 1) * (2 ^ (1 - a) * Real.tanh η) := mul_le_mul_of_nonneg_left (by linarith) (by positivity)
      _ = Real.tanh η := by rw [← mul_assoc, ← zpow_add₀ (by norm_num)]; norm_num
  have hv : 0 < η * Real.exp δ := by positivity
  have v0 : 0 < Real.tanh (η * Real.exp δ) := (coth_bounds hv).2.2
  have hδ' : Real.tanh (η * Real.exp δ) = Real.tanh η * Real.exp (Real.log (Real.tanh (η * Real.exp δ) / Real.tanh η)) := by
    rw [Real.exp_log (by positivity)]; field_simp
  have hl : |Real.log (Real.tanh (η * Real.exp δ) / Real.tanh η)| ≤ |δ| := by
    rcases le_total 0 δ with hd | hd
    · have h1 := tanh_close h0 (le_mul_of_one_le_right h0.le (Real.one_le_exp hd))
      rw [abs_of_nonneg hd, abs_of_nonneg (Real.log_nonneg ((one_le_div t0).2 h1.1)), Real.log_le_iff_le_exp (by positivity), div_le_iff₀ t0]
      have h2 := h1.2
      rw [mul_assoc] at h2
      exact le_of_mul_le_mul_left h2 h0
    · have h1 := tanh_close hv (mul_le_of_le_one_right h0.le (Real.exp_le_one_iff.2 hd))
      rw [abs_of_nonpos hd, abs_of_nonpos (Real.log_nonpos (by positivity) ((div_le_one t0).2 h1.1)), neg_le_neg_iff,
        Real.le_log_iff_exp_le (by positivity), le_div_iff₀ t0]
      have h2 := h1.2
      rw [mul_assoc] at h2
      exact le_of_mul_le_mul_left h2 h0
  refine ⟨?_, by rwa [abs_of_pos t0], by rw [abs_of_pos t0, zpow_zero]; exact t1.le⟩
  have h := rel_approx (P := P) (w := P.fn .tanh (η * Real.exp δ)) (r := Real.tanh η) (d := n * unit P)
    (by rw [← hδ']; exact P.fn_err .tanh _) (hl.trans hδ) (units_le_one P (by linarith))
    (by rw [abs_of_pos t0]; exact (two_zpow_mono (by omega)).trans key) (by rw [abs_of_pos t0]; exact t1.le.trans (one_le_zpow₀ (by norm_num) (by norm_num)))
  exact h.mono (le_of_eq (by ring))

/-- The nondimensional stiffness of the links. -/
theorem acc_stiffness (hc : Moderate c) (hℓ : Moderate ℓ) (hT : Moderate T) :
    Acc ((.fin c : F64 P) * Elem.powi (.fin ℓ) 2 / (Polymers.BOLTZMANN_CONSTANT : F64 P) / .fin T)
      (c * Elem.powi ℓ 2 / (Polymers.BOLTZMANN_CONSTANT : ℝ) / T) 7 (-404) 397 := by
  have h := acc_moderate (P := P) hc ⊗ (acc_moderate hℓ).sq (by norm_num) (by norm_num) (by norm_num) ⊘ acc_boltzmann ⊘ acc_moderate hT
  exact ⟨h.rel.mono (mul_le_mul_of_nonneg_right (by norm_num) (unit_pos P).le), (two_zpow_mono (by norm_num)).trans h.lo,
    h.hi.trans (two_zpow_mono (by norm_num))⟩

theorem stiffness_eq (hκ : κ = c * ℓ ^ 2 / (Polymers.BOLTZMANN_CONSTANT * T)) : c * Elem.powi ℓ 2 / (Polymers.BOLTZMANN_CONSTANT : ℝ) / T = κ := by
  rw [powi_two, hκ, div_div]

theorem lo_of_one {M : ℝ} (h : 1 ≤ M) : (2 : ℝ) ^ (-1000 : ℤ) ≤ M := (zpow_le_one_of_nonpos₀ (by norm_num) (by norm_num)).trans h

/-- The Langevin function with its cancellation. -/
theorem sized_langevin (h : Acc y η n a b) (h0 : 0 < η) (hn0 : 0 ≤ n) (hn : n ≤ 5) (ha : -310 ≤ a) (hb : b ≤ 310) :
    Sized ((1.0 : F64 P) / Elem.tanh y - 1.0 / y) (1.0 / Real.tanh η - 1.0 / η) 14 (1 + 1 / η) := by
  have hc := cap_force h h0 ha
  have hi : (0 : ℝ) < 1 / η := by positivity
  have k := scaled_langevin h h0 hn0 hn (by omega) (by omega) (by linarith)
  refine ⟨k.within_le (e := 14 * (1 + 1 / η)) (by linarith), k.size.trans (by linarith), lo_of_one (by linarith), ?_, by norm_num, by norm_num⟩
  have : cap ≤ 2 ^ (590 : ℤ) := by unfold cap; exact two_zpow_mono (by norm_num)
  exact le_trans (by linarith) this

/-- C98: the nondimensional lengths of the extensible chain: the error is measured by the length of the straight link, the term of the Langevin function
that is subtracted and the extension of the link. -/
theorem C98_efjc_nondimensional_lengths (P : Platform) (hN : 0 < N) (hN' : N ≤ 255) (mF : F64 P) (m : ℝ) (hℓ : Moderate ℓ) (hℓ0 : 0 < ℓ) (hc : Moderate c)
    (hc0 : 0 < c) (hη : Moderate η) (h0 : 0 < η) (hT : Moderate T) (hT0 : 0 < T) (hκ : κ = c * ℓ ^ 2 / (Polymers.BOLTZMANN_CONSTANT * T)) :
    Within ((ApiF.efjc_isotensional_asymptotic_reduced_lengths N (.fin ℓ : F64 P) mF (.fin c)).nd_length (.fin η) (.fin T))
      ((Api.efjc_isotensional_asymptotic_reduced_lengths N ℓ m c).nd_length η T) (P.ε * (21 * (N * (1 + 1 / η + η / κ)))) ∧
    Within ((ApiF.efjc_isotensional_asymptotic_reduced_lengths N (.fin ℓ : F64 P) mF (.fin c)).nd_length_per_link (.fin η) (.fin T))
      ((Api.efjc_isotensional_asymptotic_reduced_lengths N ℓ m c).nd_length_per_link η T) (P.ε * (16 * (1 + 1 / η + η / κ))) := by
  have aN := acc_nat (P := P) hN hN'
  have hN0 : (0 : ℝ) < N := by exact_mod_cast hN
  have hk0 := boltzmann_pos
  have aκ := acc_stiffness (P := P) hc hℓ hT
  rw [stiffness_eq hκ] at aκ
  have hκ0 : 0 < κ := by rw [hκ]; positivity
  have aη := acc_moderate (P := P) hη
  have k1 := sized_langevin aη h0 (by norm_num) (by norm_num) (by norm_num) (by norm_num)
  have ar := aη ⊘ aκ
  have k2 := ar.sized (by norm_num) (by norm_num) (by norm_num) (by norm_num)
  have e : |η / κ| = η / κ := abs_of_pos (by positivity)
  rw [e] at k2
  have hr := ar.hi
  rw [e] at hr
  have hi : (0 : ℝ) < 1 / η := by positivity
  have hq : 0 < η / κ := by positivity
  have hM : 1 + 1 / η + η / κ ≤ 2 ^ (510 : ℤ) := by
    have h1 : 1 / η ≤ 2 ^ (100 : ℤ) := by
      have := hη.1
      rw [abs_of_pos h0] at this
      rw [show (100 : ℤ) = - -100 by norm_num, zpow_neg, ← one_div]
      exact one_div_le_one_div_of_le (by positivity) this
    have h2 : (1 : ℝ) ≤ 2 ^ (508 : ℤ) := one_le_zpow₀ (by norm_num) (by norm_num)
    have h3 : (2 : ℝ) ^ (100 : ℤ) ≤ 2 ^ (508 : ℤ) := two_zpow_mono (by norm_num)
    have h4 : (2 : ℝ) ^ (510 : ℤ) = 4 * 2 ^ (508 : ℤ) := by
      rw [show (510 : ℤ) = 2 + 508 by norm_num, zpow_add₀ (by norm_num)]; norm_num
    have h5 : η / κ ≤ 2 ^ (508 : ℤ) := hr.trans (two_zpow_mono (by norm_num))
    rw [h4]
    have h6 := h1.trans h3
    clear h1 h3 h4 hr
    generalize (2 : ℝ) ^ (508 : ℤ) = A at *
    linarith
  have k3 := k1.add (k2.weaken (q' := 14) (by norm_num) (by norm_num) rfl le_rfl k2.hi) (hM.trans (two_zpow_mono (by norm_num))) (by norm_num)
  have r := range_mono (mul_range (show (2 : ℝ) ^ (0 : ℤ) ≤ 1 + 1 / η + η / κ by rw [zpow_zero]; linarith) hM aN.lo aN.hi) (c := -1000) (d := 590)
    (by norm_num) (by norm_num)
  have k4 := k3.mul aN (by norm_num) (by norm_num) (by norm_num) r.1 r.2 (by norm_num)
  rw [Nat.abs_cast] at k4
  refine ⟨?_, ?_⟩
  · have w := (k4.weaken (q' := 21) (by norm_num) (by norm_num) rfl (le_of_eq (mul_comm _ _)) (by rw [mul_comm]; exact k4.hi)).within
    rw [← stiffness_eq hκ] at w ⊢
    exact w
  · have w := (k3.weaken (q' := 16) (by norm_num) (by norm_num) rfl le_rfl k3.hi).within
    rw [← stiffness_eq hκ] at w ⊢
    exact w

/-- C98: the lengths of the extensible chain: the error is measured by the length of the link, the ratio of the thermal energy to the force and the
extension of the link. -/
theorem C98_efjc_lengths (P : Platform) (hN : 0 < N) (hN' : N ≤ 255) (mF : F64 P) (m : ℝ) (hℓ : Moderate ℓ) (hℓ0 : 0 < ℓ) (hc : Moderate c)
    (hc0 : 0 < c) (hf : Moderate f) (hf0 : 0 < f) (hT : Moderate T) (hT0 : 0 < T) {k : ℝ} (hk : k = Polymers.BOLTZMANN_CONSTANT) :
    Within ((ApiF.efjc_isotensional_asymptotic_reduced_lengths N (.fin ℓ : F64 P) mF (.fin c)).length (.fin f) (.fin T))
      ((Api.efjc_isotensional_asymptotic_reduced_lengths N ℓ m c).length f T) (P.ε * (32 * (N * (ℓ + k * T / f + f / c)))) ∧
    Within ((ApiF.efjc_isotensional_asymptotic_reduced_lengths N (.fin ℓ : F64 P) mF (.fin c)).length_per_link (.fin f) (.fin T))
      ((Api.efjc_isotensional_asymptotic_reduced_lengths N ℓ m c).length_per_link f T) (P.ε * (24 * (ℓ + k * T / f + f / c))) := by
  subst hk
  have aN := acc_nat (P := P) hN hN'
  have hN0 : (0 : ℝ) < N := by exact_mod_cast hN
  have hk0 := boltzmann_pos
  have aℓ := acc_moderate (P := P) hℓ
  have af := acc_moderate (P := P) hf
  have ac := acc_moderate (P := P) hc
  have aT := acc_moderate (P := P) hT
  have ay := af ⊗ aℓ ⊘ acc_boltzmann ⊘ aT
  have h0 : 0 < f * ℓ / (Polymers.BOLTZMANN_CONSTANT : ℝ) / T := by positivity
  have eη : ℓ * (1 / (f * ℓ / (Polymers.BOLTZMANN_CONSTANT : ℝ) / T)) = Polymers.BOLTZMANN_CONSTANT * T / f := by field_simp
  have at' := ay.tanh h0 (by norm_num) (by norm_num) (by norm_num)
  obtain ⟨c1, c2, c3⟩ := coth_bounds h0
  set η := f * ℓ / (Polymers.BOLTZMANN_CONSTANT : ℝ) / T with hη
  have a1 := aℓ ⊘ at'
  have a2 := acc_boltzmann (P := P) ⊗ aT ⊘ af
  have a3 := af ⊘ ac
  have k1 := a1.sized (by norm_num) (by norm_num) (by norm_num) (by norm_num)
  have k2 := a2.sized (by norm_num) (by norm_num) (by norm_num) (by norm_num)
  have k3 := a3.sized (by norm_num) (by norm_num) (by norm_num) (by norm_num)
  have hkTf : 0 < (Polymers.BOLTZMANN_CONSTANT : ℝ) * T / f := by positivity
  have hfc : 0 < f / c := by positivity
  have b1 : |ℓ / Real.tanh η| ≤ ℓ + Polymers.BOLTZMANN_CONSTANT * T / f := by
    rw [abs_of_pos (by positivity), ← eη, div_eq_mul_one_div]
    calc ℓ * (1 / Real.tanh η) ≤ ℓ * (1 + 1 / η) := mul_le_mul_of_nonneg_left c2.le hℓ0.le
      _ = _ := by ring
  have h1 := hℓ.2
  have h2 := a2.hi
  have h3 := a3.hi
  rw [abs_of_pos hℓ0] at h1
  rw [abs_of_pos hkTf] at h2 k2
  rw [abs_of_pos hfc] at h3 k3
  replace h1 := h1.trans (two_zpow_mono (show (100 : ℤ) ≤ 300 by norm_num))
  replace h2 := h2.trans (two_zpow_mono (show _ ≤ (300 : ℤ) by norm_num))
  replace h3 := h3.trans (two_zpow_mono (show _ ≤ (300 : ℤ) by norm_num))
  have h4 : (2 : ℝ) ^ (310 : ℤ) = 1024 * 2 ^ (300 : ℤ) := by
    rw [show (310 : ℤ) = 10 + 300 by norm_num, zpow_add₀ (by norm_num)]; norm_num
  have h5 : (2 : ℝ) ^ (310 : ℤ) ≤ 2 ^ (590 : ℤ) := two_zpow_mono (by norm_num)
  set S := (Polymers.BOLTZMANN_CONSTANT : ℝ) * T / f with hS
  have hM : ℓ + S + S + f / c ≤ 2 ^ (310 : ℤ) := by
    rw [h4]
    clear h4 h5
    generalize (2 : ℝ) ^ (300 : ℤ) = A at *
    linarith
  have l1 := k1.weaken (q' := 7) (by norm_num) (by norm_num) rfl b1 ((show _ ≤ ℓ + S + S + f / c by linarith).trans (hM.trans h5))
  have l2 := k2.weaken (q' := 7) (by norm_num) (by norm_num) rfl le_rfl k2.hi
  have l3 := k3.weaken (q' := 9) (by norm_num) (by norm_num) rfl le_rfl k3.hi
  have l4 := (l1.sub l2 ((show _ ≤ ℓ + S + S + f / c by linarith).trans (hM.trans h5)) le_rfl (by norm_num)).weaken (q' := 9) (by norm_num) (by norm_num) rfl
    le_rfl ((show _ ≤ ℓ + S + S + f / c by linarith).trans (hM.trans h5))
  have l5 := l4.add l3 (hM.trans h5) (by norm_num)
  have lo : (2 : ℝ) ^ (-200 : ℤ) ≤ ℓ + S + S + f / c := by
    have := (two_zpow_mono (show (-200 : ℤ) ≤ -100 - 100 by norm_num)).trans a3.lo
    rw [abs_of_pos hfc] at this
    refine this.trans ?_
    linarith
  have r := range_mono (mul_range lo hM aN.lo aN.hi) (c := -1000) (d := 590) (by norm_num) (by norm_num)
  have l6 := l5.mul aN (by norm_num) (by norm_num) (by norm_num) r.1 r.2 (by norm_num)
  rw [Nat.abs_cast] at l6
  have hp := eps_pos P
  refine ⟨l6.within.mono (mul_le_mul_of_nonneg_left ?_ hp.le), l5.within.mono (mul_le_mul_of_nonneg_left ?_ hp.le)⟩
  · nlinarith
  · linarith

/-- The logarithm of the partition function of the rigid link. -/
theorem sized_free (h : Acc y η n a b) (h0 : 0 < η) (h600 : η ≤ 600) (hn0 : 0 ≤ n) (hn : n ≤ 9) (ha : -350 ≤ a) :
    Sized (Elem.ln (Elem.sinh y / y)) (Real.log (Real.sinh η / η)) 12 (1 + η) := by
  obtain ⟨v, rfl, hd⟩ := h.rel.within.mono (mul_le_mul_of_nonneg_right (exp_units_le' P hn0 (by linarith)) (abs_nonneg η))
  rw [abs_of_pos h0] at hd
  have hp := eps_pos P
  have hs := eps_small P
  have hd' : |v - η| ≤ 10 * P.ε * η := hd.trans (mul_le_mul_of_nonneg_right (mul_le_mul_of_nonneg_right (by linarith) hp.le) h0.le)
  have hd'' : |v - η| ≤ 1e-3 * η := hd'.trans (mul_le_mul_of_nonneg_right (by linarith) h0.le)
  obtain ⟨d1, d2⟩ := abs_le.1 hd''
  have hv0 : 0 < v := by linarith
  have lo := (two_zpow_mono ha).trans h.lo
  rw [abs_of_pos h0] at lo
  have g1 : 2 * (2 : ℝ) ^ (-900 : ℤ) ≤ 2 ^ (-350 : ℤ) := by
    rw [← zpow_one_add₀ (by norm_num)]; exact two_zpow_mono (by norm_num)
  have g2 : (2 : ℝ) ^ (-900 : ℤ) ≤ 2 ^ (-350 : ℤ) := two_zpow_mono (by norm_num)
  have hlo : 2 ^ (-900 : ℤ) ≤ v := by
    generalize (2 : ℝ) ^ (-900 : ℤ) = A at *
    generalize (2 : ℝ) ^ (-350 : ℤ) = B at *
    linarith
  obtain ⟨⟨w, hw, hwd⟩, -, -⟩ := within_fjc_gibbs (P := P) hlo (by linarith)
  obtain ⟨-, q2, q3⟩ := within_fjc_gibbs (P := P) (g2.trans lo) (by linarith)
  have big : (601 : ℝ) ≤ 2 ^ (590 : ℤ) := by
    calc (601 : ℝ) ≤ 2 ^ (10 : ℤ) := by norm_num
      _ ≤ _ := two_zpow_mono (by norm_num)
  refine ⟨⟨w, hw, ?_⟩, by rw [abs_of_nonneg q2]; linarith, lo_of_one (by linarith), le_trans (by linarith) big, by norm_num, by norm_num⟩
  have k1 := log_sinh_div_close h0 hv0
  have k3 : |w - Real.log (Real.sinh η / η)| ≤ |w - Real.log (Real.sinh v / v)| + |Real.log (Real.sinh v / v) - Real.log (Real.sinh η / η)| := abs_sub_le _ _ _
  have k4 : P.ε * (4 + v) ≤ P.ε * (4 + 1.01 * η) := mul_le_mul_of_nonneg_left (by linarith) hp.le
  have k5 : P.ε * (4 + 1.01 * η) + P.ε * (10 * η) ≤ P.ε * (12 * (1 + η)) := by
    rw [← mul_add]; exact mul_le_mul_of_nonneg_left (by linarith) hp.le
  linarith

theorem acc_log_le (h : Acc x s n a b) (h0 : 0 < s) (ha : -1000 ≤ a) (hb : b ≤ 1000) : |Real.log s| ≤ 1000 := by
  have lo := (two_zpow_mono ha).trans h.lo
  have hi := h.hi.trans (two_zpow_mono hb)
  rw [abs_of_pos h0] at lo hi
  have l2 := Real.log_two_lt_d9
  have l0 := Real.log_pos (by norm_num : (1 : ℝ) < 2)
  have h1 := Real.log_le_log (by positivity) lo
  have h2 := Real.log_le_log h0 hi
  rw [Real.log_zpow] at h1 h2
  push_cast at h1 h2
  rw [abs_le]
  constructor <;> nlinarith

/-- The logarithm of a number with a relative error. -/
theorem sized_ln (h : Acc x s n a b) (h0 : 0 < s) (hn : n ≤ 15) (ha : -1000 ≤ a) (hb : b ≤ 1000) :
    Sized (Elem.ln x) (Real.log s) 1 (|Real.log s| + 17) ∧ |Real.log s| ≤ 1000 := by
  have w := h.ln h0 (by linarith) ha hb
  have l := acc_log_le h h0 ha hb
  have big : (1017 : ℝ) ≤ 2 ^ (590 : ℤ) := by
    calc (1017 : ℝ) ≤ 2 ^ (10 : ℤ) := by norm_num
      _ ≤ _ := two_zpow_mono (by norm_num)
  have l0 := abs_nonneg (Real.log s)
  refine ⟨⟨w.mono (mul_le_mul_of_nonneg_left (by linarith) (eps_pos P).le), by linarith, lo_of_one (by linarith), le_trans (by linarith) big, by norm_num,
    by norm_num⟩, l⟩

theorem acc_half : Acc (0.5 : F64 P) (0.5 : ℝ) 1 (-1) 0 := by
  refine acc_lit ?_ ?_ (by norm_num) (by norm_num) <;> norm_num

/-- The Gibbs energy of a link of the extensible chain. -/
theorem sized_efjc (hy : Acc y η n (-100) 100) (h0 : 0 < η) (h600 : η ≤ 600) (hn0 : 0 ≤ n) (hn : n ≤ 9) (hz : Acc z κ 7 (-100) 100) (hκ : 0 < κ)
    {u v : F64 P} (hu : Sized u s 1 (|s| + 17)) (hs : |s| ≤ 1000) (hv : Sized v t 1 (|t| + 24)) (ht : |t| ≤ 1000) :
    Sized ((-Elem.ln (Elem.sinh y / y)) - 0.5 * Elem.powi y 2 / z - 0.5 * u - v)
      ((-Elem.ln (Elem.sinh η / η)) - 0.5 * Elem.powi η 2 / κ - 0.5 * s - t) 38 (η + η ^ 2 / (2 * κ) + |s| / 2 + |t| + 40) ∧
    (2 : ℝ) ^ (0 : ℤ) ≤ η + η ^ 2 / (2 * κ) + |s| / 2 + |t| + 40 ∧ η + η ^ 2 / (2 * κ) + |s| / 2 + |t| + 40 ≤ 2 ^ (190 : ℤ) := by
  have k1 := (sized_free hy h0 h600 hn0 hn (by norm_num)).neg
  have y2 := hy.sq (by linarith) (by norm_num) (by norm_num)
  have h600' : (2 : ℝ) ^ (10 : ℤ) = 1024 := by norm_num
  have a2 := Acc.div (Acc.mul acc_half y2 (by linarith) (by norm_num) (by norm_num)) hz (by linarith) (by norm_num) (by norm_num)
  have k2 := a2.sized (by linarith) (by linarith) (by norm_num) (by norm_num)
  have e2 : |0.5 * Elem.powi η 2 / κ| = η ^ 2 / (2 * κ) := by
    rw [powi_two, abs_of_pos (by positivity)]; field_simp; norm_num
  rw [e2] at k2
  have hQ : 0 < η ^ 2 / (2 * κ) := by positivity
  have hQ' : η ^ 2 / (2 * κ) ≤ 2 ^ (180 : ℤ) := by
    have lo := hz.lo
    rw [abs_of_pos hκ] at lo
    have h1 : η ^ 2 ≤ 2 ^ (20 : ℤ) := by
      calc η ^ 2 ≤ 600 ^ 2 := by gcongr
        _ ≤ _ := by norm_num
    calc η ^ 2 / (2 * κ) ≤ 2 ^ (20 : ℤ) / (2 ^ (-100 : ℤ)) := div_le_div₀ (by positivity) h1 (by positivity) (by linarith)
      _ = 2 ^ (120 : ℤ) := by rw [← zpow_sub₀ (by norm_num)]; norm_num
      _ ≤ _ := two_zpow_mono (by norm_num)
  have s0 := abs_nonneg s
  have t0 := abs_nonneg t
  have big : (1e6 : ℝ) ≤ 2 ^ (180 : ℤ) := by
    calc (1e6 : ℝ) ≤ 2 ^ (20 : ℤ) := by norm_num
      _ ≤ _ := two_zpow_mono (by norm_num)
  have h190 : (2 : ℝ) ^ (190 : ℤ) = 1024 * 2 ^ (180 : ℤ) := by
    rw [show (190 : ℤ) = 10 + 180 by norm_num, zpow_add₀ (by norm_num)]; norm_num
  have hM : η + η ^ 2 / (2 * κ) + |s| / 2 + |t| + 40 ≤ 2 ^ (190 : ℤ) := by
    rw [h190]
    clear h190
    generalize (2 : ℝ) ^ (180 : ℤ) = A at *
    linarith
  have h590 : (2 : ℝ) ^ (190 : ℤ) ≤ 2 ^ (590 : ℤ) := two_zpow_mono (by norm_num)
  have up : ∀ {M : ℝ}, M ≤ η + η ^ 2 / (2 * κ) + |s| / 2 + |t| + 40 → M ≤ 2 ^ (590 : ℤ) := fun h => h.trans (hM.trans h590)
  have e3 : |(0.5 : ℝ)| = 1 / 2 := by norm_num
  have k3 := hu.mul (acc_half (P := P)) (by norm_num) (by norm_num) (by norm_num) (by rw [e3]; exact lo_of_one (by linarith)) (by rw [e3]; exact up (by linarith))
    (by norm_num)
  rw [e3] at k3
  have j2 := k2.weaken (q' := 32) (by linarith) (by norm_num) rfl le_rfl k2.hi
  have j3 := k3.weaken (q' := 34) (by norm_num) (by norm_num) rfl le_rfl k3.hi
  have j4 := hv.weaken (q' := 36) (by norm_num) (by norm_num) rfl le_rfl hv.hi
  have r1 := k1.sub j2 (up (by linarith)) (by norm_num) (by norm_num)
  have r2 := r1.sub j3 (up (by linarith)) (by norm_num) (by norm_num)
  have r3 := r2.sub j4 (up (by linarith)) (by norm_num) (by norm_num)
  refine ⟨r3.weaken (by norm_num) (by norm_num) rfl (by linarith) (hM.trans h590), by rw [zpow_zero]; linarith, hM⟩

theorem sized_hinge (hℓ : Moderate ℓ) (hm : Moderate m) (hm0 : 0 < m) (hT : Moderate T) (hT0 : 0 < T) :
    Sized (Elem.ln (8.0 * Elem.powi (Elem.pi : F64 P) 2 * (.fin m) * Elem.powi (.fin ℓ) 2 * (Polymers.BOLTZMANN_CONSTANT : F64 P) * (.fin T) /
      Elem.powi (Polymers.PLANCK_CONSTANT : F64 P) 2)) (logRatio ℓ m T) 1 (|logRatio ℓ m T| + 24) ∧ |logRatio ℓ m T| ≤ 1000 := by
  obtain ⟨w, l⟩ := within_logRatio (P := P) hℓ hm hm0 hT hT0
  have l0 := abs_nonneg (logRatio ℓ m T)
  have big : (1024 : ℝ) ≤ 2 ^ (590 : ℤ) := by
    calc (1024 : ℝ) ≤ 2 ^ (10 : ℤ) := by norm_num
      _ ≤ _ := two_zpow_mono (by norm_num)
  exact ⟨⟨by rwa [one_mul], by linarith, lo_of_one (by linarith), le_trans (by linarith) big, by norm_num, by norm_num⟩, l⟩

theorem acc_two : Acc (2.0 : F64 P) (2.0 : ℝ) 1 1 1 := by
  refine acc_lit ?_ ?_ (by norm_num) (by norm_num) <;> norm_num

/-- The nondimensional Gibbs energy per link. -/
theorem sized_efjc_nondimensional (hℓ : Moderate ℓ) (hℓ0 : 0 < ℓ) (hm : Moderate m) (hm0 : 0 < m) (hT : Moderate T) (hT0 : 0 < T)
    (hy : Acc y η n (-100) 100) (h0 : 0 < η) (h600 : η ≤ 600) (hn0 : 0 ≤ n) (hn : n ≤ 9) (hz : Acc z κ 7 (-100) 100) (hκ : 0 < κ) :
    Sized (reduced.nondimensional_gibbs_free_energy_per_link (.fin ℓ) (.fin m) z y (.fin T)) (reduced.nondimensional_gibbs_free_energy_per_link ℓ m κ η T) 38
      (efjcGibbsSize ℓ m κ T η) ∧ (2 : ℝ) ^ (0 : ℤ) ≤ efjcGibbsSize ℓ m κ T η ∧ efjcGibbsSize ℓ m κ T η ≤ 2 ^ (190 : ℤ) := by
  have as := acc_two (P := P) ⊗ acc_pi ⊗ (acc_moderate hℓ).sq (by norm_num) (by norm_num) (by norm_num) ⊘ hz
  have e : 2.0 * Real.pi * Elem.powi ℓ 2 / κ = 2 * Real.pi * ℓ ^ 2 / κ := by rw [powi_two]; norm_num
  obtain ⟨hu, hs⟩ := sized_ln as (by rw [e]; positivity) (by norm_num) (by norm_num) (by norm_num)
  obtain ⟨hv, ht⟩ := sized_hinge (P := P) hℓ hm hm0 hT hT0
  have k := sized_efjc hy h0 h600 hn0 hn hz hκ hu hs hv ht
  rw [hingeLog_eq, e] at k
  unfold efjcGibbsSize
  rw [← e] at k ⊢
  rw [← hingeLog_eq] at k ⊢
  exact k

/-- The Gibbs energy per link. -/
theorem sized_efjc_gibbs (hℓ : Moderate ℓ) (hℓ0 : 0 < ℓ) (hm : Moderate m) (hm0 : 0 < m) (hc : Moderate c) (hc0 : 0 < c) (hT : Moderate T) (hT0 : 0 < T)
    (hx : Acc x f n a b) (hn0 : 0 ≤ n) (hn : n ≤ 5) (ha : -400 ≤ a) (hb : b ≤ 400) (hη : η = f * ℓ / (Polymers.BOLTZMANN_CONSTANT * T)) (hη' : Moderate η)
    (h0 : 0 < η) (h600 : η ≤ 600) (hκ : κ = c * ℓ ^ 2 / (Polymers.BOLTZMANN_CONSTANT * T)) (hκ' : Moderate κ) :
    ∃ (u : F64 P) (r : ℝ), Sized u r 38 (efjcGibbsSize ℓ m κ T η) ∧ (2 : ℝ) ^ (0 : ℤ) ≤ efjcGibbsSize ℓ m κ T η ∧ efjcGibbsSize ℓ m κ T η ≤ 2 ^ (190 : ℤ) ∧
      (∀ N : ℕ, reduced.gibbs_free_energy N (.fin ℓ) (.fin m) (.fin c) x (.fin T) = (N : F64 P) * (Polymers.BOLTZMANN_CONSTANT : F64 P) * .fin T * u) ∧
      (∀ N : ℕ, reduced.gibbs_free_energy N ℓ m c f T = N * (Polymers.BOLTZMANN_CONSTANT : ℝ) * T * r) ∧
      reduced.gibbs_free_energy_per_link (.fin ℓ) (.fin m) (.fin c) x (.fin T) = (Polymers.BOLTZMANN_CONSTANT : F64 P) * .fin T * u ∧
      reduced.gibbs_free_energy_per_link ℓ m c f T = (Polymers.BOLTZMANN_CONSTANT : ℝ) * T * r := by
  have hk0 := boltzmann_pos
  have aT := acc_moderate (P := P) hT
  have aℓ := acc_moderate (P := P) hℓ
  have hκ0 : 0 < κ := by rw [hκ]; positivity
  have az := acc_stiffness (P := P) hc hℓ hT
  have ay := Acc.div (Acc.div (Acc.mul hx aℓ (by linarith) (by omega) (by omega)) acc_boltzmann (by linarith) (by omega) (by omega)) aT (by linarith) (by omega)
    (by omega)
  have e1 : f * ℓ / (Polymers.BOLTZMANN_CONSTANT : ℝ) / T = η := by rw [hη, div_div]
  have e2 := stiffness_eq hκ
  have hz : Acc _ (c * Elem.powi ℓ 2 / (Polymers.BOLTZMANN_CONSTANT : ℝ) / T) 7 (-100) 100 := ⟨az.rel, by rw [e2]; exact hκ'.1, by rw [e2]; exact hκ'.2⟩
  have hy : Acc _ (f * ℓ / (Polymers.BOLTZMANN_CONSTANT : ℝ) / T) (n + 4) (-100) 100 :=
    ⟨ay.rel.mono (mul_le_mul_of_nonneg_right (by linarith) (unit_pos P).le), by rw [e1]; exact hη'.1, by rw [e1]; exact hη'.2⟩
  have as := acc_two (P := P) ⊗ acc_pi ⊗ acc_boltzmann ⊗ aT ⊘ acc_moderate hc
  have e : 2.0 * Real.pi * (Polymers.BOLTZMANN_CONSTANT : ℝ) * T / c = 2 * Real.pi * ℓ ^ 2 / κ := by
    rw [hκ, show (2.0 : ℝ) = 2 by norm_num]; field_simp
  obtain ⟨hu, hs⟩ := sized_ln as (by rw [e]; positivity) (by norm_num) (by norm_num) (by norm_num)
  obtain ⟨hv, ht⟩ := sized_hinge (P := P) hℓ hm hm0 hT hT0
  have k := sized_efjc hy (by rwa [e1]) (by rwa [e1]) (by linarith) (by linarith) hz (by rwa [e2]) hu hs hv ht
  have eM : f * ℓ / (Polymers.BOLTZMANN_CONSTANT : ℝ) / T + (f * ℓ / (Polymers.BOLTZMANN_CONSTANT : ℝ) / T) ^ 2 / (2 * (c * Elem.powi ℓ 2 /
      (Polymers.BOLTZMANN_CONSTANT : ℝ) / T)) + |Real.log (2.0 * Real.pi * (Polymers.BOLTZMANN_CONSTANT : ℝ) * T / c)| / 2 + |logRatio ℓ m T| + 40 =
      efjcGibbsSize ℓ m κ T η := by
    rw [e, e1, e2, hingeLog_eq]; rfl
  rw [eM] at k
  exact ⟨_, _, k.1, k.2.1, k.2.2, fun _ => rfl, fun _ => rfl, rfl, rfl⟩

theorem zero_lit : Acc (Polymers.ZERO : F64 P) (Polymers.ZERO : ℝ) 1 (-20) (-19) := by
  refine acc_lit ?_ ?_ (by norm_num) (by norm_num) <;> norm_num

theorem moderate_zero : Moderate 1e-6 := by
  constructor <;> norm_num

/-- C98: the Gibbs energies of the extensible chain under a force with `f ℓ ≤ 600 k T`. -/
theorem C98_efjc_gibbs (P : Platform) (hN : 0 < N) (hN' : N ≤ 255) (hℓ : Moderate ℓ) (hℓ0 : 0 < ℓ) (hm : Moderate m) (hm0 : 0 < m) (hc : Moderate c) (hc0 : 0 < c)
    (hf : Moderate f) (hT : Moderate T) (hT0 : 0 < T) {k : ℝ} (hk : k = Polymers.BOLTZMANN_CONSTANT) (hη : η = f * ℓ / (k * T))
    (hη' : Moderate η) (h0 : 0 < η) (h600 : η ≤ 600) (hκ : κ = c * ℓ ^ 2 / (k * T)) (hκ' : Moderate κ)
    {F : ApiF.EnergyMethodsF P} (hF : F = ApiF.efjc_isotensional_asymptotic_reduced_gibbs N (.fin ℓ) (.fin m) (.fin c))
    {R : EnergyMethods} (hR : R = Api.efjc_isotensional_asymptotic_reduced_gibbs N ℓ m c) :
    Within (F.energy (.fin f) (.fin T)) (R.energy f T) (P.ε * (46 * (N * (k * T) * efjcGibbsSize ℓ m κ T η))) ∧
    Within (F.energy_per_link (.fin f) (.fin T)) (R.energy_per_link f T) (P.ε * (46 * (k * T * efjcGibbsSize ℓ m κ T η))) ∧
    Within (F.relative (.fin f) (.fin T)) (R.relative f T) (P.ε * (48 * (N * (k * T) * (efjcGibbsSize ℓ 1 κ T η + efjcGibbsSize ℓ 1 κ T 1e-6)))) ∧
    Within (F.relative_per_link (.fin f) (.fin T)) (R.relative_per_link f T)
      (P.ε * (48 * (k * T * (efjcGibbsSize ℓ 1 κ T η + efjcGibbsSize ℓ 1 κ T 1e-6)))) := by
  subst hF hR hk
  have hk0 := boltzmann_pos
  have hN0 : (0 : ℝ) < N := by exact_mod_cast hN
  have aN := acc_nat (P := P) hN hN'
  have aT := acc_moderate (P := P) hT
  have aK := acc_boltzmann (P := P)
  have a1 := aN ⊗ aK ⊗ aT
  have a2 := aK ⊗ aT
  have scale : ∀ {u : F64 P} {r M : ℝ}, Sized u r 38 M → (2 : ℝ) ^ (0 : ℤ) ≤ M → M ≤ 2 ^ (190 : ℤ) →
      Sized ((N : F64 P) * (Polymers.BOLTZMANN_CONSTANT : F64 P) * .fin T * u) (N * (Polymers.BOLTZMANN_CONSTANT : ℝ) * T * r) 46
        (N * (Polymers.BOLTZMANN_CONSTANT * T) * M) ∧ N * (Polymers.BOLTZMANN_CONSTANT * T) * M ≤ 2 ^ (500 : ℤ) ∧
      Sized ((Polymers.BOLTZMANN_CONSTANT : F64 P) * .fin T * u) ((Polymers.BOLTZMANN_CONSTANT : ℝ) * T * r) 46
        (Polymers.BOLTZMANN_CONSTANT * T * M) ∧ Polymers.BOLTZMANN_CONSTANT * T * M ≤ 2 ^ (500 : ℤ) := by
    intro u r M h lo hi
    have r1 := mul_range lo hi a1.lo a1.hi
    have r2 := mul_range lo hi a2.lo a2.hi
    have q1 := range_mono r1 (c := -1000) (d := 590) (by norm_num) (by norm_num)
    have q2 := range_mono r2 (c := -1000) (d := 590) (by norm_num) (by norm_num)
    have k1 := h.mul a1 (by norm_num) (by norm_num) (by norm_num) q1.1 q1.2 (by norm_num)
    have k2 := h.mul a2 (by norm_num) (by norm_num) (by norm_num) q2.1 q2.2 (by norm_num)
    have g1 : M * |N * (Polymers.BOLTZMANN_CONSTANT : ℝ) * T| = N * (Polymers.BOLTZMANN_CONSTANT * T) * M := by rw [abs_of_pos (by positivity)]; ring
    have g2 : M * |(Polymers.BOLTZMANN_CONSTANT : ℝ) * T| = Polymers.BOLTZMANN_CONSTANT * T * M := by rw [abs_of_pos (by positivity)]; ring
    rw [g1] at k1 r1
    rw [g2] at k2 r2
    exact ⟨k1.weaken (by norm_num) (by norm_num) rfl le_rfl k1.hi, r1.2.trans (two_zpow_mono (by norm_num)),
      k2.weaken (by norm_num) (by norm_num) rfl le_rfl k2.hi, r2.2.trans (two_zpow_mono (by norm_num))⟩
  have af := acc_moderate (P := P) hf
  obtain ⟨u, r, s1, lo1, hi1, p1, p2, p3, p4⟩ := sized_efjc_gibbs (P := P) hℓ hℓ0 hm hm0 hc hc0 hT hT0 af (by norm_num) (by norm_num) (by norm_num) (by norm_num)
    hη hη' h0 h600 hκ hκ'
  obtain ⟨u', r', s2, lo2, hi2, p5, p6, p7, p8⟩ := sized_efjc_gibbs (P := P) hℓ hℓ0 moderate_one one_pos hc hc0 hT hT0 af (by norm_num) (by norm_num)
    (by norm_num) (by norm_num) hη hη' h0 h600 hκ hκ'
  have az := zero_lit (P := P) ⊗ aK ⊗ aT ⊘ acc_moderate hℓ
  obtain ⟨v, q, s3, lo3, hi3, p9, p10, p11, p12⟩ := sized_efjc_gibbs (P := P) (η := 1e-6) hℓ hℓ0 moderate_one one_pos hc hc0 hT hT0 az (by norm_num) (by norm_num)
    (by norm_num) (by norm_num) (by unfold Polymers.ZERO; field_simp) moderate_zero (by norm_num) (by norm_num) hκ hκ'
  obtain ⟨w1, -, w2, -⟩ := scale s1 lo1 hi1
  obtain ⟨w3, b3, w4, b4⟩ := scale s2 lo2 hi2
  obtain ⟨w5, b5, w6, b6⟩ := scale s3 lo3 hi3
  have h590 : (2 : ℝ) ^ (500 : ℤ) + 2 ^ (500 : ℤ) ≤ 2 ^ (590 : ℤ) := by
    rw [← two_mul, ← zpow_one_add₀ (by norm_num)]; exact two_zpow_mono (by norm_num)
  have w7 := w3.sub w5 ((add_le_add b3 b5).trans h590) le_rfl (by norm_num)
  have w8 := w4.sub w6 ((add_le_add b4 b6).trans h590) le_rfl (by norm_num)
  rw [← mul_add] at w7 w8
  have z1 := w7.within
  have z2 := w8.within
  rw [← p5, ← p6, ← p9, ← p10] at z1
  rw [← p7, ← p8, ← p11, ← p12] at z2
  refine ⟨?_, ?_, ?_, ?_⟩
  · rw [← p1, ← p2] at w1; exact w1.within
  · rw [← p3, ← p4] at w2; exact w2.within
  · have hl : (1.0 : F64 P) = .fin 1 := lit_one
    have hl' : (1.0 : ℝ) = 1 := by norm_num
    show Within (reduced.relative_gibbs_free_energy N _ _ _ _) (reduced.relative_gibbs_free_energy N _ _ _ _) _
    unfold reduced.relative_gibbs_free_energy
    rw [hl, hl']
    norm_num at z1 ⊢
    exact z1
  · have hl : (1.0 : F64 P) = .fin 1 := lit_one
    have hl' : (1.0 : ℝ) = 1 := by norm_num
    show Within (reduced.relative_gibbs_free_energy_per_link _ _ _ _) (reduced.relative_gibbs_free_energy_per_link _ _ _ _) _
    unfold reduced.relative_gibbs_free_energy_per_link
    rw [hl, hl']
    norm_num at z2 ⊢
    exact z2

/-- C98: the nondimensional Gibbs energies of the extensible chain. -/
theorem C98_efjc_nondimensional_gibbs (P : Platform) (hN : 0 < N) (hN' : N ≤ 255) (hℓ : Moderate ℓ) (hℓ0 : 0 < ℓ) (hm : Moderate m) (hm0 : 0 < m)
    (hc : Moderate c) (hc0 : 0 < c) (hT : Moderate T) (hT0 : 0 < T) {k : ℝ} (hk : k = Polymers.BOLTZMANN_CONSTANT)
    (hη' : Moderate η) (h0 : 0 < η) (h600 : η ≤ 600) (hκ : κ = c * ℓ ^ 2 / (k * T)) (hκ' : Moderate κ)
    {F : ApiF.EnergyMethodsF P} (hF : F = ApiF.efjc_isotensional_asymptotic_reduced_gibbs N (.fin ℓ) (.fin m) (.fin c))
    {R : EnergyMethods} (hR : R = Api.efjc_isotensional_asymptotic_reduced_gibbs N ℓ m c) :
    Within (F.nd_energy (.fin η) (.fin T)) (R.nd_energy η T) (P.ε * (43 * (N * efjcGibbsSize ℓ m κ T η))) ∧
    Within (F.nd_energy_per_link (.fin η) (.fin T)) (R.nd_energy_per_link η T) (P.ε * (38 * efjcGibbsSize ℓ m κ T η)) ∧
    Within (F.nd_relative (.fin η) (.fin T)) (R.nd_relative η T) (P.ε * (45 * (N * (efjcGibbsSize 1 1 κ 300 η + efjcGibbsSize 1 1 κ 300 1e-6)))) ∧
    Within (F.nd_relative_per_link (.fin η) (.fin T)) (R.nd_relative_per_link η T)
      (P.ε * (40 * (efjcGibbsSize 1 1 κ 300 η + efjcGibbsSize 1 1 κ 300 1e-6))) := by
  subst hF hR hk
  have hk0 := boltzmann_pos
  have hN0 : (0 : ℝ) < N := by exact_mod_cast hN
  have aN := acc_nat (P := P) hN hN'
  have hκ0 : 0 < κ := by rw [hκ]; positivity
  have az := acc_stiffness (P := P) hc hℓ hT
  have e2 := stiffness_eq hκ
  have hz : Acc _ (c * Elem.powi ℓ 2 / (Polymers.BOLTZMANN_CONSTANT : ℝ) / T) 7 (-100) 100 := ⟨az.rel, by rw [e2]; exact hκ'.1, by rw [e2]; exact hκ'.2⟩
  have aη : Acc (.fin η : F64 P) η 0 (-100) 100 := acc_moderate hη'
  have a0 : Acc (Polymers.ZERO : F64 P) (Polymers.ZERO : ℝ) 1 (-100) 100 := ⟨zero_lit.rel, by unfold Polymers.ZERO; exact moderate_zero.1,
    by unfold Polymers.ZERO; exact moderate_zero.2⟩
  have z0 : (0 : ℝ) < Polymers.ZERO := by unfold Polymers.ZERO; norm_num
  have z1 : (Polymers.ZERO : ℝ) ≤ 600 := by unfold Polymers.ZERO; norm_num
  have scale : ∀ {u : F64 P} {r M : ℝ}, Sized u r 38 M → (2 : ℝ) ^ (0 : ℤ) ≤ M → M ≤ 2 ^ (190 : ℤ) →
      Sized ((N : F64 P) * u) (N * r) 43 (N * M) ∧ N * M ≤ 2 ^ (500 : ℤ) := by
    intro u r M h lo hi
    have r1 := mul_range lo hi aN.lo aN.hi
    have q1 := range_mono r1 (c := -1000) (d := 590) (by norm_num) (by norm_num)
    have k1 := h.mul aN (by norm_num) (by norm_num) (by norm_num) q1.1 q1.2 (by norm_num)
    rw [Nat.abs_cast, mul_comm M] at k1 r1
    exact ⟨k1.weaken (by norm_num) (by norm_num) rfl le_rfl k1.hi, r1.2.trans (two_zpow_mono (by norm_num))⟩
  obtain ⟨s1, lo1, hi1⟩ := sized_efjc_nondimensional hℓ hℓ0 hm hm0 hT hT0 aη h0 h600 (by norm_num) (by norm_num) hz (by rwa [e2])
  obtain ⟨s2, lo2, hi2⟩ := sized_efjc_nondimensional moderate_one one_pos moderate_one one_pos moderate_300 (by norm_num) aη h0 h600 (by norm_num) (by norm_num) hz
    (by rwa [e2])
  obtain ⟨s3, lo3, hi3⟩ := sized_efjc_nondimensional moderate_one one_pos moderate_one one_pos moderate_300 (by norm_num) a0 z0 z1 (by norm_num) (by norm_num) hz
    (by rwa [e2])
  obtain ⟨w1, -⟩ := scale s1 lo1 hi1
  obtain ⟨w2, b2⟩ := scale s2 lo2 hi2
  obtain ⟨w3, b3⟩ := scale s3 lo3 hi3
  have h590 : (2 : ℝ) ^ (500 : ℤ) + 2 ^ (500 : ℤ) ≤ 2 ^ (590 : ℤ) := by
    rw [← two_mul, ← zpow_one_add₀ (by norm_num)]; exact two_zpow_mono (by norm_num)
  have h500 : (2 : ℝ) ^ (190 : ℤ) ≤ 2 ^ (500 : ℤ) := two_zpow_mono (by norm_num)
  have w4 := w2.sub w3 ((add_le_add b2 b3).trans h590) le_rfl (by norm_num)
  have w5 := s2.sub s3 ((add_le_add (hi2.trans h500) (hi3.trans h500)).trans h590) le_rfl (by norm_num)
  rw [← mul_add] at w4
  have y1 := w1.within
  have y2 := s1.within
  have y4 := w4.within
  have y5 := w5.within
  rw [show (43 : ℝ) + 2 = 45 by norm_num] at y4
  rw [show (38 : ℝ) + 2 = 40 by norm_num] at y5
  rw [← e2]
  refine ⟨y1, y2, ?_, ?_⟩
  · show Within (reduced.nondimensional_relative_gibbs_free_energy N _ _) (reduced.nondimensional_relative_gibbs_free_energy N _ _) _
    unfold reduced.nondimensional_relative_gibbs_free_energy
    rw [lit_one, lit_300, show (1.0 : ℝ) = 1 by norm_num, show (300.0 : ℝ) = 300 by norm_num]
    exact y4
  · show Within (reduced.nondimensional_relative_gibbs_free_energy_per_link _ _) (reduced.nondimensional_relative_gibbs_free_energy_per_link _ _) _
    unfold reduced.nondimensional_relative_gibbs_free_energy_per_link
    rw [lit_one, lit_300, show (1.0 : ℝ) = 1 by norm_num, show (300.0 : ℝ) = 300 by norm_num]
    exact y5

/-- Not vacuous: twenty links of unit length with stiffness `50000` under the force `5000` at 300 K on a correctly rounded machine. -/
example : Within ((ApiF.efjc_isotensional_asymptotic_reduced_gibbs 20 (.fin 1 : F64 correctlyRounded) (.fin 1) (.fin 50000)).relative (.fin 5000) (.fin 300))
    ((Api.efjc_isotensional_asymptotic_reduced_gibbs 20 1 1 50000).relative 5000 300)
    (correctlyRounded.ε * (48 * ((20 : ℕ) * ((Polymers.BOLTZMANN_CONSTANT : ℝ) * 300) *
      (efjcGibbsSize 1 1 (50000 * 1 ^ 2 / (Polymers.BOLTZMANN_CONSTANT * 300)) 300 (5000 * 1 / (Polymers.BOLTZMANN_CONSTANT * 300)) +
        efjcGibbsSize 1 1 (50000 * 1 ^ 2 / (Polymers.BOLTZMANN_CONSTANT * 300)) 300 1e-6)))) :=
  (C98_efjc_gibbs correctlyRounded (by norm_num) (by norm_num) moderate_one one_pos moderate_one one_pos ⟨by norm_num, by norm_num⟩ (by norm_num)
    ⟨by norm_num, by norm_num⟩ moderate_300 (by norm_num) rfl rfl
    (by unfold Polymers.BOLTZMANN_CONSTANT; constructor <;> norm_num) (by unfold Polymers.BOLTZMANN_CONSTANT; norm_num)
    (by unfold Polymers.BOLTZMANN_CONSTANT; norm_num) rfl (by unfold Polymers.BOLTZMANN_CONSTANT; constructor <;> norm_num) rfl rfl).2.2.1

end Polymers.Props
