import Verif.Props.IeeeEfjc
import Verif.Spec.IeeeMorse

/-! C101: the lengths of the freely jointed chain with Morse links at fixed force in floating point, in the reduced approach. -/

namespace Polymers.Props

open Polymers.Ieee Polymers.Spec Polymers.Lemmas

variable {P : Platform} {N : ℕ} {ℓ m c E T f η κ u n r s t : ℝ} {a b : ℤ} {x y z w : F64 P}

local macro:70 a:term:70 " ⊗ " b:term:71 : term => `(Acc.mul $a $b (by norm_num) (by norm_num) (by norm_num))
local macro:70 a:term:70 " ⊘ " b:term:71 : term => `(Acc.div $a $b (by norm_num) (by norm_num) (by norm_num))

theorem _root_.Polymers.Lemmas.Acc.sqrt (hx : Acc x r n (2 * a) (2 * b)) (hr : 0 < r) (hn : n ≤ 100000) (ha : -1000 ≤ a) (hb : b ≤ 1000) :
    Acc (Elem.sqrt x) (√r) (n / 2 + 1) a b := by
  obtain ⟨h, lo, hi⟩ := hx
  rw [abs_of_pos hr] at lo hi
  have e : ∀ k : ℤ, ((2 : ℝ) ^ k) ^ 2 = 2 ^ (2 * k) := fun k => by rw [pow_two, ← zpow_add₀ (by norm_num)]; congr 1; ring
  have l : (2 : ℝ) ^ a ≤ √r := Real.le_sqrt_of_sq_le (by rw [e]; exact lo)
  have u : √r ≤ 2 ^ b := (Real.sqrt_le_left (by positivity)).2 (by rw [e]; exact hi)
  refine ⟨(rel_sqrt h hr (units_le_one P hn) ((two_zpow_mono ha).trans l) (u.trans (two_zpow_mono hb))).mono (le_of_eq (by ring)), ?_, ?_⟩
  · rwa [abs_of_nonneg (Real.sqrt_nonneg r)]
  · rwa [abs_of_nonneg (Real.sqrt_nonneg r)]

theorem acc_one : Acc (1.0 : F64 P) (1.0 : ℝ) 1 0 0 := by
  refine acc_lit ?_ ?_ (by norm_num) (by norm_num) <;> norm_num

theorem sized_one : Sized (1.0 : F64 P) (1.0 : ℝ) 2 1 := by
  have k := (acc_one (P := P)).sized (by norm_num) (by norm_num) (by norm_num) (by norm_num)
  rw [show |(1.0 : ℝ)| = 1 by norm_num] at k
  exact k.weaken (by norm_num) (by norm_num) rfl le_rfl k.hi

/-- The root in the extension of a Morse link: the error grows as the force comes close to the largest force. -/
theorem sized_morse_root (hq : Acc x t n a b) (h0 : 0 < t) (hn1 : 1 ≤ n) (hn : n ≤ 18) (ha : -1000 ≤ a) (hb : b ≤ 590) (h1 : P.ε * 1000 ≤ 1 - t) :
    Sized (Elem.sqrt ((1.0 : F64 P) - x)) (√(1 - t)) (3 * n + 6) (1 / √(1 - t)) ∧ 0 < √(1 - t) ∧ √(1 - t) ≤ 1 ∧ P.ε * 1000 ≤ √(1 - t) ∧
      1 / √(1 - t) ≤ 2 ^ (53 : ℤ) := by
  have hn0 : 0 ≤ n := by linarith
  have hp := eps_pos P
  have hsm := eps_small P
  have ht : 0 < 1 - t := by nlinarith
  have big : ∀ {v : ℝ}, v ≤ 4 → v ≤ (2 : ℝ) ^ (590 : ℤ) := fun h => h.trans (by rw [show (4 : ℝ) = 2 ^ (2 : ℤ) by norm_num]; exact two_zpow_mono (by norm_num))
  have k2 := hq.sized hn0 (by linarith) ha hb
  rw [abs_of_pos h0] at k2
  have k3 := sized_one.sub (k2.weaken (q' := n + 2) (by linarith) (by linarith) rfl (by linarith : t ≤ 1) (big (by norm_num))) (big (by norm_num)) (by linarith)
    (by linarith)
  rw [show (1.0 : ℝ) - t = 1 - t by norm_num] at k3
  have hn' : P.ε * n ≤ P.ε * 18 := mul_le_mul_of_nonneg_left hn hp.le
  have r1 := k3.rel ht (by linarith)
  obtain ⟨s, hs⟩ : ∃ s, s = √(1 - t) := ⟨_, rfl⟩
  have hs0 : 0 < s := by rw [hs]; exact Real.sqrt_pos.2 ht
  have hss : s * s = 1 - t := by rw [hs]; exact Real.mul_self_sqrt ht.le
  have hs1 : s ≤ 1 := by nlinarith
  have hsl : P.ε * 1000 ≤ s := by nlinarith
  obtain ⟨d, hd⟩ : ∃ d, d = P.ε / (1 - t) := ⟨_, rfl⟩
  have hd1 : d ≤ 1 / 1000 := by rw [hd, div_le_iff₀ ht]; linarith
  have hd0 : 0 < d := by rw [hd]; positivity
  have hnd : n * d ≤ 18 * d := mul_le_mul_of_nonneg_right hn hd0.le
  have hnd0 : 0 ≤ n * d := by positivity
  have e1 : P.ε * (4 / 3 * ((n + 2 + 2) * (1 + 1) / (1 - t))) = 8 / 3 * ((n + 4) * d) := by rw [hd]; ring
  rw [e1] at r1
  have sl : (2 : ℝ) ^ (-53 : ℤ) ≤ s := P.le_ε.trans (by linarith)
  have r2 := rel_sqrt r1 ht (by linarith) (by rw [← hs]; exact (two_zpow_mono (by norm_num)).trans sl)
    (by rw [← hs]; exact hs1.trans (one_le_zpow₀ (by norm_num) (by norm_num)))
  rw [← hs] at r2 ⊢
  have hu := unit_le P
  have hu0 := unit_pos P
  obtain ⟨δ, hδ, hv⟩ := r2
  have i1 : 1 ≤ 1 / s := by rw [le_div_iff₀ hs0]; linarith
  have i2 : 1 / s ≤ 2 ^ (53 : ℤ) := by
    rw [show (53 : ℤ) = - -53 by norm_num, zpow_neg, ← one_div]; exact one_div_le_one_div_of_le (by positivity) sl
  refine ⟨⟨⟨_, hv, ?_⟩, ?_, lo_of_one i1, i2.trans (two_zpow_mono (by norm_num)), by linarith, by linarith⟩, hs0, hs1, hsl, i2⟩
  · have hδ' : |δ| ≤ 4 / 3 * ((n + 4) * d) + 1.01 * P.ε := by linarith
    have h3 : |Real.exp δ - 1| ≤ 1.1 * |δ| := by
      have h31 : |δ| ≤ 0.05 := by linarith
      have h32 := Real.abs_exp_sub_one_sub_id_le (x := δ) (by linarith)
      have h33 : |Real.exp δ - 1| ≤ |Real.exp δ - 1 - δ| + |δ| := by
        have := abs_add_le (Real.exp δ - 1 - δ) δ
        rwa [show Real.exp δ - 1 - δ + δ = Real.exp δ - 1 by ring] at this
      have h34 : δ ^ 2 ≤ 0.05 * |δ| := by rw [← sq_abs, pow_two]; exact mul_le_mul_of_nonneg_right h31 (abs_nonneg δ)
      linarith [abs_nonneg δ]
    rw [show s * Real.exp δ - s = s * (Real.exp δ - 1) by ring, abs_mul, abs_of_pos hs0]
    have h4 : s * |Real.exp δ - 1| ≤ s * (1.1 * (4 / 3 * ((n + 4) * d) + 1.01 * P.ε)) := mul_le_mul_of_nonneg_left (by linarith) hs0.le
    refine h4.trans ?_
    have e2 : s * d = P.ε * (1 / s) := by rw [hd, ← hss]; field_simp
    have e3 : s * (1.1 * (4 / 3 * ((n + 4) * d) + 1.01 * P.ε)) = 4.4 / 3 * (n + 4) * (P.ε * (1 / s)) + 1.111 * (P.ε * s) := by rw [← e2]; ring
    have h5 : P.ε * s ≤ P.ε * (1 / s) := mul_le_mul_of_nonneg_left (hs1.trans i1) hp.le
    have h6 : 0 < P.ε * (1 / s) := mul_pos hp (one_div_pos.2 hs0)
    have h7 : P.ε * (1 / s) ≤ n * (P.ε * (1 / s)) := le_mul_of_one_le_left h6.le hn1
    rw [e3]
    linarith
  · rw [abs_of_pos hs0]; exact hs1.trans i1

/-- The logarithm of the extension. -/
theorem sized_morse_log (hq : Acc x t n a b) (h0 : 0 < t) (hn1 : 1 ≤ n) (hn : n ≤ 18) (ha : -1000 ≤ a) (hb : b ≤ 590) (h1 : P.ε * 1000 ≤ 1 - t) :
    Sized ((1.0 : F64 P) + Elem.sqrt ((1.0 : F64 P) - x)) (1 + √(1 - t)) (3 * n + 8) (1 + 1 / √(1 - t)) ∧
    Sized (Elem.ln ((2.0 : F64 P) / (1.0 + Elem.sqrt ((1.0 : F64 P) - x)))) (Real.log (2.0 / (1.0 + √(1 - t)))) (4 * n + 15) (1 / √(1 - t)) := by
  have hn0 : 0 ≤ n := by linarith
  obtain ⟨k, s0, s1, sl, su⟩ := sized_morse_root hq h0 hn1 hn ha hb h1
  generalize √(1 - t) = s at *
  have hp := eps_pos P
  have hsm := eps_small P
  have i0 : 0 < 1 / s := by positivity
  have i1 : 1 ≤ 1 / s := by rw [le_div_iff₀ s0]; linarith
  have up : 1 / s ≤ 2 ^ (590 : ℤ) := su.trans (two_zpow_mono (by norm_num))
  have k2 := ((sized_one (P := P)).weaken (q' := 3 * n + 6) (by linarith) (by linarith) rfl le_rfl (sized_one (P := P)).hi).add k
    (by
      refine le_trans (b := 2 * 2 ^ (53 : ℤ)) (by linarith) ?_
      rw [show 2 * (2 : ℝ) ^ (53 : ℤ) = 2 ^ (54 : ℤ) by norm_num]; exact two_zpow_mono (by norm_num)) (by linarith)
  rw [show (1.0 : ℝ) + s = 1 + s by norm_num] at k2 ⊢
  obtain ⟨d, hd⟩ : ∃ d, d = P.ε * (1 / s) := ⟨_, rfl⟩
  have hε : d ≤ 1 / 1000 := by rw [hd, mul_one_div, div_le_iff₀ s0]; linarith
  have hd0 : 0 < d := by rw [hd]; positivity
  have hnd : n * d ≤ 18 * d := mul_le_mul_of_nonneg_right hn hd0.le
  have hnd0 : 0 ≤ n * d := by positivity
  have hne : n * P.ε ≤ 18 * P.ε := mul_le_mul_of_nonneg_right hn hp.le
  have r := k2.rel (by linarith) (by
    have : P.ε * ((3 * n + 6 + 2) * (1 + 1 / s)) = (3 * n + 8) * P.ε + (3 * n + 8) * d := by rw [hd]; ring
    rw [this]; linarith)
  have e1 : P.ε * (4 / 3 * ((3 * n + 6 + 2) * (1 + 1 / s) / (1 + s))) = 4 / 3 * ((3 * n + 8) * d) := by rw [hd]; field_simp; ring
  rw [e1] at r
  have hu := unit_le P
  have hu0 := unit_pos P
  have g1 : 1 ≤ 2.0 / (1 + s) := by rw [le_div_iff₀ (by linarith)]; norm_num; linarith
  have g2 : 2.0 / (1 + s) ≤ 2 := by rw [div_le_iff₀ (by linarith)]; norm_num; linarith
  have g0 : 0 < 2.0 / (1 + s) := by linarith
  have h4 : (1 : ℝ) * 4 ≤ 2 ^ (1000 : ℤ) := by
    rw [show (1 : ℝ) * 4 = 2 ^ (2 : ℤ) by norm_num]; exact two_zpow_mono (by norm_num)
  have r2 := rel_div (acc_two (P := P)).rel r (by linarith) (by rw [abs_of_pos g0]; exact lo_of_one g1)
    (by rw [abs_of_pos g0]; exact (by linarith : 2.0 / (1 + s) ≤ 1 * 4).trans h4)
  have l0 := Real.log_nonneg g1
  have l1 : Real.log (2.0 / (1 + s)) ≤ 1 := by
    have := Real.log_le_log g0 g2
    linarith [Real.log_two_lt_d9]
  have w := within_ln r2 g0 (by rw [abs_of_nonneg l0]; refine le_trans ?_ h4; linarith)
  rw [abs_of_nonneg l0] at w
  refine ⟨k2.weaken (by linarith) (by linarith) rfl le_rfl k2.hi, w.mono ?_, by rw [abs_of_nonneg l0]; linarith, lo_of_one i1, up, by linarith, by linarith⟩
  have ht : (2 : ℝ) ^ (-1022 : ℤ) ≤ 1 / 4 := by
    calc (2 : ℝ) ^ (-1022 : ℤ) ≤ 2 ^ (-2 : ℤ) := two_zpow_mono (by norm_num)
      _ = 1 / 4 := by norm_num
  have h5 : P.ε ≤ d := by rw [hd]; exact le_mul_of_one_le_right hp.le i1
  have h6 : P.ε * (Real.log (2.0 / (1 + s)) + (1 * unit P + 4 / 3 * ((3 * n + 8) * d) + unit P) + 2 ^ (-1022 : ℤ)) ≤ P.ε * 1.5 := by
    refine mul_le_mul_of_nonneg_left ?_ hp.le
    linarith
  have e4 : P.ε * ((4 * n + 15) * (1 / s)) = (4 * n + 15) * d := by rw [hd]; ring
  rw [e4]
  linarith

/-- The nondimensional length per link. -/
theorem sized_morse_length (hy : Acc y η n (-100) 100) (h0 : 0 < η) (hn0 : 0 ≤ n) (hn : n ≤ 4) (hz : Acc z κ 7 (-100) 100) (hκ : 0 < κ) (hw : Acc w u 4 (-100) 100)
    (hu : 0 < u) (h1 : P.ε * 1000 ≤ 1 - η / morseForceMax κ u) :
    Sized ((1.0 : F64 P) / Elem.tanh y - 1.0 / y + Elem.sqrt (2.0 * w / z) * Elem.ln (2.0 / (1.0 + Elem.sqrt (1.0 - y / Elem.sqrt (w * z / 8.0)))))
      (1.0 / Real.tanh η - 1.0 / η + √(2.0 * u / κ) * Real.log (2.0 / (1.0 + √(1.0 - η / √(u * κ / 8.0))))) 82 (morseLengthSize κ u η) ∧
    (2 : ℝ) ^ (0 : ℤ) ≤ morseLengthSize κ u η ∧ morseLengthSize κ u η ≤ 2 ^ (221 : ℤ) := by
  have hM : √(u * κ / 8.0) = morseForceMax κ u := by unfold morseForceMax; norm_num
  have p1 := hw ⊗ hz ⊘ acc_eight
  have aM := Acc.sqrt (a := -102) (b := 99) (n := 14) ⟨p1.rel.mono (mul_le_mul_of_nonneg_right (by norm_num) (unit_pos P).le),
    (two_zpow_mono (by norm_num)).trans p1.lo, p1.hi.trans (two_zpow_mono (by norm_num))⟩ (by positivity) (by norm_num) (by norm_num) (by norm_num)
  have hM0 : 0 < √(u * κ / 8.0) := Real.sqrt_pos.2 (by positivity)
  have at' := Acc.div hy aM (by linarith) (by norm_num) (by norm_num)
  have k2' := (sized_morse_log at' (by positivity) (by linarith) (by linarith) (by norm_num) (by norm_num) (by rw [hM]; exact h1)).2
  have k2 := k2'.weaken (q' := 67) (by linarith) (by norm_num) rfl le_rfl k2'.hi
  have su := (sized_morse_root at' (by positivity) (by linarith) (by linarith) (by norm_num) (by norm_num) (by rw [hM]; exact h1)).2
  have p2 := acc_two ⊗ hw ⊘ hz
  have aA := Acc.sqrt (a := -101) (b := 101) (n := 14) ⟨p2.rel.mono (mul_le_mul_of_nonneg_right (by norm_num) (unit_pos P).le),
    (two_zpow_mono (by norm_num)).trans p2.lo, p2.hi.trans (two_zpow_mono (by norm_num))⟩ (by positivity) (by norm_num) (by norm_num) (by norm_num)
  have hA0 : 0 < √(2.0 * u / κ) := Real.sqrt_pos.2 (by positivity)
  obtain ⟨s0, s1, -, su⟩ := su
  have i1 : (2 : ℝ) ^ (0 : ℤ) ≤ 1 / √(1 - η / √(u * κ / 8.0)) := by rw [zpow_zero, le_div_iff₀ s0]; linarith
  have rA := mul_range i1 su aA.lo aA.hi
  have qA := range_mono rA (c := -1000) (d := 590) (by norm_num) (by norm_num)
  have k3 := k2.mul aA (by norm_num) (by norm_num) (by norm_num) qA.1 qA.2 (by norm_num)
  rw [abs_of_pos hA0] at k3 rA
  have k1 := sized_langevin hy h0 hn0 (by linarith) (by norm_num) (by norm_num)
  have hi : (0 : ℝ) < 1 / η := by positivity
  have iη : 1 / η ≤ 2 ^ (100 : ℤ) := by
    have := hy.lo
    rw [abs_of_pos h0] at this
    rw [show (100 : ℤ) = - -100 by norm_num, zpow_neg, ← one_div]
    exact one_div_le_one_div_of_le (by positivity) this
  have e : 1 + 1 / η + 1 / √(1 - η / √(u * κ / 8.0)) * √(2.0 * u / κ) = morseLengthSize κ u η := by
    unfold morseLengthSize; rw [hM]; norm_num; ring
  have hE := rA.2
  have hE0 : 0 < 1 / √(1 - η / √(u * κ / 8.0)) * √(2.0 * u / κ) := by positivity
  have hT : morseLengthSize κ u η ≤ 2 ^ (221 : ℤ) := by
    rw [← e]
    have h1 : (1 : ℝ) + 2 ^ (100 : ℤ) + 2 ^ (53 + 101 : ℤ) ≤ 2 ^ (221 : ℤ) := by norm_num
    exact le_trans (add_le_add (by linarith) hE) h1
  have k4 := (k1.weaken (q' := 1.01 * 67 + (14 / 2 + 1) + 4) (by norm_num) (by norm_num) rfl le_rfl k1.hi).add k3
    (by rw [e]; exact hT.trans (two_zpow_mono (by norm_num))) (by norm_num)
  rw [e] at k4
  refine ⟨k4.weaken (by norm_num) (by norm_num) ?_ le_rfl k4.hi, by rw [zpow_zero, ← e]; linarith, hT⟩
  norm_num

/-- The nondimensional energy of the links. -/
theorem acc_link_energy (hE : Moderate E) (hT : Moderate T) (hu : u = E / (Polymers.BOLTZMANN_CONSTANT * T)) (hu' : Moderate u) :
    Acc ((.fin E : F64 P) / (Polymers.BOLTZMANN_CONSTANT : F64 P) / .fin T) u 4 (-100) 100 := by
  have h := acc_moderate (P := P) hE ⊘ acc_boltzmann ⊘ acc_moderate hT
  have e : E / (Polymers.BOLTZMANN_CONSTANT : ℝ) / T = u := by rw [hu, div_div]
  rw [e] at h
  exact ⟨h.rel.mono (mul_le_mul_of_nonneg_right (by norm_num) (unit_pos P).le), hu'.1, hu'.2⟩

/-- C101: the nondimensional lengths of the chain with Morse links under a force below the largest force: the error is measured by the terms of the Langevin
function and the extension of the link, and grows as the force comes close to the largest force. -/
theorem C101_morse_nondimensional_lengths (P : Platform) (hN : 0 < N) (hN' : N ≤ 255) (mF : F64 P) (m : ℝ) (hℓ : Moderate ℓ) (hc : Moderate c) (hE : Moderate E)
    (hT : Moderate T) {k : ℝ} (hk : k = Polymers.BOLTZMANN_CONSTANT) (hκ : κ = c * ℓ ^ 2 / (k * T)) (hκ' : Moderate κ) (hκ0 : 0 < κ)
    (hu : u = E / (k * T)) (hu' : Moderate u) (hu0 : 0 < u) (hη : Moderate η) (h0 : 0 < η) (h1 : P.ε * 1000 ≤ 1 - η / morseForceMax κ u) :
    Within ((ApiF.morse_isotensional_asymptotic_reduced_lengths N (.fin ℓ : F64 P) mF (.fin c) (.fin E)).nd_length (.fin η) (.fin T))
      ((Api.morse_isotensional_asymptotic_reduced_lengths N ℓ m c E).nd_length η T) (P.ε * (87 * (N * morseLengthSize κ u η))) ∧
    Within ((ApiF.morse_isotensional_asymptotic_reduced_lengths N (.fin ℓ : F64 P) mF (.fin c) (.fin E)).nd_length_per_link (.fin η) (.fin T))
      ((Api.morse_isotensional_asymptotic_reduced_lengths N ℓ m c E).nd_length_per_link η T) (P.ε * (82 * morseLengthSize κ u η)) := by
  subst hk
  have aN := acc_nat (P := P) hN hN'
  have az := acc_stiffness (P := P) hc hℓ hT
  have e2 := stiffness_eq hκ
  have e3 : E / (Polymers.BOLTZMANN_CONSTANT : ℝ) / T = u := by rw [hu, div_div]
  rw [e2] at az
  obtain ⟨k, lo, hi⟩ := sized_morse_length (acc_moderate (P := P) hη) h0 le_rfl (by norm_num) ⟨az.rel, hκ'.1, hκ'.2⟩ hκ0
    (acc_link_energy (P := P) hE hT hu hu') hu0 h1
  have r := range_mono (mul_range lo hi aN.lo aN.hi) (c := -1000) (d := 590) (by norm_num) (by norm_num)
  have k' := k.mul aN (by norm_num) (by norm_num) (by norm_num) r.1 r.2 (by norm_num)
  rw [Nat.abs_cast] at k'
  have w1 := (k'.weaken (q' := 87) (by norm_num) (by norm_num) rfl (le_of_eq (mul_comm _ _)) (by rw [mul_comm]; exact k'.hi)).within
  have w2 := k.within
  rw [← e2, ← e3] at w1 w2 ⊢
  exact ⟨w1, w2⟩

/-- C101: the lengths of the chain with Morse links under a force below the largest force. -/
theorem C101_morse_lengths (P : Platform) (hN : 0 < N) (hN' : N ≤ 255) (mF : F64 P) (m : ℝ) (hℓ : Moderate ℓ) (hℓ0 : 0 < ℓ) (hc : Moderate c) (hE : Moderate E)
    (hf : Moderate f) (hT : Moderate T) {k : ℝ} (hk : k = Polymers.BOLTZMANN_CONSTANT) (hκ : κ = c * ℓ ^ 2 / (k * T)) (hκ' : Moderate κ) (hκ0 : 0 < κ)
    (hu : u = E / (k * T)) (hu' : Moderate u) (hu0 : 0 < u) (hη : η = f * ℓ / (k * T)) (hη' : Moderate η) (h0 : 0 < η)
    (h1 : P.ε * 1000 ≤ 1 - η / morseForceMax κ u) :
    Within ((ApiF.morse_isotensional_asymptotic_reduced_lengths N (.fin ℓ : F64 P) mF (.fin c) (.fin E)).length (.fin f) (.fin T))
      ((Api.morse_isotensional_asymptotic_reduced_lengths N ℓ m c E).length f T) (P.ε * (93 * (N * ℓ * morseLengthSize κ u η))) ∧
    Within ((ApiF.morse_isotensional_asymptotic_reduced_lengths N (.fin ℓ : F64 P) mF (.fin c) (.fin E)).length_per_link (.fin f) (.fin T))
      ((Api.morse_isotensional_asymptotic_reduced_lengths N ℓ m c E).length_per_link f T) (P.ε * (87 * (ℓ * morseLengthSize κ u η))) := by
  subst hk
  have aN := acc_nat (P := P) hN hN'
  have hN0 : (0 : ℝ) < N := by exact_mod_cast hN
  have aℓ := acc_moderate (P := P) hℓ
  have az := acc_stiffness (P := P) hc hℓ hT
  have e1 : f * ℓ / (Polymers.BOLTZMANN_CONSTANT : ℝ) / T = η := by rw [hη, div_div]
  have e2 := stiffness_eq hκ
  have e3 : E / (Polymers.BOLTZMANN_CONSTANT : ℝ) / T = u := by rw [hu, div_div]
  have ay := acc_moderate (P := P) hf ⊗ aℓ ⊘ acc_boltzmann ⊘ acc_moderate hT
  rw [e1] at ay
  rw [e2] at az
  obtain ⟨k, lo, hi⟩ := sized_morse_length (n := 4) ⟨ay.rel.mono (mul_le_mul_of_nonneg_right (by norm_num) (unit_pos P).le), hη'.1, hη'.2⟩ h0 (by norm_num)
    le_rfl ⟨az.rel, hκ'.1, hκ'.2⟩ hκ0 (acc_link_energy (P := P) hE hT hu hu') hu0 h1
  have p1 := mul_range lo hi aN.lo aN.hi
  have r1 := range_mono p1 (c := -1000) (d := 590) (by norm_num) (by norm_num)
  have k1 := k.mul aN (by norm_num) (by norm_num) (by norm_num) r1.1 r1.2 (by norm_num)
  have r2 := range_mono (mul_range p1.1 p1.2 aℓ.lo aℓ.hi) (c := -1000) (d := 590) (by norm_num) (by norm_num)
  have k2 := k1.mul aℓ (by norm_num) (by norm_num) (by norm_num) r2.1 r2.2 (by norm_num)
  have r3 := range_mono (mul_range lo hi aℓ.lo aℓ.hi) (c := -1000) (d := 590) (by norm_num) (by norm_num)
  have k3 := k.mul aℓ (by norm_num) (by norm_num) (by norm_num) r3.1 r3.2 (by norm_num)
  rw [Nat.abs_cast, abs_of_pos hℓ0] at k2
  rw [abs_of_pos hℓ0] at k3
  have m2 : morseLengthSize κ u η * N * ℓ = N * ℓ * morseLengthSize κ u η := by ring
  have w1 := (k2.weaken (q' := 93) (by norm_num) (by norm_num) rfl (le_of_eq m2) (by rw [← m2]; exact k2.hi)).within
  have w2 := (k3.weaken (q' := 87) (by norm_num) (by norm_num) rfl (le_of_eq (mul_comm _ _)) (by rw [mul_comm]; exact k3.hi)).within
  rw [← e1, ← e2, ← e3] at w1 w2 ⊢
  exact ⟨w1, w2⟩

/-! ### Concrete cases: twenty links of unit length with the stiffness and the energy 50000 under the nondimensional force 2, or the force 5000, at 300 K -/

/-- A force up to half of the largest force is far enough from it. -/
theorem resolved_of_half (P : Platform) (hη : 0 ≤ η) (h : (2 * η) ^ 2 ≤ u * κ / 8) : P.ε * 1000 ≤ 1 - η / morseForceMax κ u := by
  have h1 := eps_small P
  have h2 : 2 * η ≤ morseForceMax κ u := Real.le_sqrt_of_sq_le h
  have h3 : η / morseForceMax κ u ≤ 1 / 2 := by
    rcases hη.eq_or_lt with rfl | h0
    · rw [zero_div]; norm_num
    · rw [div_le_iff₀ (by linarith)]; linarith
  linarith

example := C101_morse_nondimensional_lengths correctlyRounded (N := 20) (by norm_num) (by norm_num) (.fin 1) 1 moderate_one (c := 50000)
  ⟨by norm_num, by norm_num⟩ (E := 50000) ⟨by norm_num, by norm_num⟩ moderate_300 rfl rfl (by unfold Polymers.BOLTZMANN_CONSTANT; constructor <;> norm_num)
  (by unfold Polymers.BOLTZMANN_CONSTANT; norm_num) rfl (by unfold Polymers.BOLTZMANN_CONSTANT; constructor <;> norm_num)
  (by unfold Polymers.BOLTZMANN_CONSTANT; norm_num) (η := 2) ⟨by norm_num, by norm_num⟩ (by norm_num)
  (resolved_of_half _ (by norm_num) (by unfold Polymers.BOLTZMANN_CONSTANT; norm_num))
example := C101_morse_lengths correctlyRounded (N := 20) (by norm_num) (by norm_num) (.fin 1) 1 moderate_one one_pos (c := 50000)
  ⟨by norm_num, by norm_num⟩ (E := 50000) ⟨by norm_num, by norm_num⟩ (f := 5000) ⟨by norm_num, by norm_num⟩ moderate_300 rfl rfl
  (by unfold Polymers.BOLTZMANN_CONSTANT; constructor <;> norm_num) (by unfold Polymers.BOLTZMANN_CONSTANT; norm_num) rfl
  (by unfold Polymers.BOLTZMANN_CONSTANT; constructor <;> norm_num) (by unfold Polymers.BOLTZMANN_CONSTANT; norm_num) rfl
  (by unfold Polymers.BOLTZMANN_CONSTANT; constructor <;> norm_num) (by unfold Polymers.BOLTZMANN_CONSTANT; norm_num)
  (resolved_of_half _ (by unfold Polymers.BOLTZMANN_CONSTANT; norm_num) (by unfold Polymers.BOLTZMANN_CONSTANT; norm_num))

end Polymers.Props
