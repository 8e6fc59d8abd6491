import Verif.Props.IeeeMorseEnergy
import Verif.Spec.IeeeMorseLegendre

/-! C103: the Helmholtz energies of the freely jointed chain with Morse links at fixed force in floating point, in the reduced approach. -/

namespace Polymers.Props

open Polymers.Ieee Polymers.Spec Polymers.Lemmas
open Polymers.ufjc.morse.thermodynamics.isotensional.asymptotic

variable {P : Platform} {N : ℕ} {ℓ m c E T f η κ u n r s t : ℝ} {a b : ℤ} {x y z w : F64 P}

local macro:70 a:term:70 " ⊗ " b:term:71 : term => `(Acc.mul $a $b (by norm_num) (by norm_num) (by norm_num))
local macro:70 a:term:70 " ⊘ " b:term:71 : term => `(Acc.div $a $b (by norm_num) (by norm_num) (by norm_num))

/-- The nondimensional Helmholtz energy per link. -/
theorem sized_morse_helmholtz (hℓ : Moderate ℓ) (hℓ0 : 0 < ℓ) (hm : Moderate m) (hm0 : 0 < m) (hT : Moderate T) (hT0 : 0 < T)
    (hy : Acc y η n (-100) 100) (h0 : 0 < η) (h600 : η ≤ 600) (hn0 : 0 ≤ n) (hn : n ≤ 9) (hz : Acc z κ 7 (-100) 100) (hκ : 0 < κ)
    (hw : Acc w u 4 (-100) 100) (hu : 0 < u) (h1 : P.ε * 1000 ≤ 1 - η / morseForceMax κ u) :
    Sized (reduced.legendre.nondimensional_helmholtz_free_energy_per_link (.fin ℓ) (.fin m) z w y (.fin T)) (reduced.legendre.nondimensional_helmholtz_free_energy_per_link ℓ m κ u η T) 110
      (morseHelmholtzSize ℓ m κ u T η) ∧ (2 : ℝ) ^ (0 : ℤ) ≤ morseHelmholtzSize ℓ m κ u T η ∧ morseHelmholtzSize ℓ m κ u T η ≤ 2 ^ (190 : ℤ) := by
  have hM : √(u * κ / 8.0) = morseForceMax κ u := by unfold morseForceMax; norm_num
  have p1 := hw ⊗ hz ⊘ acc_eight
  have aM := Acc.sqrt (a := -102) (b := 99) (n := 14) ⟨p1.rel.mono (mul_le_mul_of_nonneg_right (by norm_num) (unit_pos P).le),
    (two_zpow_mono (by norm_num)).trans p1.lo, p1.hi.trans (two_zpow_mono (by norm_num))⟩ (by positivity) (by norm_num) (by norm_num) (by norm_num)
  have hM0 : 0 < √(u * κ / 8.0) := Real.sqrt_pos.2 (by positivity)
  have at' := Acc.div hy aM (by linarith) (by norm_num) (by norm_num)
  obtain ⟨k1, k2⟩ := sized_morse_log at' (by positivity) (by linarith) (by linarith) (by norm_num) (by norm_num) (by rw [hM]; exact h1)
  obtain ⟨-, s0, s1, sl, su⟩ := sized_morse_root at' (by positivity) (by linarith) (by linarith) (by norm_num) (by norm_num) (by rw [hM]; exact h1)
  have as := acc_two (P := P) ⊗ acc_pi ⊗ (acc_moderate hℓ).sq (by norm_num) (by norm_num) (by norm_num) ⊘ hz
  have e : 2.0 * Real.pi * Elem.powi ℓ 2 / κ = 2 * Real.pi * ℓ ^ 2 / κ := by rw [powi_two]; norm_num
  obtain ⟨hL, hL'⟩ := sized_ln as (by rw [e]; positivity) (by norm_num) (by norm_num) (by norm_num)
  obtain ⟨hv, hv'⟩ := sized_hinge (P := P) hℓ hm hm0 hT hT0
  have k0 := (sized_free hy h0 h600 hn0 hn (by norm_num)).neg
  obtain ⟨c1, c2, c3⟩ := coth_bounds h0
  have p3 := Acc.div hy (hy.tanh h0 (by linarith) (by norm_num) (by norm_num)) (by linarith) (by norm_num) (by norm_num)
  have q3 : |η / Real.tanh η| ≤ 1 + η := by
    rw [abs_of_pos (by positivity)]
    calc η / Real.tanh η = η * (1 / Real.tanh η) := by ring
      _ ≤ η * (1 + 1 / η) := mul_le_mul_of_nonneg_left c2.le h0.le
      _ = 1 + η := by field_simp; ring
  have eM : 2 * η + 2 * u * (1 / √(1 - η / √(u * κ / 8.0))) + |Real.log (2.0 * Real.pi * Elem.powi ℓ 2 / κ)| / 2 + |logRatio ℓ m T| + 40 =
      morseHelmholtzSize ℓ m κ u T η := by
    unfold morseHelmholtzSize
    rw [hM, e, hingeLog_eq]
    ring
  rw [← eM]
  show Sized ((-Elem.ln (Elem.sinh y / y)) + w * Elem.powi (1.0 - 0.5 * (1.0 + Elem.sqrt (1.0 - y / Elem.sqrt (w * z / 8.0)))) 2 - 0.5 * _ - _ +
    y / Elem.tanh y - 1.0)
    ((-Real.log (Real.sinh η / η)) + u * Elem.powi (1.0 - 0.5 * (1.0 + √(1.0 - η / √(u * κ / 8.0)))) 2 - 0.5 * Real.log (2.0 * Real.pi * Elem.powi ℓ 2 / κ) -
    logRatio ℓ m T + η / Real.tanh η - 1.0) _ _ ∧ _
  generalize Elem.sqrt (1.0 - y / Elem.sqrt (w * z / 8.0)) = S at *
  rw [show (1.0 : ℝ) - η / √(u * κ / 8.0) = 1 - η / √(u * κ / 8.0) by norm_num]
  generalize √(1 - η / √(u * κ / 8.0)) = s at *
  generalize Real.log (2.0 * Real.pi * Elem.powi ℓ 2 / κ) = L at *
  generalize logRatio ℓ m T = H at *
  have hp := eps_pos P
  have i0 : 0 < 1 / s := by positivity
  have i1 : 1 ≤ 1 / s := by rw [le_div_iff₀ s0]; linarith
  have hε : P.ε * (1 / s) ≤ 1 / 1000 := by rw [mul_one_div, div_le_iff₀ s0]; linarith
  have up : 1 / s ≤ 2 ^ (590 : ℤ) := su.trans (two_zpow_mono (by norm_num))
  have up2 : 2 * (1 / s) ≤ 2 ^ (590 : ℤ) := by
    refine le_trans (mul_le_mul_of_nonneg_left su (by norm_num)) ?_
    rw [show 2 * (2 : ℝ) ^ (53 : ℤ) = 2 ^ (54 : ℤ) by norm_num]; exact two_zpow_mono (by norm_num)
  have e3 : |(0.5 : ℝ)| = 1 / 2 := by norm_num
  -- the well
  have g1 := k1.mul (acc_half (P := P)) (by norm_num) (by norm_num) (by norm_num) (by rw [e3]; exact lo_of_one (by linarith)) (by rw [e3]; exact le_trans (b := 2 * (1 / s)) (by linarith) up2) (by linarith)
  rw [e3] at g1
  have g2 := sized_one.sub (g1.weaken (q' := 68) (M' := 1 / s) (by linarith) (by norm_num) rfl (by linarith) up) (le_trans (b := 2 * (1 / s)) (by linarith) up2)
    (by norm_num) (by norm_num)
  have g3 := g2.weaken (q' := 70) (M' := 2 * (1 / s)) (by norm_num) (by norm_num) rfl (by linarith) up2
  have g4 := sized_square g3 (by rw [abs_le]; constructor <;> norm_num <;> linarith) (by linarith) (by linarith) (by norm_num)
  have uu := hw.hi
  have ul := hw.lo
  rw [abs_of_pos hu] at uu ul
  have i2' : (2 : ℝ) ^ (0 : ℤ) ≤ 2 * (1 / s) := by rw [zpow_zero]; linarith
  have su2 : 2 * (1 / s) ≤ 2 ^ (54 : ℤ) := by
    refine le_trans (mul_le_mul_of_nonneg_left su (by norm_num)) ?_
    norm_num
  have r1 := mul_range i2' su2 hw.lo hw.hi
  have q1 := range_mono r1 (c := -1000) (d := 590) (by norm_num) (by norm_num)
  have g5 := g4.mul hw (by norm_num) (by norm_num) (by norm_num) q1.1 q1.2 (by norm_num)
  rw [abs_of_pos hu] at g5 r1
  have eW : 2 * (1 / s) * u = 2 * u * (1 / s) := by ring
  rw [eW] at g5 r1
  have hX0 : 0 < 2 * u * (1 / s) := by positivity
  have hX := r1.2
  have hX' : 2 * u * (1 / s) ≤ 2 ^ (170 : ℤ) := hX.trans (two_zpow_mono (by norm_num))
  have big : (1e6 : ℝ) ≤ 2 ^ (170 : ℤ) := by
    calc (1e6 : ℝ) ≤ 2 ^ (20 : ℤ) := by norm_num
      _ ≤ _ := two_zpow_mono (by norm_num)
  have h190 : 8 * (2 : ℝ) ^ (170 : ℤ) ≤ 2 ^ (190 : ℤ) := by norm_num
  have l0 := abs_nonneg L
  have m0 := abs_nonneg H
  obtain ⟨X, hXe⟩ : ∃ X, X = 2 * u * (1 / s) := ⟨_, rfl⟩
  rw [← hXe] at g5 hX0 hX' ⊢
  have hM : 2 * η + X + |L| / 2 + |H| + 40 ≤ 2 ^ (190 : ℤ) := by
    refine le_trans ?_ h190
    clear h190
    generalize (2 : ℝ) ^ (170 : ℤ) = B at *
    linarith
  have h590 : (2 : ℝ) ^ (190 : ℤ) ≤ 2 ^ (590 : ℤ) := two_zpow_mono (by norm_num)
  have upM : ∀ {W : ℝ}, W ≤ 2 * η + X + |L| / 2 + |H| + 40 → W ≤ 2 ^ (590 : ℤ) := fun h => h.trans (hM.trans h590)
  have d1 := hL.mul (acc_half (P := P)) (by norm_num) (by norm_num) (by norm_num) (by rw [e3]; exact lo_of_one (by linarith)) (by rw [e3]; exact upM (by linarith))
    (by norm_num)
  rw [e3] at d1
  have b1 := (k0.weaken (q' := 99) (by norm_num) (by norm_num) rfl le_rfl k0.hi).add (g5.weaken (q' := 99) (by norm_num) (by norm_num) rfl le_rfl g5.hi)
    (upM (by linarith)) (by norm_num)
  have b2 := b1.sub (d1.weaken (q' := 101) (by norm_num) (by norm_num) rfl le_rfl d1.hi) (upM (by linarith)) (by norm_num) (by norm_num)
  have b3 := b2.sub (hv.weaken (q' := 103) (by norm_num) (by norm_num) rfl le_rfl hv.hi) (upM (by linarith)) (by norm_num) (by norm_num)
  have t1 := p3.sized (by linarith) (by linarith) (by norm_num) (by norm_num)
  have b4 := (b3.weaken (q' := 105) (by norm_num) (by norm_num) rfl le_rfl b3.hi).add (t1.weaken (q' := 105) (M' := 1 + η) (by linarith) (by norm_num) rfl q3
    (upM (by linarith))) (upM (by linarith)) (by norm_num)
  have b5 := b4.sub ((sized_one (P := P)).weaken (q' := 107) (by norm_num) (by norm_num) rfl le_rfl (sized_one (P := P)).hi) (upM (by linarith)) (by norm_num)
    (by norm_num)
  refine ⟨b5.weaken (by norm_num) (by norm_num) ?_ (by linarith) (hM.trans h590), by rw [zpow_zero]; linarith, hM⟩
  norm_num

/-- C103: the nondimensional Helmholtz energies of the chain with Morse links under a force below the largest force. -/
theorem C103_morse_nondimensional_helmholtz (P : Platform) (hN : 0 < N) (hN' : N ≤ 255) (hℓ : Moderate ℓ) (hℓ0 : 0 < ℓ) (hm : Moderate m) (hm0 : 0 < m)
    (hc : Moderate c) (hE : Moderate E) (hT : Moderate T) (hT0 : 0 < T) {k : ℝ} (hk : k = Polymers.BOLTZMANN_CONSTANT)
    (hη' : Moderate η) (h0 : 0 < η) (h600 : η ≤ 600) (hκ : κ = c * ℓ ^ 2 / (k * T)) (hκ' : Moderate κ) (hκ0 : 0 < κ)
    (hu : u = E / (k * T)) (hu' : Moderate u) (hu0 : 0 < u) (h1 : P.ε * 1000 ≤ 1 - η / morseForceMax κ u) (h2 : P.ε * 1000 ≤ 1 - 1e-6 / morseForceMax κ u)
    {F : ApiF.EnergyMethodsF P} (hF : F = ApiF.morse_isotensional_asymptotic_reduced_legendre_helmholtz N (.fin ℓ) (.fin m) (.fin c) (.fin E))
    {R : EnergyMethods} (hR : R = Api.morse_isotensional_asymptotic_reduced_legendre_helmholtz N ℓ m c E) :
    Within (F.nd_energy (.fin η) (.fin T)) (R.nd_energy η T) (P.ε * (116 * (N * morseHelmholtzSize ℓ m κ u T η))) ∧
    Within (F.nd_energy_per_link (.fin η) (.fin T)) (R.nd_energy_per_link η T) (P.ε * (110 * morseHelmholtzSize ℓ m κ u T η)) ∧
    Within (F.nd_relative (.fin η) (.fin T)) (R.nd_relative η T)
      (P.ε * (118 * (N * (morseHelmholtzSize 1 1 κ u 300 η + morseHelmholtzSize 1 1 κ u 300 1e-6)))) ∧
    Within (F.nd_relative_per_link (.fin η) (.fin T)) (R.nd_relative_per_link η T)
      (P.ε * (112 * (morseHelmholtzSize 1 1 κ u 300 η + morseHelmholtzSize 1 1 κ u 300 1e-6))) := by
  subst hF hR hk
  have aN := acc_nat (P := P) hN hN'
  have az := acc_stiffness (P := P) hc hℓ hT
  have e2 := stiffness_eq hκ
  have hz : Acc _ (c * Elem.powi ℓ 2 / (Polymers.BOLTZMANN_CONSTANT : ℝ) / T) 7 (-100) 100 := ⟨az.rel, by rw [e2]; exact hκ'.1, by rw [e2]; exact hκ'.2⟩
  have e3 : E / (Polymers.BOLTZMANN_CONSTANT : ℝ) / T = u := by rw [hu, div_div]
  have hw := acc_link_energy (P := P) hE hT hu hu'
  rw [← e3] at hw
  have aη : Acc (.fin η : F64 P) η 0 (-100) 100 := acc_moderate hη'
  have a0 : Acc (Polymers.ZERO : F64 P) (Polymers.ZERO : ℝ) 1 (-100) 100 := ⟨zero_lit.rel, by unfold Polymers.ZERO; exact moderate_zero.1,
    by unfold Polymers.ZERO; exact moderate_zero.2⟩
  have z0 : (0 : ℝ) < Polymers.ZERO := by unfold Polymers.ZERO; norm_num
  have z1 : (Polymers.ZERO : ℝ) ≤ 600 := by unfold Polymers.ZERO; norm_num
  have scale : ∀ {u : F64 P} {r M : ℝ}, Sized u r 110 M → (2 : ℝ) ^ (0 : ℤ) ≤ M → M ≤ 2 ^ (190 : ℤ) →
      Sized ((N : F64 P) * u) (N * r) 116 (N * M) ∧ N * M ≤ 2 ^ (500 : ℤ) := by
    intro u r M h lo hi
    have r1 := mul_range lo hi aN.lo aN.hi
    have q1 := range_mono r1 (c := -1000) (d := 590) (by norm_num) (by norm_num)
    have k1 := h.mul aN (by norm_num) (by norm_num) (by norm_num) q1.1 q1.2 (by norm_num)
    rw [Nat.abs_cast, mul_comm M] at k1 r1
    exact ⟨k1.weaken (by norm_num) (by norm_num) rfl le_rfl k1.hi, r1.2.trans (two_zpow_mono (by norm_num))⟩
  obtain ⟨s1, lo1, hi1⟩ := sized_morse_helmholtz hℓ hℓ0 hm hm0 hT hT0 aη h0 h600 (by norm_num) (by norm_num) hz (by rwa [e2]) hw (by rwa [e3]) (by rwa [e2, e3])
  obtain ⟨s2, lo2, hi2⟩ := sized_morse_helmholtz moderate_one one_pos moderate_one one_pos moderate_300 (by norm_num) aη h0 h600 (by norm_num) (by norm_num) hz
    (by rwa [e2]) hw (by rwa [e3]) (by rwa [e2, e3])
  obtain ⟨s3, lo3, hi3⟩ := sized_morse_helmholtz moderate_one one_pos moderate_one one_pos moderate_300 (by norm_num) a0 z0 z1 (by norm_num) (by norm_num) hz
    (by rwa [e2]) hw (by rwa [e3]) (by rw [e2, e3]; exact h2)
  obtain ⟨w1, -⟩ := scale s1 lo1 hi1
  obtain ⟨w2, b2⟩ := scale s2 lo2 hi2
  obtain ⟨w3, b3⟩ := scale s3 lo3 hi3
  have h590 : (2 : ℝ) ^ (500 : ℤ) + 2 ^ (500 : ℤ) ≤ 2 ^ (590 : ℤ) := by
    rw [← two_mul, ← zpow_one_add₀ (by norm_num)]; exact two_zpow_mono (by norm_num)
  have h500 : (2 : ℝ) ^ (190 : ℤ) ≤ 2 ^ (500 : ℤ) := two_zpow_mono (by norm_num)
  have w4 := w2.sub w3 ((add_le_add b2 b3).trans h590) le_rfl (by norm_num)
  have w5 := s2.sub s3 ((add_le_add (hi2.trans h500) (hi3.trans h500)).trans h590) le_rfl (by norm_num)
  rw [← mul_add] at w4
  have y1 := w1.within
  have y2 := s1.within
  have y4 := w4.within
  have y5 := w5.within
  rw [show (116 : ℝ) + 2 = 118 by norm_num] at y4
  rw [show (110 : ℝ) + 2 = 112 by norm_num] at y5
  rw [← e2, ← e3]
  refine ⟨y1, y2, ?_, ?_⟩
  · show Within (reduced.legendre.nondimensional_relative_helmholtz_free_energy N _ _ _) (reduced.legendre.nondimensional_relative_helmholtz_free_energy N _ _ _) _
    unfold reduced.legendre.nondimensional_relative_helmholtz_free_energy
    rw [lit_one, lit_300, show (1.0 : ℝ) = 1 by norm_num, show (300.0 : ℝ) = 300 by norm_num]
    exact y4
  · show Within (reduced.legendre.nondimensional_relative_helmholtz_free_energy_per_link _ _ _) (reduced.legendre.nondimensional_relative_helmholtz_free_energy_per_link _ _ _) _
    unfold reduced.legendre.nondimensional_relative_helmholtz_free_energy_per_link
    rw [lit_one, lit_300, show (1.0 : ℝ) = 1 by norm_num, show (300.0 : ℝ) = 300 by norm_num]
    exact y5

/-- The Helmholtz energy and the Helmholtz energy per link. -/
theorem sized_morse_helmholtz_scaled (hN : 0 < N) (hN' : N ≤ 255) (hℓ : Moderate ℓ) (hℓ0 : 0 < ℓ) (hm : Moderate m) (hm0 : 0 < m) (hc : Moderate c)
    (hE : Moderate E) (hT : Moderate T) (hT0 : 0 < T) (hx : Acc x f n a b) (hn0 : 0 ≤ n) (hn : n ≤ 5) (ha : -400 ≤ a) (hb : b ≤ 400)
    (hη : η = f * ℓ / (Polymers.BOLTZMANN_CONSTANT * T)) (hη' : Moderate η) (h0 : 0 < η) (h600 : η ≤ 600)
    (hκ : κ = c * ℓ ^ 2 / (Polymers.BOLTZMANN_CONSTANT * T)) (hκ' : Moderate κ) (hκ0 : 0 < κ)
    (hu : u = E / (Polymers.BOLTZMANN_CONSTANT * T)) (hu' : Moderate u) (hu0 : 0 < u) (h1 : P.ε * 1000 ≤ 1 - η / morseForceMax κ u) :
    Sized (reduced.legendre.helmholtz_free_energy N (.fin ℓ) (.fin m) (.fin c) (.fin E) x (.fin T)) (reduced.legendre.helmholtz_free_energy N ℓ m c E f T) 124
      (N * (Polymers.BOLTZMANN_CONSTANT * T) * morseHelmholtzSize ℓ m κ u T η) ∧
    N * (Polymers.BOLTZMANN_CONSTANT * T) * morseHelmholtzSize ℓ m κ u T η ≤ 2 ^ (500 : ℤ) ∧
    Sized (reduced.legendre.helmholtz_free_energy_per_link (.fin ℓ) (.fin m) (.fin c) (.fin E) x (.fin T)) (reduced.legendre.helmholtz_free_energy_per_link ℓ m c E f T) 118
      (Polymers.BOLTZMANN_CONSTANT * T * morseHelmholtzSize ℓ m κ u T η) ∧
    Polymers.BOLTZMANN_CONSTANT * T * morseHelmholtzSize ℓ m κ u T η ≤ 2 ^ (500 : ℤ) := by
  have hk0 := boltzmann_pos
  have hN0 : (0 : ℝ) < N := by exact_mod_cast hN
  have aN := acc_nat (P := P) hN hN'
  have aT := acc_moderate (P := P) hT
  have aℓ := acc_moderate (P := P) hℓ
  have a2 := acc_boltzmann (P := P) ⊗ aT
  have az := acc_stiffness (P := P) hc hℓ hT
  have ay := Acc.mul (Acc.div (Acc.div hx acc_boltzmann (by linarith) (by omega) (by omega)) aT (by linarith) (by omega) (by omega)) aℓ (by linarith) (by omega)
    (by omega)
  have e1 : f / (Polymers.BOLTZMANN_CONSTANT : ℝ) / T * ℓ = η := by rw [hη, div_div]; ring
  have e2 := stiffness_eq hκ
  have e3 : E / (Polymers.BOLTZMANN_CONSTANT : ℝ) / T = u := by rw [hu, div_div]
  have hz : Acc _ (c * Elem.powi ℓ 2 / (Polymers.BOLTZMANN_CONSTANT : ℝ) / T) 7 (-100) 100 := ⟨az.rel, by rw [e2]; exact hκ'.1, by rw [e2]; exact hκ'.2⟩
  have hy : Acc _ (f / (Polymers.BOLTZMANN_CONSTANT : ℝ) / T * ℓ) (n + 4) (-100) 100 :=
    ⟨ay.rel.mono (mul_le_mul_of_nonneg_right (by linarith) (unit_pos P).le), by rw [e1]; exact hη'.1, by rw [e1]; exact hη'.2⟩
  have hw := acc_link_energy (P := P) hE hT hu hu'
  rw [← e3] at hw
  obtain ⟨k, lo, hi⟩ := sized_morse_helmholtz hℓ hℓ0 hm hm0 hT hT0 hy (by rwa [e1]) (by rwa [e1]) (by linarith) (by linarith) hz (by rwa [e2]) hw (by rwa [e3])
    (by rwa [e1, e2, e3])
  rw [← e1, ← e2, ← e3]
  have r1 := mul_range lo hi aN.lo aN.hi
  have q1 := range_mono r1 (c := -1000) (d := 590) (by norm_num) (by norm_num)
  have k1 := k.mul aN (by norm_num) (by norm_num) (by norm_num) q1.1 q1.2 (by norm_num)
  have r2 := mul_range r1.1 r1.2 a2.lo a2.hi
  have q2 := range_mono r2 (c := -1000) (d := 590) (by norm_num) (by norm_num)
  have k2 := k1.mul a2 (by norm_num) (by norm_num) (by norm_num) q2.1 q2.2 (by norm_num)
  have r3 := mul_range lo hi a2.lo a2.hi
  have q3 := range_mono r3 (c := -1000) (d := 590) (by norm_num) (by norm_num)
  have k3 := k.mul a2 (by norm_num) (by norm_num) (by norm_num) q3.1 q3.2 (by norm_num)
  have hK : |(Polymers.BOLTZMANN_CONSTANT : ℝ) * T| = Polymers.BOLTZMANN_CONSTANT * T := abs_of_pos (by positivity)
  generalize morseHelmholtzSize ℓ m (c * Elem.powi ℓ 2 / (Polymers.BOLTZMANN_CONSTANT : ℝ) / T) (E / (Polymers.BOLTZMANN_CONSTANT : ℝ) / T) T
    (f / (Polymers.BOLTZMANN_CONSTANT : ℝ) / T * ℓ) = M at *
  have g1 : M * |(N : ℝ)| * |(Polymers.BOLTZMANN_CONSTANT : ℝ) * T| = N * (Polymers.BOLTZMANN_CONSTANT * T) * M := by rw [hK, Nat.abs_cast]; ring
  have g2 : M * |(Polymers.BOLTZMANN_CONSTANT : ℝ) * T| = Polymers.BOLTZMANN_CONSTANT * T * M := by rw [hK]; ring
  rw [g1] at k2 r2
  rw [g2] at k3 r3
  exact ⟨k2.weaken (by norm_num) (by norm_num) rfl le_rfl k2.hi, r2.2.trans (two_zpow_mono (by norm_num)),
    k3.weaken (by norm_num) (by norm_num) rfl le_rfl k3.hi, r3.2.trans (two_zpow_mono (by norm_num))⟩

/-- C103: the Helmholtz energies of the chain with Morse links under a force below the largest force and with `f ℓ ≤ 600 k T`. -/
theorem C103_morse_helmholtz (P : Platform) (hN : 0 < N) (hN' : N ≤ 255) (hℓ : Moderate ℓ) (hℓ0 : 0 < ℓ) (hm : Moderate m) (hm0 : 0 < m) (hc : Moderate c)
    (hE : Moderate E) (hf : Moderate f) (hT : Moderate T) (hT0 : 0 < T) {k : ℝ} (hk : k = Polymers.BOLTZMANN_CONSTANT) (hη : η = f * ℓ / (k * T))
    (hη' : Moderate η) (h0 : 0 < η) (h600 : η ≤ 600) (hκ : κ = c * ℓ ^ 2 / (k * T)) (hκ' : Moderate κ) (hκ0 : 0 < κ)
    (hu : u = E / (k * T)) (hu' : Moderate u) (hu0 : 0 < u) (h1 : P.ε * 1000 ≤ 1 - η / morseForceMax κ u) (h2 : P.ε * 1000 ≤ 1 - 1e-6 / morseForceMax κ u)
    {F : ApiF.EnergyMethodsF P} (hF : F = ApiF.morse_isotensional_asymptotic_reduced_legendre_helmholtz N (.fin ℓ) (.fin m) (.fin c) (.fin E))
    {R : EnergyMethods} (hR : R = Api.morse_isotensional_asymptotic_reduced_legendre_helmholtz N ℓ m c E) :
    Within (F.energy (.fin f) (.fin T)) (R.energy f T) (P.ε * (124 * (N * (k * T) * morseHelmholtzSize ℓ m κ u T η))) ∧
    Within (F.energy_per_link (.fin f) (.fin T)) (R.energy_per_link f T) (P.ε * (118 * (k * T * morseHelmholtzSize ℓ m κ u T η))) ∧
    Within (F.relative (.fin f) (.fin T)) (R.relative f T) (P.ε * (126 * (N * (k * T) * (morseHelmholtzSize ℓ 1 κ u T η + morseHelmholtzSize ℓ 1 κ u T 1e-6)))) ∧
    Within (F.relative_per_link (.fin f) (.fin T)) (R.relative_per_link f T)
      (P.ε * (120 * (k * T * (morseHelmholtzSize ℓ 1 κ u T η + morseHelmholtzSize ℓ 1 κ u T 1e-6)))) := by
  subst hF hR hk
  have hk0 := boltzmann_pos
  have af := acc_moderate (P := P) hf
  have az := zero_lit (P := P) ⊗ acc_boltzmann ⊗ acc_moderate hT ⊘ acc_moderate hℓ
  obtain ⟨s1, -, s2, -⟩ := sized_morse_helmholtz_scaled (P := P) hN hN' hℓ hℓ0 hm hm0 hc hE hT hT0 af (by norm_num) (by norm_num) (by norm_num) (by norm_num)
    hη hη' h0 h600 hκ hκ' hκ0 hu hu' hu0 h1
  obtain ⟨s3, b3, s4, b4⟩ := sized_morse_helmholtz_scaled (P := P) hN hN' hℓ hℓ0 moderate_one one_pos hc hE hT hT0 af (by norm_num) (by norm_num) (by norm_num)
    (by norm_num) hη hη' h0 h600 hκ hκ' hκ0 hu hu' hu0 h1
  obtain ⟨s5, b5, s6, b6⟩ := sized_morse_helmholtz_scaled (P := P) (η := 1e-6) hN hN' hℓ hℓ0 moderate_one one_pos hc hE hT hT0 az (by norm_num) (by norm_num)
    (by norm_num) (by norm_num) (by unfold Polymers.ZERO; field_simp) moderate_zero (by norm_num) (by norm_num) hκ hκ' hκ0 hu hu' hu0 h2
  have h590 : (2 : ℝ) ^ (500 : ℤ) + 2 ^ (500 : ℤ) ≤ 2 ^ (590 : ℤ) := by
    rw [← two_mul, ← zpow_one_add₀ (by norm_num)]; exact two_zpow_mono (by norm_num)
  have w7 := (s3.sub s5 ((add_le_add b3 b5).trans h590) le_rfl (by norm_num)).within
  have w8 := (s4.sub s6 ((add_le_add b4 b6).trans h590) le_rfl (by norm_num)).within
  rw [← mul_add] at w7 w8
  rw [show (124 : ℝ) + 2 = 126 by norm_num] at w7
  rw [show (118 : ℝ) + 2 = 120 by norm_num] at w8
  refine ⟨s1.within, s2.within, ?_, ?_⟩
  · show Within (reduced.legendre.relative_helmholtz_free_energy N _ _ _ _ _) (reduced.legendre.relative_helmholtz_free_energy N _ _ _ _ _) _
    unfold reduced.legendre.relative_helmholtz_free_energy
    rw [lit_one, show (1.0 : ℝ) = 1 by norm_num]
    exact w7
  · show Within (reduced.legendre.relative_helmholtz_free_energy_per_link _ _ _ _ _) (reduced.legendre.relative_helmholtz_free_energy_per_link _ _ _ _ _) _
    unfold reduced.legendre.relative_helmholtz_free_energy_per_link
    rw [lit_one, show (1.0 : ℝ) = 1 by norm_num]
    exact w8

/-! ### Concrete cases: twenty links of unit length with the stiffness and the energy 50000 under the nondimensional force 2, or the force 5000, at 300 K -/

example := C103_morse_nondimensional_helmholtz correctlyRounded (N := 20) (by norm_num) (by norm_num) moderate_one one_pos moderate_one one_pos (c := 50000)
  ⟨by norm_num, by norm_num⟩ (E := 50000) ⟨by norm_num, by norm_num⟩ moderate_300 (by norm_num) rfl (η := 2) ⟨by norm_num, by norm_num⟩ (by norm_num) (by norm_num) rfl
  (by unfold Polymers.BOLTZMANN_CONSTANT; constructor <;> norm_num) (by unfold Polymers.BOLTZMANN_CONSTANT; norm_num) rfl
  (by unfold Polymers.BOLTZMANN_CONSTANT; constructor <;> norm_num) (by unfold Polymers.BOLTZMANN_CONSTANT; norm_num)
  (resolved_of_half _ (by norm_num) (by unfold Polymers.BOLTZMANN_CONSTANT; norm_num))
  (resolved_of_half _ (by norm_num) (by unfold Polymers.BOLTZMANN_CONSTANT; norm_num)) rfl rfl
example := C103_morse_helmholtz correctlyRounded (N := 20) (by norm_num) (by norm_num) moderate_one one_pos moderate_one one_pos (c := 50000)
  ⟨by norm_num, by norm_num⟩ (E := 50000) ⟨by norm_num, by norm_num⟩ (f := 5000) ⟨by norm_num, by norm_num⟩ moderate_300 (by norm_num) rfl rfl
  (by unfold Polymers.BOLTZMANN_CONSTANT; constructor <;> norm_num) (by unfold Polymers.BOLTZMANN_CONSTANT; norm_num)
  (by unfold Polymers.BOLTZMANN_CONSTANT; norm_num) rfl
  (by unfold Polymers.BOLTZMANN_CONSTANT; constructor <;> norm_num) (by unfold Polymers.BOLTZMANN_CONSTANT; norm_num) rfl
  (by unfold Polymers.BOLTZMANN_CONSTANT; constructor <;> norm_num) (by unfold Polymers.BOLTZMANN_CONSTANT; norm_num)
  (resolved_of_half _ (by unfold Polymers.BOLTZMANN_CONSTANT; norm_num) (by unfold Polymers.BOLTZMANN_CONSTANT; norm_num))
  (resolved_of_half _ (by norm_num) (by unfold Polymers.BOLTZMANN_CONSTANT; norm_num)) rfl rfl

end Polymers.Props
