import Verif.Props.IeeeEfjcAlternative
import Verif.Props.IeeeEfjcAlternativeEnergy
import Verif.Props.IeeeEfjcEnergy

/-! C100: the Helmholtz energies of the extensible freely jointed chain at fixed force in floating point, in the alternative asymptotic approach. -/

namespace Polymers.Props

open Polymers.Ieee Polymers.Spec Polymers.Lemmas
open Polymers.efjc.thermodynamics.isotensional.asymptotic

variable {P : Platform} {N : ℕ} {ℓ m c T f η κ n s t : ℝ} {a b : ℤ} {x y z : F64 P}

local macro:70 a:term:70 " ⊗ " b:term:71 : term => `(Acc.mul $a $b (by norm_num) (by norm_num) (by norm_num))
local macro:70 a:term:70 " ⊘ " b:term:71 : term => `(Acc.div $a $b (by norm_num) (by norm_num) (by norm_num))

/-- The Helmholtz energy of a link of the extensible chain in the alternative approach. -/
theorem sized_alternative_helmholtz (hy : Acc y η n (-100) 100) (h0 : 0 < η) (h300 : η ≤ 300) (hn0 : 0 ≤ n) (hn : n ≤ 9) (hz : Acc z κ 7 (-100) 100) (hκ : 0 < κ)
    {u v : F64 P} (hu : Sized u s 1 (|s| + 17)) (hs : |s| ≤ 1000) (hv : Sized v t 1 (|t| + 24)) (ht : |t| ≤ 1000) :
    Sized ((-Elem.ln (Elem.sinh y / y)) - (0.5 * Elem.powi y 2 + y / Elem.tanh y) / z - 0.5 * u - v + y / Elem.tanh y - 1.0 +
        y * (y + 1.0 / Elem.tanh y - y / Elem.powi (Elem.sinh y) 2) / z)
      ((-Elem.ln (Elem.sinh η / η)) - (0.5 * Elem.powi η 2 + η / Elem.tanh η) / κ - 0.5 * s - t + η / Elem.tanh η - 1.0 +
        η * (η + 1.0 / Elem.tanh η - η / Elem.powi (Elem.sinh η) 2) / κ) 66
      (η + η ^ 2 / (2 * κ) + |s| / 2 + |t| + 40 + (1 + η) / κ + (2 + η) + (2 + 2 * η + η ^ 2) / κ) ∧
    (2 : ℝ) ^ (0 : ℤ) ≤ η + η ^ 2 / (2 * κ) + |s| / 2 + |t| + 40 + (1 + η) / κ + (2 + η) + (2 + 2 * η + η ^ 2) / κ ∧
    η + η ^ 2 / (2 * κ) + |s| / 2 + |t| + 40 + (1 + η) / κ + (2 + η) + (2 + 2 * η + η ^ 2) / κ ≤ 2 ^ (230 : ℤ) := by
  obtain ⟨k1, l1, u1⟩ := sized_alternative hy h0 (by linarith) hn0 hn hz hκ hu hs hv ht
  obtain ⟨k2, l2, u2⟩ := sized_alternative_stretch hy h0 h300 hn0 hn
  obtain ⟨c1, c2, c3⟩ := coth_bounds h0
  set M := η + η ^ 2 / (2 * κ) + |s| / 2 + |t| + 40 + (1 + η) / κ with hM
  rw [zpow_zero] at l1
  have rA := mul_range l2 u2 hy.lo hy.hi
  have qA := range_mono rA (c := -1000) (d := 590) (by norm_num) (by norm_num)
  have k3 := k2.mul hy hn0 (by linarith) (by norm_num) qA.1 qA.2 (by linarith)
  rw [abs_of_pos h0, show (2 + η + 2 / η) * η = 2 + 2 * η + η ^ 2 by field_simp; ring] at k3
  have hA : 2 + 2 * η + η ^ 2 ≤ 2 ^ (20 : ℤ) := by
    have : η ^ 2 ≤ 300 ^ 2 := by gcongr
    norm_num at this ⊢
    linarith
  have rB := div_range (show (2 : ℝ) ^ (0 : ℤ) ≤ 2 + 2 * η + η ^ 2 by rw [zpow_zero]; nlinarith) hA hz.lo hz.hi
  have qB := range_mono rB (c := -1000) (d := 590) (by norm_num) (by norm_num)
  have k4 := k3.div hz (by norm_num) (by norm_num) (by norm_num) qB.1 qB.2 (by linarith)
  rw [abs_of_pos hκ] at k4 rB
  have hB := rB.2
  have hB0 : 0 < (2 + 2 * η + η ^ 2) / κ := by positivity
  have tot : M + (2 + η) + (2 + 2 * η + η ^ 2) / κ ≤ 2 ^ (230 : ℤ) := by
    have h1 : (2 : ℝ) ^ (190 : ℤ) + 302 + 2 ^ (20 - -100 : ℤ) ≤ 2 ^ (230 : ℤ) := by norm_num
    exact le_trans (add_le_add (add_le_add u1 (by linarith)) hB) h1
  have up : ∀ {A : ℝ}, A ≤ M + (2 + η) + (2 + 2 * η + η ^ 2) / κ → A ≤ 2 ^ (590 : ℤ) := fun h => h.trans (tot.trans (two_zpow_mono (by norm_num)))
  have ac := Acc.div hy (hy.tanh h0 (by linarith) (by norm_num) (by norm_num)) (by linarith) (by norm_num) (by norm_num)
  have k5 := ac.sized (by linarith) (by linarith) (by norm_num) (by norm_num)
  have e5 : |η / Real.tanh η| ≤ 1 + η := by
    rw [abs_of_pos (by positivity)]
    calc η / Real.tanh η = η * (1 / Real.tanh η) := by ring
      _ ≤ η * (1 + 1 / η) := mul_le_mul_of_nonneg_left c2.le h0.le
      _ = 1 + η := by field_simp; ring
  have k5' := k5.weaken (q' := 39) (by linarith) (by norm_num) rfl e5 (up (by linarith))
  have a1 : Acc (1.0 : F64 P) (1.0 : ℝ) 1 0 0 := by
    refine acc_lit ?_ ?_ (by norm_num) (by norm_num) <;> norm_num
  have k6 := a1.sized (by norm_num) (by norm_num) (by norm_num) (by norm_num)
  rw [show |(1.0 : ℝ)| = 1 by norm_num] at k6
  have r1 := k1.add k5' (up (by linarith)) (by norm_num)
  have r2 := r1.sub (k6.weaken (q' := 41) (by norm_num) (by norm_num) rfl le_rfl k6.hi) (up (by linarith)) (by norm_num) (by norm_num)
  have r3 := (r2.weaken (q' := 64) (by norm_num) (by norm_num) rfl le_rfl r2.hi).add (k4.weaken (q' := 64) (by linarith) (by norm_num) rfl le_rfl k4.hi)
    (up (by linarith)) (by norm_num)
  refine ⟨r3.weaken (by norm_num) (by norm_num) rfl (by linarith) (up le_rfl), by rw [zpow_zero]; linarith, tot⟩

/-- The nondimensional Helmholtz energy per link. -/
theorem sized_alternative_nondimensional' (hℓ : Moderate ℓ) (hℓ0 : 0 < ℓ) (hm : Moderate m) (hm0 : 0 < m) (hT : Moderate T) (hT0 : 0 < T)
    (hy : Acc y η n (-100) 100) (h0 : 0 < η) (h300 : η ≤ 300) (hn0 : 0 ≤ n) (hn : n ≤ 9) (hz : Acc z κ 7 (-100) 100) (hκ : 0 < κ) :
    Sized (alternative.legendre.nondimensional_helmholtz_free_energy_per_link (.fin ℓ) (.fin m) z y (.fin T)) (alternative.legendre.nondimensional_helmholtz_free_energy_per_link ℓ m κ η T) 66
      (efjcAlternativeHelmholtzSize ℓ m κ T η) ∧ (2 : ℝ) ^ (0 : ℤ) ≤ efjcAlternativeHelmholtzSize ℓ m κ T η ∧ efjcAlternativeHelmholtzSize ℓ m κ T η ≤ 2 ^ (230 : ℤ) := by
  have as := acc_two (P := P) ⊗ acc_pi ⊗ (acc_moderate hℓ).sq (by norm_num) (by norm_num) (by norm_num) ⊘ hz
  have e : 2.0 * Real.pi * Elem.powi ℓ 2 / κ = 2 * Real.pi * ℓ ^ 2 / κ := by rw [powi_two]; norm_num
  obtain ⟨hu, hs⟩ := sized_ln as (by rw [e]; positivity) (by norm_num) (by norm_num) (by norm_num)
  obtain ⟨hv, ht⟩ := sized_hinge (P := P) hℓ hm hm0 hT hT0
  have k := sized_alternative_helmholtz hy h0 h300 hn0 hn hz hκ hu hs hv ht
  rw [hingeLog_eq, e] at k
  unfold efjcAlternativeHelmholtzSize efjcAlternativeGibbsSize efjcGibbsSize
  rw [← e] at k ⊢
  rw [← hingeLog_eq] at k ⊢
  exact k

/-- C100: the nondimensional Helmholtz energies of the extensible chain in the alternative approach. -/
theorem C100_efjc_alternative_nondimensional_helmholtz (P : Platform) (hN : 0 < N) (hN' : N ≤ 255) (hℓ : Moderate ℓ) (hℓ0 : 0 < ℓ) (hm : Moderate m) (hm0 : 0 < m)
    (hc : Moderate c) (hc0 : 0 < c) (hT : Moderate T) (hT0 : 0 < T) {k : ℝ} (hk : k = Polymers.BOLTZMANN_CONSTANT)
    (hη' : Moderate η) (h0 : 0 < η) (h300 : η ≤ 300) (hκ : κ = c * ℓ ^ 2 / (k * T)) (hκ' : Moderate κ)
    {F : ApiF.EnergyMethodsF P} (hF : F = ApiF.efjc_isotensional_asymptotic_alternative_legendre_helmholtz N (.fin ℓ) (.fin m) (.fin c))
    {R : EnergyMethods} (hR : R = Api.efjc_isotensional_asymptotic_alternative_legendre_helmholtz N ℓ m c) :
    Within (F.nd_energy (.fin η) (.fin T)) (R.nd_energy η T) (P.ε * (71 * (N * efjcAlternativeHelmholtzSize ℓ m κ T η))) ∧
    Within (F.nd_energy_per_link (.fin η) (.fin T)) (R.nd_energy_per_link η T) (P.ε * (66 * efjcAlternativeHelmholtzSize ℓ m κ T η)) ∧
    Within (F.nd_relative (.fin η) (.fin T)) (R.nd_relative η T) (P.ε * (73 * (N * (efjcAlternativeHelmholtzSize 1 1 κ 300 η + efjcAlternativeHelmholtzSize 1 1 κ 300 1e-6)))) ∧
    Within (F.nd_relative_per_link (.fin η) (.fin T)) (R.nd_relative_per_link η T)
      (P.ε * (68 * (efjcAlternativeHelmholtzSize 1 1 κ 300 η + efjcAlternativeHelmholtzSize 1 1 κ 300 1e-6))) := by
  subst hF hR hk
  have hk0 := boltzmann_pos
  have hN0 : (0 : ℝ) < N := by exact_mod_cast hN
  have aN := acc_nat (P := P) hN hN'
  have hκ0 : 0 < κ := by rw [hκ]; positivity
  have az := acc_stiffness (P := P) hc hℓ hT
  have e2 := stiffness_eq hκ
  have hz : Acc _ (c * Elem.powi ℓ 2 / (Polymers.BOLTZMANN_CONSTANT : ℝ) / T) 7 (-100) 100 := ⟨az.rel, by rw [e2]; exact hκ'.1, by rw [e2]; exact hκ'.2⟩
  have aη : Acc (.fin η : F64 P) η 0 (-100) 100 := acc_moderate hη'
  have a0 : Acc (Polymers.ZERO : F64 P) (Polymers.ZERO : ℝ) 1 (-100) 100 := ⟨zero_lit.rel, by unfold Polymers.ZERO; exact moderate_zero.1,
    by unfold Polymers.ZERO; exact moderate_zero.2⟩
  have z0 : (0 : ℝ) < Polymers.ZERO := by unfold Polymers.ZERO; norm_num
  have z1 : (Polymers.ZERO : ℝ) ≤ 300 := by unfold Polymers.ZERO; norm_num
  have scale : ∀ {u : F64 P} {r M : ℝ}, Sized u r 66 M → (2 : ℝ) ^ (0 : ℤ) ≤ M → M ≤ 2 ^ (230 : ℤ) →
      Sized ((N : F64 P) * u) (N * r) 71 (N * M) ∧ N * M ≤ 2 ^ (500 : ℤ) := by
    intro u r M h lo hi
    have r1 := mul_range lo hi aN.lo aN.hi
    have q1 := range_mono r1 (c := -1000) (d := 590) (by norm_num) (by norm_num)
    have k1 := h.mul aN (by norm_num) (by norm_num) (by norm_num) q1.1 q1.2 (by norm_num)
    rw [Nat.abs_cast, mul_comm M] at k1 r1
    exact ⟨k1.weaken (by norm_num) (by norm_num) rfl le_rfl k1.hi, r1.2.trans (two_zpow_mono (by norm_num))⟩
  obtain ⟨s1, lo1, hi1⟩ := sized_alternative_nondimensional' hℓ hℓ0 hm hm0 hT hT0 aη h0 h300 (by norm_num) (by norm_num) hz (by rwa [e2])
  obtain ⟨s2, lo2, hi2⟩ := sized_alternative_nondimensional' moderate_one one_pos moderate_one one_pos moderate_300 (by norm_num) aη h0 h300 (by norm_num) (by norm_num) hz
    (by rwa [e2])
  obtain ⟨s3, lo3, hi3⟩ := sized_alternative_nondimensional' moderate_one one_pos moderate_one one_pos moderate_300 (by norm_num) a0 z0 z1 (by norm_num) (by norm_num) hz
    (by rwa [e2])
  obtain ⟨w1, -⟩ := scale s1 lo1 hi1
  obtain ⟨w2, b2⟩ := scale s2 lo2 hi2
  obtain ⟨w3, b3⟩ := scale s3 lo3 hi3
  have h590 : (2 : ℝ) ^ (500 : ℤ) + 2 ^ (500 : ℤ) ≤ 2 ^ (590 : ℤ) := by
    rw [← two_mul, ← zpow_one_add₀ (by norm_num)]; exact two_zpow_mono (by norm_num)
  have h500 : (2 : ℝ) ^ (230 : ℤ) ≤ 2 ^ (500 : ℤ) := two_zpow_mono (by norm_num)
  have w4 := w2.sub w3 ((add_le_add b2 b3).trans h590) le_rfl (by norm_num)
  have w5 := s2.sub s3 ((add_le_add (hi2.trans h500) (hi3.trans h500)).trans h590) le_rfl (by norm_num)
  rw [← mul_add] at w4
  have y1 := w1.within
  have y2 := s1.within
  have y4 := w4.within
  have y5 := w5.within
  rw [show (71 : ℝ) + 2 = 73 by norm_num] at y4
  rw [show (66 : ℝ) + 2 = 68 by norm_num] at y5
  rw [← e2]
  refine ⟨y1, y2, ?_, ?_⟩
  · show Within (alternative.legendre.nondimensional_relative_helmholtz_free_energy N _ _) (alternative.legendre.nondimensional_relative_helmholtz_free_energy N _ _) _
    unfold alternative.legendre.nondimensional_relative_helmholtz_free_energy
    rw [lit_one, lit_300, show (1.0 : ℝ) = 1 by norm_num, show (300.0 : ℝ) = 300 by norm_num]
    exact y4
  · show Within (alternative.legendre.nondimensional_relative_helmholtz_free_energy_per_link _ _) (alternative.legendre.nondimensional_relative_helmholtz_free_energy_per_link _ _) _
    unfold alternative.legendre.nondimensional_relative_helmholtz_free_energy_per_link
    rw [lit_one, lit_300, show (1.0 : ℝ) = 1 by norm_num, show (300.0 : ℝ) = 300 by norm_num]
    exact y5

/-- C100: the Helmholtz energies of the extensible chain in the alternative approach under a force with `f ℓ ≤ 300 k T`. -/
theorem C100_efjc_alternative_helmholtz (P : Platform) (hN : 0 < N) (hN' : N ≤ 255) (hℓ : Moderate ℓ) (hℓ0 : 0 < ℓ) (hm : Moderate m) (hm0 : 0 < m)
    (hc : Moderate c) (hc0 : 0 < c) (hf : Moderate f) (hT : Moderate T) (hT0 : 0 < T) {k : ℝ} (hk : k = Polymers.BOLTZMANN_CONSTANT) (hη : η = f * ℓ / (k * T))
    (hη' : Moderate η) (h0 : 0 < η) (h300 : η ≤ 300) (hκ : κ = c * ℓ ^ 2 / (k * T)) (hκ' : Moderate κ)
    {F : ApiF.EnergyMethodsF P} (hF : F = ApiF.efjc_isotensional_asymptotic_alternative_legendre_helmholtz N (.fin ℓ) (.fin m) (.fin c))
    {R : EnergyMethods} (hR : R = Api.efjc_isotensional_asymptotic_alternative_legendre_helmholtz N ℓ m c) :
    Within (F.energy (.fin f) (.fin T)) (R.energy f T) (P.ε * (79 * (k * T * (N * efjcAlternativeHelmholtzSize ℓ m κ T η)))) ∧
    Within (F.energy_per_link (.fin f) (.fin T)) (R.energy_per_link f T) (P.ε * (74 * (k * T * efjcAlternativeHelmholtzSize ℓ m κ T η))) ∧
    Within (F.relative (.fin f) (.fin T)) (R.relative f T) (P.ε * (81 * (k * T * (N * (efjcAlternativeHelmholtzSize ℓ 1 κ T η + efjcAlternativeHelmholtzSize ℓ 1 κ T 1e-6))))) ∧
    Within (F.relative_per_link (.fin f) (.fin T)) (R.relative_per_link f T)
      (P.ε * (76 * (k * T * (efjcAlternativeHelmholtzSize ℓ 1 κ T η + efjcAlternativeHelmholtzSize ℓ 1 κ T 1e-6)))) := by
  subst hF hR hk
  have hk0 := boltzmann_pos
  have hN0 : (0 : ℝ) < N := by exact_mod_cast hN
  have aN := acc_nat (P := P) hN hN'
  have aT := acc_moderate (P := P) hT
  have aK := acc_boltzmann (P := P)
  have a2 := aK ⊗ aT
  have hκ0 : 0 < κ := by rw [hκ]; positivity
  have scale : ∀ {u : F64 P} {r M : ℝ}, Sized u r 66 M → (2 : ℝ) ^ (0 : ℤ) ≤ M → M ≤ 2 ^ (230 : ℤ) →
      Sized ((Polymers.BOLTZMANN_CONSTANT : F64 P) * .fin T * ((N : F64 P) * u)) ((Polymers.BOLTZMANN_CONSTANT : ℝ) * T * (N * r)) 79
        (Polymers.BOLTZMANN_CONSTANT * T * (N * M)) ∧ Polymers.BOLTZMANN_CONSTANT * T * (N * M) ≤ 2 ^ (500 : ℤ) ∧
      Sized ((Polymers.BOLTZMANN_CONSTANT : F64 P) * .fin T * u) ((Polymers.BOLTZMANN_CONSTANT : ℝ) * T * r) 74
        (Polymers.BOLTZMANN_CONSTANT * T * M) ∧ Polymers.BOLTZMANN_CONSTANT * T * M ≤ 2 ^ (500 : ℤ) := by
    intro u r M h lo hi
    have r1 := mul_range lo hi aN.lo aN.hi
    have q1 := range_mono r1 (c := -1000) (d := 590) (by norm_num) (by norm_num)
    have k1 := h.mul aN (by norm_num) (by norm_num) (by norm_num) q1.1 q1.2 (by norm_num)
    have r2 := mul_range r1.1 r1.2 a2.lo a2.hi
    have q2 := range_mono r2 (c := -1000) (d := 590) (by norm_num) (by norm_num)
    have k2 := k1.mul a2 (by norm_num) (by norm_num) (by norm_num) q2.1 q2.2 (by norm_num)
    have r3 := mul_range lo hi a2.lo a2.hi
    have q3 := range_mono r3 (c := -1000) (d := 590) (by norm_num) (by norm_num)
    have k3 := h.mul a2 (by norm_num) (by norm_num) (by norm_num) q3.1 q3.2 (by norm_num)
    have g1 : M * |(N : ℝ)| * |(Polymers.BOLTZMANN_CONSTANT : ℝ) * T| = Polymers.BOLTZMANN_CONSTANT * T * (N * M) := by
      rw [Nat.abs_cast, abs_of_pos (by positivity : 0 < (Polymers.BOLTZMANN_CONSTANT : ℝ) * T)]; ring
    have g2 : M * |(Polymers.BOLTZMANN_CONSTANT : ℝ) * T| = Polymers.BOLTZMANN_CONSTANT * T * M := by rw [abs_of_pos (by positivity)]; ring
    rw [g1] at k2 r2
    rw [g2] at k3 r3
    exact ⟨k2.weaken (by norm_num) (by norm_num) rfl le_rfl k2.hi, r2.2.trans (two_zpow_mono (by norm_num)),
      k3.weaken (by norm_num) (by norm_num) rfl le_rfl k3.hi, r3.2.trans (two_zpow_mono (by norm_num))⟩
  have af := acc_moderate (P := P) hf
  have az := zero_lit (P := P) ⊗ aK ⊗ aT ⊘ acc_moderate hℓ
  obtain ⟨d1, d2, d3⟩ := acc_efjc_arguments (P := P) hℓ hc hT af (by norm_num) (by norm_num) (by norm_num) hη hη' hκ hκ'
  obtain ⟨e1, e2, e3⟩ := acc_efjc_arguments (P := P) (η := 1e-6) hℓ hc hT az (by norm_num) (by norm_num) (by norm_num) (by unfold Polymers.ZERO; field_simp)
    moderate_zero hκ hκ'
  obtain ⟨s1, lo1, hi1⟩ := sized_alternative_nondimensional' hℓ hℓ0 hm hm0 hT hT0 d1 h0 h300 (by norm_num) (by norm_num) d2 hκ0
  obtain ⟨s2, lo2, hi2⟩ := sized_alternative_nondimensional' hℓ hℓ0 moderate_one one_pos hT hT0 d1 h0 h300 (by norm_num) (by norm_num) d2 hκ0
  obtain ⟨s3, lo3, hi3⟩ := sized_alternative_nondimensional' hℓ hℓ0 moderate_one one_pos hT hT0 e1 (by norm_num) (by norm_num) (by norm_num) (by norm_num) e2 hκ0
  obtain ⟨w1, -, w2, -⟩ := scale s1 lo1 hi1
  obtain ⟨w3, b3, w4, b4⟩ := scale s2 lo2 hi2
  obtain ⟨w5, b5, w6, b6⟩ := scale s3 lo3 hi3
  have h590 : (2 : ℝ) ^ (500 : ℤ) + 2 ^ (500 : ℤ) ≤ 2 ^ (590 : ℤ) := by
    rw [← two_mul, ← zpow_one_add₀ (by norm_num)]; exact two_zpow_mono (by norm_num)
  have w7 := w3.sub w5 ((add_le_add b3 b5).trans h590) le_rfl (by norm_num)
  have w8 := w4.sub w6 ((add_le_add b4 b6).trans h590) le_rfl (by norm_num)
  rw [← mul_add, ← mul_add] at w7
  rw [← mul_add] at w8
  have y1 := w1.within
  have y2 := w2.within
  have y3 := w7.within
  have y4 := w8.within
  rw [show (79 : ℝ) + 2 = 81 by norm_num] at y3
  rw [show (74 : ℝ) + 2 = 76 by norm_num] at y4
  have g := stiffness_eq hκ
  have one : (1.0 : ℝ) = 1 := by norm_num
  refine ⟨?_, ?_, ?_, ?_⟩
  · show Within _ ((Polymers.BOLTZMANN_CONSTANT : ℝ) * T * (N * alternative.legendre.nondimensional_helmholtz_free_energy_per_link ℓ m
      (c * Elem.powi ℓ 2 / (Polymers.BOLTZMANN_CONSTANT : ℝ) / T) (f / (Polymers.BOLTZMANN_CONSTANT : ℝ) / T * ℓ) T)) _
    rw [g, d3]
    exact y1
  · show Within _ ((Polymers.BOLTZMANN_CONSTANT : ℝ) * T * alternative.legendre.nondimensional_helmholtz_free_energy_per_link ℓ m
      (c * Elem.powi ℓ 2 / (Polymers.BOLTZMANN_CONSTANT : ℝ) / T) (f / (Polymers.BOLTZMANN_CONSTANT : ℝ) / T * ℓ) T) _
    rw [g, d3]
    exact y2
  · show Within (alternative.legendre.relative_helmholtz_free_energy N _ _ _ _)
      ((Polymers.BOLTZMANN_CONSTANT : ℝ) * T * (N * alternative.legendre.nondimensional_helmholtz_free_energy_per_link ℓ 1.0
        (c * Elem.powi ℓ 2 / (Polymers.BOLTZMANN_CONSTANT : ℝ) / T) (f / (Polymers.BOLTZMANN_CONSTANT : ℝ) / T * ℓ) T) -
      (Polymers.BOLTZMANN_CONSTANT : ℝ) * T * (N * alternative.legendre.nondimensional_helmholtz_free_energy_per_link ℓ 1.0
        (c * Elem.powi ℓ 2 / (Polymers.BOLTZMANN_CONSTANT : ℝ) / T)
        ((Polymers.ZERO : ℝ) * (Polymers.BOLTZMANN_CONSTANT : ℝ) * T / ℓ / (Polymers.BOLTZMANN_CONSTANT : ℝ) / T * ℓ) T)) _
    unfold alternative.legendre.relative_helmholtz_free_energy
    rw [g, d3, e3, lit_one, one]
    exact y3
  · show Within (alternative.legendre.relative_helmholtz_free_energy_per_link _ _ _ _)
      ((Polymers.BOLTZMANN_CONSTANT : ℝ) * T * alternative.legendre.nondimensional_helmholtz_free_energy_per_link ℓ 1.0
        (c * Elem.powi ℓ 2 / (Polymers.BOLTZMANN_CONSTANT : ℝ) / T) (f / (Polymers.BOLTZMANN_CONSTANT : ℝ) / T * ℓ) T -
      (Polymers.BOLTZMANN_CONSTANT : ℝ) * T * alternative.legendre.nondimensional_helmholtz_free_energy_per_link ℓ 1.0
        (c * Elem.powi ℓ 2 / (Polymers.BOLTZMANN_CONSTANT : ℝ) / T)
        ((Polymers.ZERO : ℝ) * (Polymers.BOLTZMANN_CONSTANT : ℝ) * T / ℓ / (Polymers.BOLTZMANN_CONSTANT : ℝ) / T * ℓ) T) _
    unfold alternative.legendre.relative_helmholtz_free_energy_per_link
    rw [g, d3, e3, lit_one, one]
    exact y4

/-! ### Concrete cases: twenty links of unit length with stiffness 50000 at 300 degrees on a machine which rounds correctly -/

example := C100_efjc_alternative_nondimensional_gibbs correctlyRounded (N := 20) (by norm_num) (by norm_num) moderate_one one_pos moderate_one one_pos
  (moderate_of (v := 50000) (by norm_num) (by norm_num)) (by norm_num) moderate_300 (by norm_num) rfl
  (moderate_of (v := 2) (by norm_num) (by norm_num)) (by norm_num) (by norm_num) rfl (by unfold Polymers.BOLTZMANN_CONSTANT; constructor <;> norm_num) rfl rfl
example := C100_efjc_alternative_nondimensional_helmholtz correctlyRounded (N := 20) (by norm_num) (by norm_num) moderate_one one_pos moderate_one one_pos
  (moderate_of (v := 50000) (by norm_num) (by norm_num)) (by norm_num) moderate_300 (by norm_num) rfl
  (moderate_of (v := 2) (by norm_num) (by norm_num)) (by norm_num) (by norm_num) rfl (by unfold Polymers.BOLTZMANN_CONSTANT; constructor <;> norm_num) rfl rfl
example := C100_efjc_alternative_helmholtz correctlyRounded (N := 20) (by norm_num) (by norm_num) moderate_one one_pos moderate_one one_pos
  (moderate_of (v := 50000) (by norm_num) (by norm_num)) (by norm_num) (moderate_of (v := 5000) (by norm_num) (by norm_num)) moderate_300 (by norm_num) rfl rfl
  (by unfold Polymers.BOLTZMANN_CONSTANT; constructor <;> norm_num) (by unfold Polymers.BOLTZMANN_CONSTANT; norm_num)
  (by unfold Polymers.BOLTZMANN_CONSTANT; norm_num) rfl (by unfold Polymers.BOLTZMANN_CONSTANT; constructor <;> norm_num) rfl rfl

end Polymers.Props
