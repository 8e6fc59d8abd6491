import Verif.Props.IeeeEfjcAsymptotic
import Verif.Props.IeeeEfjcAsymptoticEnergy
import Verif.Props.IeeeEfjcEnergy

/-! C105: the Helmholtz energies of the extensible freely jointed chain at fixed force in floating point, in the asymptotic approach. -/

namespace Polymers.Props

open Polymers.Ieee Polymers.Spec Polymers.Lemmas
open Polymers.efjc.thermodynamics.isotensional

variable {P : Platform} {N : ℕ} {ℓ m c T f η κ n s t : ℝ} {a b : ℤ} {x y z : F64 P}

local macro:70 a:term:70 " ⊗ " b:term:71 : term => `(Acc.mul $a $b (by norm_num) (by norm_num) (by norm_num))
local macro:70 a:term:70 " ⊘ " b:term:71 : term => `(Acc.div $a $b (by norm_num) (by norm_num) (by norm_num))

/-- The Helmholtz energy of a link of the extensible chain in the asymptotic approach. -/
theorem sized_asymptotic_helmholtz (hy : Acc y η n (-100) 100) (h0 : 0 < η) (h600 : η ≤ 600) (hn0 : 0 ≤ n) (hn : n ≤ 9) (hz : Acc z κ 7 (-100) 100) (hκ : 0 < κ)
    {u v : F64 P} (hu : Sized u s 1 (|s| + 17)) (hs : |s| ≤ 1000) (hv : Sized v t 1 (|t| + 24)) (ht : |t| ≤ 1000) :
    Sized ((-Elem.ln (Elem.sinh y / y)) - 0.5 * Elem.powi y 2 / z - Elem.ln (1.0 + y / z / Elem.tanh y) - 0.5 * u - v + y / Elem.tanh y - 1.0 +
        Elem.powi y 2 / z * (1.0 + (Elem.tanh y - 1.0 / Elem.tanh y + 1.0 / y) / (Elem.tanh y + y / z)))
      ((-Elem.ln (Elem.sinh η / η)) - 0.5 * Elem.powi η 2 / κ - Elem.ln (1.0 + η / κ / Elem.tanh η) - 0.5 * s - t + η / Elem.tanh η - 1.0 +
        Elem.powi η 2 / κ * (1.0 + (Elem.tanh η - 1.0 / Elem.tanh η + 1.0 / η) / (Elem.tanh η + η / κ))) 78
      (η + η ^ 2 / (2 * κ) + |s| / 2 + |t| + 40 + Real.log (1 + η / Real.tanh η / κ) + 31 + (2 + η) + (2 + 2 * η + η ^ 2 / κ)) ∧
    (2 : ℝ) ^ (0 : ℤ) ≤ η + η ^ 2 / (2 * κ) + |s| / 2 + |t| + 40 + Real.log (1 + η / Real.tanh η / κ) + 31 + (2 + η) + (2 + 2 * η + η ^ 2 / κ) ∧
    η + η ^ 2 / (2 * κ) + |s| / 2 + |t| + 40 + Real.log (1 + η / Real.tanh η / κ) + 31 + (2 + η) + (2 + 2 * η + η ^ 2 / κ) ≤ 2 ^ (230 : ℤ) := by
  obtain ⟨-, g1, g2, g3⟩ := acc_coupling hy h0 hn hz hκ
  obtain ⟨k1, l1, u1⟩ := sized_asymptotic_core hy h0 h600 hn0 hn hz hκ hu hs hv ht g1 (by rw [g3]; exact g2)
  obtain ⟨-, k2, w0, h5⟩ := sized_asymptotic_factor hy h0 hn0 hn hz hκ
  obtain ⟨c1, c2, c3⟩ := coth_bounds h0
  rw [show Real.log (1 + η / Real.tanh η / κ) = Real.log (1 + η / κ / Real.tanh η) by rw [g3]]
  set M := η + η ^ 2 / (2 * κ) + |s| / 2 + |t| + 40 + Real.log (1 + η / κ / Real.tanh η) + 31 with hM
  rw [zpow_zero] at l1
  have e1 : (1.0 : ℝ) = 1 := by norm_num
  have hQ0 : 0 < η ^ 2 / κ := by positivity
  have hQ : η ^ 2 / κ ≤ 2 ^ (120 : ℤ) := by
    have lo := hz.lo
    rw [abs_of_pos hκ] at lo
    have h1 : η ^ 2 ≤ 2 ^ (20 : ℤ) := by
      calc η ^ 2 ≤ 600 ^ 2 := by gcongr
        _ ≤ _ := by norm_num
    calc η ^ 2 / κ ≤ 2 ^ (20 : ℤ) / (2 ^ (-100 : ℤ)) := div_le_div₀ (by positivity) h1 (by positivity) lo
      _ = 2 ^ (120 : ℤ) := by rw [← zpow_sub₀ (by norm_num)]; norm_num
  have tot : M + (2 + η) + (2 + 2 * η + η ^ 2 / κ) ≤ 2 ^ (230 : ℤ) := by
    have h1 : (2 : ℝ) ^ (190 : ℤ) + 602 + (1202 + 2 ^ (120 : ℤ)) ≤ 2 ^ (230 : ℤ) := by norm_num
    exact le_trans (add_le_add (add_le_add u1 (by linarith)) (add_le_add (by linarith) hQ)) h1
  have up : ∀ {A : ℝ}, A ≤ M + (2 + η) + (2 + 2 * η + η ^ 2 / κ) → A ≤ 2 ^ (590 : ℤ) := fun h => h.trans (tot.trans (two_zpow_mono (by norm_num)))
  -- the work on the extension
  have aQ := Acc.div (hy.sq (by linarith) (by norm_num) (by norm_num)) hz (by linarith) (by norm_num) (by norm_num)
  rw [powi_two] at aQ
  have h6 : (1 + (1 + (1 + 1 / η) + 1 / η) / (Real.tanh η + η / κ)) * (η ^ 2 / κ) ≤ 2 + 2 * η + η ^ 2 / κ := by
    calc _ = ((1 + (1 + (1 + 1 / η) + 1 / η) / (Real.tanh η + η / κ)) * (η / κ)) * η := by ring
      _ ≤ (η / κ + (2 + 2 * (1 / η))) * η := by gcongr
      _ = _ := by field_simp; ring
  have l6 : (2 : ℝ) ^ (-1000 : ℤ) ≤ (1 + (1 + (1 + 1 / η) + 1 / η) / (Real.tanh η + η / κ)) * (η ^ 2 / κ) := by
    have h1 : (2 : ℝ) ^ (-1000 : ℤ) ≤ η ^ 2 / κ := by
      have := aQ.lo
      rw [abs_of_pos hQ0] at this
      exact this.trans' (two_zpow_mono (by norm_num))
    exact h1.trans (le_mul_of_one_le_left hQ0.le (by linarith))
  have k4 := k2.mul aQ (by linarith) (by linarith) (by norm_num) (by rw [abs_of_pos hQ0]; exact l6) (by rw [abs_of_pos hQ0]; exact up (h6.trans (by linarith)))
    (by linarith)
  rw [abs_of_pos hQ0] at k4
  have k4' := k4.weaken (q' := 76) (by linarith) (by norm_num) rfl h6 (up (by linarith))
  have ac := Acc.div hy (hy.tanh h0 (by linarith) (by norm_num) (by norm_num)) (by linarith) (by norm_num) (by norm_num)
  have k5 := ac.sized (by linarith) (by linarith) (by norm_num) (by norm_num)
  have e5 : |η / Real.tanh η| ≤ 1 + η := by
    rw [abs_of_pos (by positivity)]
    calc η / Real.tanh η = η * (1 / Real.tanh η) := by ring
      _ ≤ η * (1 + 1 / η) := mul_le_mul_of_nonneg_left c2.le h0.le
      _ = 1 + η := by field_simp; ring
  have k5' := k5.weaken (q' := 40) (by linarith) (by norm_num) rfl e5 (up (by linarith))
  have k6 := sized_one (P := P)
  have r1 := k1.add k5' (up (by linarith)) (by norm_num)
  have r2 := r1.sub (k6.weaken (q' := 42) (by norm_num) (by norm_num) rfl le_rfl k6.hi) (up (by linarith)) (by norm_num) (by norm_num)
  have r3 := (r2.weaken (q' := 76) (by norm_num) (by norm_num) rfl le_rfl r2.hi).add k4' (up (by linarith)) (by norm_num)
  refine ⟨r3.weaken (by norm_num) (by norm_num) ?_ (by linarith) (up le_rfl), by rw [zpow_zero]; linarith, tot⟩
  rw [powi_two, e1]
  rfl

/-- The nondimensional Helmholtz energy per link. -/
theorem sized_asymptotic_nondimensional' (hℓ : Moderate ℓ) (hℓ0 : 0 < ℓ) (hm : Moderate m) (hm0 : 0 < m) (hT : Moderate T) (hT0 : 0 < T)
    (hy : Acc y η n (-100) 100) (h0 : 0 < η) (h600 : η ≤ 600) (hn0 : 0 ≤ n) (hn : n ≤ 9) (hz : Acc z κ 7 (-100) 100) (hκ : 0 < κ) :
    Sized (asymptotic.legendre.nondimensional_helmholtz_free_energy_per_link (.fin ℓ) (.fin m) z y (.fin T)) (asymptotic.legendre.nondimensional_helmholtz_free_energy_per_link ℓ m κ η T) 78
      (efjcAsymptoticHelmholtzSize ℓ m κ T η) ∧ (2 : ℝ) ^ (0 : ℤ) ≤ efjcAsymptoticHelmholtzSize ℓ m κ T η ∧ efjcAsymptoticHelmholtzSize ℓ m κ T η ≤ 2 ^ (230 : ℤ) := by
  have as := acc_two (P := P) ⊗ acc_pi ⊗ (acc_moderate hℓ).sq (by norm_num) (by norm_num) (by norm_num) ⊘ hz
  have e : 2.0 * Real.pi * Elem.powi ℓ 2 / κ = 2 * Real.pi * ℓ ^ 2 / κ := by rw [powi_two]; norm_num
  obtain ⟨hu, hs⟩ := sized_ln as (by rw [e]; positivity) (by norm_num) (by norm_num) (by norm_num)
  obtain ⟨hv, ht⟩ := sized_hinge (P := P) hℓ hm hm0 hT hT0
  have k := sized_asymptotic_helmholtz hy h0 h600 hn0 hn hz hκ hu hs hv ht
  rw [hingeLog_eq, e] at k
  unfold efjcAsymptoticHelmholtzSize efjcAsymptoticGibbsSize efjcGibbsSize
  rw [← e] at k ⊢
  rw [← hingeLog_eq] at k ⊢
  exact k

/-- C105: the nondimensional Helmholtz energies of the extensible chain in the asymptotic approach. -/
theorem C105_efjc_asymptotic_nondimensional_helmholtz (P : Platform) (hN : 0 < N) (hN' : N ≤ 255) (hℓ : Moderate ℓ) (hℓ0 : 0 < ℓ) (hm : Moderate m) (hm0 : 0 < m)
    (hc : Moderate c) (hc0 : 0 < c) (hT : Moderate T) (hT0 : 0 < T) {k : ℝ} (hk : k = Polymers.BOLTZMANN_CONSTANT)
    (hη' : Moderate η) (h0 : 0 < η) (h600 : η ≤ 600) (hκ : κ = c * ℓ ^ 2 / (k * T)) (hκ' : Moderate κ)
    {F : ApiF.EnergyMethodsF P} (hF : F = ApiF.efjc_isotensional_asymptotic_legendre_helmholtz N (.fin ℓ) (.fin m) (.fin c))
    {R : EnergyMethods} (hR : R = Api.efjc_isotensional_asymptotic_legendre_helmholtz N ℓ m c) :
    Within (F.nd_energy (.fin η) (.fin T)) (R.nd_energy η T) (P.ε * (83 * (N * efjcAsymptoticHelmholtzSize ℓ m κ T η))) ∧
    Within (F.nd_energy_per_link (.fin η) (.fin T)) (R.nd_energy_per_link η T) (P.ε * (78 * efjcAsymptoticHelmholtzSize ℓ m κ T η)) ∧
    Within (F.nd_relative (.fin η) (.fin T)) (R.nd_relative η T) (P.ε * (85 * (N * (efjcAsymptoticHelmholtzSize 1 1 κ 300 η + efjcAsymptoticHelmholtzSize 1 1 κ 300 1e-6)))) ∧
    Within (F.nd_relative_per_link (.fin η) (.fin T)) (R.nd_relative_per_link η T)
      (P.ε * (80 * (efjcAsymptoticHelmholtzSize 1 1 κ 300 η + efjcAsymptoticHelmholtzSize 1 1 κ 300 1e-6))) := by
  subst hF hR hk
  have hk0 := boltzmann_pos
  have hN0 : (0 : ℝ) < N := by exact_mod_cast hN
  have aN := acc_nat (P := P) hN hN'
  have hκ0 : 0 < κ := by rw [hκ]; positivity
  have az := acc_stiffness (P := P) hc hℓ hT
  have e2 := stiffness_eq hκ
  have hz : Acc _ (c * Elem.powi ℓ 2 / (Polymers.BOLTZMANN_CONSTANT : ℝ) / T) 7 (-100) 100 := ⟨az.rel, by rw [e2]; exact hκ'.1, by rw [e2]; exact hκ'.2⟩
  have aη : Acc (.fin η : F64 P) η 0 (-100) 100 := acc_moderate hη'
  have a0 : Acc (Polymers.ZERO : F64 P) (Polymers.ZERO : ℝ) 1 (-100) 100 := ⟨zero_lit.rel, by unfold Polymers.ZERO; exact moderate_zero.1,
    by unfold Polymers.ZERO; exact moderate_zero.2⟩
  have z0 : (0 : ℝ) < Polymers.ZERO := by unfold Polymers.ZERO; norm_num
  have z1 : (Polymers.ZERO : ℝ) ≤ 600 := by unfold Polymers.ZERO; norm_num
  have scale : ∀ {u : F64 P} {r M : ℝ}, Sized u r 78 M → (2 : ℝ) ^ (0 : ℤ) ≤ M → M ≤ 2 ^ (230 : ℤ) →
      Sized ((N : F64 P) * u) (N * r) 83 (N * M) ∧ N * M ≤ 2 ^ (500 : ℤ) := by
    intro u r M h lo hi
    have r1 := mul_range lo hi aN.lo aN.hi
    have q1 := range_mono r1 (c := -1000) (d := 590) (by norm_num) (by norm_num)
    have k1 := h.mul aN (by norm_num) (by norm_num) (by norm_num) q1.1 q1.2 (by norm_num)
    rw [Nat.abs_cast, mul_comm M] at k1 r1
    exact ⟨k1.weaken (by norm_num) (by norm_num) rfl le_rfl k1.hi, r1.2.trans (two_zpow_mono (by norm_num))⟩
  obtain ⟨s1, lo1, hi1⟩ := sized_asymptotic_nondimensional' hℓ hℓ0 hm hm0 hT hT0 aη h0 h600 (by norm_num) (by norm_num) hz (by rwa [e2])
  obtain ⟨s2, lo2, hi2⟩ := sized_asymptotic_nondimensional' moderate_one one_pos moderate_one one_pos moderate_300 (by norm_num) aη h0 h600 (by norm_num) (by norm_num) hz
    (by rwa [e2])
  obtain ⟨s3, lo3, hi3⟩ := sized_asymptotic_nondimensional' moderate_one one_pos moderate_one one_pos moderate_300 (by norm_num) a0 z0 z1 (by norm_num) (by norm_num) hz
    (by rwa [e2])
  obtain ⟨w1, -⟩ := scale s1 lo1 hi1
  obtain ⟨w2, b2⟩ := scale s2 lo2 hi2
  obtain ⟨w3, b3⟩ := scale s3 lo3 hi3
  have h590 : (2 : ℝ) ^ (500 : ℤ) + 2 ^ (500 : ℤ) ≤ 2 ^ (590 : ℤ) := by
    rw [← two_mul, ← zpow_one_add₀ (by norm_num)]; exact two_zpow_mono (by norm_num)
  have h500 : (2 : ℝ) ^ (230 : ℤ) ≤ 2 ^ (500 : ℤ) := two_zpow_mono (by norm_num)
  have w4 := w2.sub w3 ((add_le_add b2 b3).trans h590) le_rfl (by norm_num)
  have w5 := s2.sub s3 ((add_le_add (hi2.trans h500) (hi3.trans h500)).trans h590) le_rfl (by norm_num)
  rw [← mul_add] at w4
  have y1 := w1.within
  have y4 := w4.within
  have y5 := w5.within
  rw [show (83 : ℝ) + 2 = 85 by norm_num] at y4
  rw [show (78 : ℝ) + 2 = 80 by norm_num] at y5
  -- the method of a single link has its own formula, with another argument of the logarithm of the thermal stretch
  have as := acc_two (P := P) ⊗ acc_pi ⊗ acc_boltzmann ⊗ acc_moderate hT ⊘ acc_moderate hc
  have e : 2.0 * Real.pi * (Polymers.BOLTZMANN_CONSTANT : ℝ) * T / c = 2 * Real.pi * ℓ ^ 2 / κ := by
    rw [hκ, show (2.0 : ℝ) = 2 by norm_num]; field_simp
  obtain ⟨hu, hs⟩ := sized_ln as (by rw [e]; positivity) (by norm_num) (by norm_num) (by norm_num)
  obtain ⟨hv, ht⟩ := sized_hinge (P := P) hℓ hm hm0 hT hT0
  have y2 := (sized_asymptotic_helmholtz aη h0 h600 (by norm_num) (by norm_num) hz (by rwa [e2]) hu hs hv ht).1.within
  have eM : η + η ^ 2 / (2 * (c * Elem.powi ℓ 2 / (Polymers.BOLTZMANN_CONSTANT : ℝ) / T)) + |Real.log (2.0 * Real.pi * (Polymers.BOLTZMANN_CONSTANT : ℝ) * T / c)| / 2 +
      |logRatio ℓ m T| + 40 + Real.log (1 + η / Real.tanh η / (c * Elem.powi ℓ 2 / (Polymers.BOLTZMANN_CONSTANT : ℝ) / T)) + 31 + (2 + η) +
      (2 + 2 * η + η ^ 2 / (c * Elem.powi ℓ 2 / (Polymers.BOLTZMANN_CONSTANT : ℝ) / T)) =
      efjcAsymptoticHelmholtzSize ℓ m (c * Elem.powi ℓ 2 / (Polymers.BOLTZMANN_CONSTANT : ℝ) / T) T η := by
    rw [e, e2, hingeLog_eq]; rfl
  rw [eM] at y2
  rw [← e2]
  refine ⟨y1, y2, ?_, ?_⟩
  · show Within (asymptotic.legendre.nondimensional_relative_helmholtz_free_energy N _ _) (asymptotic.legendre.nondimensional_relative_helmholtz_free_energy N _ _) _
    unfold asymptotic.legendre.nondimensional_relative_helmholtz_free_energy
    rw [lit_one, lit_300, show (1.0 : ℝ) = 1 by norm_num, show (300.0 : ℝ) = 300 by norm_num]
    exact y4
  · show Within (asymptotic.legendre.nondimensional_relative_helmholtz_free_energy_per_link _ _) (asymptotic.legendre.nondimensional_relative_helmholtz_free_energy_per_link _ _) _
    unfold asymptotic.legendre.nondimensional_relative_helmholtz_free_energy_per_link
    rw [lit_one, lit_300, show (1.0 : ℝ) = 1 by norm_num, show (300.0 : ℝ) = 300 by norm_num]
    exact y5

/-- C105: the Helmholtz energies of the extensible chain in the asymptotic approach under a force with `f ℓ ≤ 600 k T`. -/
theorem C105_efjc_asymptotic_helmholtz (P : Platform) (hN : 0 < N) (hN' : N ≤ 255) (hℓ : Moderate ℓ) (hℓ0 : 0 < ℓ) (hm : Moderate m) (hm0 : 0 < m)
    (hc : Moderate c) (hc0 : 0 < c) (hf : Moderate f) (hT : Moderate T) (hT0 : 0 < T) {k : ℝ} (hk : k = Polymers.BOLTZMANN_CONSTANT) (hη : η = f * ℓ / (k * T))
    (hη' : Moderate η) (h0 : 0 < η) (h600 : η ≤ 600) (hκ : κ = c * ℓ ^ 2 / (k * T)) (hκ' : Moderate κ)
    {F : ApiF.EnergyMethodsF P} (hF : F = ApiF.efjc_isotensional_asymptotic_legendre_helmholtz N (.fin ℓ) (.fin m) (.fin c))
    {R : EnergyMethods} (hR : R = Api.efjc_isotensional_asymptotic_legendre_helmholtz N ℓ m c) :
    Within (F.energy (.fin f) (.fin T)) (R.energy f T) (P.ε * (91 * (k * T * (N * efjcAsymptoticHelmholtzSize ℓ m κ T η)))) ∧
    Within (F.energy_per_link (.fin f) (.fin T)) (R.energy_per_link f T) (P.ε * (86 * (k * T * efjcAsymptoticHelmholtzSize ℓ m κ T η))) ∧
    Within (F.relative (.fin f) (.fin T)) (R.relative f T) (P.ε * (93 * (k * T * (N * (efjcAsymptoticHelmholtzSize ℓ 1 κ T η + efjcAsymptoticHelmholtzSize ℓ 1 κ T 1e-6))))) ∧
    Within (F.relative_per_link (.fin f) (.fin T)) (R.relative_per_link f T)
      (P.ε * (88 * (k * T * (efjcAsymptoticHelmholtzSize ℓ 1 κ T η + efjcAsymptoticHelmholtzSize ℓ 1 κ T 1e-6)))) := by
  subst hF hR hk
  have hk0 := boltzmann_pos
  have hN0 : (0 : ℝ) < N := by exact_mod_cast hN
  have aN := acc_nat (P := P) hN hN'
  have aT := acc_moderate (P := P) hT
  have aK := acc_boltzmann (P := P)
  have a2 := aK ⊗ aT
  have hκ0 : 0 < κ := by rw [hκ]; positivity
  have scale : ∀ {u : F64 P} {r M : ℝ}, Sized u r 78 M → (2 : ℝ) ^ (0 : ℤ) ≤ M → M ≤ 2 ^ (230 : ℤ) →
      Sized ((Polymers.BOLTZMANN_CONSTANT : F64 P) * .fin T * ((N : F64 P) * u)) ((Polymers.BOLTZMANN_CONSTANT : ℝ) * T * (N * r)) 91
        (Polymers.BOLTZMANN_CONSTANT * T * (N * M)) ∧ Polymers.BOLTZMANN_CONSTANT * T * (N * M) ≤ 2 ^ (500 : ℤ) ∧
      Sized ((Polymers.BOLTZMANN_CONSTANT : F64 P) * .fin T * u) ((Polymers.BOLTZMANN_CONSTANT : ℝ) * T * r) 86
        (Polymers.BOLTZMANN_CONSTANT * T * M) ∧ Polymers.BOLTZMANN_CONSTANT * T * M ≤ 2 ^ (500 : ℤ) := by
    intro u r M h lo hi
    have r1 := mul_range lo hi aN.lo aN.hi
    have q1 := range_mono r1 (c := -1000) (d := 590) (by norm_num) (by norm_num)
    have k1 := h.mul aN (by norm_num) (by norm_num) (by norm_num) q1.1 q1.2 (by norm_num)
    have r2 := mul_range r1.1 r1.2 a2.lo a2.hi
    have q2 := range_mono r2 (c := -1000) (d := 590) (by norm_num) (by norm_num)
    have k2 := k1.mul a2 (by norm_num) (by norm_num) (by norm_num) q2.1 q2.2 (by norm_num)
    have r3 := mul_range lo hi a2.lo a2.hi
    have q3 := range_mono r3 (c := -1000) (d := 590) (by norm_num) (by norm_num)
    have k3 := h.mul a2 (by norm_num) (by norm_num) (by norm_num) q3.1 q3.2 (by norm_num)
    have g1 : M * |(N : ℝ)| * |(Polymers.BOLTZMANN_CONSTANT : ℝ) * T| = Polymers.BOLTZMANN_CONSTANT * T * (N * M) := by
      rw [Nat.abs_cast, abs_of_pos (by positivity : 0 < (Polymers.BOLTZMANN_CONSTANT : ℝ) * T)]; ring
    have g2 : M * |(Polymers.BOLTZMANN_CONSTANT : ℝ) * T| = Polymers.BOLTZMANN_CONSTANT * T * M := by rw [abs_of_pos (by positivity)]; ring
    rw [g1] at k2 r2
    rw [g2] at k3 r3
    exact ⟨k2.weaken (by norm_num) (by norm_num) rfl le_rfl k2.hi, r2.2.trans (two_zpow_mono (by norm_num)),
      k3.weaken (by norm_num) (by norm_num) rfl le_rfl k3.hi, r3.2.trans (two_zpow_mono (by norm_num))⟩
  have af := acc_moderate (P := P) hf
  have az := zero_lit (P := P) ⊗ aK ⊗ aT ⊘ acc_moderate hℓ
  obtain ⟨d1, d2, d3⟩ := acc_efjc_arguments (P := P) hℓ hc hT af (by norm_num) (by norm_num) (by norm_num) hη hη' hκ hκ'
  obtain ⟨e1, e2, e3⟩ := acc_efjc_arguments (P := P) (η := 1e-6) hℓ hc hT az (by norm_num) (by norm_num) (by norm_num) (by unfold Polymers.ZERO; field_simp)
    moderate_zero hκ hκ'
  obtain ⟨s1, lo1, hi1⟩ := sized_asymptotic_nondimensional' hℓ hℓ0 hm hm0 hT hT0 d1 h0 h600 (by norm_num) (by norm_num) d2 hκ0
  obtain ⟨s2, lo2, hi2⟩ := sized_asymptotic_nondimensional' hℓ hℓ0 moderate_one one_pos hT hT0 d1 h0 h600 (by norm_num) (by norm_num) d2 hκ0
  obtain ⟨s3, lo3, hi3⟩ := sized_asymptotic_nondimensional' hℓ hℓ0 moderate_one one_pos hT hT0 e1 (by norm_num) (by norm_num) (by norm_num) (by norm_num) e2 hκ0
  obtain ⟨w1, -, w2, -⟩ := scale s1 lo1 hi1
  obtain ⟨w3, b3, w4, b4⟩ := scale s2 lo2 hi2
  obtain ⟨w5, b5, w6, b6⟩ := scale s3 lo3 hi3
  have h590 : (2 : ℝ) ^ (500 : ℤ) + 2 ^ (500 : ℤ) ≤ 2 ^ (590 : ℤ) := by
    rw [← two_mul, ← zpow_one_add₀ (by norm_num)]; exact two_zpow_mono (by norm_num)
  have w7 := w3.sub w5 ((add_le_add b3 b5).trans h590) le_rfl (by norm_num)
  have w8 := w4.sub w6 ((add_le_add b4 b6).trans h590) le_rfl (by norm_num)
  rw [← mul_add, ← mul_add] at w7
  rw [← mul_add] at w8
  have y1 := w1.within
  have y2 := w2.within
  have y3 := w7.within
  have y4 := w8.within
  rw [show (91 : ℝ) + 2 = 93 by norm_num] at y3
  rw [show (86 : ℝ) + 2 = 88 by norm_num] at y4
  have g := stiffness_eq hκ
  have one : (1.0 : ℝ) = 1 := by norm_num
  refine ⟨?_, ?_, ?_, ?_⟩
  · show Within _ ((Polymers.BOLTZMANN_CONSTANT : ℝ) * T * (N * asymptotic.legendre.nondimensional_helmholtz_free_energy_per_link ℓ m
      (c * Elem.powi ℓ 2 / (Polymers.BOLTZMANN_CONSTANT : ℝ) / T) (f / (Polymers.BOLTZMANN_CONSTANT : ℝ) / T * ℓ) T)) _
    rw [g, d3]
    exact y1
  · show Within _ ((Polymers.BOLTZMANN_CONSTANT : ℝ) * T * asymptotic.legendre.nondimensional_helmholtz_free_energy_per_link ℓ m
      (c * Elem.powi ℓ 2 / (Polymers.BOLTZMANN_CONSTANT : ℝ) / T) (f / (Polymers.BOLTZMANN_CONSTANT : ℝ) / T * ℓ) T) _
    rw [g, d3]
    exact y2
  · show Within (asymptotic.legendre.relative_helmholtz_free_energy N _ _ _ _)
      ((Polymers.BOLTZMANN_CONSTANT : ℝ) * T * (N * asymptotic.legendre.nondimensional_helmholtz_free_energy_per_link ℓ 1.0
        (c * Elem.powi ℓ 2 / (Polymers.BOLTZMANN_CONSTANT : ℝ) / T) (f / (Polymers.BOLTZMANN_CONSTANT : ℝ) / T * ℓ) T) -
      (Polymers.BOLTZMANN_CONSTANT : ℝ) * T * (N * asymptotic.legendre.nondimensional_helmholtz_free_energy_per_link ℓ 1.0
        (c * Elem.powi ℓ 2 / (Polymers.BOLTZMANN_CONSTANT : ℝ) / T)
        ((Polymers.ZERO : ℝ) * (Polymers.BOLTZMANN_CONSTANT : ℝ) * T / ℓ / (Polymers.BOLTZMANN_CONSTANT : ℝ) / T * ℓ) T)) _
    unfold asymptotic.legendre.relative_helmholtz_free_energy
    rw [g, d3, e3, lit_one, one]
    exact y3
  · show Within (asymptotic.legendre.relative_helmholtz_free_energy_per_link _ _ _ _)
      ((Polymers.BOLTZMANN_CONSTANT : ℝ) * T * asymptotic.legendre.nondimensional_helmholtz_free_energy_per_link ℓ 1.0
        (c * Elem.powi ℓ 2 / (Polymers.BOLTZMANN_CONSTANT : ℝ) / T) (f / (Polymers.BOLTZMANN_CONSTANT : ℝ) / T * ℓ) T -
      (Polymers.BOLTZMANN_CONSTANT : ℝ) * T * asymptotic.legendre.nondimensional_helmholtz_free_energy_per_link ℓ 1.0
        (c * Elem.powi ℓ 2 / (Polymers.BOLTZMANN_CONSTANT : ℝ) / T)
        ((Polymers.ZERO : ℝ) * (Polymers.BOLTZMANN_CONSTANT : ℝ) * T / ℓ / (Polymers.BOLTZMANN_CONSTANT : ℝ) / T * ℓ) T) _
    unfold asymptotic.legendre.relative_helmholtz_free_energy_per_link
    rw [g, d3, e3, lit_one, one]
    exact y4

/-! ### Concrete cases: twenty links of unit length with stiffness 50000 at 300 degrees on a machine which rounds correctly -/

example := C105_efjc_asymptotic_nondimensional_helmholtz correctlyRounded (N := 20) (by norm_num) (by norm_num) moderate_one one_pos moderate_one one_pos
  (moderate_of (v := 50000) (by norm_num) (by norm_num)) (by norm_num) moderate_300 (by norm_num) rfl
  (moderate_of (v := 2) (by norm_num) (by norm_num)) (by norm_num) (by norm_num) rfl (by unfold Polymers.BOLTZMANN_CONSTANT; constructor <;> norm_num) rfl rfl
example := C105_efjc_asymptotic_helmholtz correctlyRounded (N := 20) (by norm_num) (by norm_num) moderate_one one_pos moderate_one one_pos
  (moderate_of (v := 50000) (by norm_num) (by norm_num)) (by norm_num) (moderate_of (v := 5000) (by norm_num) (by norm_num)) moderate_300 (by norm_num) rfl rfl
  (by unfold Polymers.BOLTZMANN_CONSTANT; constructor <;> norm_num) (by unfold Polymers.BOLTZMANN_CONSTANT; norm_num)
  (by unfold Polymers.BOLTZMANN_CONSTANT; norm_num) rfl (by unfold Polymers.BOLTZMANN_CONSTANT; constructor <;> norm_num) rfl rfl

end Polymers.Props
