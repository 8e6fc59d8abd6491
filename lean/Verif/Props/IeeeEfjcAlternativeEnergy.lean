import Verif.Props.IeeeEfjc
import Verif.Props.IeeeSwfjc
import Verif.Spec.IeeeEfjcAlternative

/-! C100: the Gibbs energies of the extensible freely jointed chain at fixed force in floating point, in the alternative asymptotic approach. -/

namespace Polymers.Props

open Polymers.Ieee Polymers.Spec Polymers.Lemmas
open Polymers.efjc.thermodynamics.isotensional.asymptotic

variable {P : Platform} {N : ℕ} {ℓ m c T f η κ n s t : ℝ} {a b : ℤ} {x y z : F64 P}

local macro:70 a:term:70 " ⊗ " b:term:71 : term => `(Acc.mul $a $b (by norm_num) (by norm_num) (by norm_num))
local macro:70 a:term:70 " ⊘ " b:term:71 : term => `(Acc.div $a $b (by norm_num) (by norm_num) (by norm_num))

/-- The Gibbs energy of a link of the extensible chain in the alternative approach. -/
theorem sized_alternative (hy : Acc y η n (-100) 100) (h0 : 0 < η) (h600 : η ≤ 600) (hn0 : 0 ≤ n) (hn : n ≤ 9) (hz : Acc z κ 7 (-100) 100) (hκ : 0 < κ)
    {u v : F64 P} (hu : Sized u s 1 (|s| + 17)) (hs : |s| ≤ 1000) (hv : Sized v t 1 (|t| + 24)) (ht : |t| ≤ 1000) :
    Sized ((-Elem.ln (Elem.sinh y / y)) - (0.5 * Elem.powi y 2 + y / Elem.tanh y) / z - 0.5 * u - v)
      ((-Elem.ln (Elem.sinh η / η)) - (0.5 * Elem.powi η 2 + η / Elem.tanh η) / κ - 0.5 * s - t) 39
      (η + η ^ 2 / (2 * κ) + |s| / 2 + |t| + 40 + (1 + η) / κ) ∧
    (2 : ℝ) ^ (0 : ℤ) ≤ η + η ^ 2 / (2 * κ) + |s| / 2 + |t| + 40 + (1 + η) / κ ∧
    η + η ^ 2 / (2 * κ) + |s| / 2 + |t| + 40 + (1 + η) / κ ≤ 2 ^ (190 : ℤ) := by
  have k1 := (sized_free hy h0 h600 hn0 hn (by norm_num)).neg
  have y2 := hy.sq (by linarith) (by norm_num) (by norm_num)
  obtain ⟨c1, c2, c3⟩ := coth_bounds h0
  have p2 := Acc.mul acc_half y2 (by linarith) (by norm_num) (by norm_num)
  have p3 := Acc.div hy (hy.tanh h0 (by linarith) (by norm_num) (by norm_num)) (by linarith) (by norm_num) (by norm_num)
  have p2' : Acc (0.5 * Elem.powi y 2) (0.5 * Elem.powi η 2) (2 * n + 5) (-201) 201 :=
    ⟨p2.rel.mono (mul_le_mul_of_nonneg_right (by linarith) (unit_pos P).le), p2.lo.trans' (two_zpow_mono (by norm_num)), p2.hi.trans (two_zpow_mono (by norm_num))⟩
  have p3' : Acc (y / Elem.tanh y) (η / Real.tanh η) (2 * n + 5) (-100) 201 :=
    ⟨p3.rel.mono (mul_le_mul_of_nonneg_right (by linarith) (unit_pos P).le), p3.lo.trans' (two_zpow_mono (by norm_num)), p3.hi.trans (two_zpow_mono (by norm_num))⟩
  have q0 : 0 < 0.5 * (Elem.powi η 2 : ℝ) := by rw [powi_two]; positivity
  have q1 : 0 < η / Real.tanh η := by positivity
  have a2 := Acc.div (p2'.add_pos p3' q0 q1 (by linarith) (by norm_num) (by norm_num) (by norm_num)) hz (by linarith) (by norm_num) (by norm_num)
  have k2 := a2.sized (by linarith) (by linarith) (by norm_num) (by norm_num)
  have e2 : |(0.5 * Elem.powi η 2 + η / Real.tanh η) / κ| ≤ η ^ 2 / (2 * κ) + (1 + η) / κ := by
    rw [abs_of_pos (by positivity), powi_two, add_div]
    refine add_le_add (le_of_eq (by field_simp; norm_num)) (div_le_div_of_nonneg_right ?_ hκ.le)
    calc η / Real.tanh η = η * (1 / Real.tanh η) := by ring
      _ ≤ η * (1 + 1 / η) := mul_le_mul_of_nonneg_left c2.le h0.le
      _ = 1 + η := by field_simp; ring
  have lo := hz.lo
  rw [abs_of_pos hκ] at lo
  have hQ : 0 < η ^ 2 / (2 * κ) := by positivity
  have hQ' : η ^ 2 / (2 * κ) ≤ 2 ^ (180 : ℤ) := by
    have h1 : η ^ 2 ≤ 2 ^ (20 : ℤ) := by
      calc η ^ 2 ≤ 600 ^ 2 := by gcongr
        _ ≤ _ := by norm_num
    calc η ^ 2 / (2 * κ) ≤ 2 ^ (20 : ℤ) / (2 ^ (-100 : ℤ)) := div_le_div₀ (by positivity) h1 (by positivity) (by linarith)
      _ = 2 ^ (120 : ℤ) := by rw [← zpow_sub₀ (by norm_num)]; norm_num
      _ ≤ _ := two_zpow_mono (by norm_num)
  have hR : 0 < (1 + η) / κ := by positivity
  have hR' : (1 + η) / κ ≤ 2 ^ (180 : ℤ) := by
    calc (1 + η) / κ ≤ 2 ^ (20 : ℤ) / (2 ^ (-100 : ℤ)) := div_le_div₀ (by positivity) (le_trans (by linarith) (show (601 : ℝ) ≤ 2 ^ (20 : ℤ) by norm_num)) (by positivity) lo
      _ = 2 ^ (120 : ℤ) := by rw [← zpow_sub₀ (by norm_num)]; norm_num
      _ ≤ _ := two_zpow_mono (by norm_num)
  have s0 := abs_nonneg s
  have t0 := abs_nonneg t
  have big : (1e6 : ℝ) ≤ 2 ^ (180 : ℤ) := by
    calc (1e6 : ℝ) ≤ 2 ^ (20 : ℤ) := by norm_num
      _ ≤ _ := two_zpow_mono (by norm_num)
  have h190 : (2 : ℝ) ^ (190 : ℤ) = 1024 * 2 ^ (180 : ℤ) := by
    rw [show (190 : ℤ) = 10 + 180 by norm_num, zpow_add₀ (by norm_num)]; norm_num
  have hM : η + η ^ 2 / (2 * κ) + |s| / 2 + |t| + 40 + (1 + η) / κ ≤ 2 ^ (190 : ℤ) := by
    rw [h190]
    clear h190 p2 p3 p2' p3' a2 k2 lo
    generalize (2 : ℝ) ^ (180 : ℤ) = A at *
    linarith
  have h590 : (2 : ℝ) ^ (190 : ℤ) ≤ 2 ^ (590 : ℤ) := two_zpow_mono (by norm_num)
  have up : ∀ {M : ℝ}, M ≤ η + η ^ 2 / (2 * κ) + |s| / 2 + |t| + 40 + (1 + η) / κ → M ≤ 2 ^ (590 : ℤ) := fun h => h.trans (hM.trans h590)
  have e3 : |(0.5 : ℝ)| = 1 / 2 := by norm_num
  have k3 := hu.mul (acc_half (P := P)) (by norm_num) (by norm_num) (by norm_num) (by rw [e3]; exact lo_of_one (by linarith)) (by rw [e3]; exact up (by linarith))
    (by norm_num)
  rw [e3] at k3
  have j2 := k2.weaken (q' := 33) (by linarith) (by norm_num) rfl e2 (up (by linarith))
  have j3 := k3.weaken (q' := 35) (by norm_num) (by norm_num) rfl le_rfl k3.hi
  have j4 := hv.weaken (q' := 37) (by norm_num) (by norm_num) rfl le_rfl hv.hi
  have r1 := k1.sub j2 (up (by linarith)) (by norm_num) (by norm_num)
  have r2 := r1.sub j3 (up (by linarith)) (by norm_num) (by norm_num)
  have r3 := r2.sub j4 (up (by linarith)) (by norm_num) (by norm_num)
  refine ⟨r3.weaken (by norm_num) (by norm_num) rfl (by linarith) (hM.trans h590), by rw [zpow_zero]; linarith, hM⟩

/-- The nondimensional Gibbs energy per link. -/
theorem sized_alternative_nondimensional (hℓ : Moderate ℓ) (hℓ0 : 0 < ℓ) (hm : Moderate m) (hm0 : 0 < m) (hT : Moderate T) (hT0 : 0 < T)
    (hy : Acc y η n (-100) 100) (h0 : 0 < η) (h600 : η ≤ 600) (hn0 : 0 ≤ n) (hn : n ≤ 9) (hz : Acc z κ 7 (-100) 100) (hκ : 0 < κ) :
    Sized (alternative.nondimensional_gibbs_free_energy_per_link (.fin ℓ) (.fin m) z y (.fin T)) (alternative.nondimensional_gibbs_free_energy_per_link ℓ m κ η T) 39
      (efjcAlternativeGibbsSize ℓ m κ T η) ∧ (2 : ℝ) ^ (0 : ℤ) ≤ efjcAlternativeGibbsSize ℓ m κ T η ∧ efjcAlternativeGibbsSize ℓ m κ T η ≤ 2 ^ (190 : ℤ) := by
  have as := acc_two (P := P) ⊗ acc_pi ⊗ (acc_moderate hℓ).sq (by norm_num) (by norm_num) (by norm_num) ⊘ hz
  have e : 2.0 * Real.pi * Elem.powi ℓ 2 / κ = 2 * Real.pi * ℓ ^ 2 / κ := by rw [powi_two]; norm_num
  obtain ⟨hu, hs⟩ := sized_ln as (by rw [e]; positivity) (by norm_num) (by norm_num) (by norm_num)
  obtain ⟨hv, ht⟩ := sized_hinge (P := P) hℓ hm hm0 hT hT0
  have k := sized_alternative hy h0 h600 hn0 hn hz hκ hu hs hv ht
  rw [hingeLog_eq, e] at k
  unfold efjcAlternativeGibbsSize efjcGibbsSize
  rw [← e] at k ⊢
  rw [← hingeLog_eq] at k ⊢
  exact k

/-- The Gibbs energy per link. -/
theorem sized_alternative_gibbs (hℓ : Moderate ℓ) (hℓ0 : 0 < ℓ) (hm : Moderate m) (hm0 : 0 < m) (hc : Moderate c) (hc0 : 0 < c) (hT : Moderate T) (hT0 : 0 < T)
    (hx : Acc x f n a b) (hn0 : 0 ≤ n) (hn : n ≤ 5) (ha : -400 ≤ a) (hb : b ≤ 400) (hη : η = f * ℓ / (Polymers.BOLTZMANN_CONSTANT * T)) (hη' : Moderate η)
    (h0 : 0 < η) (h600 : η ≤ 600) (hκ : κ = c * ℓ ^ 2 / (Polymers.BOLTZMANN_CONSTANT * T)) (hκ' : Moderate κ) :
    ∃ (u : F64 P) (r : ℝ), Sized u r 39 (efjcAlternativeGibbsSize ℓ m κ T η) ∧ (2 : ℝ) ^ (0 : ℤ) ≤ efjcAlternativeGibbsSize ℓ m κ T η ∧ efjcAlternativeGibbsSize ℓ m κ T η ≤ 2 ^ (190 : ℤ) ∧
      (∀ N : ℕ, alternative.gibbs_free_energy N (.fin ℓ) (.fin m) (.fin c) x (.fin T) = (N : F64 P) * (Polymers.BOLTZMANN_CONSTANT : F64 P) * .fin T * u) ∧
      (∀ N : ℕ, alternative.gibbs_free_energy N ℓ m c f T = N * (Polymers.BOLTZMANN_CONSTANT : ℝ) * T * r) ∧
      alternative.gibbs_free_energy_per_link (.fin ℓ) (.fin m) (.fin c) x (.fin T) = (Polymers.BOLTZMANN_CONSTANT : F64 P) * .fin T * u ∧
      alternative.gibbs_free_energy_per_link ℓ m c f T = (Polymers.BOLTZMANN_CONSTANT : ℝ) * T * r := by
  have hk0 := boltzmann_pos
  have aT := acc_moderate (P := P) hT
  have aℓ := acc_moderate (P := P) hℓ
  have hκ0 : 0 < κ := by rw [hκ]; positivity
  have az := acc_stiffness (P := P) hc hℓ hT
  have ay := Acc.div (Acc.div (Acc.mul hx aℓ (by linarith) (by omega) (by omega)) acc_boltzmann (by linarith) (by omega) (by omega)) aT (by linarith) (by omega)
    (by omega)
  have e1 : f * ℓ / (Polymers.BOLTZMANN_CONSTANT : ℝ) / T = η := by rw [hη, div_div]
  have e2 := stiffness_eq hκ
  have hz : Acc _ (c * Elem.powi ℓ 2 / (Polymers.BOLTZMANN_CONSTANT : ℝ) / T) 7 (-100) 100 := ⟨az.rel, by rw [e2]; exact hκ'.1, by rw [e2]; exact hκ'.2⟩
  have hy : Acc _ (f * ℓ / (Polymers.BOLTZMANN_CONSTANT : ℝ) / T) (n + 4) (-100) 100 :=
    ⟨ay.rel.mono (mul_le_mul_of_nonneg_right (by linarith) (unit_pos P).le), by rw [e1]; exact hη'.1, by rw [e1]; exact hη'.2⟩
  have as := acc_two (P := P) ⊗ acc_pi ⊗ acc_boltzmann ⊗ aT ⊘ acc_moderate hc
  have e : 2.0 * Real.pi * (Polymers.BOLTZMANN_CONSTANT : ℝ) * T / c = 2 * Real.pi * ℓ ^ 2 / κ := by
    rw [hκ, show (2.0 : ℝ) = 2 by norm_num]; field_simp
  obtain ⟨hu, hs⟩ := sized_ln as (by rw [e]; positivity) (by norm_num) (by norm_num) (by norm_num)
  obtain ⟨hv, ht⟩ := sized_hinge (P := P) hℓ hm hm0 hT hT0
  have k := sized_alternative hy (by rwa [e1]) (by rwa [e1]) (by linarith) (by linarith) hz (by rwa [e2]) hu hs hv ht
  have eM : f * ℓ / (Polymers.BOLTZMANN_CONSTANT : ℝ) / T + (f * ℓ / (Polymers.BOLTZMANN_CONSTANT : ℝ) / T) ^ 2 / (2 * (c * Elem.powi ℓ 2 /
      (Polymers.BOLTZMANN_CONSTANT : ℝ) / T)) + |Real.log (2.0 * Real.pi * (Polymers.BOLTZMANN_CONSTANT : ℝ) * T / c)| / 2 + |logRatio ℓ m T| + 40 +
      (1 + f * ℓ / (Polymers.BOLTZMANN_CONSTANT : ℝ) / T) / (c * Elem.powi ℓ 2 / (Polymers.BOLTZMANN_CONSTANT : ℝ) / T) =
      efjcAlternativeGibbsSize ℓ m κ T η := by
    rw [e, e1, e2, hingeLog_eq]; rfl
  rw [eM] at k
  exact ⟨_, _, k.1, k.2.1, k.2.2, fun _ => rfl, fun _ => rfl, rfl, rfl⟩

/-- C100: the Gibbs energies of the extensible chain in the alternative approach under a force with `f ℓ ≤ 600 k T`. -/
theorem C100_efjc_alternative_gibbs (P : Platform) (hN : 0 < N) (hN' : N ≤ 255) (hℓ : Moderate ℓ) (hℓ0 : 0 < ℓ) (hm : Moderate m) (hm0 : 0 < m) (hc : Moderate c) (hc0 : 0 < c)
    (hf : Moderate f) (hT : Moderate T) (hT0 : 0 < T) {k : ℝ} (hk : k = Polymers.BOLTZMANN_CONSTANT) (hη : η = f * ℓ / (k * T))
    (hη' : Moderate η) (h0 : 0 < η) (h600 : η ≤ 600) (hκ : κ = c * ℓ ^ 2 / (k * T)) (hκ' : Moderate κ)
    {F : ApiF.EnergyMethodsF P} (hF : F = ApiF.efjc_isotensional_asymptotic_alternative_gibbs N (.fin ℓ) (.fin m) (.fin c))
    {R : EnergyMethods} (hR : R = Api.efjc_isotensional_asymptotic_alternative_gibbs N ℓ m c) :
    Within (F.energy (.fin f) (.fin T)) (R.energy f T) (P.ε * (47 * (N * (k * T) * efjcAlternativeGibbsSize ℓ m κ T η))) ∧
    Within (F.energy_per_link (.fin f) (.fin T)) (R.energy_per_link f T) (P.ε * (47 * (k * T * efjcAlternativeGibbsSize ℓ m κ T η))) ∧
    Within (F.relative (.fin f) (.fin T)) (R.relative f T) (P.ε * (49 * (N * (k * T) * (efjcAlternativeGibbsSize ℓ 1 κ T η + efjcAlternativeGibbsSize ℓ 1 κ T 1e-6)))) ∧
    Within (F.relative_per_link (.fin f) (.fin T)) (R.relative_per_link f T)
      (P.ε * (49 * (k * T * (efjcAlternativeGibbsSize ℓ 1 κ T η + efjcAlternativeGibbsSize ℓ 1 κ T 1e-6)))) := by
  subst hF hR hk
  have hk0 := boltzmann_pos
  have hN0 : (0 : ℝ) < N := by exact_mod_cast hN
  have aN := acc_nat (P := P) hN hN'
  have aT := acc_moderate (P := P) hT
  have aK := acc_boltzmann (P := P)
  have a1 := aN ⊗ aK ⊗ aT
  have a2 := aK ⊗ aT
  have scale : ∀ {u : F64 P} {r M : ℝ}, Sized u r 39 M → (2 : ℝ) ^ (0 : ℤ) ≤ M → M ≤ 2 ^ (190 : ℤ) →
      Sized ((N : F64 P) * (Polymers.BOLTZMANN_CONSTANT : F64 P) * .fin T * u) (N * (Polymers.BOLTZMANN_CONSTANT : ℝ) * T * r) 47
        (N * (Polymers.BOLTZMANN_CONSTANT * T) * M) ∧ N * (Polymers.BOLTZMANN_CONSTANT * T) * M ≤ 2 ^ (500 : ℤ) ∧
      Sized ((Polymers.BOLTZMANN_CONSTANT : F64 P) * .fin T * u) ((Polymers.BOLTZMANN_CONSTANT : ℝ) * T * r) 47
        (Polymers.BOLTZMANN_CONSTANT * T * M) ∧ Polymers.BOLTZMANN_CONSTANT * T * M ≤ 2 ^ (500 : ℤ) := by
    intro u r M h lo hi
    have r1 := mul_range lo hi a1.lo a1.hi
    have r2 := mul_range lo hi a2.lo a2.hi
    have q1 := range_mono r1 (c := -1000) (d := 590) (by norm_num) (by norm_num)
    have q2 := range_mono r2 (c := -1000) (d := 590) (by norm_num) (by norm_num)
    have k1 := h.mul a1 (by norm_num) (by norm_num) (by norm_num) q1.1 q1.2 (by norm_num)
    have k2 := h.mul a2 (by norm_num) (by norm_num) (by norm_num) q2.1 q2.2 (by norm_num)
    have g1 : M * |N * (Polymers.BOLTZMANN_CONSTANT : ℝ) * T| = N * (Polymers.BOLTZMANN_CONSTANT * T) * M := by rw [abs_of_pos (by positivity)]; ring
    have g2 : M * |(Polymers.BOLTZMANN_CONSTANT : ℝ) * T| = Polymers.BOLTZMANN_CONSTANT * T * M := by rw [abs_of_pos (by positivity)]; ring
    rw [g1] at k1 r1
    rw [g2] at k2 r2
    exact ⟨k1.weaken (by norm_num) (by norm_num) rfl le_rfl k1.hi, r1.2.trans (two_zpow_mono (by norm_num)),
      k2.weaken (by norm_num) (by norm_num) rfl le_rfl k2.hi, r2.2.trans (two_zpow_mono (by norm_num))⟩
  have af := acc_moderate (P := P) hf
  obtain ⟨u, r, s1, lo1, hi1, p1, p2, p3, p4⟩ := sized_alternative_gibbs (P := P) hℓ hℓ0 hm hm0 hc hc0 hT hT0 af (by norm_num) (by norm_num) (by norm_num) (by norm_num)
    hη hη' h0 h600 hκ hκ'
  obtain ⟨u', r', s2, lo2, hi2, p5, p6, p7, p8⟩ := sized_alternative_gibbs (P := P) hℓ hℓ0 moderate_one one_pos hc hc0 hT hT0 af (by norm_num) (by norm_num)
    (by norm_num) (by norm_num) hη hη' h0 h600 hκ hκ'
  have az := zero_lit (P := P) ⊗ aK ⊗ aT ⊘ acc_moderate hℓ
  obtain ⟨v, q, s3, lo3, hi3, p9, p10, p11, p12⟩ := sized_alternative_gibbs (P := P) (η := 1e-6) hℓ hℓ0 moderate_one one_pos hc hc0 hT hT0 az (by norm_num) (by norm_num)
    (by norm_num) (by norm_num) (by unfold Polymers.ZERO; field_simp) moderate_zero (by norm_num) (by norm_num) hκ hκ'
  obtain ⟨w1, -, w2, -⟩ := scale s1 lo1 hi1
  obtain ⟨w3, b3, w4, b4⟩ := scale s2 lo2 hi2
  obtain ⟨w5, b5, w6, b6⟩ := scale s3 lo3 hi3
  have h590 : (2 : ℝ) ^ (500 : ℤ) + 2 ^ (500 : ℤ) ≤ 2 ^ (590 : ℤ) := by
    rw [← two_mul, ← zpow_one_add₀ (by norm_num)]; exact two_zpow_mono (by norm_num)
  have w7 := w3.sub w5 ((add_le_add b3 b5).trans h590) le_rfl (by norm_num)
  have w8 := w4.sub w6 ((add_le_add b4 b6).trans h590) le_rfl (by norm_num)
  rw [← mul_add] at w7 w8
  have z1 := w7.within
  have z2 := w8.within
  rw [← p5, ← p6, ← p9, ← p10] at z1
  rw [← p7, ← p8, ← p11, ← p12] at z2
  refine ⟨?_, ?_, ?_, ?_⟩
  · rw [← p1, ← p2] at w1; exact w1.within
  · rw [← p3, ← p4] at w2; exact w2.within
  · have hl : (1.0 : F64 P) = .fin 1 := lit_one
    have hl' : (1.0 : ℝ) = 1 := by norm_num
    show Within (alternative.relative_gibbs_free_energy N _ _ _ _) (alternative.relative_gibbs_free_energy N _ _ _ _) _
    unfold alternative.relative_gibbs_free_energy
    rw [hl, hl']
    norm_num at z1 ⊢
    exact z1
  · have hl : (1.0 : F64 P) = .fin 1 := lit_one
    have hl' : (1.0 : ℝ) = 1 := by norm_num
    show Within (alternative.relative_gibbs_free_energy_per_link _ _ _ _) (alternative.relative_gibbs_free_energy_per_link _ _ _ _) _
    unfold alternative.relative_gibbs_free_energy_per_link
    rw [hl, hl']
    norm_num at z2 ⊢
    exact z2

/-- C100: the nondimensional Gibbs energies of the extensible chain in the alternative approach. -/
theorem C100_efjc_alternative_nondimensional_gibbs (P : Platform) (hN : 0 < N) (hN' : N ≤ 255) (hℓ : Moderate ℓ) (hℓ0 : 0 < ℓ) (hm : Moderate m) (hm0 : 0 < m)
    (hc : Moderate c) (hc0 : 0 < c) (hT : Moderate T) (hT0 : 0 < T) {k : ℝ} (hk : k = Polymers.BOLTZMANN_CONSTANT)
    (hη' : Moderate η) (h0 : 0 < η) (h600 : η ≤ 600) (hκ : κ = c * ℓ ^ 2 / (k * T)) (hκ' : Moderate κ)
    {F : ApiF.EnergyMethodsF P} (hF : F = ApiF.efjc_isotensional_asymptotic_alternative_gibbs N (.fin ℓ) (.fin m) (.fin c))
    {R : EnergyMethods} (hR : R = Api.efjc_isotensional_asymptotic_alternative_gibbs N ℓ m c) :
    Within (F.nd_energy (.fin η) (.fin T)) (R.nd_energy η T) (P.ε * (44 * (N * efjcAlternativeGibbsSize ℓ m κ T η))) ∧
    Within (F.nd_energy_per_link (.fin η) (.fin T)) (R.nd_energy_per_link η T) (P.ε * (39 * efjcAlternativeGibbsSize ℓ m κ T η)) ∧
    Within (F.nd_relative (.fin η) (.fin T)) (R.nd_relative η T) (P.ε * (46 * (N * (efjcAlternativeGibbsSize 1 1 κ 300 η + efjcAlternativeGibbsSize 1 1 κ 300 1e-6)))) ∧
    Within (F.nd_relative_per_link (.fin η) (.fin T)) (R.nd_relative_per_link η T)
      (P.ε * (41 * (efjcAlternativeGibbsSize 1 1 κ 300 η + efjcAlternativeGibbsSize 1 1 κ 300 1e-6))) := by
  subst hF hR hk
  have hk0 := boltzmann_pos
  have hN0 : (0 : ℝ) < N := by exact_mod_cast hN
  have aN := acc_nat (P := P) hN hN'
  have hκ0 : 0 < κ := by rw [hκ]; positivity
  have az := acc_stiffness (P := P) hc hℓ hT
  have e2 := stiffness_eq hκ
  have hz : Acc _ (c * Elem.powi ℓ 2 / (Polymers.BOLTZMANN_CONSTANT : ℝ) / T) 7 (-100) 100 := ⟨az.rel, by rw [e2]; exact hκ'.1, by rw [e2]; exact hκ'.2⟩
  have aη : Acc (.fin η : F64 P) η 0 (-100) 100 := acc_moderate hη'
  have a0 : Acc (Polymers.ZERO : F64 P) (Polymers.ZERO : ℝ) 1 (-100) 100 := ⟨zero_lit.rel, by unfold Polymers.ZERO; exact moderate_zero.1,
    by unfold Polymers.ZERO; exact moderate_zero.2⟩
  have z0 : (0 : ℝ) < Polymers.ZERO := by unfold Polymers.ZERO; norm_num
  have z1 : (Polymers.ZERO : ℝ) ≤ 600 := by unfold Polymers.ZERO; norm_num
  have scale : ∀ {u : F64 P} {r M : ℝ}, Sized u r 39 M → (2 : ℝ) ^ (0 : ℤ) ≤ M → M ≤ 2 ^ (190 : ℤ) →
      Sized ((N : F64 P) * u) (N * r) 44 (N * M) ∧ N * M ≤ 2 ^ (500 : ℤ) := by
    intro u r M h lo hi
    have r1 := mul_range lo hi aN.lo aN.hi
    have q1 := range_mono r1 (c := -1000) (d := 590) (by norm_num) (by norm_num)
    have k1 := h.mul aN (by norm_num) (by norm_num) (by norm_num) q1.1 q1.2 (by norm_num)
    rw [Nat.abs_cast, mul_comm M] at k1 r1
    exact ⟨k1.weaken (by norm_num) (by norm_num) rfl le_rfl k1.hi, r1.2.trans (two_zpow_mono (by norm_num))⟩
  obtain ⟨s1, lo1, hi1⟩ := sized_alternative_nondimensional hℓ hℓ0 hm hm0 hT hT0 aη h0 h600 (by norm_num) (by norm_num) hz (by rwa [e2])
  obtain ⟨s2, lo2, hi2⟩ := sized_alternative_nondimensional moderate_one one_pos moderate_one one_pos moderate_300 (by norm_num) aη h0 h600 (by norm_num) (by norm_num) hz
    (by rwa [e2])
  obtain ⟨s3, lo3, hi3⟩ := sized_alternative_nondimensional moderate_one one_pos moderate_one one_pos moderate_300 (by norm_num) a0 z0 z1 (by norm_num) (by norm_num) hz
    (by rwa [e2])
  obtain ⟨w1, -⟩ := scale s1 lo1 hi1
  obtain ⟨w2, b2⟩ := scale s2 lo2 hi2
  obtain ⟨w3, b3⟩ := scale s3 lo3 hi3
  have h590 : (2 : ℝ) ^ (500 : ℤ) + 2 ^ (500 : ℤ) ≤ 2 ^ (590 : ℤ) := by
    rw [← two_mul, ← zpow_one_add₀ (by norm_num)]; exact two_zpow_mono (by norm_num)
  have h500 : (2 : ℝ) ^ (190 : ℤ) ≤ 2 ^ (500 : ℤ) := two_zpow_mono (by norm_num)
  have w4 := w2.sub w3 ((add_le_add b2 b3).trans h590) le_rfl (by norm_num)
  have w5 := s2.sub s3 ((add_le_add (hi2.trans h500) (hi3.trans h500)).trans h590) le_rfl (by norm_num)
  rw [← mul_add] at w4
  have y1 := w1.within
  have y2 := s1.within
  have y4 := w4.within
  have y5 := w5.within
  rw [show (44 : ℝ) + 2 = 46 by norm_num] at y4
  rw [show (39 : ℝ) + 2 = 41 by norm_num] at y5
  rw [← e2]
  refine ⟨y1, y2, ?_, ?_⟩
  · show Within (alternative.nondimensional_relative_gibbs_free_energy N _ _) (alternative.nondimensional_relative_gibbs_free_energy N _ _) _
    unfold alternative.nondimensional_relative_gibbs_free_energy
    rw [lit_one, lit_300, show (1.0 : ℝ) = 1 by norm_num, show (300.0 : ℝ) = 300 by norm_num]
    exact y4
  · show Within (alternative.nondimensional_relative_gibbs_free_energy_per_link _ _) (alternative.nondimensional_relative_gibbs_free_energy_per_link _ _) _
    unfold alternative.nondimensional_relative_gibbs_free_energy_per_link
    rw [lit_one, lit_300, show (1.0 : ℝ) = 1 by norm_num, show (300.0 : ℝ) = 300 by norm_num]
    exact y5

/-- Not vacuous: twenty links of unit length with stiffness `50000` under the force `5000` at 300 K on a correctly rounded machine. -/
example : Within ((ApiF.efjc_isotensional_asymptotic_alternative_gibbs 20 (.fin 1 : F64 correctlyRounded) (.fin 1) (.fin 50000)).relative (.fin 5000) (.fin 300))
    ((Api.efjc_isotensional_asymptotic_alternative_gibbs 20 1 1 50000).relative 5000 300)
    (correctlyRounded.ε * (49 * ((20 : ℕ) * ((Polymers.BOLTZMANN_CONSTANT : ℝ) * 300) *
      (efjcAlternativeGibbsSize 1 1 (50000 * 1 ^ 2 / (Polymers.BOLTZMANN_CONSTANT * 300)) 300 (5000 * 1 / (Polymers.BOLTZMANN_CONSTANT * 300)) +
        efjcAlternativeGibbsSize 1 1 (50000 * 1 ^ 2 / (Polymers.BOLTZMANN_CONSTANT * 300)) 300 1e-6)))) :=
  (C100_efjc_alternative_gibbs correctlyRounded (by norm_num) (by norm_num) moderate_one one_pos moderate_one one_pos ⟨by norm_num, by norm_num⟩ (by norm_num)
    ⟨by norm_num, by norm_num⟩ moderate_300 (by norm_num) rfl rfl
    (by unfold Polymers.BOLTZMANN_CONSTANT; constructor <;> norm_num) (by unfold Polymers.BOLTZMANN_CONSTANT; norm_num)
    (by unfold Polymers.BOLTZMANN_CONSTANT; norm_num) rfl (by unfold Polymers.BOLTZMANN_CONSTANT; constructor <;> norm_num) rfl rfl).2.2.1

end Polymers.Props
