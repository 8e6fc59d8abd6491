import Verif.Props.IeeeEfjc
import Verif.Props.IeeeSwfjc
import Verif.Spec.IeeeEfjcAsymptotic

/-! C104: the Gibbs energies of the extensible freely jointed chain at fixed force in floating point, in the asymptotic approach. -/

namespace Polymers.Props

open Polymers.Ieee Polymers.Spec Polymers.Lemmas
open Polymers.efjc.thermodynamics.isotensional

variable {P : Platform} {N : ℕ} {ℓ m c T f η κ n s t : ℝ} {a b : ℤ} {x y z : F64 P}

local macro:70 a:term:70 " ⊗ " b:term:71 : term => `(Acc.mul $a $b (by norm_num) (by norm_num) (by norm_num))
local macro:70 a:term:70 " ⊘ " b:term:71 : term => `(Acc.div $a $b (by norm_num) (by norm_num) (by norm_num))

/-- The Gibbs energy of a link of the extensible chain in the asymptotic approach, with the coupling `g` of its orientation and its extension. -/
theorem sized_asymptotic_core (hy : Acc y η n (-100) 100) (h0 : 0 < η) (h600 : η ≤ 600) (hn0 : 0 ≤ n) (hn : n ≤ 9) (hz : Acc z κ 7 (-100) 100) (hκ : 0 < κ)
    {u v : F64 P} (hu : Sized u s 1 (|s| + 17)) (hs : |s| ≤ 1000) (hv : Sized v t 1 (|t| + 24)) (ht : |t| ≤ 1000)
    {w : F64 P} {g : ℝ} (p4 : Acc w g 30 (-200) 301) (q1 : 0 < g) :
    Sized ((-Elem.ln (Elem.sinh y / y)) - 0.5 * Elem.powi y 2 / z - Elem.ln (1.0 + w) - 0.5 * u - v)
      ((-Elem.ln (Elem.sinh η / η)) - 0.5 * Elem.powi η 2 / κ - Elem.ln (1.0 + g) - 0.5 * s - t) 40
      (η + η ^ 2 / (2 * κ) + |s| / 2 + |t| + 40 + Real.log (1 + g) + 31) ∧
    (2 : ℝ) ^ (0 : ℤ) ≤ η + η ^ 2 / (2 * κ) + |s| / 2 + |t| + 40 + Real.log (1 + g) + 31 ∧
    η + η ^ 2 / (2 * κ) + |s| / 2 + |t| + 40 + Real.log (1 + g) + 31 ≤ 2 ^ (190 : ℤ) := by
  have k1 := (sized_free hy h0 h600 hn0 hn (by norm_num)).neg
  have y2 := hy.sq (by linarith) (by norm_num) (by norm_num)
  have a2 := Acc.div (Acc.mul acc_half y2 (by linarith) (by norm_num) (by norm_num)) hz (by linarith) (by norm_num) (by norm_num)
  have k2 := a2.sized (by linarith) (by linarith) (by norm_num) (by norm_num)
  have e2 : |0.5 * Elem.powi η 2 / κ| = η ^ 2 / (2 * κ) := by
    rw [powi_two, abs_of_pos (by positivity)]; field_simp; norm_num
  rw [e2] at k2
  -- the logarithm of the coupling
  have a1 : Acc (1.0 : F64 P) (1.0 : ℝ) 1 0 0 := by
    refine acc_lit ?_ ?_ (by norm_num) (by norm_num) <;> norm_num
  have a1' : Acc (1.0 : F64 P) (1.0 : ℝ) 30 0 301 :=
    ⟨a1.rel.mono (mul_le_mul_of_nonneg_right (by norm_num) (unit_pos P).le), a1.lo, a1.hi.trans (two_zpow_mono (by norm_num))⟩
  have p5 := a1'.add_pos p4 (by norm_num) q1 (by norm_num) (by norm_num) (by norm_num) (by norm_num)
  have e5 : (1.0 : ℝ) + g = 1 + g := by norm_num
  rw [e5] at p5
  have w5 := p5.ln (by linarith) (by norm_num) (by norm_num) (by norm_num)
  have hG := acc_log_le p5 (by linarith) (by norm_num) (by norm_num)
  have hG0 : 0 ≤ Real.log (1 + g) := Real.log_nonneg (by linarith)
  rw [abs_of_nonneg hG0] at w5 hG
  show Sized _ (_ - Real.log (1.0 + g) - 0.5 * s - t) _ _ ∧ _
  rw [e5]
  replace w5 : Within (Elem.ln ((1.0 : F64 P) + w)) (Real.log (1 + g)) _ := w5
  generalize Real.log (1 + g) = G at *
  have hQ : 0 < η ^ 2 / (2 * κ) := by positivity
  have hQ' : η ^ 2 / (2 * κ) ≤ 2 ^ (180 : ℤ) := by
    have lo := hz.lo
    rw [abs_of_pos hκ] at lo
    have h1 : η ^ 2 ≤ 2 ^ (20 : ℤ) := by
      calc η ^ 2 ≤ 600 ^ 2 := by gcongr
        _ ≤ _ := by norm_num
    calc η ^ 2 / (2 * κ) ≤ 2 ^ (20 : ℤ) / (2 ^ (-100 : ℤ)) := div_le_div₀ (by positivity) h1 (by positivity) (by linarith)
      _ = 2 ^ (120 : ℤ) := by rw [← zpow_sub₀ (by norm_num)]; norm_num
      _ ≤ _ := two_zpow_mono (by norm_num)
  have s0 := abs_nonneg s
  have t0 := abs_nonneg t
  have big : (1e6 : ℝ) ≤ 2 ^ (180 : ℤ) := by
    calc (1e6 : ℝ) ≤ 2 ^ (20 : ℤ) := by norm_num
      _ ≤ _ := two_zpow_mono (by norm_num)
  have h190 : (2 : ℝ) ^ (190 : ℤ) = 1024 * 2 ^ (180 : ℤ) := by
    rw [show (190 : ℤ) = 10 + 180 by norm_num, zpow_add₀ (by norm_num)]; norm_num
  have hM : η + η ^ 2 / (2 * κ) + |s| / 2 + |t| + 40 + G + 31 ≤ 2 ^ (190 : ℤ) := by
    rw [h190]
    clear h190 p4 p5 a2 k2 a1' w5
    generalize (2 : ℝ) ^ (180 : ℤ) = A at *
    linarith
  have h590 : (2 : ℝ) ^ (190 : ℤ) ≤ 2 ^ (590 : ℤ) := two_zpow_mono (by norm_num)
  have up : ∀ {M : ℝ}, M ≤ η + η ^ 2 / (2 * κ) + |s| / 2 + |t| + 40 + G + 31 → M ≤ 2 ^ (590 : ℤ) := fun h => h.trans (hM.trans h590)
  have e3 : |(0.5 : ℝ)| = 1 / 2 := by norm_num
  have k3 := hu.mul (acc_half (P := P)) (by norm_num) (by norm_num) (by norm_num) (by rw [e3]; exact lo_of_one (by linarith)) (by rw [e3]; exact up (by linarith))
    (by norm_num)
  rw [e3] at k3
  have k5 : Sized (Elem.ln ((1.0 : F64 P) + w)) G 34 (G + 31) :=
    ⟨w5.mono (mul_le_mul_of_nonneg_left (by linarith) (eps_pos P).le), by rw [abs_of_nonneg hG0]; linarith, lo_of_one (by linarith), up (by linarith), by norm_num,
      by norm_num⟩
  have j2 := k2.weaken (q' := 32) (by linarith) (by norm_num) rfl le_rfl k2.hi
  have j3 := k3.weaken (q' := 36) (by norm_num) (by norm_num) rfl le_rfl k3.hi
  have j4 := hv.weaken (q' := 38) (by norm_num) (by norm_num) rfl le_rfl hv.hi
  have r1 := k1.sub j2 (up (by linarith)) (by norm_num) (by norm_num)
  have r2 := r1.sub k5 (up (by linarith)) (by norm_num) (by norm_num)
  have r3 := r2.sub j3 (up (by linarith)) (by norm_num) (by norm_num)
  have r4 := r3.sub j4 (up (by linarith)) (by norm_num) (by norm_num)
  refine ⟨r4.weaken (by norm_num) (by norm_num) rfl (by linarith) (hM.trans h590), by rw [zpow_zero]; linarith, hM⟩

/-- The coupling of the orientation of a link and its extension. -/
theorem acc_coupling (hy : Acc y η n (-100) 100) (h0 : 0 < η) (hn : n ≤ 9) (hz : Acc z κ 7 (-100) 100) (hκ : 0 < κ) :
    Acc (y / Elem.tanh y / z) (η / Real.tanh η / κ) 30 (-200) 301 ∧ Acc (y / z / Elem.tanh y) (η / κ / Real.tanh η) 30 (-200) 301 ∧ 0 < η / Real.tanh η / κ ∧
      η / κ / Real.tanh η = η / Real.tanh η / κ := by
  obtain ⟨c1, c2, c3⟩ := coth_bounds h0
  have at' := hy.tanh h0 (by linarith) (by norm_num) (by norm_num)
  have p := Acc.div (Acc.div hy at' (by linarith) (by norm_num) (by norm_num)) hz (by linarith) (by norm_num) (by norm_num)
  have q := Acc.div (Acc.div hy hz (by linarith) (by norm_num) (by norm_num)) at' (by linarith) (by norm_num) (by norm_num)
  refine ⟨⟨p.rel.mono (mul_le_mul_of_nonneg_right (by linarith) (unit_pos P).le), ?_, p.hi.trans (two_zpow_mono (by norm_num))⟩,
    ⟨q.rel.mono (mul_le_mul_of_nonneg_right (by linarith) (unit_pos P).le), ?_, q.hi.trans (two_zpow_mono (by norm_num))⟩, by positivity, div_right_comm _ _ _⟩
  · exact p.lo.trans' (two_zpow_mono (by norm_num))
  · exact q.lo.trans' (two_zpow_mono (by norm_num))

/-- The Gibbs energy of a link of the extensible chain in the asymptotic approach. -/
theorem sized_asymptotic (hy : Acc y η n (-100) 100) (h0 : 0 < η) (h600 : η ≤ 600) (hn0 : 0 ≤ n) (hn : n ≤ 9) (hz : Acc z κ 7 (-100) 100) (hκ : 0 < κ)
    {u v : F64 P} (hu : Sized u s 1 (|s| + 17)) (hs : |s| ≤ 1000) (hv : Sized v t 1 (|t| + 24)) (ht : |t| ≤ 1000) :
    Sized ((-Elem.ln (Elem.sinh y / y)) - 0.5 * Elem.powi y 2 / z - Elem.ln (1.0 + y / Elem.tanh y / z) - 0.5 * u - v)
      ((-Elem.ln (Elem.sinh η / η)) - 0.5 * Elem.powi η 2 / κ - Elem.ln (1.0 + η / Elem.tanh η / κ) - 0.5 * s - t) 40
      (η + η ^ 2 / (2 * κ) + |s| / 2 + |t| + 40 + Real.log (1 + η / Real.tanh η / κ) + 31) ∧
    (2 : ℝ) ^ (0 : ℤ) ≤ η + η ^ 2 / (2 * κ) + |s| / 2 + |t| + 40 + Real.log (1 + η / Real.tanh η / κ) + 31 ∧
    η + η ^ 2 / (2 * κ) + |s| / 2 + |t| + 40 + Real.log (1 + η / Real.tanh η / κ) + 31 ≤ 2 ^ (190 : ℤ) :=
  sized_asymptotic_core hy h0 h600 hn0 hn hz hκ hu hs hv ht (acc_coupling hy h0 hn hz hκ).1 (acc_coupling hy h0 hn hz hκ).2.2.1

/-- The nondimensional Gibbs energy per link. -/
theorem sized_asymptotic_nondimensional (hℓ : Moderate ℓ) (hℓ0 : 0 < ℓ) (hm : Moderate m) (hm0 : 0 < m) (hT : Moderate T) (hT0 : 0 < T)
    (hy : Acc y η n (-100) 100) (h0 : 0 < η) (h600 : η ≤ 600) (hn0 : 0 ≤ n) (hn : n ≤ 9) (hz : Acc z κ 7 (-100) 100) (hκ : 0 < κ) :
    Sized (asymptotic.nondimensional_gibbs_free_energy_per_link (.fin ℓ) (.fin m) z y (.fin T)) (asymptotic.nondimensional_gibbs_free_energy_per_link ℓ m κ η T) 40
      (efjcAsymptoticGibbsSize ℓ m κ T η) ∧ (2 : ℝ) ^ (0 : ℤ) ≤ efjcAsymptoticGibbsSize ℓ m κ T η ∧ efjcAsymptoticGibbsSize ℓ m κ T η ≤ 2 ^ (190 : ℤ) := by
  have as := acc_two (P := P) ⊗ acc_pi ⊗ (acc_moderate hℓ).sq (by norm_num) (by norm_num) (by norm_num) ⊘ hz
  have e : 2.0 * Real.pi * Elem.powi ℓ 2 / κ = 2 * Real.pi * ℓ ^ 2 / κ := by rw [powi_two]; norm_num
  obtain ⟨hu, hs⟩ := sized_ln as (by rw [e]; positivity) (by norm_num) (by norm_num) (by norm_num)
  obtain ⟨hv, ht⟩ := sized_hinge (P := P) hℓ hm hm0 hT hT0
  have k := sized_asymptotic hy h0 h600 hn0 hn hz hκ hu hs hv ht
  rw [hingeLog_eq, e] at k
  unfold efjcAsymptoticGibbsSize efjcGibbsSize
  rw [← e] at k ⊢
  rw [← hingeLog_eq] at k ⊢
  exact k

/-- The Gibbs energy per link. -/
theorem sized_asymptotic_gibbs (hℓ : Moderate ℓ) (hℓ0 : 0 < ℓ) (hm : Moderate m) (hm0 : 0 < m) (hc : Moderate c) (hc0 : 0 < c) (hT : Moderate T) (hT0 : 0 < T)
    (hx : Acc x f n a b) (hn0 : 0 ≤ n) (hn : n ≤ 5) (ha : -400 ≤ a) (hb : b ≤ 400) (hη : η = f * ℓ / (Polymers.BOLTZMANN_CONSTANT * T)) (hη' : Moderate η)
    (h0 : 0 < η) (h600 : η ≤ 600) (hκ : κ = c * ℓ ^ 2 / (Polymers.BOLTZMANN_CONSTANT * T)) (hκ' : Moderate κ) :
    ∃ (u : F64 P) (r : ℝ), Sized u r 40 (efjcAsymptoticGibbsSize ℓ m κ T η) ∧ (2 : ℝ) ^ (0 : ℤ) ≤ efjcAsymptoticGibbsSize ℓ m κ T η ∧ efjcAsymptoticGibbsSize ℓ m κ T η ≤ 2 ^ (190 : ℤ) ∧
      (∀ N : ℕ, asymptotic.gibbs_free_energy N (.fin ℓ) (.fin m) (.fin c) x (.fin T) = (N : F64 P) * (Polymers.BOLTZMANN_CONSTANT : F64 P) * .fin T * u) ∧
      (∀ N : ℕ, asymptotic.gibbs_free_energy N ℓ m c f T = N * (Polymers.BOLTZMANN_CONSTANT : ℝ) * T * r) ∧
      asymptotic.gibbs_free_energy_per_link (.fin ℓ) (.fin m) (.fin c) x (.fin T) = (Polymers.BOLTZMANN_CONSTANT : F64 P) * .fin T * u ∧
      asymptotic.gibbs_free_energy_per_link ℓ m c f T = (Polymers.BOLTZMANN_CONSTANT : ℝ) * T * r := by
  have hk0 := boltzmann_pos
  have aT := acc_moderate (P := P) hT
  have aℓ := acc_moderate (P := P) hℓ
  have hκ0 : 0 < κ := by rw [hκ]; positivity
  have az := acc_stiffness (P := P) hc hℓ hT
  have ay := Acc.div (Acc.div (Acc.mul hx aℓ (by linarith) (by omega) (by omega)) acc_boltzmann (by linarith) (by omega) (by omega)) aT (by linarith) (by omega)
    (by omega)
  have e1 : f * ℓ / (Polymers.BOLTZMANN_CONSTANT : ℝ) / T = η := by rw [hη, div_div]
  have e2 := stiffness_eq hκ
  have hz : Acc _ (c * Elem.powi ℓ 2 / (Polymers.BOLTZMANN_CONSTANT : ℝ) / T) 7 (-100) 100 := ⟨az.rel, by rw [e2]; exact hκ'.1, by rw [e2]; exact hκ'.2⟩
  have hy : Acc _ (f * ℓ / (Polymers.BOLTZMANN_CONSTANT : ℝ) / T) (n + 4) (-100) 100 :=
    ⟨ay.rel.mono (mul_le_mul_of_nonneg_right (by linarith) (unit_pos P).le), by rw [e1]; exact hη'.1, by rw [e1]; exact hη'.2⟩
  have as := acc_two (P := P) ⊗ acc_pi ⊗ acc_boltzmann ⊗ aT ⊘ acc_moderate hc
  have e : 2.0 * Real.pi * (Polymers.BOLTZMANN_CONSTANT : ℝ) * T / c = 2 * Real.pi * ℓ ^ 2 / κ := by
    rw [hκ, show (2.0 : ℝ) = 2 by norm_num]; field_simp
  obtain ⟨hu, hs⟩ := sized_ln as (by rw [e]; positivity) (by norm_num) (by norm_num) (by norm_num)
  obtain ⟨hv, ht⟩ := sized_hinge (P := P) hℓ hm hm0 hT hT0
  have k := sized_asymptotic hy (by rwa [e1]) (by rwa [e1]) (by linarith) (by linarith) hz (by rwa [e2]) hu hs hv ht
  have eM : f * ℓ / (Polymers.BOLTZMANN_CONSTANT : ℝ) / T + (f * ℓ / (Polymers.BOLTZMANN_CONSTANT : ℝ) / T) ^ 2 / (2 * (c * Elem.powi ℓ 2 /
      (Polymers.BOLTZMANN_CONSTANT : ℝ) / T)) + |Real.log (2.0 * Real.pi * (Polymers.BOLTZMANN_CONSTANT : ℝ) * T / c)| / 2 + |logRatio ℓ m T| + 40 +
      Real.log (1 + f * ℓ / (Polymers.BOLTZMANN_CONSTANT : ℝ) / T / Real.tanh (f * ℓ / (Polymers.BOLTZMANN_CONSTANT : ℝ) / T) /
        (c * Elem.powi ℓ 2 / (Polymers.BOLTZMANN_CONSTANT : ℝ) / T)) + 31 =
      efjcAsymptoticGibbsSize ℓ m κ T η := by
    rw [e, e1, e2, hingeLog_eq]; rfl
  rw [eM] at k
  exact ⟨_, _, k.1, k.2.1, k.2.2, fun _ => rfl, fun _ => rfl, rfl, rfl⟩

/-- C104: the Gibbs energies of the extensible chain in the asymptotic approach under a force with `f ℓ ≤ 600 k T`. -/
theorem C104_efjc_asymptotic_gibbs (P : Platform) (hN : 0 < N) (hN' : N ≤ 255) (hℓ : Moderate ℓ) (hℓ0 : 0 < ℓ) (hm : Moderate m) (hm0 : 0 < m) (hc : Moderate c) (hc0 : 0 < c)
    (hf : Moderate f) (hT : Moderate T) (hT0 : 0 < T) {k : ℝ} (hk : k = Polymers.BOLTZMANN_CONSTANT) (hη : η = f * ℓ / (k * T))
    (hη' : Moderate η) (h0 : 0 < η) (h600 : η ≤ 600) (hκ : κ = c * ℓ ^ 2 / (k * T)) (hκ' : Moderate κ)
    {F : ApiF.EnergyMethodsF P} (hF : F = ApiF.efjc_isotensional_asymptotic_gibbs N (.fin ℓ) (.fin m) (.fin c))
    {R : EnergyMethods} (hR : R = Api.efjc_isotensional_asymptotic_gibbs N ℓ m c) :
    Within (F.energy (.fin f) (.fin T)) (R.energy f T) (P.ε * (48 * (N * (k * T) * efjcAsymptoticGibbsSize ℓ m κ T η))) ∧
    Within (F.energy_per_link (.fin f) (.fin T)) (R.energy_per_link f T) (P.ε * (48 * (k * T * efjcAsymptoticGibbsSize ℓ m κ T η))) ∧
    Within (F.relative (.fin f) (.fin T)) (R.relative f T) (P.ε * (50 * (N * (k * T) * (efjcAsymptoticGibbsSize ℓ 1 κ T η + efjcAsymptoticGibbsSize ℓ 1 κ T 1e-6)))) ∧
    Within (F.relative_per_link (.fin f) (.fin T)) (R.relative_per_link f T)
      (P.ε * (50 * (k * T * (efjcAsymptoticGibbsSize ℓ 1 κ T η + efjcAsymptoticGibbsSize ℓ 1 κ T 1e-6)))) := by
  subst hF hR hk
  have hk0 := boltzmann_pos
  have hN0 : (0 : ℝ) < N := by exact_mod_cast hN
  have aN := acc_nat (P := P) hN hN'
  have aT := acc_moderate (P := P) hT
  have aK := acc_boltzmann (P := P)
  have a1 := aN ⊗ aK ⊗ aT
  have a2 := aK ⊗ aT
  have scale : ∀ {u : F64 P} {r M : ℝ}, Sized u r 40 M → (2 : ℝ) ^ (0 : ℤ) ≤ M → M ≤ 2 ^ (190 : ℤ) →
      Sized ((N : F64 P) * (Polymers.BOLTZMANN_CONSTANT : F64 P) * .fin T * u) (N * (Polymers.BOLTZMANN_CONSTANT : ℝ) * T * r) 48
        (N * (Polymers.BOLTZMANN_CONSTANT * T) * M) ∧ N * (Polymers.BOLTZMANN_CONSTANT * T) * M ≤ 2 ^ (500 : ℤ) ∧
      Sized ((Polymers.BOLTZMANN_CONSTANT : F64 P) * .fin T * u) ((Polymers.BOLTZMANN_CONSTANT : ℝ) * T * r) 48
        (Polymers.BOLTZMANN_CONSTANT * T * M) ∧ Polymers.BOLTZMANN_CONSTANT * T * M ≤ 2 ^ (500 : ℤ) := by
    intro u r M h lo hi
    have r1 := mul_range lo hi a1.lo a1.hi
    have r2 := mul_range lo hi a2.lo a2.hi
    have q1 := range_mono r1 (c := -1000) (d := 590) (by norm_num) (by norm_num)
    have q2 := range_mono r2 (c := -1000) (d := 590) (by norm_num) (by norm_num)
    have k1 := h.mul a1 (by norm_num) (by norm_num) (by norm_num) q1.1 q1.2 (by norm_num)
    have k2 := h.mul a2 (by norm_num) (by norm_num) (by norm_num) q2.1 q2.2 (by norm_num)
    have g1 : M * |N * (Polymers.BOLTZMANN_CONSTANT : ℝ) * T| = N * (Polymers.BOLTZMANN_CONSTANT * T) * M := by rw [abs_of_pos (by positivity)]; ring
    have g2 : M * |(Polymers.BOLTZMANN_CONSTANT : ℝ) * T| = Polymers.BOLTZMANN_CONSTANT * T * M := by rw [abs_of_pos (by positivity)]; ring
    rw [g1] at k1 r1
    rw [g2] at k2 r2
    exact ⟨k1.weaken (by norm_num) (by norm_num) rfl le_rfl k1.hi, r1.2.trans (two_zpow_mono (by norm_num)),
      k2.weaken (by norm_num) (by norm_num) rfl le_rfl k2.hi, r2.2.trans (two_zpow_mono (by norm_num))⟩
  have af := acc_moderate (P := P) hf
  obtain ⟨u, r, s1, lo1, hi1, p1, p2, p3, p4⟩ := sized_asymptotic_gibbs (P := P) hℓ hℓ0 hm hm0 hc hc0 hT hT0 af (by norm_num) (by norm_num) (by norm_num) (by norm_num)
    hη hη' h0 h600 hκ hκ'
  obtain ⟨u', r', s2, lo2, hi2, p5, p6, p7, p8⟩ := sized_asymptotic_gibbs (P := P) hℓ hℓ0 moderate_one one_pos hc hc0 hT hT0 af (by norm_num) (by norm_num)
    (by norm_num) (by norm_num) hη hη' h0 h600 hκ hκ'
  have az := zero_lit (P := P) ⊗ aK ⊗ aT ⊘ acc_moderate hℓ
  obtain ⟨v, q, s3, lo3, hi3, p9, p10, p11, p12⟩ := sized_asymptotic_gibbs (P := P) (η := 1e-6) hℓ hℓ0 moderate_one one_pos hc hc0 hT hT0 az (by norm_num) (by norm_num)
    (by norm_num) (by norm_num) (by unfold Polymers.ZERO; field_simp) moderate_zero (by norm_num) (by norm_num) hκ hκ'
  obtain ⟨w1, -, w2, -⟩ := scale s1 lo1 hi1
  obtain ⟨w3, b3, w4, b4⟩ := scale s2 lo2 hi2
  obtain ⟨w5, b5, w6, b6⟩ := scale s3 lo3 hi3
  have h590 : (2 : ℝ) ^ (500 : ℤ) + 2 ^ (500 : ℤ) ≤ 2 ^ (590 : ℤ) := by
    rw [← two_mul, ← zpow_one_add₀ (by norm_num)]; exact two_zpow_mono (by norm_num)
  have w7 := w3.sub w5 ((add_le_add b3 b5).trans h590) le_rfl (by norm_num)
  have w8 := w4.sub w6 ((add_le_add b4 b6).trans h590) le_rfl (by norm_num)
  rw [← mul_add] at w7 w8
  have z1 := w7.within
  have z2 := w8.within
  rw [← p5, ← p6, ← p9, ← p10] at z1
  rw [← p7, ← p8, ← p11, ← p12] at z2
  refine ⟨?_, ?_, ?_, ?_⟩
  · rw [← p1, ← p2] at w1; exact w1.within
  · rw [← p3, ← p4] at w2; exact w2.within
  · have hl : (1.0 : F64 P) = .fin 1 := lit_one
    have hl' : (1.0 : ℝ) = 1 := by norm_num
    show Within (asymptotic.relative_gibbs_free_energy N _ _ _ _) (asymptotic.relative_gibbs_free_energy N _ _ _ _) _
    unfold asymptotic.relative_gibbs_free_energy
    rw [hl, hl']
    norm_num at z1 ⊢
    exact z1
  · have hl : (1.0 : F64 P) = .fin 1 := lit_one
    have hl' : (1.0 : ℝ) = 1 := by norm_num
    show Within (asymptotic.relative_gibbs_free_energy_per_link _ _ _ _) (asymptotic.relative_gibbs_free_energy_per_link _ _ _ _) _
    unfold asymptotic.relative_gibbs_free_energy_per_link
    rw [hl, hl']
    norm_num at z2 ⊢
    exact z2

/-- C104: the nondimensional Gibbs energies of the extensible chain in the asymptotic approach. -/
theorem C104_efjc_asymptotic_nondimensional_gibbs (P : Platform) (hN : 0 < N) (hN' : N ≤ 255) (hℓ : Moderate ℓ) (hℓ0 : 0 < ℓ) (hm : Moderate m) (hm0 : 0 < m)
    (hc : Moderate c) (hc0 : 0 < c) (hT : Moderate T) (hT0 : 0 < T) {k : ℝ} (hk : k = Polymers.BOLTZMANN_CONSTANT)
    (hη' : Moderate η) (h0 : 0 < η) (h600 : η ≤ 600) (hκ : κ = c * ℓ ^ 2 / (k * T)) (hκ' : Moderate κ)
    {F : ApiF.EnergyMethodsF P} (hF : F = ApiF.efjc_isotensional_asymptotic_gibbs N (.fin ℓ) (.fin m) (.fin c))
    {R : EnergyMethods} (hR : R = Api.efjc_isotensional_asymptotic_gibbs N ℓ m c) :
    Within (F.nd_energy (.fin η) (.fin T)) (R.nd_energy η T) (P.ε * (45 * (N * efjcAsymptoticGibbsSize ℓ m κ T η))) ∧
    Within (F.nd_energy_per_link (.fin η) (.fin T)) (R.nd_energy_per_link η T) (P.ε * (40 * efjcAsymptoticGibbsSize ℓ m κ T η)) ∧
    Within (F.nd_relative (.fin η) (.fin T)) (R.nd_relative η T) (P.ε * (47 * (N * (efjcAsymptoticGibbsSize 1 1 κ 300 η + efjcAsymptoticGibbsSize 1 1 κ 300 1e-6)))) ∧
    Within (F.nd_relative_per_link (.fin η) (.fin T)) (R.nd_relative_per_link η T)
      (P.ε * (42 * (efjcAsymptoticGibbsSize 1 1 κ 300 η + efjcAsymptoticGibbsSize 1 1 κ 300 1e-6))) := by
  subst hF hR hk
  have hk0 := boltzmann_pos
  have hN0 : (0 : ℝ) < N := by exact_mod_cast hN
  have aN := acc_nat (P := P) hN hN'
  have hκ0 : 0 < κ := by rw [hκ]; positivity
  have az := acc_stiffness (P := P) hc hℓ hT
  have e2 := stiffness_eq hκ
  have hz : Acc _ (c * Elem.powi ℓ 2 / (Polymers.BOLTZMANN_CONSTANT : ℝ) / T) 7 (-100) 100 := ⟨az.rel, by rw [e2]; exact hκ'.1, by rw [e2]; exact hκ'.2⟩
  have aη : Acc (.fin η : F64 P) η 0 (-100) 100 := acc_moderate hη'
  have a0 : Acc (Polymers.ZERO : F64 P) (Polymers.ZERO : ℝ) 1 (-100) 100 := ⟨zero_lit.rel, by unfold Polymers.ZERO; exact moderate_zero.1,
    by unfold Polymers.ZERO; exact moderate_zero.2⟩
  have z0 : (0 : ℝ) < Polymers.ZERO := by unfold Polymers.ZERO; norm_num
  have z1 : (Polymers.ZERO : ℝ) ≤ 600 := by unfold Polymers.ZERO; norm_num
  have scale : ∀ {u : F64 P} {r M : ℝ}, Sized u r 40 M → (2 : ℝ) ^ (0 : ℤ) ≤ M → M ≤ 2 ^ (190 : ℤ) →
      Sized ((N : F64 P) * u) (N * r) 45 (N * M) ∧ N * M ≤ 2 ^ (500 : ℤ) := by
    intro u r M h lo hi
    have r1 := mul_range lo hi aN.lo aN.hi
    have q1 := range_mono r1 (c := -1000) (d := 590) (by norm_num) (by norm_num)
    have k1 := h.mul aN (by norm_num) (by norm_num) (by norm_num) q1.1 q1.2 (by norm_num)
    rw [Nat.abs_cast, mul_comm M] at k1 r1
    exact ⟨k1.weaken (by norm_num) (by norm_num) rfl le_rfl k1.hi, r1.2.trans (two_zpow_mono (by norm_num))⟩
  obtain ⟨s1, lo1, hi1⟩ := sized_asymptotic_nondimensional hℓ hℓ0 hm hm0 hT hT0 aη h0 h600 (by norm_num) (by norm_num) hz (by rwa [e2])
  obtain ⟨s2, lo2, hi2⟩ := sized_asymptotic_nondimensional moderate_one one_pos moderate_one one_pos moderate_300 (by norm_num) aη h0 h600 (by norm_num) (by norm_num) hz
    (by rwa [e2])
  obtain ⟨s3, lo3, hi3⟩ := sized_asymptotic_nondimensional moderate_one one_pos moderate_one one_pos moderate_300 (by norm_num) a0 z0 z1 (by norm_num) (by norm_num) hz
    (by rwa [e2])
  obtain ⟨w1, -⟩ := scale s1 lo1 hi1
  obtain ⟨w2, b2⟩ := scale s2 lo2 hi2
  obtain ⟨w3, b3⟩ := scale s3 lo3 hi3
  have h590 : (2 : ℝ) ^ (500 : ℤ) + 2 ^ (500 : ℤ) ≤ 2 ^ (590 : ℤ) := by
    rw [← two_mul, ← zpow_one_add₀ (by norm_num)]; exact two_zpow_mono (by norm_num)
  have h500 : (2 : ℝ) ^ (190 : ℤ) ≤ 2 ^ (500 : ℤ) := two_zpow_mono (by norm_num)
  have w4 := w2.sub w3 ((add_le_add b2 b3).trans h590) le_rfl (by norm_num)
  have w5 := s2.sub s3 ((add_le_add (hi2.trans h500) (hi3.trans h500)).trans h590) le_rfl (by norm_num)
  rw [← mul_add] at w4
  have y1 := w1.within
  have y2 := s1.within
  have y4 := w4.within
  have y5 := w5.within
  rw [show (45 : ℝ) + 2 = 47 by norm_num] at y4
  rw [show (40 : ℝ) + 2 = 42 by norm_num] at y5
  rw [← e2]
  refine ⟨y1, y2, ?_, ?_⟩
  · show Within (asymptotic.nondimensional_relative_gibbs_free_energy N _ _) (asymptotic.nondimensional_relative_gibbs_free_energy N _ _) _
    unfold asymptotic.nondimensional_relative_gibbs_free_energy
    rw [lit_one, lit_300, show (1.0 : ℝ) = 1 by norm_num, show (300.0 : ℝ) = 300 by norm_num]
    exact y4
  · show Within (asymptotic.nondimensional_relative_gibbs_free_energy_per_link _ _) (asymptotic.nondimensional_relative_gibbs_free_energy_per_link _ _) _
    unfold asymptotic.nondimensional_relative_gibbs_free_energy_per_link
    rw [lit_one, lit_300, show (1.0 : ℝ) = 1 by norm_num, show (300.0 : ℝ) = 300 by norm_num]
    exact y5

/-- Not vacuous: twenty links of unit length with stiffness `50000` under the force `5000` at 300 K on a correctly rounded machine. -/
example : Within ((ApiF.efjc_isotensional_asymptotic_gibbs 20 (.fin 1 : F64 correctlyRounded) (.fin 1) (.fin 50000)).relative (.fin 5000) (.fin 300))
    ((Api.efjc_isotensional_asymptotic_gibbs 20 1 1 50000).relative 5000 300)
    (correctlyRounded.ε * (50 * ((20 : ℕ) * ((Polymers.BOLTZMANN_CONSTANT : ℝ) * 300) *
      (efjcAsymptoticGibbsSize 1 1 (50000 * 1 ^ 2 / (Polymers.BOLTZMANN_CONSTANT * 300)) 300 (5000 * 1 / (Polymers.BOLTZMANN_CONSTANT * 300)) +
        efjcAsymptoticGibbsSize 1 1 (50000 * 1 ^ 2 / (Polymers.BOLTZMANN_CONSTANT * 300)) 300 1e-6)))) :=
  (C104_efjc_asymptotic_gibbs correctlyRounded (by norm_num) (by norm_num) moderate_one one_pos moderate_one one_pos ⟨by norm_num, by norm_num⟩ (by norm_num)
    ⟨by norm_num, by norm_num⟩ moderate_300 (by norm_num) rfl rfl
    (by unfold Polymers.BOLTZMANN_CONSTANT; constructor <;> norm_num) (by unfold Polymers.BOLTZMANN_CONSTANT; norm_num)
    (by unfold Polymers.BOLTZMANN_CONSTANT; norm_num) rfl (by unfold Polymers.BOLTZMANN_CONSTANT; constructor <;> norm_num) rfl rfl).2.2.1

end Polymers.Props
