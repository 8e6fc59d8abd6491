import Verif.Lemmas.IeeeProduct
import Verif.Spec.ApiIeee
import Verif.Spec.Api

/-! C94: the ideal chain in floating point. -/

namespace Polymers.Props

open Polymers.Ieee Polymers.Spec Polymers.Lemmas

variable {P : Platform} {N : ℕ} {ℓ m T x : ℝ}

local macro:70 a:term:70 " ⊗ " b:term:71 : term => `(Acc.mul $a $b (by norm_num) (by norm_num) (by norm_num))
local macro:70 a:term:70 " ⊘ " b:term:71 : term => `(Acc.div $a $b (by norm_num) (by norm_num) (by norm_num))
local macro:75 "□" a:term:76 : term => `(Acc.sq $a (by norm_num) (by norm_num) (by norm_num))

theorem acc_moderate (h : Moderate x) : Acc (.fin x : F64 P) x 0 (-100) 100 := acc_arg h.1 h.2

theorem acc_three : Acc (3.0 : F64 P) (3.0 : ℝ) 1 1 2 := by
  refine acc_lit ?_ ?_ (by norm_num) (by norm_num) <;> norm_num
theorem acc_four : Acc (4.0 : F64 P) (4.0 : ℝ) 1 2 2 := by
  refine acc_lit ?_ ?_ (by norm_num) (by norm_num) <;> norm_num
theorem acc_six : Acc (6.0 : F64 P) (6.0 : ℝ) 1 2 3 := by
  refine acc_lit ?_ ?_ (by norm_num) (by norm_num) <;> norm_num
theorem acc_eight : Acc (8.0 : F64 P) (8.0 : ℝ) 1 3 3 := by
  refine acc_lit ?_ ?_ (by norm_num) (by norm_num) <;> norm_num
theorem acc_three_halves : Acc (1.5 : F64 P) (1.5 : ℝ) 1 0 1 := by
  refine acc_lit ?_ ?_ (by norm_num) (by norm_num) <;> norm_num

/-- C94: the force to hold the ideal chain at a length. -/
theorem C94_ideal_forces (P : Platform) (hN : 0 < N) (hN' : N ≤ 255) (m : F64 P) (m' : ℝ) (hℓ : Moderate ℓ) (hx : Moderate x) (hT : Moderate T) :
    Accurate 20 ((ApiF.ideal_isometric_forces N (.fin ℓ : F64 P) m).force (.fin x) (.fin T)) ((Api.ideal_isometric_forces N ℓ m').force x T) ∧
    Accurate 5 ((ApiF.ideal_isometric_forces N (.fin ℓ : F64 P) m).nd_force (.fin x) (.fin T))
      ((Api.ideal_isometric_forces N ℓ m').nd_force x T) := by
  have aℓ := acc_moderate (P := P) hℓ
  have ax := acc_moderate (P := P) hx
  have aT := acc_moderate (P := P) hT
  have aN := acc_nat (P := P) hN hN'
  have h1 := acc_three ⊗ ax ⊗ acc_boltzmann ⊗ aT ⊘ aN ⊘ □ aℓ
  have h2 := acc_three ⊗ ax
  exact ⟨h1.accurate (by norm_num) (by norm_num) (by norm_num), h2.accurate (by norm_num) (by norm_num) (by norm_num)⟩

/-- C94: the length of the ideal chain under a force. -/
theorem C94_ideal_lengths (P : Platform) (hN : 0 < N) (hN' : N ≤ 255) (m : F64 P) (m' : ℝ) (hℓ : Moderate ℓ) (hx : Moderate x) (hT : Moderate T) :
    Accurate 20 ((ApiF.ideal_isotensional_lengths N (.fin ℓ : F64 P) m).length (.fin x) (.fin T))
      ((Api.ideal_isotensional_lengths N ℓ m').length x T) ∧
    Accurate 20 ((ApiF.ideal_isotensional_lengths N (.fin ℓ : F64 P) m).length_per_link (.fin x) (.fin T))
      ((Api.ideal_isotensional_lengths N ℓ m').length_per_link x T) ∧
    Accurate 5 ((ApiF.ideal_isotensional_lengths N (.fin ℓ : F64 P) m).nd_length (.fin x) (.fin T))
      ((Api.ideal_isotensional_lengths N ℓ m').nd_length x T) ∧
    Accurate 5 ((ApiF.ideal_isotensional_lengths N (.fin ℓ : F64 P) m).nd_length_per_link (.fin x) (.fin T))
      ((Api.ideal_isotensional_lengths N ℓ m').nd_length_per_link x T) := by
  have aℓ := acc_moderate (P := P) hℓ
  have ax := acc_moderate (P := P) hx
  have aT := acc_moderate (P := P) hT
  have aN := acc_nat (P := P) hN hN'
  have h1 := aN ⊗ ax ⊘ acc_boltzmann ⊘ aT ⊗ □ aℓ ⊘ acc_three
  have h2 := ax ⊘ acc_boltzmann ⊘ aT ⊗ □ aℓ ⊘ acc_three
  have h3 := aN ⊗ ax ⊘ acc_three
  have h4 := ax ⊘ acc_three
  exact ⟨h1.accurate (by norm_num) (by norm_num) (by norm_num), h2.accurate (by norm_num) (by norm_num) (by norm_num),
    h3.accurate (by norm_num) (by norm_num) (by norm_num), h4.accurate (by norm_num) (by norm_num) (by norm_num)⟩

/-- C94: the relative Helmholtz energies of the ideal chain. -/
theorem C94_ideal_relative_helmholtz (P : Platform) (hN : 0 < N) (hN' : N ≤ 255) (m : F64 P) (m' : ℝ) (hℓ : Moderate ℓ) (hx : Moderate x)
    (hT : Moderate T) :
    Accurate 20 ((ApiF.ideal_isometric_helmholtz N (.fin ℓ : F64 P) m).relative (.fin x) (.fin T))
      ((Api.ideal_isometric_helmholtz N ℓ m').relative x T) ∧
    Accurate 20 ((ApiF.ideal_isometric_helmholtz N (.fin ℓ : F64 P) m).relative_per_link (.fin x) (.fin T))
      ((Api.ideal_isometric_helmholtz N ℓ m').relative_per_link x T) ∧
    Accurate 10 ((ApiF.ideal_isometric_helmholtz N (.fin ℓ : F64 P) m).nd_relative (.fin x) (.fin T))
      ((Api.ideal_isometric_helmholtz N ℓ m').nd_relative x T) ∧
    Accurate 10 ((ApiF.ideal_isometric_helmholtz N (.fin ℓ : F64 P) m).nd_relative_per_link (.fin x) (.fin T))
      ((Api.ideal_isometric_helmholtz N ℓ m').nd_relative_per_link x T) := by
  have aℓ := acc_moderate (P := P) hℓ
  have ax := acc_moderate (P := P) hx
  have aT := acc_moderate (P := P) hT
  have aN := acc_nat (P := P) hN hN'
  have h1 := acc_three_halves ⊗ aN ⊗ □ (ax ⊘ (aN ⊗ aℓ)) ⊗ acc_boltzmann ⊗ aT
  have h2 := acc_three_halves ⊗ □ (ax ⊘ (aN ⊗ aℓ)) ⊗ acc_boltzmann ⊗ aT
  have h3 := acc_three_halves ⊗ aN ⊗ □ ax
  have h4 := acc_three_halves ⊗ □ ax
  exact ⟨h1.accurate (by norm_num) (by norm_num) (by norm_num), h2.accurate (by norm_num) (by norm_num) (by norm_num),
    h3.accurate (by norm_num) (by norm_num) (by norm_num), h4.accurate (by norm_num) (by norm_num) (by norm_num)⟩

/-- C94: the relative Gibbs energies of the ideal chain. -/
theorem C94_ideal_relative_gibbs (P : Platform) (hN : 0 < N) (hN' : N ≤ 255) (m : F64 P) (m' : ℝ) (hℓ : Moderate ℓ) (hx : Moderate x)
    (hT : Moderate T) :
    Accurate 20 ((ApiF.ideal_isotensional_gibbs N (.fin ℓ : F64 P) m).relative (.fin x) (.fin T))
      ((Api.ideal_isotensional_gibbs N ℓ m').relative x T) ∧
    Accurate 20 ((ApiF.ideal_isotensional_gibbs N (.fin ℓ : F64 P) m).relative_per_link (.fin x) (.fin T))
      ((Api.ideal_isotensional_gibbs N ℓ m').relative_per_link x T) ∧
    Accurate 10 ((ApiF.ideal_isotensional_gibbs N (.fin ℓ : F64 P) m).nd_relative (.fin x) (.fin T))
      ((Api.ideal_isotensional_gibbs N ℓ m').nd_relative x T) ∧
    Accurate 10 ((ApiF.ideal_isotensional_gibbs N (.fin ℓ : F64 P) m).nd_relative_per_link (.fin x) (.fin T))
      ((Api.ideal_isotensional_gibbs N ℓ m').nd_relative_per_link x T) := by
  have aℓ := acc_moderate (P := P) hℓ
  have ax := acc_moderate (P := P) hx
  have aT := acc_moderate (P := P) hT
  have aN := acc_nat (P := P) hN hN'
  have h1 := aN.neg ⊗ □ (ax ⊗ aℓ) ⊘ acc_six ⊘ acc_boltzmann ⊘ aT
  have h2 := (□ (ax ⊗ aℓ)).neg ⊘ acc_six ⊘ acc_boltzmann ⊘ aT
  have h3 := aN.neg ⊗ □ ax ⊘ acc_six
  have h4 := (□ ax).neg ⊘ acc_six
  exact ⟨h1.accurate (by norm_num) (by norm_num) (by norm_num), h2.accurate (by norm_num) (by norm_num) (by norm_num),
    h3.accurate (by norm_num) (by norm_num) (by norm_num), h4.accurate (by norm_num) (by norm_num) (by norm_num)⟩

theorem powi_two (v : ℝ) : (Elem.powi v 2 : ℝ) = v ^ 2 := by show v ^ (2 : ℤ) = _; norm_cast

/-- C94: the distributions of the length of the ideal chain, per volume or per length.  The error grows with the energy needed to reach the
length, in units of `kT`, here up to 300. -/
theorem C94_ideal_distribution (P : Platform) (hN : 0 < N) (hN' : N ≤ 255) (m : F64 P) (m' : ℝ) (hℓ : Moderate ℓ) (hx : Moderate x) {E : ℝ}
    (hE : E = 3 / 2 * (x / ℓ) ^ 2 / N) (hE' : E ≤ 300) :
    Accurate (30 + 10 * E) ((ApiF.ideal_isometric_distribution N (.fin ℓ : F64 P) m).density (.fin x))
      ((Api.ideal_isometric_distribution N ℓ m').density x) ∧
    Accurate (40 + 15 * E) ((ApiF.ideal_isometric_distribution N (.fin ℓ : F64 P) m).radial (.fin x))
      ((Api.ideal_isometric_distribution N ℓ m').radial x) := by
  have aℓ := acc_moderate (P := P) hℓ
  have ax := acc_moderate (P := P) hx
  have aN := acc_nat (P := P) hN hN'
  have hN0 : (0 : ℝ) < N := by exact_mod_cast hN
  have hE0 : 0 ≤ E := by rw [hE]; positivity
  have h0 := aℓ.ne_zero
  have hpi := Real.pi_pos
  constructor
  · have e1 := acc_three_halves.neg ⊗ □ (ax ⊘ aℓ) ⊘ aN
    have er : -1.5 * (Elem.powi (x / ℓ) 2 : ℝ) / N = -E := by rw [powi_two, hE]; ring
    rw [er] at e1
    have e2 := e1.exp (by norm_num) (by norm_num) (by linarith) (by linarith)
    rw [abs_neg, abs_of_nonneg hE0, ← er] at e2
    have e3 := Acc.powf (acc_three_halves ⊘ acc_pi ⊘ aN ⊘ □ aℓ) (by rw [powi_two]; positivity) (by norm_num) (by norm_num) (by norm_num) (by norm_num)
      (by norm_num)
    have e4 := Acc.mul e3 e2 (by linarith) (by norm_num) (by norm_num)
    exact e4.accurate (by linarith) (by linarith) (by linarith)
  · have e1 := acc_three_halves.neg ⊗ □ (ax ⊘ (aN ⊗ aℓ)) ⊗ aN
    have er : -1.5 * (Elem.powi (x / (N * ℓ)) 2 : ℝ) * N = -E := by
      rw [powi_two, hE]
      field_simp
      ring
    rw [er] at e1
    have e2 := e1.exp (by norm_num) (by norm_num) (by linarith) (by linarith)
    rw [abs_neg, abs_of_nonneg hE0, ← er] at e2
    have e3 := Acc.powf (acc_three_halves ⊘ acc_pi ⊗ aN) (by positivity) (by norm_num) (by norm_num) (by norm_num) (by norm_num) (by norm_num)
    have e4 := Acc.mul (acc_four ⊗ acc_pi ⊗ □ (ax ⊘ (aN ⊗ aℓ)) ⊗ e3) e2 (by linarith) (by norm_num) (by norm_num)
    have e5 := Acc.div e4 (aN ⊗ aℓ) (by linarith) (by norm_num) (by norm_num)
    exact e5.accurate (by linarith) (by linarith) (by linarith)

/-- C94: the nondimensional distributions of the length of the ideal chain. -/
theorem C94_ideal_nondimensional_distribution (P : Platform) (hN : 0 < N) (hN' : N ≤ 255) (ℓ m : F64 P) (ℓ' m' : ℝ) (hx : Moderate x) {E : ℝ}
    (hE : E = 3 / 2 * N * x ^ 2) (hE' : E ≤ 300) :
    Accurate (30 + 10 * E) ((ApiF.ideal_isometric_distribution N ℓ m).nd_density (.fin x))
      ((Api.ideal_isometric_distribution N ℓ' m').nd_density x) ∧
    Accurate (30 + 10 * E) ((ApiF.ideal_isometric_distribution N ℓ m).nd_radial (.fin x))
      ((Api.ideal_isometric_distribution N ℓ' m').nd_radial x) := by
  have ax := acc_moderate (P := P) hx
  have aN := acc_nat (P := P) hN hN'
  have hN0 : (0 : ℝ) < N := by exact_mod_cast hN
  have hE0 : 0 ≤ E := by rw [hE]; positivity
  have hpi := Real.pi_pos
  have e1 := acc_three_halves.neg ⊗ □ ax ⊗ aN
  have er : -1.5 * (Elem.powi x 2 : ℝ) * N = -E := by rw [powi_two, hE]; ring
  rw [er] at e1
  have e2 := e1.exp (by norm_num) (by norm_num) (by linarith) (by linarith)
  rw [abs_neg, abs_of_nonneg hE0, ← er] at e2
  have e3 := Acc.powf (acc_three_halves ⊘ acc_pi ⊗ aN) (by positivity) (by norm_num) (by norm_num) (by norm_num) (by norm_num) (by norm_num)
  have e4 := Acc.mul e3 e2 (by linarith) (by norm_num) (by norm_num)
  have e5 := Acc.mul (acc_four ⊗ acc_pi ⊗ □ ax ⊗ e3) e2 (by linarith) (by norm_num) (by norm_num)
  exact ⟨e4.accurate (by linarith) (by linarith) (by linarith), e5.accurate (by linarith) (by linarith) (by linarith)⟩

/-- The argument of the logarithm in the energies, a ratio of the size of a link to the thermal wavelength of a hinge. -/
theorem acc_ratio (hℓ : Moderate ℓ) (hm : Moderate m) (hT : Moderate T) :
    Acc (8.0 * Elem.powi (Elem.pi : F64 P) 2 * (.fin m) * Elem.powi (.fin ℓ) 2 * (Polymers.BOLTZMANN_CONSTANT : F64 P) * (.fin T) /
        Elem.powi (Polymers.PLANCK_CONSTANT : F64 P) 2)
      (8.0 * Elem.powi (Elem.pi : ℝ) 2 * m * Elem.powi ℓ 2 * (Polymers.BOLTZMANN_CONSTANT : ℝ) * T /
        Elem.powi (Polymers.PLANCK_CONSTANT : ℝ) 2) 22 (-400) 500 := by
  have h := acc_eight ⊗ □ (acc_pi (P := P)) ⊗ acc_moderate hm ⊗ □ (acc_moderate hℓ) ⊗ acc_boltzmann ⊗ acc_moderate hT ⊘ □ acc_planck
  exact ⟨h.rel.mono (mul_le_mul_of_nonneg_right (by norm_num) (unit_pos P).le), (two_zpow_mono (by norm_num)).trans h.lo,
    h.hi.trans (two_zpow_mono (by norm_num))⟩

/-- The logarithm in the energies. -/
noncomputable def logRatio (ℓ m T : ℝ) : ℝ := Elem.ln (8.0 * Elem.powi (Elem.pi : ℝ) 2 * m * Elem.powi ℓ 2 * (Polymers.BOLTZMANN_CONSTANT : ℝ) * T /
  Elem.powi (Polymers.PLANCK_CONSTANT : ℝ) 2)

theorem within_logRatio (hℓ : Moderate ℓ) (hm : Moderate m) (hm0 : 0 < m) (hT : Moderate T) (hT0 : 0 < T) :
    Within (Elem.ln (8.0 * Elem.powi (Elem.pi : F64 P) 2 * (.fin m) * Elem.powi (.fin ℓ) 2 * (Polymers.BOLTZMANN_CONSTANT : F64 P) * (.fin T) /
        Elem.powi (Polymers.PLANCK_CONSTANT : F64 P) 2)) (logRatio ℓ m T) (P.ε * (|logRatio ℓ m T| + 24)) ∧ |logRatio ℓ m T| ≤ 1000 := by
  have h := acc_ratio (P := P) hℓ hm hT
  have hℓ0 := (acc_moderate (P := P) hℓ).ne_zero
  have hpos : (0 : ℝ) < 8.0 * Elem.powi (Elem.pi : ℝ) 2 * m * Elem.powi ℓ 2 * (Polymers.BOLTZMANN_CONSTANT : ℝ) * T /
      Elem.powi (Polymers.PLANCK_CONSTANT : ℝ) 2 := by
    rw [powi_two, powi_two, powi_two]
    have h1 : (0 : ℝ) < Polymers.BOLTZMANN_CONSTANT := by unfold Polymers.BOLTZMANN_CONSTANT; norm_num
    have h2 : (0 : ℝ) < Polymers.PLANCK_CONSTANT := by unfold Polymers.PLANCK_CONSTANT; norm_num
    have h3 : (0 : ℝ) < (Elem.pi : ℝ) := Real.pi_pos
    positivity
  have h1 := h.ln hpos (by norm_num) (by norm_num) (by norm_num)
  refine ⟨h1.mono (mul_le_mul_of_nonneg_left (by unfold logRatio; show |_| + 22 + 2 ≤ |Real.log _| + 24; linarith) (eps_pos P).le), ?_⟩
  have lo := h.lo
  have hi := h.hi
  rw [abs_of_pos hpos] at lo hi
  have h3 := Real.log_le_log (by positivity) lo
  have h4 := Real.log_le_log hpos hi
  rw [Real.log_zpow] at h3 h4
  have h5 := Real.log_two_lt_d9
  show |Real.log _| ≤ 1000
  rw [abs_le]
  push_cast at h3 h4
  constructor <;> linarith

/-- C94: the Helmholtz energies of the ideal chain.  The absolute error is measured by the relative energy, by the reference energy and by the
thermal energy of the chain. -/
theorem C94_ideal_helmholtz (P : Platform) (hN : 0 < N) (hN' : N ≤ 255) (hℓ : Moderate ℓ) (hm : Moderate m) (hm0 : 0 < m) (hx : Moderate x)
    (hT : Moderate T) (hT0 : 0 < T) {F : ApiF.EnergyMethodsF P} (hF : F = ApiF.ideal_isometric_helmholtz N (.fin ℓ) (.fin m))
    {R : EnergyMethods} (hR : R = Api.ideal_isometric_helmholtz N ℓ m) {k : ℝ} (hk : k = Polymers.BOLTZMANN_CONSTANT) :
    Within (F.energy (.fin x) (.fin T)) (R.energy x T)
      (P.ε * (40 * |R.relative x T| + 20 * |R.energy x T - R.relative x T| + 40 * (N * (k * T)))) ∧
    Within (F.energy_per_link (.fin x) (.fin T)) (R.energy_per_link x T)
      (P.ε * (40 * |R.relative_per_link x T| + 20 * |R.energy_per_link x T - R.relative_per_link x T| + 40 * (k * T))) ∧
    Within (F.nd_energy (.fin x) (.fin T)) (R.nd_energy x T)
      (P.ε * (40 * |R.nd_relative x T| + 20 * |R.nd_energy x T - R.nd_relative x T| + 40 * N)) ∧
    Within (F.nd_energy_per_link (.fin x) (.fin T)) (R.nd_energy_per_link x T)
      (P.ε * (40 * |R.nd_relative_per_link x T| + 20 * |R.nd_energy_per_link x T - R.nd_relative_per_link x T| + 40)) := by
  subst hF hR hk
  have aℓ := acc_moderate (P := P) hℓ
  have ax := acc_moderate (P := P) hx
  have aT := acc_moderate (P := P) hT
  have aN := acc_nat (P := P) hN hN'
  obtain ⟨hL, hB⟩ := within_logRatio (P := P) hℓ hm hm0 hT hT0
  have hp := eps_pos P
  set B := logRatio ℓ m T with hBdef
  have hB0 := abs_nonneg B
  have hL' := hL.mono (show P.ε * (|B| + 24) ≤ P.ε * (7 * |B| + 28 * 1) from mul_le_mul_of_nonneg_left (by linarith) hp.le)
  have big : (1000 : ℝ) ≤ 2 ^ (990 : ℤ) := by
    calc (1000 : ℝ) ≤ 2 ^ (10 : ℤ) := by norm_num
      _ ≤ _ := two_zpow_mono (by norm_num)
  have one1 : (2 : ℝ) ^ (-1000 : ℤ) ≤ 1 := by
    calc (2 : ℝ) ^ (-1000 : ℤ) ≤ 2 ^ (0 : ℤ) := two_zpow_mono (by norm_num)
      _ = 1 := zpow_zero _
  have hk0 : (0 : ℝ) < Polymers.BOLTZMANN_CONSTANT := by unfold Polymers.BOLTZMANN_CONSTANT; norm_num
  have hN0 : (0 : ℝ) < N := by exact_mod_cast hN
  have b590 : (1000 : ℝ) ≤ 2 ^ (590 : ℤ) := by
    calc (1000 : ℝ) ≤ 2 ^ (10 : ℤ) := by norm_num
      _ ≤ _ := two_zpow_mono (by norm_num)
  have ad := acc_three_halves ⊗ □ (ax ⊘ (aN ⊗ aℓ))
  have an := acc_three_halves ⊗ □ ax
  have cd := ad.sub_within hL' (by norm_num) (by norm_num) (by norm_num) (hB.trans big) one1 ((by norm_num : (1 : ℝ) ≤ 1000).trans big)
  have cn := an.sub_within hL' (by norm_num) (by norm_num) (by norm_num) (hB.trans big) one1 ((by norm_num : (1 : ℝ) ≤ 1000).trans big)
  have hAd := ad.hi.trans (two_zpow_mono (show _ ≤ (590 : ℤ) by norm_num))
  have hAn := an.hi.trans (two_zpow_mono (show _ ≤ (590 : ℤ) by norm_num))
  have f := fun {z : F64 P} {r n : ℝ} {a b : ℤ} (h : Acc z r n a b) (h0 : 0 ≤ n) (h1 : n ≤ 5) (h2 : b ≤ 300) (h3 : -1000 ≤ a) =>
    And.intro (h.scale_sum cd (abs_sub _ _) h0 h1 h2 hAd (hB.trans b590) (by rw [mul_one]; exact (two_zpow_mono h3).trans h.lo)
        ((by norm_num : (1 : ℝ) ≤ 1000).trans b590))
      (h.scale_sum cn (abs_sub _ _) h0 h1 h2 hAn (hB.trans b590) (by rw [mul_one]; exact (two_zpow_mono h3).trans h.lo)
        ((by norm_num : (1 : ℝ) ≤ 1000).trans b590))
  have f1 := (f (aN ⊗ acc_boltzmann ⊗ aT) (by norm_num) (by norm_num) (by norm_num) (by norm_num)).1
  have f2 := (f (acc_boltzmann ⊗ aT) (by norm_num) (by norm_num) (by norm_num) (by norm_num)).1
  have f3 := (f aN (by norm_num) (by norm_num) (by norm_num) (by norm_num)).2
  refine ⟨f1.mono (le_of_eq ?_), f2.mono (le_of_eq ?_), f3.mono (le_of_eq ?_), cn.mono ?_⟩
  · have e1 : (Api.ideal_isometric_helmholtz N ℓ m).relative x T =
        N * (Polymers.BOLTZMANN_CONSTANT : ℝ) * T * (1.5 * Elem.powi (x / (N * ℓ)) 2) := by
      show 1.5 * (N : ℝ) * Elem.powi (x / (N * ℓ)) 2 * (Polymers.BOLTZMANN_CONSTANT : ℝ) * T = _
      ring
    have e2 : (Api.ideal_isometric_helmholtz N ℓ m).energy x T =
        N * (Polymers.BOLTZMANN_CONSTANT : ℝ) * T * (1.5 * Elem.powi (x / (N * ℓ)) 2 - B) := rfl
    rw [e2, e1, ← mul_sub, sub_sub_cancel_left, mul_neg, abs_neg, mul_one, abs_of_pos (by positivity : 0 < N * (Polymers.BOLTZMANN_CONSTANT : ℝ) * T),
      mul_assoc (N : ℝ) _ T]
  · have e1 : (Api.ideal_isometric_helmholtz N ℓ m).relative_per_link x T =
        (Polymers.BOLTZMANN_CONSTANT : ℝ) * T * (1.5 * Elem.powi (x / (N * ℓ)) 2) := by
      show 1.5 * Elem.powi (x / (N * ℓ)) 2 * (Polymers.BOLTZMANN_CONSTANT : ℝ) * T = _
      ring
    have e2 : (Api.ideal_isometric_helmholtz N ℓ m).energy_per_link x T =
        (Polymers.BOLTZMANN_CONSTANT : ℝ) * T * (1.5 * Elem.powi (x / (N * ℓ)) 2 - B) := rfl
    rw [e2, e1, ← mul_sub, sub_sub_cancel_left, mul_neg, abs_neg, mul_one, abs_of_pos (by positivity : 0 < (Polymers.BOLTZMANN_CONSTANT : ℝ) * T)]
  · have e1 : (Api.ideal_isometric_helmholtz N ℓ m).nd_relative x T = N * (1.5 * Elem.powi x 2) := by
      show 1.5 * (N : ℝ) * Elem.powi x 2 = _
      ring
    have e2 : (Api.ideal_isometric_helmholtz N ℓ m).nd_energy x T = N * (1.5 * Elem.powi x 2 - B) := rfl
    rw [e2, e1, ← mul_sub, sub_sub_cancel_left, mul_neg, abs_neg, mul_one, abs_of_pos hN0]
  · have e1 : (Api.ideal_isometric_helmholtz N ℓ m).nd_relative_per_link x T = 1.5 * Elem.powi x 2 := rfl
    have e2 : (Api.ideal_isometric_helmholtz N ℓ m).nd_energy_per_link x T = 1.5 * Elem.powi x 2 - B := rfl
    rw [e2, e1, sub_sub_cancel_left, abs_neg]
    refine mul_le_mul_of_nonneg_left ?_ hp.le
    linarith [abs_nonneg (1.5 * (Elem.powi x 2 : ℝ))]

/-- C94: the Gibbs energies of the ideal chain. -/
theorem C94_ideal_gibbs (P : Platform) (hN : 0 < N) (hN' : N ≤ 255) (hℓ : Moderate ℓ) (hm : Moderate m) (hm0 : 0 < m) (hx : Moderate x)
    (hT : Moderate T) (hT0 : 0 < T) {F : ApiF.EnergyMethodsF P} (hF : F = ApiF.ideal_isotensional_gibbs N (.fin ℓ) (.fin m))
    {R : EnergyMethods} (hR : R = Api.ideal_isotensional_gibbs N ℓ m) {k : ℝ} (hk : k = Polymers.BOLTZMANN_CONSTANT) :
    Within (F.energy (.fin x) (.fin T)) (R.energy x T)
      (P.ε * (40 * |R.relative x T| + 20 * |R.energy x T - R.relative x T| + 40 * (N * (k * T)))) ∧
    Within (F.energy_per_link (.fin x) (.fin T)) (R.energy_per_link x T)
      (P.ε * (40 * |R.relative_per_link x T| + 20 * |R.energy_per_link x T - R.relative_per_link x T| + 40 * (k * T))) ∧
    Within (F.nd_energy (.fin x) (.fin T)) (R.nd_energy x T)
      (P.ε * (40 * |R.nd_relative x T| + 20 * |R.nd_energy x T - R.nd_relative x T| + 40 * N)) ∧
    Within (F.nd_energy_per_link (.fin x) (.fin T)) (R.nd_energy_per_link x T)
      (P.ε * (40 * |R.nd_relative_per_link x T| + 20 * |R.nd_energy_per_link x T - R.nd_relative_per_link x T| + 40)) := by
  subst hF hR hk
  have aℓ := acc_moderate (P := P) hℓ
  have ax := acc_moderate (P := P) hx
  have aT := acc_moderate (P := P) hT
  have aN := acc_nat (P := P) hN hN'
  obtain ⟨hL, hB⟩ := within_logRatio (P := P) hℓ hm hm0 hT hT0
  have hp := eps_pos P
  set B := logRatio ℓ m T with hBdef
  have hB0 := abs_nonneg B
  have hL' := hL.mono (show P.ε * (|B| + 24) ≤ P.ε * (7 * |B| + 28 * 1) from mul_le_mul_of_nonneg_left (by linarith) hp.le)
  have ge10 : ∀ z : ℤ, 10 ≤ z → (1000 : ℝ) ≤ 2 ^ z := fun z hz => by
    calc (1000 : ℝ) ≤ 2 ^ (10 : ℤ) := by norm_num
      _ ≤ _ := two_zpow_mono hz
  have ge1 : ∀ z : ℤ, 10 ≤ z → (1 : ℝ) ≤ 2 ^ z := fun z hz => (by norm_num : (1 : ℝ) ≤ 1000).trans (ge10 z hz)
  have one1 : (2 : ℝ) ^ (-1000 : ℤ) ≤ 1 := by
    calc (2 : ℝ) ^ (-1000 : ℤ) ≤ 2 ^ (0 : ℤ) := two_zpow_mono (by norm_num)
      _ = 1 := zpow_zero _
  have hk0 : (0 : ℝ) < Polymers.BOLTZMANN_CONSTANT := by unfold Polymers.BOLTZMANN_CONSTANT; norm_num
  have hN0 : (0 : ℝ) < N := by exact_mod_cast hN
  have akT := acc_boltzmann ⊗ aT
  have hkT : (0 : ℝ) < Polymers.BOLTZMANN_CONSTANT * T := by positivity
  have kTlo := akT.lo
  have kThi := akT.hi
  rw [abs_of_pos hkT] at kTlo kThi
  -- the reference energy per link
  have hM := akT.scale (c := 1) hL (by norm_num) (by norm_num) (by rw [mul_one]; exact (two_zpow_mono (by norm_num)).trans akT.lo) (by norm_num)
    (hB.trans (ge10 _ (by norm_num))) (by positivity) (by
      refine le_trans ?_ (ge10 600 (by norm_num))
      have := eps_small P
      nlinarith)
  have hM' := hM.mono (show _ ≤ P.ε * (7 * |(Polymers.BOLTZMANN_CONSTANT : ℝ) * T * B| + 28 * ((Polymers.BOLTZMANN_CONSTANT : ℝ) * T)) by
    rw [abs_mul _ B, abs_of_pos hkT]
    have h1 : (1.01 * (P.ε * (|B| + 24)) + P.ε * ((1 + 0 + 1 + 3) * |B| + 1)) ≤ P.ε * (7 * |B| + 28) := by
      have : 0 ≤ P.ε * |B| := by positivity
      nlinarith
    refine (mul_le_mul_of_nonneg_left h1 hkT.le).trans (le_of_eq ?_)
    ring)
  have hMabs : |(Polymers.BOLTZMANN_CONSTANT : ℝ) * T * B| ≤ 2 ^ (590 : ℤ) := by
    rw [abs_mul _ B, abs_of_pos hkT]
    calc (Polymers.BOLTZMANN_CONSTANT : ℝ) * T * |B| ≤ 2 ^ ((4 : ℤ) + 100) * 2 ^ (10 : ℤ) :=
          mul_le_mul kThi (hB.trans (ge10 10 (by norm_num))) hB0 (by positivity)
      _ = 2 ^ (114 : ℤ) := by rw [← zpow_add₀ (by norm_num)]; norm_num
      _ ≤ _ := two_zpow_mono (by norm_num)
  have ad := □ (ax ⊗ aℓ) ⊘ acc_six ⊘ acc_boltzmann ⊘ aT
  have an := □ ax ⊘ acc_six
  have ad' := (□ (ax ⊗ aℓ)).neg ⊘ acc_six ⊘ acc_boltzmann ⊘ aT
  have an' := (□ ax).neg ⊘ acc_six
  have kT1 : (2 : ℝ) ^ (-1000 : ℤ) ≤ (Polymers.BOLTZMANN_CONSTANT : ℝ) * T := (two_zpow_mono (by norm_num)).trans kTlo
  have kT2 : ∀ z : ℤ, 104 ≤ z → (Polymers.BOLTZMANN_CONSTANT : ℝ) * T ≤ 2 ^ z := fun z hz => kThi.trans (two_zpow_mono (by norm_num; exact hz))
  have h990 : (2 : ℝ) ^ (590 : ℤ) ≤ 2 ^ (990 : ℤ) := two_zpow_mono (by norm_num)
  have cd := ad.add_within hM' (by norm_num) (by norm_num) (by norm_num) (hMabs.trans h990) kT1 (kT2 _ (by norm_num))
  have cn := an.add_within hL' (by norm_num) (by norm_num) (by norm_num) (hB.trans (ge10 _ (by norm_num))) one1 (ge1 _ (by norm_num))
  have cd' := ad'.sub_within hM' (by norm_num) (by norm_num) (by norm_num) (hMabs.trans h990) kT1 (kT2 _ (by norm_num))
  have cn' := an'.sub_within hL' (by norm_num) (by norm_num) (by norm_num) (hB.trans (ge10 _ (by norm_num))) one1 (ge1 _ (by norm_num))
  have hAd := ad.hi.trans (two_zpow_mono (show _ ≤ (590 : ℤ) by norm_num))
  have hAn := an.hi.trans (two_zpow_mono (show _ ≤ (590 : ℤ) by norm_num))
  have hN1 : (1 : ℝ) ≤ |-(N : ℝ)| := by rw [abs_neg, Nat.abs_cast]; exact_mod_cast hN
  have f1 := aN.neg.scale_sum cd (abs_add_le _ _) (by norm_num) (by norm_num) (by norm_num) hAd hMabs
    (kT1.trans (le_mul_of_one_le_left hkT.le hN1)) (kT2 _ (by norm_num))
  have f3 := aN.neg.scale_sum cn (abs_add_le _ _) (by norm_num) (by norm_num) (by norm_num) hAn (hB.trans (ge10 _ (by norm_num)))
    (by rw [mul_one]; exact one1.trans hN1) (ge1 _ (by norm_num))
  refine ⟨f1.mono (le_of_eq ?_), cd'.mono ?_, f3.mono (le_of_eq ?_), cn'.mono ?_⟩
  · have e1 : (Api.ideal_isotensional_gibbs N ℓ m).relative x T =
        -(N : ℝ) * (Elem.powi (x * ℓ) 2 / 6.0 / (Polymers.BOLTZMANN_CONSTANT : ℝ) / T) := by
      show -(N : ℝ) * Elem.powi (x * ℓ) 2 / 6.0 / (Polymers.BOLTZMANN_CONSTANT : ℝ) / T = _
      simp only [mul_div_assoc]
    have e2 : (Api.ideal_isotensional_gibbs N ℓ m).energy x T = -(N : ℝ) *
        (Elem.powi (x * ℓ) 2 / 6.0 / (Polymers.BOLTZMANN_CONSTANT : ℝ) / T + (Polymers.BOLTZMANN_CONSTANT : ℝ) * T * B) := rfl
    rw [e2, e1, ← mul_sub, add_sub_cancel_left, abs_neg (N : ℝ), Nat.abs_cast]
  · have e1 : (Api.ideal_isotensional_gibbs N ℓ m).relative_per_link x T = -Elem.powi (x * ℓ) 2 / 6.0 / (Polymers.BOLTZMANN_CONSTANT : ℝ) / T := rfl
    have e2 : (Api.ideal_isotensional_gibbs N ℓ m).energy_per_link x T =
        -Elem.powi (x * ℓ) 2 / 6.0 / (Polymers.BOLTZMANN_CONSTANT : ℝ) / T - (Polymers.BOLTZMANN_CONSTANT : ℝ) * T * B := rfl
    rw [e2, e1, sub_sub_cancel_left, abs_neg]
    refine mul_le_mul_of_nonneg_left ?_ hp.le
    linarith [abs_nonneg (-Elem.powi (x * ℓ) 2 / 6.0 / (Polymers.BOLTZMANN_CONSTANT : ℝ) / T), abs_nonneg ((Polymers.BOLTZMANN_CONSTANT : ℝ) * T * B)]
  · have e1 : (Api.ideal_isotensional_gibbs N ℓ m).nd_relative x T = -(N : ℝ) * (Elem.powi x 2 / 6.0) := by
      show -(N : ℝ) * Elem.powi x 2 / 6.0 = _
      rw [mul_div_assoc]
    have e2 : (Api.ideal_isotensional_gibbs N ℓ m).nd_energy x T = -(N : ℝ) * (Elem.powi x 2 / 6.0 + B) := rfl
    rw [e2, e1, ← mul_sub, add_sub_cancel_left, abs_neg (N : ℝ), Nat.abs_cast, mul_one]
  · have e1 : (Api.ideal_isotensional_gibbs N ℓ m).nd_relative_per_link x T = -Elem.powi x 2 / 6.0 := rfl
    have e2 : (Api.ideal_isotensional_gibbs N ℓ m).nd_energy_per_link x T = -Elem.powi x 2 / 6.0 - B := rfl
    rw [e2, e1, sub_sub_cancel_left, abs_neg]
    refine mul_le_mul_of_nonneg_left ?_ hp.le
    linarith [abs_nonneg (-Elem.powi x 2 / 6.0 : ℝ)]

/-! ### Concrete cases: eight links of length one and mass two at 300 degrees on a machine which rounds correctly -/

theorem moderate_of {v : ℝ} (h1 : 1e-9 ≤ v) (h2 : v ≤ 1e9) : Moderate v := by
  have h0 : 0 < v := by linarith
  unfold Moderate
  rw [abs_of_pos h0]
  constructor
  · calc (2 : ℝ) ^ (-100 : ℤ) ≤ 2 ^ (-30 : ℤ) := two_zpow_mono (by norm_num)
      _ ≤ v := by refine le_trans ?_ h1; norm_num
  · calc v ≤ 2 ^ (30 : ℤ) := by refine h2.trans ?_; norm_num
      _ ≤ _ := two_zpow_mono (by norm_num)

example := C94_ideal_forces correctlyRounded (N := 8) (by norm_num) (by norm_num) (.fin 2) 2 (moderate_of (v := 1) (by norm_num) (by norm_num))
  (moderate_of (v := 3.7) (by norm_num) (by norm_num)) (moderate_of (v := 300) (by norm_num) (by norm_num))
example := C94_ideal_lengths correctlyRounded (N := 8) (by norm_num) (by norm_num) (.fin 2) 2 (moderate_of (v := 1) (by norm_num) (by norm_num))
  (moderate_of (v := 3.7) (by norm_num) (by norm_num)) (moderate_of (v := 300) (by norm_num) (by norm_num))
example := C94_ideal_relative_helmholtz correctlyRounded (N := 8) (by norm_num) (by norm_num) (.fin 2) 2
  (moderate_of (v := 1) (by norm_num) (by norm_num)) (moderate_of (v := 3.7) (by norm_num) (by norm_num))
  (moderate_of (v := 300) (by norm_num) (by norm_num))
example := C94_ideal_relative_gibbs correctlyRounded (N := 8) (by norm_num) (by norm_num) (.fin 2) 2
  (moderate_of (v := 1) (by norm_num) (by norm_num)) (moderate_of (v := 3.7) (by norm_num) (by norm_num))
  (moderate_of (v := 300) (by norm_num) (by norm_num))
example := C94_ideal_distribution correctlyRounded (N := 8) (by norm_num) (by norm_num) (.fin 2) 2
  (moderate_of (v := 1) (by norm_num) (by norm_num)) (moderate_of (v := 3.7) (by norm_num) (by norm_num)) rfl (by norm_num)
example := C94_ideal_nondimensional_distribution correctlyRounded (N := 8) (by norm_num) (by norm_num) (.fin 1) (.fin 2) 1 2
  (moderate_of (v := 0.4) (by norm_num) (by norm_num)) rfl (by norm_num)
example := C94_ideal_helmholtz correctlyRounded (N := 8) (by norm_num) (by norm_num) (moderate_of (v := 1) (by norm_num) (by norm_num))
  (moderate_of (v := 2) (by norm_num) (by norm_num)) (by norm_num) (moderate_of (v := 3.7) (by norm_num) (by norm_num))
  (moderate_of (v := 300) (by norm_num) (by norm_num)) (by norm_num) rfl rfl rfl
example := C94_ideal_gibbs correctlyRounded (N := 8) (by norm_num) (by norm_num) (moderate_of (v := 1) (by norm_num) (by norm_num))
  (moderate_of (v := 2) (by norm_num) (by norm_num)) (by norm_num) (moderate_of (v := 3.7) (by norm_num) (by norm_num))
  (moderate_of (v := 300) (by norm_num) (by norm_num)) (by norm_num) rfl rfl rfl

end Polymers.Props
