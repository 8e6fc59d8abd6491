import Verif.Props.IeeeTreloar

/-! C97: the energies of the freely jointed chain at fixed length in floating point. -/

namespace Polymers.Props

open Polymers.Ieee Polymers.Spec Polymers.Lemmas
open Polymers.fjc.thermodynamics

variable {P : Platform} {N : ℕ} {ℓ m T x γ : ℝ} {y : F64 P}

local macro:70 a:term:70 " ⊗ " b:term:71 : term => `(Acc.mul $a $b (by norm_num) (by norm_num) (by norm_num))
local macro:70 a:term:70 " ⊘ " b:term:71 : term => `(Acc.div $a $b (by norm_num) (by norm_num) (by norm_num))

theorem _root_.Polymers.Lemmas.Sized.neg {r q M : ℝ} (h : Sized y r q M) : Sized (-y) (-r) q M :=
  ⟨within_neg h.within, by rw [abs_neg]; exact h.size, h.lo, h.hi, h.err_nonneg, h.err_le⟩

theorem _root_.Polymers.Lemmas.Sized.sub {x' : F64 P} {r s q q' M M' : ℝ} (h : Sized x' r q M) (h' : Sized y s q' M') (hM : M + M' ≤ 2 ^ (590 : ℤ))
    (hq : q ≤ q') (hq' : q' + 2 ≤ 10000) : Sized (x' - y) (r - s) (q' + 2) (M + M') := by
  have e : x' - y = x' + -y := by
    obtain ⟨u, rfl, -⟩ := h.within
    obtain ⟨v, rfl, -⟩ := h'.within
    rfl
  rw [e, sub_eq_add_neg]
  exact (h.weaken hq (by linarith) rfl le_rfl h.hi).add h'.neg hM hq'

theorem _root_.Polymers.Lemmas.Sized.unit {r q M : ℝ} (h : Sized y r q M) (hq : 1 ≤ q) (hM : q * M ≤ 2 ^ (590 : ℤ)) : Sized y r 1 (q * M) := by
  have h0 := h.pos
  have h1 : M ≤ q * M := le_mul_of_one_le_left h0.le hq
  exact ⟨h.within.mono (le_of_eq (by rw [one_mul])), h.size.trans h1, h.lo.trans h1, hM, by norm_num, by norm_num⟩

theorem lit_300 : ((300.0 : F64 P)) = .fin 300 := by
  show F64.out (P.rnd (300.0 : ℝ)) = _
  rw [show (300.0 : ℝ) = ((300 : ℕ) : ℝ) by norm_num]
  exact cast_exact (by norm_num)

theorem moderate_300 : Moderate 300 := ⟨by norm_num, by norm_num⟩

theorem hingeLog_eq : logRatio ℓ m T = hingeLog ℓ m T := by
  unfold logRatio hingeLog
  show Real.log _ = _
  rw [powi_two, powi_two, powi_two]
  show Real.log (8.0 * Real.pi ^ 2 * m * ℓ ^ 2 * _ * T / _) = _
  norm_num

theorem acc_hinges (hN : 3 ≤ N) (hN' : N ≤ 34) : Acc ((N : F64 P) - 1.0) ((N : ℝ) - 1) 1 0 8 := by
  have hN3 : (3 : ℝ) ≤ N := by exact_mod_cast hN
  have hN34 : (N : ℝ) ≤ 34 := by exact_mod_cast hN'
  rw [cast_exact (by omega), lit_one]
  show Acc (F64.out (P.rnd (N - 1))) _ _ _ _
  refine acc_rnd ?_ ?_ (by norm_num) (by norm_num)
  · rw [abs_of_pos (by linarith), zpow_zero]; linarith
  · rw [abs_of_pos (by linarith)]
    refine le_trans ?_ (show (34 : ℝ) ≤ 2 ^ (8 : ℤ) by norm_num)
    linarith

/-- The energy of the free hinges. -/
theorem sized_hinges (hN : 3 ≤ N) (hN' : N ≤ 34) (hℓ : Moderate ℓ) (hm : Moderate m) (hm0 : 0 < m) (hT : Moderate T) (hT0 : 0 < T) :
    Sized (((N : F64 P) - 1.0) * Elem.ln (8.0 * Elem.powi (Elem.pi : F64 P) 2 * (.fin m) * Elem.powi (.fin ℓ) 2 *
        (Polymers.BOLTZMANN_CONSTANT : F64 P) * (.fin T) / Elem.powi (Polymers.PLANCK_CONSTANT : F64 P) 2))
      (((N : ℝ) - 1) * hingeLog ℓ m T) 6.1 ((N - 1) * (|hingeLog ℓ m T| + 24)) ∧
    48 ≤ (N - 1) * (|hingeLog ℓ m T| + 24) ∧ (N - 1) * (|hingeLog ℓ m T| + 24) ≤ 1e6 := by
  obtain ⟨w, s⟩ := within_logRatio (P := P) hℓ hm hm0 hT hT0
  rw [hingeLog_eq] at w s
  have hN3 : (3 : ℝ) ≤ N := by exact_mod_cast hN
  have hN34 : (N : ℝ) ≤ 34 := by exact_mod_cast hN'
  have h0 := abs_nonneg (hingeLog ℓ m T)
  have big : (1e6 : ℝ) ≤ 2 ^ (590 : ℤ) := by
    calc (1e6 : ℝ) ≤ 2 ^ (20 : ℤ) := by norm_num
      _ ≤ _ := two_zpow_mono (by norm_num)
  have small : (2 : ℝ) ^ (-1000 : ℤ) ≤ 1 := zpow_le_one_of_nonpos₀ (by norm_num) (by norm_num)
  have z : Sized (Elem.ln (8.0 * Elem.powi (Elem.pi : F64 P) 2 * (.fin m) * Elem.powi (.fin ℓ) 2 *
        (Polymers.BOLTZMANN_CONSTANT : F64 P) * (.fin T) / Elem.powi (Polymers.PLANCK_CONSTANT : F64 P) 2)) (hingeLog ℓ m T) 1 (|hingeLog ℓ m T| + 24) :=
    ⟨by rwa [one_mul], by linarith, small.trans (by linarith), le_trans (by linarith) big, by norm_num, by norm_num⟩
  have a := acc_hinges (P := P) hN hN'
  have e : |(N : ℝ) - 1| = N - 1 := abs_of_pos (by linarith)
  generalize |hingeLog ℓ m T| = B at *
  have lo : 48 ≤ (N - 1) * (B + 24) := by nlinarith
  have hi : (N - 1) * (B + 24) ≤ 1e6 := by nlinarith
  have k := z.mul a (by norm_num) (by norm_num) (by norm_num) (by rw [e, mul_comm]; exact small.trans (by linarith)) (by rw [e, mul_comm]; exact hi.trans big)
    (by norm_num)
  rw [e, mul_comm (B + 24)] at k
  exact ⟨k.weaken (by norm_num) (by norm_num) rfl le_rfl (hi.trans big), lo, hi⟩

set_option maxHeartbeats 400000 in
/-- The logarithm of the density. -/
theorem sized_log (hN : 3 ≤ N) (hN' : N ≤ 26) (hy : Acc y γ 6 (-30) 0) (h0 : 1e-9 ≤ γ) (h1 : γ ≤ 1 - 1e-6) (hℓ : Moderate ℓ) (hℓ0 : 0 < ℓ)
    (hD : P.ε * (116 * N * fjcDensitySize N γ) ≤ fjcDensity N γ) :
    Sized (Elem.ln (treloar_sum_0_with_prefactor N y / Elem.powi ((N : F64 P) * .fin ℓ) 3)) (Real.log (fjcDensity N γ / (N * ℓ) ^ 3)) 1
      (43 * N * (fjcDensitySize N γ / fjcDensity N γ) + |Real.log (fjcDensity N γ / (N * ℓ) ^ 3)|) ∧
    1 ≤ 43 * N * (fjcDensitySize N γ / fjcDensity N γ) + |Real.log (fjcDensity N γ / (N * ℓ) ^ 3)| ∧
    43 * N * (fjcDensitySize N γ / fjcDensity N γ) + |Real.log (fjcDensity N γ / (N * ℓ) ^ 3)| ≤ 1e20 := by
  have hp := eps_pos P
  have hs := eps_small P
  have hε : 1e-16 ≤ P.ε := le_trans (by norm_num) P.le_ε
  have hN3 : (3 : ℝ) ≤ N := by exact_mod_cast hN
  have hN26 : (N : ℝ) ≤ 26 := by exact_mod_cast hN'
  have a3 := (acc_contour (P := P) hN (by omega) hℓ).cube (by norm_num) (by norm_num) (by norm_num)
  rw [show (Elem.powi (N * ℓ) 3 : ℝ) = (N * ℓ) ^ 3 by show (N * ℓ) ^ (3 : ℤ) = _; norm_cast] at a3
  have hc : 0 < ((N : ℝ) * ℓ) ^ 3 := by positivity
  obtain ⟨z1, -, -⟩ := sized_density hN hN' hy h0 h1
  obtain ⟨l1, u1, g1, e1⟩ := density_ratio hN hN' h0 h1 hD
  have hD1 : 0 < fjcDensity N γ := lt_of_lt_of_le (by positivity) l1
  have r1 := z1.rel hD1 (by linarith)
  set R1 := fjcDensitySize N γ / fjcDensity N γ with hR1
  have d1 : P.ε * (4 / 3 * (29 * N * fjcDensitySize N γ / fjcDensity N γ)) = 116 / 3 * N * (P.ε * R1) := by rw [hR1]; ring
  rw [d1] at r1
  have c1 : N * (P.ε * R1) ≤ 1 / 116 := by
    calc N * (P.ε * R1) ≤ N * (1 / (116 * N)) := mul_le_mul_of_nonneg_left e1 (by positivity)
      _ = 1 / 116 := by field_simp
  have lo3 := a3.lo
  have hi3 := a3.hi
  rw [abs_of_pos hc] at lo3 hi3
  have rng := range_mono (div_range l1 u1 lo3 hi3) (c := -1000) (d := 1000) (by norm_num) (by norm_num)
  have hr : 0 < fjcDensity N γ / (N * ℓ) ^ 3 := by positivity
  have hu := unit_le P
  have hu1 : unit P ≤ 1.01 * P.ε := by nlinarith
  have r2 := rel_div r1 a3.rel (by linarith) (by rw [abs_of_pos hr]; exact rng.1) (by rw [abs_of_pos hr]; exact rng.2)
  have hlog : |Real.log (fjcDensity N γ / (N * ℓ) ^ 3)| ≤ 1000 := by
    have k1 := Real.log_le_log (by positivity) rng.1
    have k2 := Real.log_le_log hr rng.2
    rw [Real.log_zpow] at k1 k2
    push_cast at k1 k2
    have k3 := Real.log_two_lt_d9
    rw [abs_le]
    constructor <;> linarith
  have hbig : (2000 : ℝ) ≤ 2 ^ (1000 : ℤ) := by
    calc (2000 : ℝ) ≤ 2 ^ (11 : ℤ) := by norm_num
      _ ≤ _ := two_zpow_mono (by norm_num)
  have w := within_ln r2 hr (le_trans (by linarith) hbig)
  have htiny : (2 : ℝ) ^ (-1022 : ℤ) ≤ 1e-9 := tiny_le le_rfl
  have hR2 : 3 ≤ N * R1 := by nlinarith
  have hL := abs_nonneg (Real.log (fjcDensity N γ / (N * ℓ) ^ 3))
  have big : (1e20 : ℝ) ≤ 2 ^ (590 : ℤ) := by
    calc (1e20 : ℝ) ≤ 2 ^ (70 : ℤ) := by norm_num
      _ ≤ _ := two_zpow_mono (by norm_num)
  have hhi : 43 * N * R1 + |Real.log (fjcDensity N γ / (N * ℓ) ^ 3)| ≤ 1e20 := by
    have k0 : R1 ≤ 1e15 := by
      have k1 : 1e-16 * R1 ≤ P.ε * R1 := mul_le_mul_of_nonneg_right hε (by linarith)
      have k2 : 1 / (116 * (N : ℝ)) ≤ 1 / 116 := one_div_le_one_div_of_le (by norm_num) (by linarith)
      linarith
    have k3 : N * R1 ≤ 26 * 1e15 := mul_le_mul hN26 k0 (by linarith) (by norm_num)
    linarith
  have hlo : 1 ≤ 43 * N * R1 + |Real.log (fjcDensity N γ / (N * ℓ) ^ 3)| := by linarith
  refine ⟨⟨?_, by linarith, le_trans (zpow_le_one_of_nonpos₀ (by norm_num) (by norm_num)) hlo, hhi.trans big, by norm_num, by norm_num⟩, hlo, hhi⟩
  refine w.mono ?_
  generalize |Real.log (fjcDensity N γ / (N * ℓ) ^ 3)| = L at *
  generalize (2 : ℝ) ^ (-1022 : ℤ) = t at *
  have k1 : 116 / 3 * N * (P.ε * R1) + (3 * 1 + 4) * unit P + unit P ≤ 1 := by linarith
  have k2 : P.ε * (L + (116 / 3 * N * (P.ε * R1) + (3 * 1 + 4) * unit P + unit P) + t) ≤ P.ε * (L + 1 + 1e-9) :=
    mul_le_mul_of_nonneg_left (by linarith) hp.le
  have k3 : 4 * 3 * P.ε ≤ P.ε * (4 * (N * R1)) := by nlinarith
  nlinarith only [k2, k3, hu1, hp]

/-- The argument of the density in the Helmholtz energy. -/
theorem acc_stretch {n : ℝ} {a b : ℤ} (hN : 3 ≤ N) (hN' : N ≤ 34) (hℓ : Moderate ℓ) (hℓ0 : 0 < ℓ) (hy : Acc y γ n a b) (hn : n ≤ 2) (ha : -300 ≤ a) (hb : b ≤ 300)
    (h0 : 1e-9 ≤ γ) (h1 : γ ≤ 1) :
    Acc (y * (N : F64 P) * .fin ℓ / ((N : F64 P) * .fin ℓ)) γ 6 (-30) 0 := by
  have hN0 : (0 : ℝ) < N := by exact_mod_cast (by omega : 0 < N)
  have h2 := Acc.mul hy (acc_nat (P := P) (by omega : 0 < N) (by omega)) (by linarith) (by omega) (by omega)
  have h3 := Acc.mul h2 (acc_moderate (P := P) hℓ) (by linarith) (by omega) (by omega)
  have h := Acc.div h3 (acc_contour (P := P) hN hN' hℓ) (by linarith) (by omega) (by omega)
  have e : γ * N * ℓ / (N * ℓ) = γ := by field_simp
  rw [e] at h
  exact h.at_fraction (by linarith) h0 h1

theorem helmholtz_real (hN : 3 ≤ N) (hN' : N ≤ 26) (hℓ0 : 0 < ℓ) (h0 : 1e-9 ≤ γ) (h1 : γ ≤ 1 - 1e-6) :
    isometric.nondimensional_helmholtz_free_energy N ℓ m γ T = -Real.log (fjcDensity N γ / (N * ℓ) ^ 3) - (N - 1) * hingeLog ℓ m T := by
  have hN0 : (0 : ℝ) < N := by exact_mod_cast (by omega : 0 < N)
  have e : γ * N * ℓ / (N * ℓ) = γ := by field_simp
  show -Real.log (treloar_sum_0_with_prefactor N (γ * N * ℓ / (N * ℓ)) / (N * ℓ) ^ (3 : ℤ)) - (N - 1.0) * logRatio ℓ m T = _
  rw [e, density_eq hN hN' (by linarith) h1, hingeLog_eq]
  norm_num

/-- The Helmholtz energy. -/
theorem sized_helmholtz {n : ℝ} {a b : ℤ} (hN : 3 ≤ N) (hN' : N ≤ 26) (hℓ : Moderate ℓ) (hℓ0 : 0 < ℓ) (hm : Moderate m) (hm0 : 0 < m) (hT : Moderate T) (hT0 : 0 < T)
    (hy : Acc y γ n a b) (hn : n ≤ 2) (ha : -300 ≤ a) (hb : b ≤ 300) (h0 : 1e-9 ≤ γ) (h1 : γ ≤ 1 - 1e-6)
    (hD : P.ε * (116 * N * fjcDensitySize N γ) ≤ fjcDensity N γ) :
    Sized (isometric.nondimensional_helmholtz_free_energy N (.fin ℓ) (.fin m) y (.fin T)) (isometric.nondimensional_helmholtz_free_energy N ℓ m γ T) 8.1
      (fjcHelmholtzSize N ℓ m T γ) ∧ 2 ^ (0 : ℤ) ≤ fjcHelmholtzSize N ℓ m T γ ∧ fjcHelmholtzSize N ℓ m T γ ≤ 2 ^ (200 : ℤ) := by
  obtain ⟨k1, l1, u1⟩ := sized_log hN hN' (acc_stretch hN (by omega) hℓ hℓ0 hy hn ha hb h0 (by linarith)) h0 h1 hℓ hℓ0 hD
  obtain ⟨k2, l2, u2⟩ := sized_hinges (P := P) hN (by omega) hℓ hm hm0 hT hT0
  have big : (2e20 : ℝ) ≤ 2 ^ (200 : ℤ) := by norm_num
  have hu : fjcHelmholtzSize N ℓ m T γ ≤ 2 ^ (200 : ℤ) := by
    unfold fjcHelmholtzSize
    exact le_trans (by linarith) big
  have k := k1.neg.sub k2 (by exact hu.trans (two_zpow_mono (by norm_num))) (by norm_num) (by norm_num)
  rw [helmholtz_real hN hN' hℓ0 h0 h1]
  refine ⟨k.weaken (by norm_num) (by norm_num) rfl le_rfl (hu.trans (two_zpow_mono (by norm_num))), ?_, hu⟩
  rw [zpow_zero]
  unfold fjcHelmholtzSize
  linarith

/-- An energy, and the energy per link. -/
theorem sized_per_link {x' : F64 P} {r q M : ℝ} (hN : 3 ≤ N) (hN' : N ≤ 34) (h : Sized x' r q M) (lo : 2 ^ (0 : ℤ) ≤ M) (hi : M ≤ 2 ^ (200 : ℤ)) (hq : q ≤ 100) :
    Sized (x' / (N : F64 P)) (r / N) (1.01 * q + 0 + 4) (M / N) ∧ 2 ^ (-8 : ℤ) ≤ M / N ∧ M / N ≤ 2 ^ (200 : ℤ) := by
  have aN := acc_nat (P := P) (by omega : 0 < N) (by omega)
  have r := div_range lo hi aN.lo aN.hi
  have r' := range_mono r (c := -1000) (d := 590) (by norm_num) (by norm_num)
  have k := h.div aN (by norm_num) (by norm_num) (by norm_num) r'.1 r'.2 (by linarith)
  rw [Nat.abs_cast] at k r
  exact ⟨k, range_mono r (by norm_num) (by norm_num)⟩

/-- C97: the Helmholtz energies of the freely jointed chain with 3 to 26 links at a fraction of its contour length. -/
theorem C97_fjc_nondimensional_helmholtz (P : Platform) (hN : 3 ≤ N) (hN' : N ≤ 26) (hℓ : Moderate ℓ) (hℓ0 : 0 < ℓ) (hm : Moderate m) (hm0 : 0 < m)
    (hT : Moderate T) (hT0 : 0 < T) (h0 : 1e-9 ≤ γ) (h1 : γ ≤ 1 - 1e-6) (hD : P.ε * (116 * N * fjcDensitySize N γ) ≤ fjcDensity N γ) :
    Within ((ApiF.fjc_isometric_helmholtz N (.fin ℓ : F64 P) (.fin m)).nd_energy (.fin γ) (.fin T)) ((Api.fjc_isometric_helmholtz N ℓ m).nd_energy γ T)
      (P.ε * (9 * fjcHelmholtzSize N ℓ m T γ)) ∧
    Within ((ApiF.fjc_isometric_helmholtz N (.fin ℓ : F64 P) (.fin m)).nd_energy_per_link (.fin γ) (.fin T))
      ((Api.fjc_isometric_helmholtz N ℓ m).nd_energy_per_link γ T) (P.ε * (13 * (fjcHelmholtzSize N ℓ m T γ / N))) := by
  have ay : Acc (.fin γ : F64 P) γ 0 (-30) 0 := acc_arg (by rw [abs_of_pos (by linarith)]; exact le_trans (by norm_num) h0)
    (by rw [abs_of_pos (by linarith), zpow_zero]; linarith)
  obtain ⟨k, l, u⟩ := sized_helmholtz hN hN' hℓ hℓ0 hm hm0 hT hT0 ay (by norm_num) (by norm_num) (by norm_num) h0 h1 hD
  obtain ⟨k', -, u'⟩ := sized_per_link hN (by omega) k l u (by norm_num)
  exact ⟨(k.weaken (q' := 9) (by norm_num) (by norm_num) rfl le_rfl k.hi).within, (k'.weaken (q' := 13) (by norm_num) (by norm_num) rfl le_rfl k'.hi).within⟩

/-- C97: the Helmholtz energies with their dimensions. -/
theorem C97_fjc_helmholtz (P : Platform) (hN : 3 ≤ N) (hN' : N ≤ 26) (hℓ : Moderate ℓ) (hℓ0 : 0 < ℓ) (hm : Moderate m) (hm0 : 0 < m)
    (hT : Moderate T) (hT0 : 0 < T) (hx : Moderate x) (hγ : γ = x / (N * ℓ)) (h0 : 1e-9 ≤ γ) (h1 : γ ≤ 1 - 1e-6)
    (hD : P.ε * (116 * N * fjcDensitySize N γ) ≤ fjcDensity N γ) :
    Within ((ApiF.fjc_isometric_helmholtz N (.fin ℓ : F64 P) (.fin m)).energy (.fin x) (.fin T)) ((Api.fjc_isometric_helmholtz N ℓ m).energy x T)
      (P.ε * (18 * (fjcHelmholtzSize N ℓ m T γ * Polymers.BOLTZMANN_CONSTANT * T))) ∧
    Within ((ApiF.fjc_isometric_helmholtz N (.fin ℓ : F64 P) (.fin m)).energy_per_link (.fin x) (.fin T))
      ((Api.fjc_isometric_helmholtz N ℓ m).energy_per_link x T) (P.ε * (22 * (fjcHelmholtzSize N ℓ m T γ / N * Polymers.BOLTZMANN_CONSTANT * T))) := by
  have ay : Acc ((.fin x : F64 P) / ((N : F64 P) * .fin ℓ)) γ 2 (-208) 200 := by
    rw [hγ]
    have h := acc_moderate (P := P) hx ⊘ acc_contour hN (by omega) hℓ
    exact ⟨h.rel.mono (mul_le_mul_of_nonneg_right (by norm_num) (unit_pos P).le), h.lo, h.hi⟩
  obtain ⟨k, l, u⟩ := sized_helmholtz hN hN' hℓ hℓ0 hm hm0 hT hT0 ay (by norm_num) (by norm_num) (by norm_num) h0 h1 hD
  obtain ⟨k', l', u'⟩ := sized_per_link hN (by omega) k l u (by norm_num)
  have w1 := k.thermal hT0 hT l u (by norm_num) (by norm_num) (by norm_num)
  have w2 := k'.thermal hT0 hT l' u' (by norm_num) (by norm_num) (by norm_num)
  have v1 := (w1.weaken (q' := 18) (by norm_num) (by norm_num) rfl le_rfl w1.hi).within
  have v2 := (w2.weaken (q' := 22) (by norm_num) (by norm_num) rfl le_rfl w2.hi).within
  rw [hγ] at v1 v2 ⊢
  exact ⟨v1, v2⟩

theorem gibbs_unfold {α : Type} [Add α] [Sub α] [Mul α] [Div α] [Neg α] [OfScientific α] [NatCast α] [Elem α] (hN : 4 ≤ N) (ℓ m y T : α) :
    isometric.legendre.nondimensional_gibbs_free_energy N ℓ m y T =
      (-(y * (N : α))) * (1.0 / y + (0.5 * (N : α) - 1.0) * treloar_sum N y ((N - 3 : ℕ) : ℤ) / treloar_sum N y ((N - 2 : ℕ) : ℤ)) / (N : α) -
        Elem.ln (treloar_sum_0_with_prefactor N y / Elem.powi ((N : α) * ℓ) 3) - ((N : α) - 1.0) * Elem.ln (8.0 * Elem.powi (Elem.pi : α) 2 * m *
          Elem.powi ℓ 2 * (Polymers.BOLTZMANN_CONSTANT : α) * T / Elem.powi (Polymers.PLANCK_CONSTANT : α) 2) := by
  unfold isometric.legendre.nondimensional_gibbs_free_energy treloar_sums
  rw [show ((N - 3 : ℕ) : ℤ) = (N : ℤ) - 2 - 1 by omega, show ((N - 2 : ℕ) : ℤ) = (N : ℤ) - 2 - 0 by omega]
  simp only [List.map_cons, List.map_nil, if_neg (by omega : ¬ N < 2)]
  rfl

theorem sum_kept (hN : 4 ≤ N) (h0 : 0 < γ) (hD : P.ε * (116 * N * fjcDensitySize N γ) ≤ fjcDensity N γ) (hpos : 0 < treloarSize N (N - 3) γ) :
    P.ε * (88 * N * treloarSize N (N - 3) γ) ≤ treloarSum N (N - 2) γ := by
  have hf := factor_pos (N := N) (by omega) h0
  unfold fjcDensitySize fjcDensity at hD
  generalize (N : ℝ) ^ N / (8 * Real.pi * γ * (N - 2).factorial) = F at *
  have hp := eps_pos P
  have h1 : F * (P.ε * (116 * N * treloarSize N (N - 3) γ)) ≤ F * treloarSum N (N - 2) γ := le_trans (le_of_eq (by ring)) hD
  have h2 := le_of_mul_le_mul_left h1 hf
  refine le_trans (mul_le_mul_of_nonneg_left ?_ hp.le) h2
  have h3 : 0 ≤ N * treloarSize N (N - 3) γ := by positivity
  linarith

/-- The work of the force. -/
theorem sized_work (hN : 4 ≤ N) (hN' : N ≤ 26) (hy : Acc y γ 6 (-30) 0) (h0 : 1e-9 ≤ γ) (h1 : γ ≤ 1 - 1e-6)
    (hD : P.ε * (116 * N * fjcDensitySize N γ) ≤ fjcDensity N γ) :
    Sized ((-(y * (N : F64 P))) * (1.0 / y + (0.5 * (N : F64 P) - 1.0) * treloar_sum N y ((N - 3 : ℕ) : ℤ) / treloar_sum N y ((N - 2 : ℕ) : ℤ)) / (N : F64 P))
      ((-(γ * N)) * (1.0 / γ + (0.5 * (N : ℝ) - 1.0) * treloar_sum N γ ((N - 3 : ℕ) : ℤ) / treloar_sum N γ ((N - 2 : ℕ) : ℤ)) / N) 1
      (40 * N * (N * γ * fjcForceSize N γ)) ∧
    0 < 40 * N * (N * γ * fjcForceSize N γ) ∧ 40 * N * (N * γ * fjcForceSize N γ) ≤ 2 ^ (190 : ℤ) := by
  have hγ : 0 < γ := by linarith
  have hN4 : (4 : ℝ) ≤ N := by exact_mod_cast hN
  have hN26 : (N : ℝ) ≤ 26 := by exact_mod_cast hN'
  have hpos : 0 < treloarSize N (N - 3) γ := lt_of_lt_of_le (by positivity) (treloarSize_lo (N := N) (p := N - 3) h1)
  obtain ⟨k, lo, hi⟩ := sized_inner hN (by omega) hy h0 h1 (sum_kept hN hγ hD hpos)
  have aN := acc_nat (P := P) (by omega : 0 < N) (by omega)
  have aW := (hy ⊗ aN).neg
  have eW : |-(γ * (N : ℝ))| = γ * N := by rw [abs_neg, abs_of_pos (by positivity)]
  have r1 := mul_range lo hi aW.lo aW.hi
  have k1 := k.mul aW (by norm_num) (by norm_num) (by norm_num) (range_mono r1 (c := -1000) (d := 590) (by norm_num) (by norm_num)).1
    (range_mono r1 (c := -1000) (d := 590) (by norm_num) (by norm_num)).2 (by linarith)
  have r2 := div_range r1.1 r1.2 aN.lo aN.hi
  have r2' := range_mono r2 (c := -1000) (d := 590) (by norm_num) (by norm_num)
  have k2 := k1.div aN (by norm_num) (by norm_num) (by norm_num) r2'.1 r2'.2 (by linarith)
  have eM : N * fjcForceSize N γ * |-(γ * (N : ℝ))| / |(N : ℝ)| = N * γ * fjcForceSize N γ := by
    rw [eW, Nat.abs_cast]
    field_simp
  rw [eM] at k2 r2
  have k3 := k2.weaken (q' := 40 * N) (by linarith) (by linarith) rfl le_rfl k2.hi
  have p3 := k3.pos
  have hi3 : 40 * N * (N * γ * fjcForceSize N γ) ≤ 2 ^ (190 : ℤ) := by
    calc 40 * N * (N * γ * fjcForceSize N γ) ≤ 2 ^ (20 : ℤ) * 2 ^ (150 + (0 + 8) - 0 : ℤ) := mul_le_mul (by norm_num; linarith) r2.2 p3.le (by positivity)
      _ = 2 ^ (178 : ℤ) := by rw [← zpow_add₀ (by norm_num)]; norm_num
      _ ≤ _ := two_zpow_mono (by norm_num)
  exact ⟨k3.unit (by linarith) (hi3.trans (two_zpow_mono (by norm_num))), by positivity, hi3⟩

/-- The Gibbs energy. -/
theorem sized_gibbs (hN : 4 ≤ N) (hN' : N ≤ 26) (hℓ : Moderate ℓ) (hℓ0 : 0 < ℓ) (hm : Moderate m) (hm0 : 0 < m) (hT : Moderate T) (hT0 : 0 < T)
    (hy : Acc y γ 6 (-30) 0) (h0 : 1e-9 ≤ γ) (h1 : γ ≤ 1 - 1e-6) (hD : P.ε * (116 * N * fjcDensitySize N γ) ≤ fjcDensity N γ) :
    Sized (isometric.legendre.nondimensional_gibbs_free_energy N (.fin ℓ) (.fin m) y (.fin T))
      (isometric.legendre.nondimensional_gibbs_free_energy N ℓ m γ T) 8.1 (fjcGibbsSize N ℓ m T γ) ∧
    2 ^ (0 : ℤ) ≤ fjcGibbsSize N ℓ m T γ ∧ fjcGibbsSize N ℓ m T γ ≤ 2 ^ (195 : ℤ) := by
  obtain ⟨k0, l0, u0⟩ := sized_work hN hN' hy h0 h1 hD
  obtain ⟨k1, l1, u1⟩ := sized_log (by omega) hN' hy h0 h1 hℓ hℓ0 hD
  obtain ⟨k2, l2, u2⟩ := sized_hinges (P := P) (by omega : 3 ≤ N) (by omega) hℓ hm hm0 hT hT0
  have e : fjcGibbsSize N ℓ m T γ = 40 * N * (N * γ * fjcForceSize N γ) +
      (43 * N * (fjcDensitySize N γ / fjcDensity N γ) + |Real.log (fjcDensity N γ / (N * ℓ) ^ 3)|) + (N - 1) * (|hingeLog ℓ m T| + 24) := by
    unfold fjcGibbsSize fjcHelmholtzSize
    ring
  have hu : 40 * N * (N * γ * fjcForceSize N γ) +
      (43 * N * (fjcDensitySize N γ / fjcDensity N γ) + |Real.log (fjcDensity N γ / (N * ℓ) ^ 3)|) + (N - 1) * (|hingeLog ℓ m T| + 24) ≤ 2 ^ (195 : ℤ) := by
    have b1 : (2e20 : ℝ) ≤ 2 ^ (190 : ℤ) := by norm_num
    have b2 : (2 : ℝ) ^ (195 : ℤ) = 32 * 2 ^ (190 : ℤ) := by rw [show (195 : ℤ) = 5 + 190 by norm_num, zpow_add₀ (by norm_num)]; norm_num
    rw [b2]
    generalize (2 : ℝ) ^ (190 : ℤ) = C at *
    linarith
  have h195 : (2 : ℝ) ^ (195 : ℤ) ≤ 2 ^ (590 : ℤ) := two_zpow_mono (by norm_num)
  have er : isometric.legendre.nondimensional_gibbs_free_energy N ℓ m γ T = _ := gibbs_unfold hN ℓ m γ T
  have e3 : Elem.ln (treloar_sum_0_with_prefactor N γ / Elem.powi ((N : ℝ) * ℓ) 3) = Real.log (fjcDensity N γ / (N * ℓ) ^ 3) := by
    show Real.log (treloar_sum_0_with_prefactor N γ / (N * ℓ) ^ (3 : ℤ)) = _
    rw [density_eq (by omega) hN' (by linarith) h1]
    norm_cast
  have e4 : ((N : ℝ) - 1.0) * Elem.ln (8.0 * Elem.powi (Elem.pi : ℝ) 2 * m * Elem.powi ℓ 2 * (Polymers.BOLTZMANN_CONSTANT : ℝ) * T /
      Elem.powi (Polymers.PLANCK_CONSTANT : ℝ) 2) = (N - 1) * hingeLog ℓ m T := by
    rw [← hingeLog_eq]
    show ((N : ℝ) - 1.0) * logRatio ℓ m T = _
    norm_num
  rw [er, gibbs_unfold hN, e3, e4, e]
  have k3 := k0.sub k1 ((le_add_of_nonneg_right (by linarith)).trans (hu.trans h195)) (by norm_num) (by norm_num)
  have k4 := k3.sub k2 (hu.trans h195) (by norm_num) (by norm_num)
  refine ⟨k4.weaken (by norm_num) (by norm_num) rfl le_rfl (hu.trans h195), ?_, hu⟩
  rw [zpow_zero]
  linarith

theorem acc_zero : Acc (Polymers.ZERO : F64 P) (1e-6 : ℝ) 6 (-30) 0 := Acc.at_fraction (a := -20) (b := -19) (n := 1) (by
    refine acc_lit ?_ ?_ (by norm_num) (by norm_num) <;> norm_num) (by norm_num) (by norm_num) (by norm_num)

/-- The relative Gibbs energies. -/
theorem sized_relative_gibbs (hN : 4 ≤ N) (hN' : N ≤ 26) (hy : Acc y γ 6 (-30) 0) (h0 : 1e-9 ≤ γ) (h1 : γ ≤ 1 - 1e-6)
    (hZ : P.ε * (116 * N * fjcDensitySize N 1e-6) ≤ fjcDensity N 1e-6) (hD : P.ε * (116 * N * fjcDensitySize N γ) ≤ fjcDensity N γ) :
    (Sized (isometric.legendre.nondimensional_relative_gibbs_free_energy N y) (isometric.legendre.nondimensional_relative_gibbs_free_energy N γ) 10.1
      (fjcRelativeGibbsSize N γ) ∧ 2 ^ (0 : ℤ) ≤ fjcRelativeGibbsSize N γ ∧ fjcRelativeGibbsSize N γ ≤ 2 ^ (200 : ℤ)) ∧
    Sized (isometric.legendre.nondimensional_relative_gibbs_free_energy_per_link N y)
      (isometric.legendre.nondimensional_relative_gibbs_free_energy_per_link N γ) 14.2 (fjcRelativeGibbsSize N γ / N) := by
  obtain ⟨k1, l1, u1⟩ := sized_gibbs hN hN' moderate_one one_pos moderate_one one_pos moderate_300 (by norm_num) hy h0 h1 hD
  obtain ⟨k2, l2, u2⟩ := sized_gibbs (P := P) hN hN' moderate_one one_pos moderate_one one_pos moderate_300 (by norm_num) acc_zero (by norm_num) (by norm_num) hZ
  have hb : (2 : ℝ) ^ (195 : ℤ) ≤ 2 ^ (200 : ℤ) := two_zpow_mono (by norm_num)
  obtain ⟨p1, -, -⟩ := sized_per_link (N := N) (by omega) (by omega) k1 l1 (u1.trans hb) (by norm_num)
  obtain ⟨p2, -, -⟩ := sized_per_link (N := N) (by omega) (by omega) k2 l2 (u2.trans hb) (by norm_num)
  have hu : fjcRelativeGibbsSize N γ ≤ 2 ^ (200 : ℤ) := by
    unfold fjcRelativeGibbsSize
    have b2 : (2 : ℝ) ^ (200 : ℤ) = 32 * 2 ^ (195 : ℤ) := by rw [show (200 : ℤ) = 5 + 195 by norm_num, zpow_add₀ (by norm_num)]; norm_num
    rw [b2]
    have : (0 : ℝ) < 2 ^ (195 : ℤ) := by positivity
    generalize (2 : ℝ) ^ (195 : ℤ) = C at *
    linarith
  have h590 : (2 : ℝ) ^ (200 : ℤ) ≤ 2 ^ (590 : ℤ) := two_zpow_mono (by norm_num)
  have hN1 : (1 : ℝ) ≤ N := by exact_mod_cast (by omega : 1 ≤ N)
  have hpos : 0 ≤ fjcRelativeGibbsSize N γ := (add_pos k1.pos k2.pos).le
  have eM : fjcGibbsSize N 1 1 300 γ / N + fjcGibbsSize N 1 1 300 1e-6 / N = fjcRelativeGibbsSize N γ / N := by unfold fjcRelativeGibbsSize; ring
  have k := k1.sub k2 (by exact hu.trans h590) le_rfl (by norm_num)
  have p := p1.sub p2 (by rw [eM]; exact (div_le_self hpos hN1).trans (hu.trans h590)) le_rfl (by norm_num)
  rw [eM] at p
  have er : isometric.legendre.nondimensional_relative_gibbs_free_energy N γ =
      isometric.legendre.nondimensional_gibbs_free_energy N 1 1 γ 300 - isometric.legendre.nondimensional_gibbs_free_energy N 1 1 1e-6 300 := by
    unfold isometric.legendre.nondimensional_relative_gibbs_free_energy
    rw [show (1.0 : ℝ) = 1 by norm_num, show (300.0 : ℝ) = 300 by norm_num]
    rfl
  have ep : isometric.legendre.nondimensional_relative_gibbs_free_energy_per_link N γ =
      isometric.legendre.nondimensional_gibbs_free_energy N 1 1 γ 300 / N - isometric.legendre.nondimensional_gibbs_free_energy N 1 1 1e-6 300 / N := by
    unfold isometric.legendre.nondimensional_relative_gibbs_free_energy_per_link isometric.legendre.nondimensional_gibbs_free_energy_per_link
    rw [show (1.0 : ℝ) = 1 by norm_num, show (300.0 : ℝ) = 300 by norm_num]
    rfl
  refine ⟨⟨?_, l1.trans (le_add_of_nonneg_right k2.pos.le), hu⟩, ?_⟩
  · rw [er]
    unfold isometric.legendre.nondimensional_relative_gibbs_free_energy
    rw [lit_one, lit_300]
    exact k.weaken (by norm_num) (by norm_num) rfl le_rfl (hu.trans h590)
  · rw [ep]
    unfold isometric.legendre.nondimensional_relative_gibbs_free_energy_per_link isometric.legendre.nondimensional_gibbs_free_energy_per_link
    rw [lit_one, lit_300]
    exact p.weaken (by norm_num) (by norm_num) rfl le_rfl p.hi

/-- C97: the Gibbs energies of the freely jointed chain with 4 to 26 links at a fraction of its contour length, from the Helmholtz energy and the force. -/
theorem C97_fjc_nondimensional_legendre_gibbs (P : Platform) (hN : 4 ≤ N) (hN' : N ≤ 26) (hℓ : Moderate ℓ) (hℓ0 : 0 < ℓ) (hm : Moderate m) (hm0 : 0 < m)
    (hT : Moderate T) (hT0 : 0 < T) (h0 : 1e-9 ≤ γ) (h1 : γ ≤ 1 - 1e-6)
    (hZ : P.ε * (116 * N * fjcDensitySize N 1e-6) ≤ fjcDensity N 1e-6) (hD : P.ε * (116 * N * fjcDensitySize N γ) ≤ fjcDensity N γ)
    {F : ApiF.EnergyMethodsF P} (hF : F = ApiF.fjc_isometric_legendre_gibbs N (.fin ℓ) (.fin m))
    {R : EnergyMethods} (hR : R = Api.fjc_isometric_legendre_gibbs N ℓ m) :
    Within (F.nd_energy (.fin γ) (.fin T)) (R.nd_energy γ T) (P.ε * (9 * fjcGibbsSize N ℓ m T γ)) ∧
    Within (F.nd_energy_per_link (.fin γ) (.fin T)) (R.nd_energy_per_link γ T) (P.ε * (13 * (fjcGibbsSize N ℓ m T γ / N))) ∧
    Within (F.nd_relative (.fin γ) (.fin T)) (R.nd_relative γ T) (P.ε * (11 * fjcRelativeGibbsSize N γ)) ∧
    Within (F.nd_relative_per_link (.fin γ) (.fin T)) (R.nd_relative_per_link γ T) (P.ε * (15 * (fjcRelativeGibbsSize N γ / N))) := by
  subst hF hR
  have ay := acc_fraction (P := P) h0 (by linarith)
  obtain ⟨k, l, u⟩ := sized_gibbs hN hN' hℓ hℓ0 hm hm0 hT hT0 ay h0 h1 hD
  obtain ⟨k', -, -⟩ := sized_per_link (N := N) (by omega) (by omega) k l (u.trans (two_zpow_mono (by norm_num))) (by norm_num)
  obtain ⟨⟨r, -, -⟩, r'⟩ := sized_relative_gibbs hN hN' ay h0 h1 hZ hD
  exact ⟨(k.weaken (q' := 9) (by norm_num) (by norm_num) rfl le_rfl k.hi).within, (k'.weaken (q' := 13) (by norm_num) (by norm_num) rfl le_rfl k'.hi).within,
    (r.weaken (q' := 11) (by norm_num) (by norm_num) rfl le_rfl r.hi).within, (r'.weaken (q' := 15) (by norm_num) (by norm_num) rfl le_rfl r'.hi).within⟩

/-- C97: the Gibbs energies at fixed length with their dimensions. -/
theorem C97_fjc_legendre_gibbs (P : Platform) (hN : 4 ≤ N) (hN' : N ≤ 26) (hℓ : Moderate ℓ) (hℓ0 : 0 < ℓ) (hm : Moderate m) (hm0 : 0 < m)
    (hT : Moderate T) (hT0 : 0 < T) (hx : Moderate x) (hγ : γ = x / (N * ℓ)) (h0 : 1e-9 ≤ γ) (h1 : γ ≤ 1 - 1e-6)
    (hZ : P.ε * (116 * N * fjcDensitySize N 1e-6) ≤ fjcDensity N 1e-6) (hD : P.ε * (116 * N * fjcDensitySize N γ) ≤ fjcDensity N γ)
    {F : ApiF.EnergyMethodsF P} (hF : F = ApiF.fjc_isometric_legendre_gibbs N (.fin ℓ) (.fin m))
    {R : EnergyMethods} (hR : R = Api.fjc_isometric_legendre_gibbs N ℓ m) {k : ℝ} (hk : k = Polymers.BOLTZMANN_CONSTANT) :
    Within (F.energy (.fin x) (.fin T)) (R.energy x T) (P.ε * (18 * (fjcGibbsSize N ℓ m T γ * k * T))) ∧
    Within (F.energy_per_link (.fin x) (.fin T)) (R.energy_per_link x T) (P.ε * (22 * (fjcGibbsSize N ℓ m T γ / N * k * T))) ∧
    Within (F.relative (.fin x) (.fin T)) (R.relative x T) (P.ε * (20 * (fjcRelativeGibbsSize N γ * k * T))) ∧
    Within (F.relative_per_link (.fin x) (.fin T)) (R.relative_per_link x T) (P.ε * (24 * (fjcRelativeGibbsSize N γ / N * k * T))) := by
  subst hF hR hk
  have ay := acc_length (P := P) (by omega) (by omega) hℓ hx hγ h0 (by linarith)
  obtain ⟨k, l, u⟩ := sized_gibbs hN hN' hℓ hℓ0 hm hm0 hT hT0 ay h0 h1 hD
  obtain ⟨k', l', u'⟩ := sized_per_link (N := N) (by omega) (by omega) k l (u.trans (two_zpow_mono (by norm_num))) (by norm_num)
  obtain ⟨⟨r, lr, ur⟩, r'⟩ := sized_relative_gibbs hN hN' ay h0 h1 hZ hD
  obtain ⟨-, lr', ur'⟩ := sized_per_link (N := N) (by omega) (by omega) r lr ur (by norm_num)
  have w1 := k.thermal hT0 hT l u (by norm_num) (by norm_num) (by norm_num)
  have w2 := k'.thermal hT0 hT l' u' (by norm_num) (by norm_num) (by norm_num)
  have w3 := r.thermal hT0 hT lr ur (by norm_num) (by norm_num) (by norm_num)
  have w4 := r'.thermal hT0 hT lr' ur' (by norm_num) (by norm_num) (by norm_num)
  have v1 := (w1.weaken (q' := 18) (by norm_num) (by norm_num) rfl le_rfl w1.hi).within
  have v2 := (w2.weaken (q' := 22) (by norm_num) (by norm_num) rfl le_rfl w2.hi).within
  have v3 := (w3.weaken (q' := 20) (by norm_num) (by norm_num) rfl le_rfl w3.hi).within
  have v4 := (w4.weaken (q' := 24) (by norm_num) (by norm_num) rfl le_rfl w4.hi).within
  rw [hγ] at v1 v2 v3 v4 ⊢
  exact ⟨v1, v2, v3, v4⟩

/-- A chain of four links of unit length and mass at half of its contour length, at unit temperature. -/
example (P : Platform) :
    Within ((ApiF.fjc_isometric_helmholtz 4 (.fin 1 : F64 P) (.fin 1)).energy (.fin 2) (.fin 1)) ((Api.fjc_isometric_helmholtz 4 1 1).energy 2 1)
      (P.ε * (18 * (fjcHelmholtzSize 4 1 1 1 (1 / 2) * Polymers.BOLTZMANN_CONSTANT * 1))) :=
  (C97_fjc_helmholtz P (by norm_num) (by norm_num) moderate_one one_pos moderate_one one_pos moderate_one one_pos moderate_two (by norm_num) (by norm_num)
    (by norm_num) (kept_half P)).1

example (P : Platform) :
    Within ((ApiF.fjc_isometric_legendre_gibbs 4 (.fin 1 : F64 P) (.fin 1)).relative (.fin 2) (.fin 1)) ((Api.fjc_isometric_legendre_gibbs 4 1 1).relative 2 1)
      (P.ε * (20 * (fjcRelativeGibbsSize 4 (1 / 2) * Polymers.BOLTZMANN_CONSTANT * 1))) :=
  (C97_fjc_legendre_gibbs P (by norm_num) (by norm_num) moderate_one one_pos moderate_one one_pos moderate_one one_pos moderate_two (by norm_num) (by norm_num)
    (by norm_num) (kept_zero P) (kept_half P) rfl rfl rfl).2.2.1

end Polymers.Props
