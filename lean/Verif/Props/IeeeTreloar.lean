import Verif.Lemmas.IeeeSized
import Verif.Props.IeeeFjcForce
import Verif.Spec.ApiIeee
import Verif.Spec.Api

/-! C96: the freely jointed chain at fixed length in floating point. -/

namespace Polymers.Props

open Polymers.Ieee Polymers.Spec Polymers.Lemmas
open Polymers.fjc.thermodynamics

variable {P : Platform} {N : ℕ} {ℓ T x γ : ℝ} {y : F64 P}

local macro:70 a:term:70 " ⊗ " b:term:71 : term => `(Acc.mul $a $b (by norm_num) (by norm_num) (by norm_num))
local macro:70 a:term:70 " ⊘ " b:term:71 : term => `(Acc.div $a $b (by norm_num) (by norm_num) (by norm_num))
local macro:75 "□" a:term:76 : term => `(Acc.sq $a (by norm_num) (by norm_num) (by norm_num))

theorem _root_.Polymers.Lemmas.Acc.at_fraction {n : ℝ} {a b : ℤ} (h : Acc y γ n a b) (hn : n ≤ 6) (h0 : 1e-9 ≤ γ) (h1 : γ ≤ 1) : Acc y γ 6 (-30) 0 := by
  have h2 : (2 : ℝ) ^ (-30 : ℤ) ≤ 1e-9 := by norm_num
  refine ⟨h.rel.mono (mul_le_mul_of_nonneg_right hn (unit_pos P).le), ?_, ?_⟩
  · rw [abs_of_pos (by linarith)]; exact h2.trans h0
  · rw [abs_of_pos (by linarith)]; simpa using h1

theorem _root_.Polymers.Lemmas.Acc.fraction (h : Acc y γ 6 (-30) 0) : Within y γ (P.ε * 7) := by
  have h1 := h.accurate (by norm_num) (by norm_num) (k := 7) (by norm_num)
  refine h1.mono ?_
  have h2 := h.hi
  rw [zpow_zero] at h2
  have := eps_pos P
  nlinarith

theorem treloar_sum_spec {q : ℕ} (hN : 3 ≤ N) (hN' : N ≤ 34) (h0 : 0 < γ) (h1 : γ ≤ 1 - 1e-6) : treloar_sum N γ (q : ℤ) = treloarSum N q γ := by
  have e2 := treloar_sum_eq (N := N) (by omega) hN' (by linarith : -1 ≤ γ) (by linarith) (q : ℤ)
  simp only [zpow_natCast] at e2
  exact e2

theorem treloarSize_lo {p : ℕ} (h1 : γ ≤ 1 - 1e-6) : (2 : ℝ) ^ (-20 * p : ℤ) ≤ treloarSize N p γ := by
  have h2 : (2 : ℝ) ^ (-20 : ℤ) ≤ (1 - γ) / 2 + 1e-6 := by
    have : (2 : ℝ) ^ (-20 : ℤ) ≤ 1e-6 := by norm_num
    linarith
  have h3 : ((N.choose 0 : ℕ) : ℝ) * (max 0 ((1 - γ) / 2 + 1e-6 - ((0 : ℕ) : ℝ) / N)) ^ p ≤ treloarSize N p γ :=
    Finset.single_le_sum (f := fun j : ℕ => (N.choose j : ℝ) * (max 0 ((1 - γ) / 2 + 1e-6 - j / N)) ^ p)
      (fun j _ => mul_nonneg (Nat.cast_nonneg _) (pow_nonneg (le_max_left _ _) _)) (Finset.mem_range.2 (by omega))
  refine le_trans ?_ h3
  rw [Nat.choose_zero_right, Nat.cast_one, one_mul, Nat.cast_zero, zero_div, sub_zero, zpow_mul, zpow_natCast]
  exact pow_le_pow_left₀ (by positivity) (h2.trans (le_max_right _ _)) p

theorem sized_treloar {q : ℕ} (hN : 3 ≤ N) (hN' : N ≤ 34) (hq : 1 ≤ q) (hqN : q + 1 ≤ N) (hy : Acc y γ 6 (-30) 0) (h0 : 0 < γ) (h1 : γ ≤ 1 - 1e-6) :
    Sized (treloar_sum N y (q : ℤ)) (treloarSum N q γ) (22 * N) (treloarSize N (q - 1) γ) := by
  obtain ⟨w, s, lo, hi⟩ := within_treloar hN hN' hq hqN hy.fraction h0 h1
  rw [treloar_sum_spec hN hN' h0 h1] at w s
  have : (N : ℝ) ≤ 34 := by exact_mod_cast hN'
  exact ⟨w, s, (two_zpow_mono (by norm_num)).trans lo, hi.trans (two_zpow_mono (by norm_num)), by positivity, by linarith⟩

theorem treloarSize_hi {p : ℕ} (hN : 3 ≤ N) (hN' : N ≤ 34) (hq : p + 2 ≤ N) (h0 : 1e-9 ≤ γ) (h1 : γ ≤ 1 - 1e-6) : treloarSize N p γ ≤ 2 ^ (34 : ℤ) := by
  have hy : Acc (.fin γ : F64 correctlyRounded) γ 6 (-30) 0 := Acc.at_fraction (a := -30) (b := 0) (acc_arg (by
    rw [abs_of_pos (by linarith)]; exact le_trans (by norm_num) h0) (by rw [abs_of_pos (by linarith), zpow_zero]; linarith)) (by norm_num) h0 (by linarith)
  have := (within_treloar (q := p + 1) hN hN' (by omega) (by omega) hy.fraction (by linarith) h1).2.2.2
  simpa using this

/-- The factor of the density. -/
theorem acc_factor (hN : 3 ≤ N) (hN' : N ≤ 26) (hy : Acc y γ 6 (-30) 0) :
    Acc (0.125 / (Elem.pi : F64 P) / y * ((N ^ N : ℕ) : F64 P) / (((N - 2).factorial : ℕ) : F64 P))
      (0.125 / Real.pi / γ * ((N ^ N : ℕ) : ℝ) / ((N - 2).factorial : ℕ)) 14 (-133) 154 := by
  have a1 : Acc (0.125 : F64 P) (0.125 : ℝ) 1 (-3) (-3) := by refine acc_lit ?_ ?_ (by norm_num) (by norm_num) <;> norm_num
  have cast : ∀ n : ℕ, 1 ≤ n → n < 2 ^ 128 → Acc ((n : ℕ) : F64 P) (n : ℝ) 1 0 128 := fun n h1 h2 => by
    have k1 : (1 : ℝ) ≤ n := by exact_mod_cast h1
    have k2 : (n : ℝ) ≤ 2 ^ (128 : ℤ) := by exact_mod_cast h2.le
    exact acc_rnd (by rw [Nat.abs_cast]; simpa using k1) (by rw [Nat.abs_cast]; exact k2) (by norm_num) (by norm_num)
  have a2 := cast (N ^ N) (Nat.one_le_pow _ _ (by omega)) (pow_self_lt hN')
  have a3 := cast (N - 2).factorial (Nat.factorial_pos _) (factorial_lt (by omega))
  have h := a1 ⊘ acc_pi ⊘ hy ⊗ a2 ⊘ a3
  exact ⟨h.rel.mono (mul_le_mul_of_nonneg_right (by norm_num) (unit_pos P).le), (two_zpow_mono (by norm_num)).trans h.lo,
    h.hi.trans (two_zpow_mono (by norm_num))⟩

theorem sum_0_unfold {α : Type} [Add α] [Sub α] [Mul α] [Div α] [Neg α] [OfScientific α] [NatCast α] [Elem α] (hN : 3 ≤ N) (hN' : N ≤ 26) (y : α) : treloar_sum_0_with_prefactor N y =
    0.125 / (Elem.pi : α) / y * ((N ^ N : ℕ) : α) / (((N - 2).factorial : ℕ) : α) * treloar_sum N y ((N - 2 : ℕ) : ℤ) := by
  unfold treloar_sum_0_with_prefactor pow_u128
  rw [if_neg (by omega), if_pos (pow_self_lt hN'), product_u128_eq, if_pos (factorial_lt (by omega : N - 2 ≤ 34))]
  rw [show ((N : ℤ) - 2) = ((N - 2 : ℕ) : ℤ) by omega]

theorem factor_eq (h0 : 0 < γ) : 0.125 / Real.pi / γ * ((N ^ N : ℕ) : ℝ) / ((N - 2).factorial : ℕ) = N ^ N / (8 * Real.pi * γ * (N - 2).factorial) := by
  have := Real.pi_pos
  have h2 : (0 : ℝ) < (N - 2).factorial := by exact_mod_cast Nat.factorial_pos _
  push_cast
  field_simp
  norm_num

theorem factor_pos (hN : 3 ≤ N) (h0 : 0 < γ) : 0 < (N : ℝ) ^ N / (8 * Real.pi * γ * (N - 2).factorial) := by
  have := Real.pi_pos
  have h2 : (0 : ℝ) < (N - 2).factorial := by exact_mod_cast Nat.factorial_pos _
  have h3 : (0 : ℝ) < N := by exact_mod_cast (by omega : 0 < N)
  positivity

theorem factor_lo (hN : 3 ≤ N) (h0 : 0 < γ) (h1 : γ ≤ 1) : (2 : ℝ) ^ (-5 : ℤ) ≤ (N : ℝ) ^ N / (8 * Real.pi * γ * (N - 2).factorial) := by
  have hp := Real.pi_pos
  have hp4 := Real.pi_le_four
  have h2 : (0 : ℝ) < (N - 2).factorial := by exact_mod_cast Nat.factorial_pos _
  have h3 : ((N - 2).factorial : ℝ) ≤ (N : ℝ) ^ N := by
    have : (N - 2).factorial ≤ N ^ N := (Nat.factorial_le (by omega)).trans (Nat.factorial_le_pow N)
    exact_mod_cast this
  rw [le_div_iff₀ (by positivity), show (2 : ℝ) ^ (-5 : ℤ) = 1 / 32 by norm_num]
  have h4 : 8 * Real.pi * γ ≤ 32 := by nlinarith
  have := mul_le_mul_of_nonneg_right h4 h2.le
  linarith

theorem density_eq (hN : 3 ≤ N) (hN' : N ≤ 26) (h0 : 0 < γ) (h1 : γ ≤ 1 - 1e-6) : treloar_sum_0_with_prefactor N γ = fjcDensity N γ := by
  rw [sum_0_unfold hN hN', treloar_sum_spec hN (by omega) h0 h1]
  show 0.125 / Real.pi / γ * ((N ^ N : ℕ) : ℝ) / ((N - 2).factorial : ℕ) * _ = _
  rw [factor_eq h0, fjcDensity]

/-- The density. -/
theorem sized_density (hN : 3 ≤ N) (hN' : N ≤ 26) (hy : Acc y γ 6 (-30) 0) (h0 : 1e-9 ≤ γ) (h1 : γ ≤ 1 - 1e-6) :
    Sized (treloar_sum_0_with_prefactor N y) (fjcDensity N γ) (29 * N) (fjcDensitySize N γ) ∧
    2 ^ (-480 : ℤ) ≤ fjcDensitySize N γ ∧ fjcDensitySize N γ ≤ 2 ^ (200 : ℤ) := by
  have hγ : 0 < γ := by linarith
  have hf := acc_factor (P := P) hN hN' hy
  have hs := sized_treloar (q := N - 2) hN (by omega) (by omega) (by omega) hy hγ h1
  have hlo := treloarSize_lo (N := N) (p := N - 3) h1
  have hhi := treloarSize_hi (p := N - 3) hN (by omega) (by omega) h0 h1
  have hpos := factor_pos hN hγ
  rw [factor_eq hγ] at hf
  rw [show N - 2 - 1 = N - 3 by omega] at hs
  have habs := abs_of_pos hpos
  have e : treloarSize N (N - 3) γ * |(N : ℝ) ^ N / (8 * Real.pi * γ * (N - 2).factorial)| = fjcDensitySize N γ := by
    rw [habs, mul_comm, fjcDensitySize]
  have f1 := factor_lo hN hγ (by linarith)
  have f2 := hf.hi
  rw [habs] at f2
  have s1 : (2 : ℝ) ^ (-480 : ℤ) ≤ fjcDensitySize N γ := by
    calc (2 : ℝ) ^ (-480 : ℤ) ≤ 2 ^ (-5 + -20 * (N - 3 : ℕ) : ℤ) := two_zpow_mono (by omega)
      _ = 2 ^ (-5 : ℤ) * 2 ^ (-20 * (N - 3 : ℕ) : ℤ) := zpow_add₀ (by norm_num) _ _
      _ ≤ _ := mul_le_mul f1 hlo (by positivity) hpos.le
  have s2 : fjcDensitySize N γ ≤ 2 ^ (200 : ℤ) := by
    calc fjcDensitySize N γ ≤ 2 ^ (154 : ℤ) * 2 ^ (34 : ℤ) := mul_le_mul f2 hhi (by linarith [hs.pos]) (by positivity)
      _ = 2 ^ (188 : ℤ) := by rw [← zpow_add₀ (by norm_num)]; norm_num
      _ ≤ _ := two_zpow_mono (by norm_num)
  have hN3 : (3 : ℝ) ≤ N := by exact_mod_cast hN
  have hN26 : (N : ℝ) ≤ 26 := by exact_mod_cast hN'
  have h := hs.mul hf (by norm_num) (by norm_num) (by norm_num) (by rw [e]; exact (two_zpow_mono (by norm_num)).trans s1)
    (by rw [e]; exact s2.trans (two_zpow_mono (by norm_num))) (by linarith)
  rw [e] at h
  refine ⟨?_, s1, s2⟩
  rw [sum_0_unfold hN hN']
  exact h.weaken (by linarith) (by linarith) rfl le_rfl (s2.trans (two_zpow_mono (by norm_num)))

theorem acc_contour (hN : 3 ≤ N) (hN' : N ≤ 34) (hℓ : Moderate ℓ) : Acc ((N : F64 P) * .fin ℓ) (N * ℓ) 1 (-100) 108 := by
  have h := acc_nat (P := P) (by omega : 0 < N) (by omega) ⊗ acc_moderate hℓ
  exact ⟨h.rel.mono (mul_le_mul_of_nonneg_right (by norm_num) (unit_pos P).le), (two_zpow_mono (by norm_num)).trans h.lo,
    h.hi.trans (two_zpow_mono (by norm_num))⟩

theorem acc_length (hN : 3 ≤ N) (hN' : N ≤ 34) (hℓ : Moderate ℓ) (hx : Moderate x) (hγ : γ = x / (N * ℓ)) (h0 : 1e-9 ≤ γ) (h1 : γ ≤ 1) :
    Acc ((.fin x : F64 P) / ((N : F64 P) * .fin ℓ)) γ 6 (-30) 0 := by
  subst hγ
  exact Acc.at_fraction (acc_moderate hx ⊘ acc_contour hN hN' hℓ) (by norm_num) h0 h1

theorem acc_fraction (h0 : 1e-9 ≤ γ) (h1 : γ ≤ 1) : Acc (.fin γ : F64 P) γ 6 (-30) 0 :=
  Acc.at_fraction (a := -30) (b := 0) (acc_arg (by rw [abs_of_pos (by linarith)]; exact le_trans (by norm_num) h0)
    (by rw [abs_of_pos (by linarith), zpow_zero]; linarith)) (by norm_num) h0 h1

theorem _root_.Polymers.Lemmas.Acc.cube {r n : ℝ} {a b : ℤ} (hx : Acc y r n a b) (hn : n ≤ 30000) (h1 : -990 ≤ 3 * a) (h2 : 3 * b ≤ 990) :
    Acc (Elem.powi y 3) (Elem.powi r 3) (3 * n + 4) (3 * a) (3 * b) := by
  rw [show (Elem.powi r 3 : ℝ) = r ^ 3 by show r ^ (3 : ℤ) = _; norm_cast]
  have lo : (2 : ℝ) ^ (3 * a) ≤ |r ^ 3| := by
    rw [zpow_mul', abs_pow]
    exact pow_le_pow_left₀ (by positivity) hx.lo 3
  have hi : |r ^ 3| ≤ (2 : ℝ) ^ (3 * b) := by
    rw [zpow_mul', abs_pow]
    exact pow_le_pow_left₀ (abs_nonneg _) hx.hi 3
  have hu := units_le_one P (n := 3 * n) (by linarith)
  have h := rel_powi hx.rel 3 hx.ne_zero (by norm_num) (by norm_num) (by norm_num; linarith)
    (by exact_mod_cast (two_zpow_mono h1).trans lo) (by exact_mod_cast hi.trans (two_zpow_mono h2))
  have e : r ^ (3 : ℤ) = r ^ 3 := by norm_cast
  rw [e] at h
  refine ⟨h.mono ?_, lo, hi⟩
  norm_num
  linarith

/-- The factor of the radial density. -/
theorem acc_shell (hy : Acc y γ 6 (-30) 0) : Acc (4.0 * (Elem.pi : F64 P) * Elem.powi y 2) (4.0 * Real.pi * Elem.powi γ 2) 19 (-57) 4 := by
  have h := acc_four ⊗ acc_pi ⊗ □ hy
  exact ⟨h.rel.mono (mul_le_mul_of_nonneg_right (by norm_num) (unit_pos P).le), (two_zpow_mono (by norm_num)).trans h.lo,
    h.hi.trans (two_zpow_mono (by norm_num))⟩

theorem shell_eq (h0 : 0 < γ) : |4.0 * Real.pi * (Elem.powi γ 2 : ℝ)| = 4 * Real.pi * γ ^ 2 := by
  have := Real.pi_pos
  rw [powi_two, abs_of_pos (by positivity)]
  norm_num

theorem mul_range {A B : ℝ} {a b c d : ℤ} (h1 : (2 : ℝ) ^ a ≤ A) (h2 : A ≤ 2 ^ b) (h3 : (2 : ℝ) ^ c ≤ B) (h4 : B ≤ 2 ^ d) :
    (2 : ℝ) ^ (a + c) ≤ A * B ∧ A * B ≤ 2 ^ (b + d) := by
  have hA : 0 < A := lt_of_lt_of_le (by positivity) h1
  have hB : 0 < B := lt_of_lt_of_le (by positivity) h3
  rw [zpow_add₀ (by norm_num), zpow_add₀ (by norm_num)]
  exact ⟨mul_le_mul h1 h3 (by positivity) hA.le, mul_le_mul h2 h4 hB.le (by positivity)⟩

theorem div_range {A B : ℝ} {a b c d : ℤ} (h1 : (2 : ℝ) ^ a ≤ A) (h2 : A ≤ 2 ^ b) (h3 : (2 : ℝ) ^ c ≤ B) (h4 : B ≤ 2 ^ d) :
    (2 : ℝ) ^ (a - d) ≤ A / B ∧ A / B ≤ 2 ^ (b - c) := by
  have hA : 0 < A := lt_of_lt_of_le (by positivity) h1
  have hB : 0 < B := lt_of_lt_of_le (by positivity) h3
  rw [zpow_sub₀ (by norm_num), zpow_sub₀ (by norm_num)]
  exact ⟨div_le_div₀ hA.le h1 hB h4, div_le_div₀ (by positivity) h2 (by positivity) h3⟩

theorem range_mono {A : ℝ} {a b c d : ℤ} (h : (2 : ℝ) ^ a ≤ A ∧ A ≤ 2 ^ b) (h1 : c ≤ a) (h2 : b ≤ d) : (2 : ℝ) ^ c ≤ A ∧ A ≤ 2 ^ d :=
  ⟨(two_zpow_mono h1).trans h.1, h.2.trans (two_zpow_mono h2)⟩

/-- The radial density. -/
theorem sized_radial (hN : 3 ≤ N) (hN' : N ≤ 26) (hy : Acc y γ 6 (-30) 0) (h0 : 1e-9 ≤ γ) (h1 : γ ≤ 1 - 1e-6) :
    Sized (4.0 * (Elem.pi : F64 P) * Elem.powi y 2 * treloar_sum_0_with_prefactor N y) (4.0 * Real.pi * Elem.powi γ 2 * fjcDensity N γ) (37 * N)
      (4 * Real.pi * γ ^ 2 * fjcDensitySize N γ) ∧
    2 ^ (-700 : ℤ) ≤ 4 * Real.pi * γ ^ 2 * fjcDensitySize N γ ∧ 4 * Real.pi * γ ^ 2 * fjcDensitySize N γ ≤ 2 ^ (300 : ℤ) := by
  obtain ⟨h, s1, s2⟩ := sized_density hN hN' hy h0 h1
  have hs := acc_shell hy
  have e := shell_eq (by linarith : 0 < γ)
  have hlo := hs.lo
  have hhi := hs.hi
  rw [e] at hlo hhi
  have hr := mul_range s1 s2 hlo hhi
  have hN3 : (3 : ℝ) ≤ N := by exact_mod_cast hN
  have hN26 : (N : ℝ) ≤ 26 := by exact_mod_cast hN'
  have hr' := range_mono hr (c := -700) (d := 300) (by norm_num) (by norm_num)
  have h2 := h.mul hs (by norm_num) (by norm_num) (by norm_num) (by rw [e]; exact (two_zpow_mono (by norm_num)).trans hr'.1)
    (by rw [e]; exact hr'.2.trans (two_zpow_mono (by norm_num))) (by linarith)
  rw [e] at h2
  rw [mul_comm (fjcDensitySize N γ)] at h2 hr'
  exact ⟨h2.weaken (by linarith) (by linarith) rfl le_rfl (hr'.2.trans (two_zpow_mono (by norm_num))), hr'⟩

/-- C96: the distributions of the length of the freely jointed chain with 3 to 26 links, per fraction of the contour length. -/
theorem C96_fjc_nondimensional_distribution (P : Platform) (hN : 3 ≤ N) (hN' : N ≤ 26) (ℓ m : F64 P) (ℓ' m' : ℝ) (h0 : 1e-9 ≤ γ) (h1 : γ ≤ 1 - 1e-6) :
    Within ((ApiF.fjc_isometric_distribution N ℓ m).nd_density (.fin γ)) ((Api.fjc_isometric_distribution N ℓ' m').nd_density γ)
      (P.ε * (29 * N * fjcDensitySize N γ)) ∧
    Within ((ApiF.fjc_isometric_distribution N ℓ m).nd_radial (.fin γ)) ((Api.fjc_isometric_distribution N ℓ' m').nd_radial γ)
      (P.ε * (37 * N * (4 * Real.pi * γ ^ 2 * fjcDensitySize N γ))) := by
  have ha := acc_fraction (P := P) h0 (by linarith)
  have h2 := (sized_density hN hN' ha h0 h1).1.within
  have h3 := (sized_radial hN hN' ha h0 h1).1.within
  rw [← density_eq hN hN' (by linarith) h1] at h2 h3
  exact ⟨h2, h3⟩

/-- C96: the distributions of the length of the freely jointed chain with 3 to 26 links. -/
theorem C96_fjc_distribution (P : Platform) (hN : 3 ≤ N) (hN' : N ≤ 26) (m : F64 P) (m' : ℝ) (hℓ0 : 0 < ℓ) (hℓ : Moderate ℓ) (hx : Moderate x)
    (hγ : γ = x / (N * ℓ)) (h0 : 1e-9 ≤ γ) (h1 : γ ≤ 1 - 1e-6) :
    Within ((ApiF.fjc_isometric_distribution N (.fin ℓ : F64 P) m).density (.fin x)) ((Api.fjc_isometric_distribution N ℓ m').density x)
      (P.ε * (33 * N * (fjcDensitySize N γ / (N * ℓ) ^ 3))) ∧
    Within ((ApiF.fjc_isometric_distribution N (.fin ℓ : F64 P) m).radial (.fin x)) ((Api.fjc_isometric_distribution N ℓ m').radial x)
      (P.ε * (40 * N * (4 * Real.pi * γ ^ 2 * fjcDensitySize N γ / (N * ℓ)))) := by
  have ha := acc_length (P := P) hN (by omega) hℓ hx hγ h0 (by linarith)
  have ac := acc_contour (P := P) hN (by omega) hℓ
  have a3 := ac.cube (by norm_num) (by norm_num) (by norm_num)
  have hN0 : (0 : ℝ) < N := by exact_mod_cast (by omega : 0 < N)
  have hc : 0 < N * ℓ := by positivity
  have hN3 : (3 : ℝ) ≤ N := by exact_mod_cast hN
  have hN26 : (N : ℝ) ≤ 26 := by exact_mod_cast hN'
  obtain ⟨h2, s1, s2⟩ := sized_density hN hN' ha h0 h1
  obtain ⟨h3, s3, s4⟩ := sized_radial hN hN' ha h0 h1
  rw [← density_eq hN hN' (by linarith) h1] at h2 h3
  have e3 : |(Elem.powi (N * ℓ) 3 : ℝ)| = (N * ℓ) ^ 3 := by
    rw [show (Elem.powi (N * ℓ) 3 : ℝ) = (N * ℓ) ^ 3 by show (N * ℓ) ^ (3 : ℤ) = _; norm_cast]
    exact abs_of_pos (by positivity)
  have e1 : |(N : ℝ) * ℓ| = N * ℓ := abs_of_pos hc
  have r3 := range_mono (div_range s1 s2 a3.lo a3.hi) (c := -1000) (d := 590) (by norm_num) (by norm_num)
  have r1 := range_mono (div_range s3 s4 ac.lo ac.hi) (c := -1000) (d := 590) (by norm_num) (by norm_num)
  have k2 := h2.div a3 (by norm_num) (by norm_num) (by norm_num) r3.1 r3.2 (by linarith)
  have k3 := h3.div ac (by norm_num) (by norm_num) (by norm_num) r1.1 r1.2 (by linarith)
  rw [e3] at k2 r3
  rw [e1] at k3 r1
  have w2 := (k2.weaken (q' := 33 * N) (by linarith) (by linarith) rfl le_rfl r3.2).within
  have w3 := (k3.weaken (q' := 40 * N) (by linarith) (by linarith) rfl le_rfl r1.2).within
  rw [hγ] at w2 w3 ⊢
  exact ⟨w2, w3⟩

theorem _root_.Polymers.Lemmas.Sized.mul' {x' : F64 P} {r q M ρ n : ℝ} {a b : ℤ} (h : Sized x' r q M) (hy : Acc y ρ n a b) (hn0 : 0 ≤ n) (hn : n ≤ 100)
    (hb : b ≤ 300) (hM : 2 ^ (-1000 : ℤ) ≤ M * |ρ| ∧ M * |ρ| ≤ 2 ^ (590 : ℤ)) (hq : 1.01 * q + n + 4 ≤ 10000) :
    Sized (x' * y) (r * ρ) (1.01 * q + n + 4) (M * |ρ|) := by
  rw [mul_comm', mul_comm r]
  exact h.mul hy hn0 hn hb hM.1 hM.2 hq

theorem half_links (hN : 3 ≤ N) (hN' : N ≤ 34) : (0.5 : F64 P) * (N : F64 P) - 1.0 = .fin (N / 2 - 1) := by
  have hN3 : (3 : ℝ) ≤ N := by exact_mod_cast hN
  have hN34 : (N : ℝ) ≤ 34 := by exact_mod_cast hN'
  have hbig : (34 : ℝ) ≤ 2 ^ (1000 : ℤ) := by
    calc (34 : ℝ) ≤ 2 ^ (10 : ℤ) := by norm_num
      _ ≤ _ := two_zpow_mono (by norm_num)
  rw [lit_half, cast_exact (by omega), lit_one]
  have e1 : (.fin (1 / 2) * .fin (N : ℝ) : F64 P) = .fin (N / 2) := by
    show F64.out (P.rnd (1 / 2 * N)) = _
    rw [show (1 / 2 * N : ℝ) = ((N : ℤ) : ℝ) * 2 ^ (-1 : ℤ) by norm_num; ring, rel_exact (grid_mul_zpow (by rw [Nat.abs_cast]; omega) (by norm_num))]
    · congr 1; norm_num; ring
    · refine le_trans ?_ hbig
      norm_num [abs_of_pos]
      linarith
  rw [e1]
  show F64.out (P.rnd (N / 2 - 1)) = _
  have e2 : (N / 2 - 1 : ℝ) = (((N : ℤ) - 2 : ℤ) : ℝ) * 2 ^ (-1 : ℤ) := by push_cast; norm_num; ring
  rw [e2, rel_exact (grid_mul_zpow (by rw [abs_of_nonneg (by omega)]; omega) (by norm_num))]
  rw [← e2, abs_of_pos (by linarith)]
  exact le_trans (by linarith) hbig

theorem force_unfold {α : Type} [Add α] [Sub α] [Mul α] [Div α] [Neg α] [OfScientific α] [NatCast α] [Elem α] (hN : 4 ≤ N) (y : α) :
    isometric.nondimensional_force N y =
      (1.0 / y + (0.5 * (N : α) - 1.0) * treloar_sum N y ((N - 3 : ℕ) : ℤ) / treloar_sum N y ((N - 2 : ℕ) : ℤ)) / (N : α) := by
  unfold isometric.nondimensional_force treloar_sums
  rw [show ((N - 3 : ℕ) : ℤ) = (N : ℤ) - 2 - 1 by omega, show ((N - 2 : ℕ) : ℤ) = (N : ℤ) - 2 - 0 by omega]
  simp only [List.map_cons, List.map_nil, if_neg (by omega : ¬ N < 2)]
  rfl

theorem treloarSize_ratio {p : ℕ} (hN' : N ≤ 34) (h1 : γ ≤ 1 - 1e-6) : treloarSize N p γ ≤ 2 ^ (54 : ℤ) * treloarSize N (p + 1) γ := by
  set c := (1 - γ) / 2 + 1e-6 with hc
  have h2 : (2 : ℝ) ^ (-20 : ℤ) ≤ c := by
    have : (2 : ℝ) ^ (-20 : ℤ) ≤ 1e-6 := by norm_num
    rw [hc]; linarith
  have hc0 : 0 < c := lt_of_lt_of_le (by positivity) h2
  have h3 : c ^ (p + 1) ≤ treloarSize N (p + 1) γ := by
    have h4 : ((N.choose 0 : ℕ) : ℝ) * (max 0 (c - ((0 : ℕ) : ℝ) / N)) ^ (p + 1) ≤ treloarSize N (p + 1) γ :=
      Finset.single_le_sum (f := fun j : ℕ => (N.choose j : ℝ) * (max 0 ((1 - γ) / 2 + 1e-6 - j / N)) ^ (p + 1))
        (fun j _ => mul_nonneg (Nat.cast_nonneg _) (pow_nonneg (le_max_left _ _) _)) (Finset.mem_range.2 (by omega))
    refine le_trans (le_of_eq ?_) h4
    rw [Nat.choose_zero_right, Nat.cast_one, one_mul, Nat.cast_zero, zero_div, sub_zero, max_eq_right hc0.le]
  have h5 : treloarSize N p γ ≤ 2 ^ N * c ^ p := by
    have h6 : treloarSize N p γ ≤ ∑ j ∈ Finset.range (N + 1), (N.choose j : ℝ) * c ^ p := by
      refine Finset.sum_le_sum fun j _ => mul_le_mul_of_nonneg_left (pow_le_pow_left₀ (le_max_left _ _) (max_le hc0.le ?_) p) (Nat.cast_nonneg _)
      have : (0 : ℝ) ≤ j / N := by positivity
      linarith
    rw [← Finset.sum_mul] at h6
    refine h6.trans (le_of_eq ?_)
    congr 1
    exact_mod_cast Nat.sum_range_choose N
  have h7 : (2 : ℝ) ^ N ≤ 2 ^ (34 : ℤ) := by rw [← zpow_natCast]; exact two_zpow_mono (by exact_mod_cast hN')
  have h8 : 1 ≤ 2 ^ (20 : ℤ) * c := by
    calc (1 : ℝ) = 2 ^ (20 : ℤ) * 2 ^ (-20 : ℤ) := by norm_num
      _ ≤ _ := mul_le_mul_of_nonneg_left h2 (by positivity)
  calc treloarSize N p γ ≤ 2 ^ N * c ^ p := h5
    _ ≤ 2 ^ (34 : ℤ) * c ^ p := mul_le_mul_of_nonneg_right h7 (by positivity)
    _ ≤ 2 ^ (34 : ℤ) * c ^ p * (2 ^ (20 : ℤ) * c) := le_mul_of_one_le_right (by positivity) h8
    _ = 2 ^ (54 : ℤ) * c ^ (p + 1) := by rw [show (54 : ℤ) = 34 + 20 by norm_num, zpow_add₀ (by norm_num)]; ring
    _ ≤ _ := mul_le_mul_of_nonneg_left h3 (by positivity)

/-- The force, times the number of links. -/
theorem sized_inner (hN : 4 ≤ N) (hN' : N ≤ 34) (hy : Acc y γ 6 (-30) 0) (h0 : 1e-9 ≤ γ) (h1 : γ ≤ 1 - 1e-6)
    (hS : P.ε * (88 * N * treloarSize N (N - 3) γ) ≤ treloarSum N (N - 2) γ) :
    Sized (1.0 / y + (0.5 * (N : F64 P) - 1.0) * treloar_sum N y ((N - 3 : ℕ) : ℤ) / treloar_sum N y ((N - 2 : ℕ) : ℤ))
      (1.0 / γ + (0.5 * (N : ℝ) - 1.0) * treloar_sum N γ ((N - 3 : ℕ) : ℤ) / treloar_sum N γ ((N - 2 : ℕ) : ℤ)) (35 * N) (N * fjcForceSize N γ) ∧
    2 ^ (0 : ℤ) ≤ N * fjcForceSize N γ ∧ N * fjcForceSize N γ ≤ 2 ^ (150 : ℤ) := by
  have hγ : 0 < γ := by linarith
  have hp := eps_pos P
  have hε : 1e-16 ≤ P.ε := le_trans (by norm_num) P.le_ε
  have hN4 : (4 : ℝ) ≤ N := by exact_mod_cast hN
  have hN34 : (N : ℝ) ≤ 34 := by exact_mod_cast hN'
  have z0 := sized_treloar (q := N - 2) (by omega) hN' (by omega) (by omega) hy hγ h1
  have z1 := sized_treloar (q := N - 3) (by omega) hN' (by omega) (by omega) hy hγ h1
  rw [show N - 2 - 1 = N - 3 by omega] at z0
  rw [show N - 3 - 1 = N - 4 by omega] at z1
  have hA0 := z0.pos
  have hA1 := z1.pos
  have lo1 := treloarSize_lo (N := N) (p := N - 4) h1
  have hi0 := treloarSize_hi (p := N - 3) (by omega) hN' (by omega) h0 h1
  have rat := treloarSize_ratio (p := N - 4) hN' h1
  rw [show N - 4 + 1 = N - 3 by omega] at rat
  have size0 := z0.size
  have size1 := z1.size
  rw [treloar_sum_spec (by omega) hN' hγ h1, treloar_sum_spec (by omega) hN' hγ h1, show (0.5 * (N : ℝ) - 1.0) = N / 2 - 1 by norm_num; ring]
  have ef : N * fjcForceSize N γ = 1 / γ + (N / 2 - 1) * (treloarSize N (N - 4) γ / treloarSum N (N - 2) γ +
    |treloarSum N (N - 3) γ| * treloarSize N (N - 3) γ / treloarSum N (N - 2) γ ^ 2) := mul_div_cancel₀ _ (by positivity)
  generalize treloarSum N (N - 2) γ = S0 at *
  generalize treloarSum N (N - 3) γ = S1 at *
  generalize treloarSize N (N - 3) γ = A0 at *
  generalize treloarSize N (N - 4) γ = A1 at *
  have hS0 : 0 < S0 := lt_of_lt_of_le (by positivity) hS
  have hQ : (1 : ℝ) ≤ N / 2 - 1 := by linarith
  have hQ' : (N / 2 - 1 : ℝ) ≤ 16 := by linarith
  have aQ : Acc ((0.5 : F64 P) * (N : F64 P) - 1.0) ((N : ℝ) / 2 - 1) 0 0 4 := by
    rw [half_links (by omega) hN']
    exact acc_arg (by rw [abs_of_pos (by linarith)]; simpa using hQ) (by rw [abs_of_pos (by linarith)]; refine hQ'.trans (by norm_num))
  set Q := (N : ℝ) / 2 - 1 with hQd
  have hQabs : |Q| = Q := abs_of_pos (by linarith)
  -- ranges
  have q45 : A0 / S0 ≤ 2 ^ (45 : ℤ) := by
    rw [div_le_iff₀ hS0]
    have k1 : 1e-16 * (88 * 4 * A0) ≤ S0 := by
      refine le_trans ?_ hS
      have : 88 * 4 * A0 ≤ 88 * N * A0 := by nlinarith
      exact mul_le_mul hε this (by positivity) hp.le
    have k2 : A0 ≤ 2 ^ (45 : ℤ) * (1e-16 * (88 * 4 * A0)) := by
      have : (1 : ℝ) ≤ 2 ^ (45 : ℤ) * (1e-16 * (88 * 4)) := by norm_num
      nlinarith
    exact k2.trans (mul_le_mul_of_nonneg_left k1 (by positivity))
  have q99 : A1 / S0 ≤ 2 ^ (99 : ℤ) := by
    calc A1 / S0 ≤ 2 ^ (54 : ℤ) * A0 / S0 := div_le_div_of_nonneg_right rat hS0.le
      _ = 2 ^ (54 : ℤ) * (A0 / S0) := by ring
      _ ≤ 2 ^ (54 : ℤ) * 2 ^ (45 : ℤ) := mul_le_mul_of_nonneg_left q45 (by positivity)
      _ = 2 ^ (99 : ℤ) := by rw [← zpow_add₀ (by norm_num)]; norm_num
  have q144 : |S1| * A0 / S0 ^ 2 ≤ 2 ^ (144 : ℤ) := by
    calc |S1| * A0 / S0 ^ 2 = |S1| / S0 * (A0 / S0) := by field_simp
      _ ≤ A1 / S0 * (A0 / S0) := mul_le_mul_of_nonneg_right (div_le_div_of_nonneg_right size1 hS0.le) (by positivity)
      _ ≤ 2 ^ (99 : ℤ) * 2 ^ (45 : ℤ) := mul_le_mul q99 q45 (by positivity) (by positivity)
      _ = 2 ^ (144 : ℤ) := by rw [← zpow_add₀ (by norm_num)]; norm_num
  have qr : 0 ≤ |S1| * A0 / S0 ^ 2 := by positivity
  have ql : 0 ≤ A1 / S0 := by positivity
  set B := A1 / S0 + |S1| * A0 / S0 ^ 2 with hB
  have hB0 : 0 ≤ B := by linarith
  have hBhi : B ≤ 2 ^ (145 : ℤ) := by
    have k1 : (2 : ℝ) ^ (99 : ℤ) ≤ 2 ^ (144 : ℤ) := two_zpow_mono (by norm_num)
    have k2 : (2 : ℝ) ^ (145 : ℤ) = 2 * 2 ^ (144 : ℤ) := by rw [show (145 : ℤ) = 1 + 144 by norm_num, zpow_add₀ (by norm_num), zpow_one]
    rw [k2]
    generalize (2 : ℝ) ^ (144 : ℤ) = C at *
    generalize (2 : ℝ) ^ (99 : ℤ) = D at *
    linarith
  have hQB : Q * B ≤ 2 ^ (149 : ℤ) := by
    calc Q * B ≤ 2 ^ (4 : ℤ) * 2 ^ (145 : ℤ) := mul_le_mul (hQ'.trans (by norm_num)) hBhi hB0 (by positivity)
      _ = _ := by rw [← zpow_add₀ (by norm_num)]; norm_num
  have hinv : 1 / γ ≤ 2 ^ (30 : ℤ) := by
    rw [div_le_iff₀ hγ]
    calc (1 : ℝ) ≤ 2 ^ (30 : ℤ) * 1e-9 := by norm_num
      _ ≤ _ := mul_le_mul_of_nonneg_left h0 (by positivity)
  have hinv1 : 1 ≤ 1 / γ := by rw [le_div_iff₀ hγ]; linarith
  have hsum : 1 / γ + Q * B ≤ 2 ^ (150 : ℤ) := by
    have k1 : (2 : ℝ) ^ (30 : ℤ) ≤ 2 ^ (149 : ℤ) := two_zpow_mono (by norm_num)
    have k2 : (2 : ℝ) ^ (150 : ℤ) = 2 * 2 ^ (149 : ℤ) := by rw [show (150 : ℤ) = 1 + 149 by norm_num, zpow_add₀ (by norm_num), zpow_one]
    rw [k2]
    generalize (2 : ℝ) ^ (149 : ℤ) = C at *
    generalize (2 : ℝ) ^ (30 : ℤ) = D at *
    linarith
  have hsum1 : 1 ≤ 1 / γ + Q * B := by
    have : 0 ≤ Q * B := by positivity
    linarith
  -- steps
  have rm : (2 : ℝ) ^ (-1000 : ℤ) ≤ A1 * |Q| ∧ A1 * |Q| ≤ 2 ^ (590 : ℤ) := by
    have hi1 : A1 ≤ 2 ^ (100 : ℤ) := by
      refine rat.trans ?_
      calc 2 ^ (54 : ℤ) * A0 ≤ 2 ^ (54 : ℤ) * 2 ^ (34 : ℤ) := mul_le_mul_of_nonneg_left hi0 (by positivity)
        _ = 2 ^ (88 : ℤ) := by rw [← zpow_add₀ (by norm_num)]; norm_num
        _ ≤ _ := two_zpow_mono (by norm_num)
    exact range_mono (mul_range lo1 hi1 aQ.lo aQ.hi) (by omega) (by norm_num)
  have k1 := (z1.mul aQ (by norm_num) (by norm_num) (by norm_num) rm.1 rm.2 (by linarith)).weaken (q' := 24 * N) (by linarith) (by linarith) rfl le_rfl rm.2
  have hlow : (2 : ℝ) ^ (-1000 : ℤ) ≤ A1 * |Q| / S0 := by
    have hS34 : S0 ≤ 2 ^ (34 : ℤ) := (le_abs_self _).trans (size0.trans hi0)
    have k : (2 : ℝ) ^ (-20 * (N - 4 : ℕ) : ℤ) ≤ A1 * |Q| := by
      rw [hQabs]
      exact lo1.trans (le_mul_of_one_le_right hA1.le hQ)
    calc (2 : ℝ) ^ (-1000 : ℤ) ≤ 2 ^ (-20 * (N - 4 : ℕ) - 34 : ℤ) := two_zpow_mono (by omega)
      _ = 2 ^ (-20 * (N - 4 : ℕ) : ℤ) / 2 ^ (34 : ℤ) := zpow_sub₀ (by norm_num) _ _
      _ ≤ _ := div_le_div₀ (by positivity) k hS0 hS34
  have k2 := (k1.quot z0 hS0 (by linarith) (by linarith) (W := Q * B) (le_of_eq (by rw [hQabs, abs_mul, hQabs, hB]; ring)) hlow
    (hQB.trans (two_zpow_mono (by norm_num))) (by linarith)).weaken (q' := 34.2 * N) (by linarith) (by linarith) rfl le_rfl (hQB.trans (two_zpow_mono (by norm_num)))
  have a1 : Acc (1.0 : F64 P) (1.0 : ℝ) 1 0 0 := by refine acc_lit ?_ ?_ (by norm_num) (by norm_num) <;> norm_num
  have ei : |(1.0 : ℝ) / γ| = 1 / γ := by rw [abs_of_pos (by positivity)]; norm_num
  have k3 := (a1 ⊘ hy).sized (by norm_num) (by norm_num) (by norm_num) (by norm_num)
  rw [ei] at k3
  have k3' := k3.weaken (q' := 34.2 * N) (by norm_num; linarith) (by linarith) rfl le_rfl (hinv.trans (two_zpow_mono (by norm_num)))
  have k4 := k3'.add k2 (hsum.trans (two_zpow_mono (by norm_num))) (by linarith)
  rw [ef]
  exact ⟨k4.weaken (by linarith) (by linarith) rfl le_rfl (hsum.trans (two_zpow_mono (by norm_num))), by simpa using hsum1, hsum⟩

/-- The force. -/
theorem sized_force (hN : 4 ≤ N) (hN' : N ≤ 34) (hy : Acc y γ 6 (-30) 0) (h0 : 1e-9 ≤ γ) (h1 : γ ≤ 1 - 1e-6)
    (hS : P.ε * (88 * N * treloarSize N (N - 3) γ) ≤ treloarSum N (N - 2) γ) :
    Sized (isometric.nondimensional_force N y) (isometric.nondimensional_force N γ) (37 * N) (fjcForceSize N γ) ∧
    2 ^ (-10 : ℤ) ≤ fjcForceSize N γ ∧ fjcForceSize N γ ≤ 2 ^ (200 : ℤ) := by
  obtain ⟨k4, lo, hi⟩ := sized_inner hN hN' hy h0 h1 hS
  have hN4 : (4 : ℝ) ≤ N := by exact_mod_cast hN
  have hN34 : (N : ℝ) ≤ 34 := by exact_mod_cast hN'
  have aN := acc_nat (P := P) (by omega : 0 < N) (by omega)
  have eN : |(N : ℝ)| = N := Nat.abs_cast N
  have e : N * fjcForceSize N γ / N = fjcForceSize N γ := mul_div_cancel_left₀ _ (by positivity)
  have hfin : (2 : ℝ) ^ (-10 : ℤ) ≤ fjcForceSize N γ ∧ fjcForceSize N γ ≤ 2 ^ (200 : ℤ) := by
    have k := div_range lo hi aN.lo aN.hi
    rw [eN, e] at k
    exact range_mono k (by norm_num) (by norm_num)
  have k5 := k4.div aN (by norm_num) (by norm_num) (by norm_num) (by rw [eN, e]; exact (two_zpow_mono (by norm_num)).trans hfin.1)
    (by rw [eN, e]; exact hfin.2.trans (two_zpow_mono (by norm_num))) (by linarith)
  rw [eN, e] at k5
  rw [force_unfold hN, force_unfold hN]
  exact ⟨k5.weaken (by linarith) (by linarith) rfl le_rfl (hfin.2.trans (two_zpow_mono (by norm_num))), hfin⟩

/-- C96: the force to hold the freely jointed chain with 4 to 34 links at a length, when the sum in its denominator is not lost by rounding. -/
theorem C96_fjc_nondimensional_force (P : Platform) (hN : 4 ≤ N) (hN' : N ≤ 34) (ℓ m : F64 P) (ℓ' m' : ℝ) (T : F64 P) (T' : ℝ) (h0 : 1e-9 ≤ γ) (h1 : γ ≤ 1 - 1e-6)
    (hS : P.ε * (88 * N * treloarSize N (N - 3) γ) ≤ treloarSum N (N - 2) γ) :
    Within ((ApiF.fjc_isometric_forces N ℓ m).nd_force (.fin γ) T) ((Api.fjc_isometric_forces N ℓ' m').nd_force γ T')
      (P.ε * (37 * N * fjcForceSize N γ)) :=
  (sized_force hN hN' (acc_fraction h0 (by linarith)) h0 h1 hS).1.within

/-- C96: the force with its dimensions. -/
theorem C96_fjc_force (P : Platform) (hN : 4 ≤ N) (hN' : N ≤ 34) (m : F64 P) (m' : ℝ) (hℓ0 : 0 < ℓ) (hT0 : 0 < T) (hℓ : Moderate ℓ) (hx : Moderate x) (hT : Moderate T)
    (hγ : γ = x / (N * ℓ)) (h0 : 1e-9 ≤ γ) (h1 : γ ≤ 1 - 1e-6) (hS : P.ε * (88 * N * treloarSize N (N - 3) γ) ≤ treloarSum N (N - 2) γ) :
    Within ((ApiF.fjc_isometric_forces N (.fin ℓ : F64 P) m).force (.fin x) (.fin T)) ((Api.fjc_isometric_forces N ℓ m').force x T)
      (P.ε * (42 * N * (fjcForceSize N γ * Polymers.BOLTZMANN_CONSTANT * T / ℓ))) := by
  have hN4 : (4 : ℝ) ≤ N := by exact_mod_cast hN
  have hN34 : (N : ℝ) ≤ 34 := by exact_mod_cast hN'
  have ha := acc_length (P := P) (by omega) hN' hℓ hx hγ h0 (by linarith)
  obtain ⟨h2, s1, s2⟩ := sized_force hN hN' ha h0 h1 hS
  have ab := acc_boltzmann (P := P)
  have aT := acc_moderate (P := P) hT
  have aℓ := acc_moderate (P := P) hℓ
  have r1 := mul_range s1 s2 ab.lo ab.hi
  have k1 := h2.mul' ab (by norm_num) (by norm_num) (by norm_num) (range_mono r1 (by norm_num) (by norm_num)) (by linarith)
  have r2 := mul_range r1.1 r1.2 aT.lo aT.hi
  have k2 := k1.mul' aT (by norm_num) (by norm_num) (by norm_num) (range_mono r2 (by norm_num) (by norm_num)) (by linarith)
  have r3 := range_mono (div_range r2.1 r2.2 aℓ.lo aℓ.hi) (c := -1000) (d := 590) (by norm_num) (by norm_num)
  have k3 := k2.div aℓ (by norm_num) (by norm_num) (by norm_num) r3.1 r3.2 (by linarith)
  rw [abs_of_pos boltzmann_pos, abs_of_pos hT0, abs_of_pos hℓ0] at k3 r3
  have w := (k3.weaken (q' := 42 * N) (by linarith) (by linarith) rfl le_rfl r3.2).within
  rw [hγ] at w ⊢
  exact w

theorem density_ratio (hN : 3 ≤ N) (hN' : N ≤ 26) (h0 : 1e-9 ≤ γ) (h1 : γ ≤ 1 - 1e-6) (hD : P.ε * (116 * N * fjcDensitySize N γ) ≤ fjcDensity N γ) :
    2 ^ (-580 : ℤ) ≤ fjcDensity N γ ∧ fjcDensity N γ ≤ 2 ^ (200 : ℤ) ∧ 1 ≤ fjcDensitySize N γ / fjcDensity N γ ∧
    P.ε * (fjcDensitySize N γ / fjcDensity N γ) ≤ 1 / (116 * N) := by
  obtain ⟨h, s1, s2⟩ := sized_density hN hN' (acc_fraction (P := P) h0 (by linarith)) h0 h1
  have hp := eps_pos P
  have hε : (2 : ℝ) ^ (-100 : ℤ) ≤ P.ε := le_trans (by norm_num) P.le_ε
  have hN3 : (3 : ℝ) ≤ N := by exact_mod_cast hN
  have hpos := h.pos
  have hsz := h.size
  have hD0 : 0 < fjcDensity N γ := lt_of_lt_of_le (by positivity) hD
  rw [abs_of_pos hD0] at hsz
  refine ⟨?_, hsz.trans s2, by rwa [le_div_iff₀ hD0, one_mul], ?_⟩
  · refine le_trans ?_ hD
    calc (2 : ℝ) ^ (-580 : ℤ) = 2 ^ (-100 : ℤ) * 2 ^ (-480 : ℤ) := by rw [← zpow_add₀ (by norm_num)]; norm_num
      _ ≤ P.ε * (116 * N * fjcDensitySize N γ) := by
        refine mul_le_mul hε (s1.trans ?_) (by positivity) hp.le
        nlinarith
  · rw [← mul_div_assoc, div_le_div_iff₀ hD0 (by positivity)]
    linarith

set_option maxHeartbeats 400000 in
/-- The relative energy. -/
theorem sized_energy (hN : 3 ≤ N) (hN' : N ≤ 26) (hy : Acc y γ 6 (-30) 0) (h0 : 1e-9 ≤ γ) (h1 : γ ≤ 1 - 1e-6)
    (hZ : P.ε * (116 * N * fjcDensitySize N 1e-6) ≤ fjcDensity N 1e-6) (hD : P.ε * (116 * N * fjcDensitySize N γ) ≤ fjcDensity N γ) :
    Sized (isometric.nondimensional_relative_helmholtz_free_energy N y) (isometric.nondimensional_relative_helmholtz_free_energy N γ) 1 (fjcEnergySize N γ) ∧
    2 ^ (0 : ℤ) ≤ fjcEnergySize N γ ∧ fjcEnergySize N γ ≤ 2 ^ (100 : ℤ) := by
  have hp := eps_pos P
  have hs := eps_small P
  have hε : 1e-16 ≤ P.ε := le_trans (by norm_num) P.le_ε
  have hN3 : (3 : ℝ) ≤ N := by exact_mod_cast hN
  have hN26 : (N : ℝ) ≤ 26 := by exact_mod_cast hN'
  have aZ : Acc (Polymers.ZERO : F64 P) (1e-6 : ℝ) 6 (-30) 0 := Acc.at_fraction (a := -20) (b := -19) (n := 1) (by
    refine acc_lit ?_ ?_ (by norm_num) (by norm_num) <;> norm_num) (by norm_num) (by norm_num) (by norm_num)
  obtain ⟨z0, -, -⟩ := sized_density hN hN' aZ (by norm_num) (by norm_num)
  obtain ⟨z1, -, -⟩ := sized_density hN hN' hy h0 h1
  obtain ⟨l0, u0, g0, e0⟩ := density_ratio hN hN' (by norm_num) (by norm_num) hZ
  obtain ⟨l1, u1, g1, e1⟩ := density_ratio hN hN' h0 h1 hD
  have er : isometric.nondimensional_relative_helmholtz_free_energy N γ = Real.log (fjcDensity N 1e-6 / fjcDensity N γ) := by
    show Real.log (treloar_sum_0_with_prefactor N (1e-6 : ℝ) / treloar_sum_0_with_prefactor N γ) = _
    rw [density_eq hN hN' (by norm_num) (by norm_num), density_eq hN hN' (by linarith) h1]
  have ee : fjcEnergySize N γ = 40 * N * (fjcDensitySize N 1e-6 / fjcDensity N 1e-6 + fjcDensitySize N γ / fjcDensity N γ) +
    |Real.log (fjcDensity N 1e-6 / fjcDensity N γ)| := rfl
  have hD0 : 0 < fjcDensity N 1e-6 := lt_of_lt_of_le (by positivity) l0
  have hD1 : 0 < fjcDensity N γ := lt_of_lt_of_le (by positivity) l1
  have r0 := z0.rel hD0 (by linarith)
  have r1 := z1.rel hD1 (by linarith)
  rw [er]
  set R0 := fjcDensitySize N 1e-6 / fjcDensity N 1e-6 with hR0
  set R1 := fjcDensitySize N γ / fjcDensity N γ with hR1
  have d0 : P.ε * (4 / 3 * (29 * N * fjcDensitySize N 1e-6 / fjcDensity N 1e-6)) = 116 / 3 * N * (P.ε * R0) := by rw [hR0]; ring
  have d1 : P.ε * (4 / 3 * (29 * N * fjcDensitySize N γ / fjcDensity N γ)) = 116 / 3 * N * (P.ε * R1) := by rw [hR1]; ring
  rw [d0] at r0
  rw [d1] at r1
  have c0 : N * (P.ε * R0) ≤ 1 / 116 := by
    calc N * (P.ε * R0) ≤ N * (1 / (116 * N)) := mul_le_mul_of_nonneg_left e0 (by positivity)
      _ = 1 / 116 := by field_simp
  have c1 : N * (P.ε * R1) ≤ 1 / 116 := by
    calc N * (P.ε * R1) ≤ N * (1 / (116 * N)) := mul_le_mul_of_nonneg_left e1 (by positivity)
      _ = 1 / 116 := by field_simp
  have rng := range_mono (div_range l0 u0 l1 u1) (c := -1000) (d := 1000) (by norm_num) (by norm_num)
  have hr : 0 < fjcDensity N 1e-6 / fjcDensity N γ := by positivity
  have r2 := rel_div r0 r1 (by linarith) (by rw [abs_of_pos hr]; exact rng.1) (by rw [abs_of_pos hr]; exact rng.2)
  have hlog : |Real.log (fjcDensity N 1e-6 / fjcDensity N γ)| ≤ 1000 := by
    have k1 := Real.log_le_log (by positivity) rng.1
    have k2 := Real.log_le_log hr rng.2
    rw [Real.log_zpow] at k1 k2
    push_cast at k1 k2
    have k3 := Real.log_two_lt_d9
    rw [abs_le]
    constructor <;> linarith
  have hu := unit_le P
  have hu1 : unit P ≤ 1.1 * P.ε := by nlinarith
  have hbig : (2000 : ℝ) ≤ 2 ^ (1000 : ℤ) := by
    calc (2000 : ℝ) ≤ 2 ^ (11 : ℤ) := by norm_num
      _ ≤ _ := two_zpow_mono (by norm_num)
  have w := within_ln r2 hr (le_trans (by linarith) hbig)
  have htiny : (2 : ℝ) ^ (-1022 : ℤ) ≤ 1e-9 := tiny_le le_rfl
  have hR2 : 6 ≤ N * (R0 + R1) := by nlinarith
  have hL := abs_nonneg (Real.log (fjcDensity N 1e-6 / fjcDensity N γ))
  have hlo : 1 ≤ fjcEnergySize N γ := by rw [ee]; linarith
  have hhi : fjcEnergySize N γ ≤ 2 ^ (100 : ℤ) := by
    rw [ee]
    have k0 : R0 + R1 ≤ 1e15 := by
      have k1 : 1e-16 * (R0 + R1) ≤ P.ε * (R0 + R1) := mul_le_mul_of_nonneg_right hε (by linarith)
      have k2 : 1 / (116 * (N : ℝ)) ≤ 1 / 116 := one_div_le_one_div_of_le (by norm_num) (by linarith)
      linarith
    have k3 : N * (R0 + R1) ≤ 26 * 1e15 := mul_le_mul hN26 k0 (by linarith) (by norm_num)
    have k4 : (1e30 : ℝ) ≤ 2 ^ (100 : ℤ) := by norm_num
    refine le_trans ?_ k4
    linarith
  refine ⟨⟨?_, ?_, ?_, hhi.trans (two_zpow_mono (by norm_num)), by norm_num, by norm_num⟩, by simpa using hlo, hhi⟩
  · refine w.mono ?_
    rw [ee]
    generalize |Real.log (fjcDensity N 1e-6 / fjcDensity N γ)| = L at *
    generalize (2 : ℝ) ^ (-1022 : ℤ) = t at *
    have k1 : 116 / 3 * N * (P.ε * R0) + 116 / 3 * N * (P.ε * R1) + unit P ≤ 1 := by linarith
    have k2 : P.ε * (L + (116 / 3 * N * (P.ε * R0) + 116 / 3 * N * (P.ε * R1) + unit P) + t) ≤ P.ε * (L + 1 + 1e-9) :=
      mul_le_mul_of_nonneg_left (by linarith) hp.le
    have k3 : 2 / 3 * 6 * P.ε ≤ P.ε * (2 / 3 * (N * (R0 + R1))) := by nlinarith
    nlinarith only [k2, k3, hu1, hp]
  · rw [ee]; linarith
  · exact le_trans (zpow_le_one_of_nonpos₀ (by norm_num) (by norm_num)) hlo

/-- C96: the relative energies of the freely jointed chain with 3 to 26 links, when neither density is lost by rounding. -/
theorem C96_fjc_nondimensional_relative_helmholtz (P : Platform) (hN : 3 ≤ N) (hN' : N ≤ 26) (ℓ m : F64 P) (ℓ' m' : ℝ) (T : F64 P) (T' : ℝ) (h0 : 1e-9 ≤ γ)
    (h1 : γ ≤ 1 - 1e-6) (hZ : P.ε * (116 * N * fjcDensitySize N 1e-6) ≤ fjcDensity N 1e-6) (hD : P.ε * (116 * N * fjcDensitySize N γ) ≤ fjcDensity N γ) :
    Within ((ApiF.fjc_isometric_helmholtz N ℓ m).nd_relative (.fin γ) T) ((Api.fjc_isometric_helmholtz N ℓ' m').nd_relative γ T')
      (P.ε * fjcEnergySize N γ) ∧
    Within ((ApiF.fjc_isometric_helmholtz N ℓ m).nd_relative_per_link (.fin γ) T) ((Api.fjc_isometric_helmholtz N ℓ' m').nd_relative_per_link γ T')
      (P.ε * (6 * (fjcEnergySize N γ / N))) := by
  obtain ⟨h, s1, s2⟩ := sized_energy hN hN' (acc_fraction h0 (by linarith)) h0 h1 hZ hD
  have aN := acc_nat (P := P) (by omega : 0 < N) (by omega)
  have r := range_mono (div_range s1 s2 aN.lo aN.hi) (c := -1000) (d := 590) (by norm_num) (by norm_num)
  have k := h.div aN (by norm_num) (by norm_num) (by norm_num) r.1 r.2 (by norm_num)
  rw [Nat.abs_cast] at k r
  exact ⟨h.within.mono (le_of_eq (by ring)), (k.weaken (q' := 6) (by norm_num) (by norm_num) rfl le_rfl r.2).within⟩

/-- An energy in units of `kT` with its dimensions. -/
theorem _root_.Polymers.Lemmas.Sized.thermal {x' : F64 P} {v q M : ℝ} {a b : ℤ} (hM : Sized x' v q M) (hT0 : 0 < T) (hT : Moderate T) (ha : 2 ^ a ≤ M) (hb : M ≤ 2 ^ b)
    (ha' : -100 ≤ a) (hb' : b ≤ 300) (hq : q ≤ 100) :
    Sized (x' * (Polymers.BOLTZMANN_CONSTANT : F64 P) * .fin T) (v * (Polymers.BOLTZMANN_CONSTANT : ℝ) * T) (1.01 * (1.01 * q + 1 + 4) + 0 + 4)
      (M * Polymers.BOLTZMANN_CONSTANT * T) := by
  have ab := acc_boltzmann (P := P)
  have aT := acc_moderate (P := P) hT
  have q1 := mul_range ha hb ab.lo ab.hi
  have k1 := hM.mul' ab (by norm_num) (by norm_num) (by norm_num) (range_mono q1 (by omega) (by omega)) (by linarith)
  have q2 := mul_range q1.1 q1.2 aT.lo aT.hi
  have k2 := k1.mul' aT (by norm_num) (by norm_num) (by norm_num) (range_mono q2 (by omega) (by omega)) (by linarith)
  rw [abs_of_pos boltzmann_pos, abs_of_pos hT0] at k2
  exact k2

/-- C96: the relative energies with their dimensions. -/
theorem C96_fjc_relative_helmholtz (P : Platform) (hN : 3 ≤ N) (hN' : N ≤ 26) (m : F64 P) (m' : ℝ) (hT0 : 0 < T) (hℓ : Moderate ℓ) (hx : Moderate x)
    (hT : Moderate T) (hγ : γ = x / (N * ℓ)) (h0 : 1e-9 ≤ γ) (h1 : γ ≤ 1 - 1e-6) (hZ : P.ε * (116 * N * fjcDensitySize N 1e-6) ≤ fjcDensity N 1e-6)
    (hD : P.ε * (116 * N * fjcDensitySize N γ) ≤ fjcDensity N γ) :
    Within ((ApiF.fjc_isometric_helmholtz N (.fin ℓ : F64 P) m).relative (.fin x) (.fin T)) ((Api.fjc_isometric_helmholtz N ℓ m').relative x T)
      (P.ε * (11 * (fjcEnergySize N γ * Polymers.BOLTZMANN_CONSTANT * T))) ∧
    Within ((ApiF.fjc_isometric_helmholtz N (.fin ℓ : F64 P) m).relative_per_link (.fin x) (.fin T))
      ((Api.fjc_isometric_helmholtz N ℓ m').relative_per_link x T)
      (P.ε * (15 * (fjcEnergySize N γ / N * Polymers.BOLTZMANN_CONSTANT * T))) := by
  obtain ⟨h, s1, s2⟩ := sized_energy hN hN' (acc_length (P := P) hN (by omega) hℓ hx hγ h0 (by linarith)) h0 h1 hZ hD
  have aN := acc_nat (P := P) (by omega : 0 < N) (by omega)
  have rN := div_range s1 s2 aN.lo aN.hi
  have r := range_mono rN (c := -1000) (d := 590) (by norm_num) (by norm_num)
  have k := h.div aN (by norm_num) (by norm_num) (by norm_num) r.1 r.2 (by norm_num)
  have w1 := h.thermal hT0 hT s1 s2 (by norm_num) (by norm_num) (by norm_num)
  have w2 := k.thermal hT0 hT rN.1 rN.2 (by norm_num) (by norm_num) (by norm_num)
  rw [Nat.abs_cast] at w2
  have v1 := (w1.weaken (q' := 11) (by norm_num) (by norm_num) rfl le_rfl w1.hi).within
  have v2 := (w2.weaken (q' := 15) (by norm_num) (by norm_num) rfl le_rfl w2.hi).within
  rw [hγ] at v1 v2 ⊢
  exact ⟨v1, v2⟩

theorem size_four {γ : ℝ} (h0 : 0 < γ) (h1 : γ < 1) : treloarSize 4 1 γ ≤ 16 := by
  unfold treloarSize
  have h : ∀ j : ℕ, max 0 ((1 - γ) / 2 + 1e-6 - (j : ℝ) / (4 : ℕ)) ≤ 1 := fun j => max_le (by norm_num) (by
    have : (0 : ℝ) ≤ j / (4 : ℕ) := by positivity
    linarith)
  calc ∑ j ∈ Finset.range (4 + 1), (Nat.choose 4 j : ℝ) * (max 0 ((1 - γ) / 2 + 1e-6 - (j : ℝ) / (4 : ℕ))) ^ 1
      ≤ ∑ j ∈ Finset.range (4 + 1), (Nat.choose 4 j : ℝ) * 1 :=
        Finset.sum_le_sum fun j _ => mul_le_mul_of_nonneg_left (by rw [pow_one]; exact h j) (Nat.cast_nonneg _)
    _ = 16 := by norm_num [Finset.sum_range_succ, Nat.choose]

theorem sum_four_half : treloarSum 4 2 (1 / 2) = 1 / 16 := by
  unfold treloarSum
  have : ⌈((4 : ℕ) : ℝ) * ((1 - 1 / 2) / 2)⌉₊ = 1 := by rw [Nat.ceil_eq_iff (by norm_num)]; norm_num
  rw [this]
  norm_num

theorem sum_four_zero : 4e-7 ≤ treloarSum 4 2 1e-6 := by
  unfold treloarSum
  have : ⌈((4 : ℕ) : ℝ) * ((1 - 1e-6) / 2)⌉₊ = 2 := by rw [Nat.ceil_eq_iff (by norm_num)]; norm_num
  rw [this]
  norm_num [Finset.sum_range_succ]

theorem kept_half (P : Platform) : P.ε * (116 * (4 : ℕ) * fjcDensitySize 4 (1 / 2)) ≤ fjcDensity 4 (1 / 2) := by
  have h1 := size_four (γ := 1 / 2) (by norm_num) (by norm_num)
  have h2 := eps_small P
  have h3 := eps_pos P
  unfold fjcDensitySize fjcDensity
  have hf := factor_pos (N := 4) (γ := 1 / 2) (by norm_num) (by norm_num)
  rw [show 4 - 3 = 1 by norm_num, show 4 - 2 = 2 by norm_num, sum_four_half]
  rw [show 4 - 2 = 2 by norm_num] at hf
  generalize ((4 : ℕ) : ℝ) ^ 4 / (8 * Real.pi * (1 / 2) * Nat.factorial 2) = F at *
  have h4 : P.ε * treloarSize 4 1 (1 / 2) ≤ 1e-12 * 16 := by
    rcases le_total 0 (treloarSize 4 1 (1 / 2)) with h | h
    · exact mul_le_mul h2 h1 h (by norm_num)
    · nlinarith
  have h5 := mul_le_mul_of_nonneg_left h4 hf.le
  push_cast
  nlinarith

theorem kept_zero (P : Platform) : P.ε * (116 * (4 : ℕ) * fjcDensitySize 4 1e-6) ≤ fjcDensity 4 1e-6 := by
  have h1 := size_four (γ := 1e-6) (by norm_num) (by norm_num)
  have h2 := eps_small P
  have h3 := eps_pos P
  unfold fjcDensitySize fjcDensity
  have hf := factor_pos (N := 4) (γ := 1e-6) (by norm_num) (by norm_num)
  have h6 := sum_four_zero
  rw [show 4 - 3 = 1 by norm_num, show 4 - 2 = 2 by norm_num]
  rw [show 4 - 2 = 2 by norm_num] at hf
  generalize ((4 : ℕ) : ℝ) ^ 4 / (8 * Real.pi * 1e-6 * Nat.factorial 2) = F at *
  have h4 : P.ε * treloarSize 4 1 1e-6 ≤ 1e-12 * 16 := by
    rcases le_total 0 (treloarSize 4 1 1e-6) with h | h
    · exact mul_le_mul h2 h1 h (by norm_num)
    · nlinarith
  have h5 := mul_le_mul_of_nonneg_left h4 hf.le
  have h7 := mul_le_mul_of_nonneg_left h6 hf.le
  push_cast
  nlinarith

theorem moderate_one : Moderate 1 := ⟨by rw [abs_one]; exact zpow_le_one_of_nonpos₀ (by norm_num) (by norm_num), by rw [abs_one]; norm_num⟩
theorem moderate_two : Moderate 2 := ⟨by norm_num, by norm_num⟩

/-- A chain of four links of unit length at half of its contour length, at unit temperature. -/
example (P : Platform) (m : F64 P) (m' : ℝ) :
    Within ((ApiF.fjc_isometric_helmholtz 4 (.fin 1 : F64 P) m).relative (.fin 2) (.fin 1)) ((Api.fjc_isometric_helmholtz 4 1 m').relative 2 1)
      (P.ε * (11 * (fjcEnergySize 4 (1 / 2) * Polymers.BOLTZMANN_CONSTANT * 1))) :=
  (C96_fjc_relative_helmholtz P (by norm_num) (by norm_num) m m' (by norm_num) moderate_one moderate_two moderate_one (by norm_num) (by norm_num) (by norm_num)
    (kept_zero P) (kept_half P)).1

example (P : Platform) (m : F64 P) (m' : ℝ) :
    Within ((ApiF.fjc_isometric_forces 4 (.fin 1 : F64 P) m).force (.fin 2) (.fin 1)) ((Api.fjc_isometric_forces 4 1 m').force 2 1)
      (P.ε * (42 * (4 : ℕ) * (fjcForceSize 4 (1 / 2) * Polymers.BOLTZMANN_CONSTANT * 1 / 1))) :=
  C96_fjc_force P (by norm_num) (by norm_num) m m' (by norm_num) (by norm_num) moderate_one moderate_two moderate_one (by norm_num) (by norm_num) (by norm_num) (by
    have h1 := size_four (γ := 1 / 2) (by norm_num) (by norm_num)
    have h2 := eps_small P
    have h3 := eps_pos P
    rw [show 4 - 3 = 1 by norm_num, show 4 - 2 = 2 by norm_num, sum_four_half]
    push_cast
    nlinarith)

example (P : Platform) (m : F64 P) (m' : ℝ) :
    Within ((ApiF.fjc_isometric_distribution 4 (.fin 1 : F64 P) m).density (.fin 2)) ((Api.fjc_isometric_distribution 4 1 m').density 2)
      (P.ε * (33 * (4 : ℕ) * (fjcDensitySize 4 (1 / 2) / ((4 : ℕ) * 1) ^ 3))) :=
  (C96_fjc_distribution P (by norm_num) (by norm_num) m m' (by norm_num) moderate_one moderate_two (by norm_num) (by norm_num) (by norm_num)).1

end Polymers.Props
