import Verif.Props.IeeeMorseLegendreAbove

/-! C106: above the largest force that the links bear, the lengths and the energies of the chain with Morse links in the full asymptotic approach are not numbers. -/

namespace Polymers.Props

open Polymers.Ieee Polymers.Spec Polymers.Lemmas
open Polymers.ufjc.morse.thermodynamics.isotensional

variable {P : Platform} {N : ℕ} {ℓ m c E T f η κ u n r s t : ℝ} {a b : ℤ} {x y z w : F64 P}

local macro:70 a:term:70 " ⊗ " b:term:71 : term => `(Acc.mul $a $b (by norm_num) (by norm_num) (by norm_num))
local macro:70 a:term:70 " ⊘ " b:term:71 : term => `(Acc.div $a $b (by norm_num) (by norm_num) (by norm_num))

theorem nan_div (h : x ≠ .panic) : .nan / x = (.nan : F64 P) := by cases x <;> first | rfl | exact absurd rfl h
theorem div_nan (h : x ≠ .panic) : x / .nan = (.nan : F64 P) := by cases x <;> first | rfl | exact absurd rfl h

local macro "calm" : tactic => `(tactic|
  repeat' first | assumption | apply calm_lit | apply calm_nan | apply calm_pi | apply calm_sub | apply calm_add | apply calm_mul | apply calm_div | apply calm_neg | apply calm_ln | apply calm_square | apply calm_sqrt | apply calm_sinh | apply calm_tanh)

/-- The nondimensional length per link. -/
theorem morse_asymptotic_length_above (hy : Acc y η n (-100) 100) (hn : n ≤ 4) (hz : Acc z κ 7 (-100) 100) (hκ : 0 < κ) (hw : Acc w u 4 (-100) 100)
    (hu : 0 < u) (h1 : 1 + P.ε * 20 ≤ η / morseForceMax κ u) : asymptotic.nondimensional_end_to_end_length_per_link z w y = .nan := by
  have hM : √(u * κ / 8.0) = morseForceMax κ u := by unfold morseForceMax; norm_num
  have p1 := hw ⊗ hz ⊘ acc_eight
  have aM := Acc.sqrt (a := -102) (b := 99) (n := 14) ⟨p1.rel.mono (mul_le_mul_of_nonneg_right (by norm_num) (unit_pos P).le),
    (two_zpow_mono (by norm_num)).trans p1.lo, p1.hi.trans (two_zpow_mono (by norm_num))⟩ (by positivity) (by norm_num) (by norm_num) (by norm_num)
  have at' := Acc.div hy aM (by linarith) (by norm_num) (by norm_num)
  have k := morse_root_above at' (by linarith) (by rw [hM]; exact h1)
  obtain ⟨y', rfl⟩ := hy.fin
  obtain ⟨z', rfl⟩ := hz.fin
  obtain ⟨w', rfl⟩ := hw.fin
  have hy' := calm_fin (P := P) y'
  have hz' := calm_fin (P := P) z'
  have hw' := calm_fin (P := P) w'
  unfold asymptotic.nondimensional_end_to_end_length_per_link
  dsimp only
  rw [k, add_nan (calm_lit _ _ _), div_nan (calm_lit _ _ _), show Elem.ln (.nan : F64 P) = .nan from rfl, nan_div (by calm), add_nan (by calm)]

/-- C106: under a force above the largest force, the nondimensional lengths of the chain with Morse links, in the asymptotic approach, are not numbers. -/
theorem C106_morse_asymptotic_nondimensional_lengths_above (P : Platform) (hN : 0 < N) (hN' : N ≤ 255) (mF : F64 P) (hℓ : Moderate ℓ) (hc : Moderate c) (hE : Moderate E)
    (hT : Moderate T) {k : ℝ} (hk : k = Polymers.BOLTZMANN_CONSTANT) (hκ : κ = c * ℓ ^ 2 / (k * T)) (hκ' : Moderate κ) (hκ0 : 0 < κ)
    (hu : u = E / (k * T)) (hu' : Moderate u) (hu0 : 0 < u) (hη : Moderate η) (h1 : 1 + P.ε * 20 ≤ η / morseForceMax κ u) :
    (ApiF.morse_isotensional_asymptotic_lengths N (.fin ℓ : F64 P) mF (.fin c) (.fin E)).nd_length (.fin η) (.fin T) = .nan ∧
    (ApiF.morse_isotensional_asymptotic_lengths N (.fin ℓ : F64 P) mF (.fin c) (.fin E)).nd_length_per_link (.fin η) (.fin T) = .nan := by
  subst hk
  have az := acc_stiffness (P := P) hc hℓ hT
  rw [stiffness_eq hκ] at az
  have k := morse_asymptotic_length_above (acc_moderate (P := P) hη) (by norm_num) ⟨az.rel, hκ'.1, hκ'.2⟩ hκ0 (acc_link_energy (P := P) hE hT hu hu') hu0 h1
  exact ⟨(congrArg ((N : F64 P) * ·) k).trans (nan_of_fin (acc_nat hN hN').fin).2.1, k⟩

/-- C106: under a force above the largest force, the lengths of the chain with Morse links, in the asymptotic approach, are not numbers. -/
theorem C106_morse_asymptotic_lengths_above (P : Platform) (hN : 0 < N) (hN' : N ≤ 255) (mF : F64 P) (hℓ : Moderate ℓ) (hc : Moderate c) (hE : Moderate E)
    (hf : Moderate f) (hT : Moderate T) {k : ℝ} (hk : k = Polymers.BOLTZMANN_CONSTANT) (hκ : κ = c * ℓ ^ 2 / (k * T)) (hκ' : Moderate κ) (hκ0 : 0 < κ)
    (hu : u = E / (k * T)) (hu' : Moderate u) (hu0 : 0 < u) (hη : η = f * ℓ / (k * T)) (hη' : Moderate η)
    (h1 : 1 + P.ε * 20 ≤ η / morseForceMax κ u) :
    (ApiF.morse_isotensional_asymptotic_lengths N (.fin ℓ : F64 P) mF (.fin c) (.fin E)).length (.fin f) (.fin T) = .nan ∧
    (ApiF.morse_isotensional_asymptotic_lengths N (.fin ℓ : F64 P) mF (.fin c) (.fin E)).length_per_link (.fin f) (.fin T) = .nan := by
  subst hk
  have az := acc_stiffness (P := P) hc hℓ hT
  rw [stiffness_eq hκ] at az
  have ay := acc_moderate (P := P) hf ⊗ acc_moderate hℓ ⊘ acc_boltzmann ⊘ acc_moderate hT
  rw [show f * ℓ / (Polymers.BOLTZMANN_CONSTANT : ℝ) / T = η by rw [hη, div_div]] at ay
  have k := morse_asymptotic_length_above (n := 4) ⟨ay.rel.mono (mul_le_mul_of_nonneg_right (by norm_num) (unit_pos P).le), hη'.1, hη'.2⟩ le_rfl ⟨az.rel, hκ'.1, hκ'.2⟩ hκ0 (acc_link_energy (P := P) hE hT hu hu') hu0 h1
  exact ⟨(congrArg (fun v => (.fin ℓ : F64 P) * ((N : F64 P) * v)) k).trans
    ((congrArg ((.fin ℓ : F64 P) * ·) (nan_of_fin (acc_nat hN hN').fin).2.1).trans (nan_of_fin ⟨ℓ, rfl⟩).2.1),
    (congrArg ((.fin ℓ : F64 P) * ·) k).trans (nan_of_fin ⟨ℓ, rfl⟩).2.1⟩

/-- The Gibbs energy per link is a number, an infinity or NaN. -/
theorem calm_asymptotic_gibbs {ℓF mF TF : F64 P} (h1 : ℓF ≠ .panic) (h2 : mF ≠ .panic) (h3 : TF ≠ .panic) (hz : z ≠ .panic) (hw : w ≠ .panic) (hy : y ≠ .panic) :
    asymptotic.nondimensional_gibbs_free_energy_per_link ℓF mF z w y TF ≠ .panic := by
  unfold asymptotic.nondimensional_gibbs_free_energy_per_link Polymers.BOLTZMANN_CONSTANT Polymers.PLANCK_CONSTANT
  calm

/-- The nondimensional Gibbs energy per link. -/
theorem morse_asymptotic_gibbs_above {ℓF mF TF : F64 P} (h2 : ℓF ≠ .panic) (h3 : mF ≠ .panic) (h4 : TF ≠ .panic) (hy : Acc y η n (-100) 100) (hn : n ≤ 4) (hz : Acc z κ 7 (-100) 100) (hκ : 0 < κ)
    (hw : Acc w u 4 (-100) 100) (hu : 0 < u) (h1 : 1 + P.ε * 20 ≤ η / morseForceMax κ u) :
    asymptotic.nondimensional_gibbs_free_energy_per_link ℓF mF z w y TF = .nan := by
  have hM : √(u * κ / 8.0) = morseForceMax κ u := by unfold morseForceMax; norm_num
  have p1 := hw ⊗ hz ⊘ acc_eight
  have aM := Acc.sqrt (a := -102) (b := 99) (n := 14) ⟨p1.rel.mono (mul_le_mul_of_nonneg_right (by norm_num) (unit_pos P).le),
    (two_zpow_mono (by norm_num)).trans p1.lo, p1.hi.trans (two_zpow_mono (by norm_num))⟩ (by positivity) (by norm_num) (by norm_num) (by norm_num)
  have at' := Acc.div hy aM (by linarith) (by norm_num) (by norm_num)
  have k := morse_root_above at' (by linarith) (by rw [hM]; exact h1)
  obtain ⟨y', rfl⟩ := hy.fin
  obtain ⟨z', rfl⟩ := hz.fin
  obtain ⟨w', rfl⟩ := hw.fin
  have hy' := calm_fin (P := P) y'
  have hz' := calm_fin (P := P) z'
  have hw' := calm_fin (P := P) w'
  unfold asymptotic.nondimensional_gibbs_free_energy_per_link Polymers.BOLTZMANN_CONSTANT Polymers.PLANCK_CONSTANT
  dsimp only
  rw [k, add_nan (calm_lit _ _ _), mul_nan (calm_lit _ _ _), sub_nan (calm_lit _ _ _), show Elem.powi (.nan : F64 P) 2 = .nan from rfl, mul_nan hw',
    add_nan (by calm), nan_sub (by calm), nan_sub (by calm), nan_sub (by calm)]

/-- C106: under a force above the largest force, the nondimensional Gibbs energies of the chain with Morse links, in the asymptotic approach, are not numbers. -/
theorem C106_morse_asymptotic_nondimensional_gibbs_above (P : Platform) (N : ℕ) {mF : F64 P} (hm : mF ≠ .panic) (hℓ : Moderate ℓ) (hc : Moderate c) (hE : Moderate E)
    (hT : Moderate T) {k : ℝ} (hk : k = Polymers.BOLTZMANN_CONSTANT) (hκ : κ = c * ℓ ^ 2 / (k * T)) (hκ' : Moderate κ) (hκ0 : 0 < κ)
    (hu : u = E / (k * T)) (hu' : Moderate u) (hu0 : 0 < u) (hη : Moderate η) (h1 : 1 + P.ε * 20 ≤ η / morseForceMax κ u)
    {F : ApiF.EnergyMethodsF P} (hF : F = ApiF.morse_isotensional_asymptotic_gibbs N (.fin ℓ) mF (.fin c) (.fin E)) :
    F.nd_energy (.fin η) (.fin T) = .nan ∧ F.nd_energy_per_link (.fin η) (.fin T) = .nan ∧
    F.nd_relative (.fin η) (.fin T) = .nan ∧ F.nd_relative_per_link (.fin η) (.fin T) = .nan := by
  subst hF hk
  have az := acc_stiffness (P := P) hc hℓ hT
  rw [stiffness_eq hκ] at az
  have aw := acc_link_energy (P := P) hE hT hu hu'
  have k : ∀ {ℓF mF TF : F64 P}, ℓF ≠ .panic → mF ≠ .panic → TF ≠ .panic → _ := fun h2 h3 h4 =>
    morse_asymptotic_gibbs_above h2 h3 h4 (acc_moderate (P := P) hη) (by norm_num) ⟨az.rel, hκ'.1, hκ'.2⟩ hκ0 aw hu0 h1
  have k1 : ∀ {ℓF mF TF : F64 P}, ℓF ≠ .panic → mF ≠ .panic → TF ≠ .panic → _ := fun h2 h3 h4 =>
    (congrArg ((N : F64 P) * ·) (k h2 h3 h4)).trans (mul_nan (calm_nat _))
  have hz : Elem.powi (.fin ℓ : F64 P) 2 ≠ .panic := calm_square (calm_fin _)
  have g := calm_asymptotic_gibbs (P := P) (z := .fin c * Elem.powi (.fin ℓ) 2 / (Polymers.BOLTZMANN_CONSTANT : F64 P) / .fin T)
    (w := .fin E / (Polymers.BOLTZMANN_CONSTANT : F64 P) / .fin T) (y := Polymers.ZERO) (calm_lit 10 true 1) (calm_lit 10 true 1) (calm_lit 3000 true 1)
    (calm_div (calm_div (calm_mul (calm_fin _) hz) (calm_lit _ _ _)) (calm_fin _)) (calm_div (calm_div (calm_fin _) (calm_lit _ _ _)) (calm_fin _)) (calm_lit _ _ _)
  exact ⟨k1 (calm_fin _) hm (calm_fin _), k (calm_fin _) hm (calm_fin _),
    (congrArg (· - _) (k1 (calm_lit 10 true 1) (calm_lit 10 true 1) (calm_lit 3000 true 1))).trans (nan_sub (calm_mul (calm_nat _) g)),
    (congrArg (· - _) (k (calm_lit 10 true 1) (calm_lit 10 true 1) (calm_lit 3000 true 1))).trans (nan_sub g)⟩

/-- C106: under a force above the largest force, the Gibbs energies of the chain with Morse links, in the asymptotic approach, are not numbers. -/
theorem C106_morse_asymptotic_gibbs_above (P : Platform) (N : ℕ) {mF : F64 P} (hm : mF ≠ .panic) (hℓ : Moderate ℓ) (hc : Moderate c) (hE : Moderate E)
    (hf : Moderate f) (hT : Moderate T) {k : ℝ} (hk : k = Polymers.BOLTZMANN_CONSTANT) (hκ : κ = c * ℓ ^ 2 / (k * T)) (hκ' : Moderate κ) (hκ0 : 0 < κ)
    (hu : u = E / (k * T)) (hu' : Moderate u) (hu0 : 0 < u) (hη : η = f * ℓ / (k * T)) (hη' : Moderate η) (h1 : 1 + P.ε * 20 ≤ η / morseForceMax κ u)
    {F : ApiF.EnergyMethodsF P} (hF : F = ApiF.morse_isotensional_asymptotic_gibbs N (.fin ℓ) mF (.fin c) (.fin E)) :
    F.energy (.fin f) (.fin T) = .nan ∧ F.energy_per_link (.fin f) (.fin T) = .nan ∧
    F.relative (.fin f) (.fin T) = .nan ∧ F.relative_per_link (.fin f) (.fin T) = .nan := by
  subst hF hk
  have az := acc_stiffness (P := P) hc hℓ hT
  rw [stiffness_eq hκ] at az
  have ay := acc_moderate (P := P) hf ⊗ acc_moderate hℓ ⊘ acc_boltzmann ⊘ acc_moderate hT
  rw [show f * ℓ / (Polymers.BOLTZMANN_CONSTANT : ℝ) / T = η by rw [hη, div_div]] at ay
  have aw := acc_link_energy (P := P) hE hT hu hu'
  have k : ∀ {mF : F64 P}, mF ≠ .panic → _ := fun h3 => morse_asymptotic_gibbs_above (n := 4) (calm_fin ℓ) h3 (calm_fin T)
    ⟨ay.rel.mono (mul_le_mul_of_nonneg_right (by norm_num) (unit_pos P).le), hη'.1, hη'.2⟩ le_rfl ⟨az.rel, hκ'.1, hκ'.2⟩ hκ0 aw hu0 h1
  have hk : (Polymers.BOLTZMANN_CONSTANT : F64 P) ≠ .panic := calm_lit _ _ _
  have hkT : (Polymers.BOLTZMANN_CONSTANT : F64 P) * .fin T ≠ .panic := calm_mul hk (calm_fin _)
  have k1 : ∀ {mF : F64 P}, mF ≠ .panic → _ := fun h3 =>
    (congrArg (fun v => (Polymers.BOLTZMANN_CONSTANT : F64 P) * .fin T * ((N : F64 P) * v)) (k h3)).trans
      ((congrArg ((Polymers.BOLTZMANN_CONSTANT : F64 P) * .fin T * ·) (mul_nan (calm_nat _))).trans (mul_nan hkT))
  have k2 : ∀ {mF : F64 P}, mF ≠ .panic → _ := fun h3 =>
    (congrArg ((Polymers.BOLTZMANN_CONSTANT : F64 P) * .fin T * ·) (k h3)).trans (mul_nan hkT)
  have hz : Elem.powi (.fin ℓ : F64 P) 2 ≠ .panic := calm_square (calm_fin _)
  have hy : (Polymers.ZERO : F64 P) * Polymers.BOLTZMANN_CONSTANT * .fin T / .fin ℓ ≠ .panic :=
    calm_div (calm_mul (calm_mul (calm_lit _ _ _) hk) (calm_fin _)) (calm_fin _)
  have g := calm_asymptotic_gibbs (P := P) (z := .fin c * Elem.powi (.fin ℓ) 2 / (Polymers.BOLTZMANN_CONSTANT : F64 P) / .fin T)
    (w := .fin E / (Polymers.BOLTZMANN_CONSTANT : F64 P) / .fin T)
    (y := Polymers.ZERO * (Polymers.BOLTZMANN_CONSTANT : F64 P) * .fin T / .fin ℓ * .fin ℓ / (Polymers.BOLTZMANN_CONSTANT : F64 P) / .fin T)
    (calm_fin ℓ) (calm_lit 10 true 1) (calm_fin T) (calm_div (calm_div (calm_mul (calm_fin _) hz) hk) (calm_fin _))
    (calm_div (calm_div (calm_fin _) hk) (calm_fin _)) (calm_div (calm_div (calm_mul hy (calm_fin _)) hk) (calm_fin _))
  exact ⟨k1 hm, k2 hm, (congrArg (· - _) (k1 (calm_lit 10 true 1))).trans (nan_sub (calm_mul hkT (calm_mul (calm_nat _) g))),
    (congrArg (· - _) (k2 (calm_lit 10 true 1))).trans (nan_sub (calm_mul hkT g))⟩

/-- The Helmholtz energy per link is a number, an infinity or NaN. -/
theorem calm_asymptotic_helmholtz {ℓF mF TF : F64 P} (h1 : ℓF ≠ .panic) (h2 : mF ≠ .panic) (h3 : TF ≠ .panic) (hz : z ≠ .panic) (hw : w ≠ .panic) (hy : y ≠ .panic) :
    asymptotic.legendre.nondimensional_helmholtz_free_energy_per_link ℓF mF z w y TF ≠ .panic := by
  unfold asymptotic.legendre.nondimensional_helmholtz_free_energy_per_link Polymers.BOLTZMANN_CONSTANT Polymers.PLANCK_CONSTANT
  calm

/-- The nondimensional Helmholtz energy per link. -/
theorem morse_asymptotic_helmholtz_above {ℓF mF TF : F64 P} (h2 : ℓF ≠ .panic) (h3 : mF ≠ .panic) (h4 : TF ≠ .panic) (hy : Acc y η n (-100) 100) (hn : n ≤ 4) (hz : Acc z κ 7 (-100) 100) (hκ : 0 < κ)
    (hw : Acc w u 4 (-100) 100) (hu : 0 < u) (h1 : 1 + P.ε * 20 ≤ η / morseForceMax κ u) :
    asymptotic.legendre.nondimensional_helmholtz_free_energy_per_link ℓF mF z w y TF = .nan := by
  have hM : √(u * κ / 8.0) = morseForceMax κ u := by unfold morseForceMax; norm_num
  have p1 := hw ⊗ hz ⊘ acc_eight
  have aM := Acc.sqrt (a := -102) (b := 99) (n := 14) ⟨p1.rel.mono (mul_le_mul_of_nonneg_right (by norm_num) (unit_pos P).le),
    (two_zpow_mono (by norm_num)).trans p1.lo, p1.hi.trans (two_zpow_mono (by norm_num))⟩ (by positivity) (by norm_num) (by norm_num) (by norm_num)
  have at' := Acc.div hy aM (by linarith) (by norm_num) (by norm_num)
  have k := morse_root_above at' (by linarith) (by rw [hM]; exact h1)
  obtain ⟨y', rfl⟩ := hy.fin
  obtain ⟨z', rfl⟩ := hz.fin
  obtain ⟨w', rfl⟩ := hw.fin
  have hy' := calm_fin (P := P) y'
  have hz' := calm_fin (P := P) z'
  have hw' := calm_fin (P := P) w'
  unfold asymptotic.legendre.nondimensional_helmholtz_free_energy_per_link Polymers.BOLTZMANN_CONSTANT Polymers.PLANCK_CONSTANT
  dsimp only
  rw [k, add_nan (calm_lit _ _ _), mul_nan (calm_lit _ _ _), sub_nan (calm_lit _ _ _), show Elem.powi (.nan : F64 P) 2 = .nan from rfl, mul_nan hw',
    add_nan (by calm), nan_sub (by calm), nan_sub (by calm), nan_add (by calm), nan_sub (by calm), nan_add (by calm)]

/-- C106: under a force above the largest force, the nondimensional Helmholtz energies of the chain with Morse links, in the asymptotic approach, are not numbers. -/
theorem C106_morse_asymptotic_nondimensional_helmholtz_above (P : Platform) (N : ℕ) {mF : F64 P} (hm : mF ≠ .panic) (hℓ : Moderate ℓ) (hc : Moderate c) (hE : Moderate E)
    (hT : Moderate T) {k : ℝ} (hk : k = Polymers.BOLTZMANN_CONSTANT) (hκ : κ = c * ℓ ^ 2 / (k * T)) (hκ' : Moderate κ) (hκ0 : 0 < κ)
    (hu : u = E / (k * T)) (hu' : Moderate u) (hu0 : 0 < u) (hη : Moderate η) (h1 : 1 + P.ε * 20 ≤ η / morseForceMax κ u)
    {F : ApiF.EnergyMethodsF P} (hF : F = ApiF.morse_isotensional_asymptotic_legendre_helmholtz N (.fin ℓ) mF (.fin c) (.fin E)) :
    F.nd_energy (.fin η) (.fin T) = .nan ∧ F.nd_energy_per_link (.fin η) (.fin T) = .nan ∧
    F.nd_relative (.fin η) (.fin T) = .nan ∧ F.nd_relative_per_link (.fin η) (.fin T) = .nan := by
  subst hF hk
  have az := acc_stiffness (P := P) hc hℓ hT
  rw [stiffness_eq hκ] at az
  have aw := acc_link_energy (P := P) hE hT hu hu'
  have k : ∀ {ℓF mF TF : F64 P}, ℓF ≠ .panic → mF ≠ .panic → TF ≠ .panic → _ := fun h2 h3 h4 =>
    morse_asymptotic_helmholtz_above h2 h3 h4 (acc_moderate (P := P) hη) (by norm_num) ⟨az.rel, hκ'.1, hκ'.2⟩ hκ0 aw hu0 h1
  have k1 : ∀ {ℓF mF TF : F64 P}, ℓF ≠ .panic → mF ≠ .panic → TF ≠ .panic → _ := fun h2 h3 h4 =>
    (congrArg ((N : F64 P) * ·) (k h2 h3 h4)).trans (mul_nan (calm_nat _))
  have hz : Elem.powi (.fin ℓ : F64 P) 2 ≠ .panic := calm_square (calm_fin _)
  have g := calm_asymptotic_helmholtz (P := P) (z := .fin c * Elem.powi (.fin ℓ) 2 / (Polymers.BOLTZMANN_CONSTANT : F64 P) / .fin T)
    (w := .fin E / (Polymers.BOLTZMANN_CONSTANT : F64 P) / .fin T) (y := Polymers.ZERO) (calm_lit 10 true 1) (calm_lit 10 true 1) (calm_lit 3000 true 1)
    (calm_div (calm_div (calm_mul (calm_fin _) hz) (calm_lit _ _ _)) (calm_fin _)) (calm_div (calm_div (calm_fin _) (calm_lit _ _ _)) (calm_fin _)) (calm_lit _ _ _)
  exact ⟨k1 (calm_fin _) hm (calm_fin _), k (calm_fin _) hm (calm_fin _),
    (congrArg (· - _) (k1 (calm_lit 10 true 1) (calm_lit 10 true 1) (calm_lit 3000 true 1))).trans (nan_sub (calm_mul (calm_nat _) g)),
    (congrArg (· - _) (k (calm_lit 10 true 1) (calm_lit 10 true 1) (calm_lit 3000 true 1))).trans (nan_sub g)⟩

/-- C106: under a force above the largest force, the Helmholtz energies of the chain with Morse links, in the asymptotic approach, are not numbers. -/
theorem C106_morse_asymptotic_helmholtz_above (P : Platform) (N : ℕ) {mF : F64 P} (hm : mF ≠ .panic) (hℓ : Moderate ℓ) (hc : Moderate c) (hE : Moderate E)
    (hf : Moderate f) (hT : Moderate T) {k : ℝ} (hk : k = Polymers.BOLTZMANN_CONSTANT) (hκ : κ = c * ℓ ^ 2 / (k * T)) (hκ' : Moderate κ) (hκ0 : 0 < κ)
    (hu : u = E / (k * T)) (hu' : Moderate u) (hu0 : 0 < u) (hη : η = f * ℓ / (k * T)) (hη' : Moderate η) (h1 : 1 + P.ε * 20 ≤ η / morseForceMax κ u)
    {F : ApiF.EnergyMethodsF P} (hF : F = ApiF.morse_isotensional_asymptotic_legendre_helmholtz N (.fin ℓ) mF (.fin c) (.fin E)) :
    F.energy (.fin f) (.fin T) = .nan ∧ F.energy_per_link (.fin f) (.fin T) = .nan ∧
    F.relative (.fin f) (.fin T) = .nan ∧ F.relative_per_link (.fin f) (.fin T) = .nan := by
  subst hF hk
  have az := acc_stiffness (P := P) hc hℓ hT
  rw [stiffness_eq hκ] at az
  have ay := acc_moderate (P := P) hf ⊘ acc_boltzmann ⊘ acc_moderate hT ⊗ acc_moderate hℓ
  rw [show f / (Polymers.BOLTZMANN_CONSTANT : ℝ) / T * ℓ = η by rw [hη, div_div]; ring] at ay
  have aw := acc_link_energy (P := P) hE hT hu hu'
  have k : ∀ {mF : F64 P}, mF ≠ .panic → _ := fun h3 => morse_asymptotic_helmholtz_above (n := 4) (calm_fin ℓ) h3 (calm_fin T)
    ⟨ay.rel.mono (mul_le_mul_of_nonneg_right (by norm_num) (unit_pos P).le), hη'.1, hη'.2⟩ le_rfl ⟨az.rel, hκ'.1, hκ'.2⟩ hκ0 aw hu0 h1
  have hk : (Polymers.BOLTZMANN_CONSTANT : F64 P) ≠ .panic := calm_lit _ _ _
  have hkT : (Polymers.BOLTZMANN_CONSTANT : F64 P) * .fin T ≠ .panic := calm_mul hk (calm_fin _)
  have k1 : ∀ {mF : F64 P}, mF ≠ .panic → _ := fun h3 =>
    (congrArg (fun v => (Polymers.BOLTZMANN_CONSTANT : F64 P) * .fin T * ((N : F64 P) * v)) (k h3)).trans
      ((congrArg ((Polymers.BOLTZMANN_CONSTANT : F64 P) * .fin T * ·) (mul_nan (calm_nat _))).trans (mul_nan hkT))
  have k2 : ∀ {mF : F64 P}, mF ≠ .panic → _ := fun h3 =>
    (congrArg ((Polymers.BOLTZMANN_CONSTANT : F64 P) * .fin T * ·) (k h3)).trans (mul_nan hkT)
  have hz : Elem.powi (.fin ℓ : F64 P) 2 ≠ .panic := calm_square (calm_fin _)
  have hy : (Polymers.ZERO : F64 P) * Polymers.BOLTZMANN_CONSTANT * .fin T / .fin ℓ ≠ .panic :=
    calm_div (calm_mul (calm_mul (calm_lit _ _ _) hk) (calm_fin _)) (calm_fin _)
  have g := calm_asymptotic_helmholtz (P := P) (z := .fin c * Elem.powi (.fin ℓ) 2 / (Polymers.BOLTZMANN_CONSTANT : F64 P) / .fin T)
    (w := .fin E / (Polymers.BOLTZMANN_CONSTANT : F64 P) / .fin T)
    (y := Polymers.ZERO * (Polymers.BOLTZMANN_CONSTANT : F64 P) * .fin T / .fin ℓ / (Polymers.BOLTZMANN_CONSTANT : F64 P) / .fin T * .fin ℓ)
    (calm_fin ℓ) (calm_lit 10 true 1) (calm_fin T) (calm_div (calm_div (calm_mul (calm_fin _) hz) hk) (calm_fin _))
    (calm_div (calm_div (calm_fin _) hk) (calm_fin _)) (calm_mul (calm_div (calm_div hy hk) (calm_fin _)) (calm_fin _))
  exact ⟨k1 hm, k2 hm, (congrArg (· - _) (k1 (calm_lit 10 true 1))).trans (nan_sub (calm_mul hkT (calm_mul (calm_nat _) g))),
    (congrArg (· - _) (k2 (calm_lit 10 true 1))).trans (nan_sub (calm_mul hkT g))⟩

/-! ### Concrete cases: twenty links of unit length with the stiffness and the energy 50000 under the nondimensional force 20, or the force 50000, at 300 K -/

example := C106_morse_asymptotic_nondimensional_lengths_above correctlyRounded (N := 20) (by norm_num) (by norm_num) (.fin 1) moderate_one (c := 50000)
  ⟨by norm_num, by norm_num⟩ (E := 50000) ⟨by norm_num, by norm_num⟩ moderate_300 rfl rfl (by unfold Polymers.BOLTZMANN_CONSTANT; constructor <;> norm_num)
  (by unfold Polymers.BOLTZMANN_CONSTANT; norm_num) rfl (by unfold Polymers.BOLTZMANN_CONSTANT; constructor <;> norm_num)
  (by unfold Polymers.BOLTZMANN_CONSTANT; norm_num) (η := 20) ⟨by norm_num, by norm_num⟩
  (above_of_double _ (by norm_num) (by unfold Polymers.BOLTZMANN_CONSTANT; norm_num) (by unfold Polymers.BOLTZMANN_CONSTANT; norm_num))
example := C106_morse_asymptotic_lengths_above correctlyRounded (N := 20) (by norm_num) (by norm_num) (.fin 1) moderate_one (c := 50000)
  ⟨by norm_num, by norm_num⟩ (E := 50000) ⟨by norm_num, by norm_num⟩ (f := 50000) ⟨by norm_num, by norm_num⟩ moderate_300 rfl rfl
  (by unfold Polymers.BOLTZMANN_CONSTANT; constructor <;> norm_num) (by unfold Polymers.BOLTZMANN_CONSTANT; norm_num) rfl
  (by unfold Polymers.BOLTZMANN_CONSTANT; constructor <;> norm_num) (by unfold Polymers.BOLTZMANN_CONSTANT; norm_num) rfl
  (by unfold Polymers.BOLTZMANN_CONSTANT; constructor <;> norm_num)
  (above_of_double _ (by unfold Polymers.BOLTZMANN_CONSTANT; norm_num) (by unfold Polymers.BOLTZMANN_CONSTANT; norm_num)
    (by unfold Polymers.BOLTZMANN_CONSTANT; norm_num))

example := C106_morse_asymptotic_nondimensional_gibbs_above correctlyRounded 20 (calm_fin 1) moderate_one (c := 50000)
  ⟨by norm_num, by norm_num⟩ (E := 50000) ⟨by norm_num, by norm_num⟩ moderate_300 rfl rfl (by unfold Polymers.BOLTZMANN_CONSTANT; constructor <;> norm_num)
  (by unfold Polymers.BOLTZMANN_CONSTANT; norm_num) rfl (by unfold Polymers.BOLTZMANN_CONSTANT; constructor <;> norm_num)
  (by unfold Polymers.BOLTZMANN_CONSTANT; norm_num) (η := 20) ⟨by norm_num, by norm_num⟩
  (above_of_double _ (by norm_num) (by unfold Polymers.BOLTZMANN_CONSTANT; norm_num) (by unfold Polymers.BOLTZMANN_CONSTANT; norm_num)) rfl
example := C106_morse_asymptotic_gibbs_above correctlyRounded 20 (calm_fin 1) moderate_one (c := 50000)
  ⟨by norm_num, by norm_num⟩ (E := 50000) ⟨by norm_num, by norm_num⟩ (f := 50000) ⟨by norm_num, by norm_num⟩ moderate_300 rfl rfl
  (by unfold Polymers.BOLTZMANN_CONSTANT; constructor <;> norm_num) (by unfold Polymers.BOLTZMANN_CONSTANT; norm_num) rfl
  (by unfold Polymers.BOLTZMANN_CONSTANT; constructor <;> norm_num) (by unfold Polymers.BOLTZMANN_CONSTANT; norm_num) rfl
  (by unfold Polymers.BOLTZMANN_CONSTANT; constructor <;> norm_num)
  (above_of_double _ (by unfold Polymers.BOLTZMANN_CONSTANT; norm_num) (by unfold Polymers.BOLTZMANN_CONSTANT; norm_num)
    (by unfold Polymers.BOLTZMANN_CONSTANT; norm_num)) rfl

example := C106_morse_asymptotic_nondimensional_helmholtz_above correctlyRounded 20 (calm_fin 1) moderate_one (c := 50000)
  ⟨by norm_num, by norm_num⟩ (E := 50000) ⟨by norm_num, by norm_num⟩ moderate_300 rfl rfl (by unfold Polymers.BOLTZMANN_CONSTANT; constructor <;> norm_num)
  (by unfold Polymers.BOLTZMANN_CONSTANT; norm_num) rfl (by unfold Polymers.BOLTZMANN_CONSTANT; constructor <;> norm_num)
  (by unfold Polymers.BOLTZMANN_CONSTANT; norm_num) (η := 20) ⟨by norm_num, by norm_num⟩
  (above_of_double _ (by norm_num) (by unfold Polymers.BOLTZMANN_CONSTANT; norm_num) (by unfold Polymers.BOLTZMANN_CONSTANT; norm_num)) rfl
example := C106_morse_asymptotic_helmholtz_above correctlyRounded 20 (calm_fin 1) moderate_one (c := 50000)
  ⟨by norm_num, by norm_num⟩ (E := 50000) ⟨by norm_num, by norm_num⟩ (f := 50000) ⟨by norm_num, by norm_num⟩ moderate_300 rfl rfl
  (by unfold Polymers.BOLTZMANN_CONSTANT; constructor <;> norm_num) (by unfold Polymers.BOLTZMANN_CONSTANT; norm_num) rfl
  (by unfold Polymers.BOLTZMANN_CONSTANT; constructor <;> norm_num) (by unfold Polymers.BOLTZMANN_CONSTANT; norm_num) rfl
  (by unfold Polymers.BOLTZMANN_CONSTANT; constructor <;> norm_num)
  (above_of_double _ (by unfold Polymers.BOLTZMANN_CONSTANT; norm_num) (by unfold Polymers.BOLTZMANN_CONSTANT; norm_num)
    (by unfold Polymers.BOLTZMANN_CONSTANT; norm_num)) rfl

end Polymers.Props
