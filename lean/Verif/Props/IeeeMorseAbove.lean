import Verif.Props.IeeeMorse

/-! C101: above the largest force that the links bear, the lengths of the chain with Morse links are not numbers. -/

namespace Polymers.Props

open Polymers.Ieee Polymers.Spec Polymers.Lemmas

variable {P : Platform} {N : ℕ} {ℓ m c E T f η κ u n r s t : ℝ} {a b : ℤ} {x y z w : F64 P}

local macro:70 a:term:70 " ⊗ " b:term:71 : term => `(Acc.mul $a $b (by norm_num) (by norm_num) (by norm_num))
local macro:70 a:term:70 " ⊘ " b:term:71 : term => `(Acc.div $a $b (by norm_num) (by norm_num) (by norm_num))

/-- The root in the extension of a link. -/
theorem morse_root_above (hq : Acc x t n a b) (hn : n ≤ 13) (h1 : 1 + P.ε * 20 ≤ t) : Elem.sqrt ((1.0 : F64 P) - x) = .nan := by
  obtain ⟨⟨δ, hδ, rfl⟩, -, -⟩ := hq
  have hp := eps_pos P
  have hsm := eps_small P
  have hu := unit_le P
  have hu0 := unit_pos P
  have h2 : |δ| ≤ 14 * P.ε := by nlinarith
  have h3 := Real.add_one_le_exp δ
  have h4 := (abs_le.1 h2).1
  have h5 : P.ε * 5 ≤ t * Real.exp δ - 1 := by
    have : (1 + P.ε * 20) * (1 - 14 * P.ε) ≤ t * Real.exp δ := mul_le_mul h1 (by linarith) (by nlinarith) (by linarith)
    nlinarith
  have h6 := rnd_err' P (1 - t * Real.exp δ)
  generalize t * Real.exp δ = v at *
  have e1 : |1 - v| = v - 1 := by rw [abs_of_neg (by linarith)]; ring
  have h7 : (2 : ℝ) ^ (-1022 : ℤ) ≤ v - 1 := ((two_zpow_mono (by norm_num)).trans P.le_ε).trans (by linarith)
  rw [e1, max_eq_left h7] at h6
  have h8 : P.rnd (1 - v) < 0 := by
    have := (abs_le.1 h6).2
    nlinarith
  rw [lit_one]
  show F64.un _ _ _ (F64.out (P.rnd (1 - v))) = _
  unfold F64.out
  split
  · simp only [F64.un]; rw [if_neg (not_le.2 h8)]
  · rw [decide_eq_true h8]; rfl

theorem nan_of_fin (hy : ∃ v : ℝ, y = .fin v) : y + .nan = (.nan : F64 P) ∧ y * .nan = (.nan : F64 P) ∧ y / .nan = (.nan : F64 P) := by
  obtain ⟨v, rfl⟩ := hy
  exact ⟨rfl, rfl, rfl⟩

theorem _root_.Polymers.Lemmas.Acc.fin (h : Acc x r n a b) : ∃ v : ℝ, x = .fin v := let ⟨_, _, e⟩ := h.rel; ⟨_, e⟩

/-- The nondimensional length per link. -/
theorem morse_length_above (hy : Acc y η n (-100) 100) (h0 : 0 < η) (hn0 : 0 ≤ n) (hn : n ≤ 4) (hz : Acc z κ 7 (-100) 100) (hκ : 0 < κ) (hw : Acc w u 4 (-100) 100)
    (hu : 0 < u) (h1 : 1 + P.ε * 20 ≤ η / morseForceMax κ u) :
    (1.0 : F64 P) / Elem.tanh y - 1.0 / y + Elem.sqrt (2.0 * w / z) * Elem.ln (2.0 / (1.0 + Elem.sqrt (1.0 - y / Elem.sqrt (w * z / 8.0)))) = .nan := by
  have hM : √(u * κ / 8.0) = morseForceMax κ u := by unfold morseForceMax; norm_num
  have p1 := hw ⊗ hz ⊘ acc_eight
  have aM := Acc.sqrt (a := -102) (b := 99) (n := 14) ⟨p1.rel.mono (mul_le_mul_of_nonneg_right (by norm_num) (unit_pos P).le),
    (two_zpow_mono (by norm_num)).trans p1.lo, p1.hi.trans (two_zpow_mono (by norm_num))⟩ (by positivity) (by norm_num) (by norm_num) (by norm_num)
  have at' := Acc.div hy aM (by linarith) (by norm_num) (by norm_num)
  have k := morse_root_above at' (by linarith) (by rw [hM]; exact h1)
  have p2 := acc_two ⊗ hw ⊘ hz
  have aA := Acc.sqrt (a := -101) (b := 101) (n := 14) ⟨p2.rel.mono (mul_le_mul_of_nonneg_right (by norm_num) (unit_pos P).le),
    (two_zpow_mono (by norm_num)).trans p2.lo, p2.hi.trans (two_zpow_mono (by norm_num))⟩ (by positivity) (by norm_num) (by norm_num) (by norm_num)
  obtain ⟨v, hv, -⟩ := (sized_langevin hy h0 hn0 (by linarith) (by norm_num) (by norm_num)).within
  rw [k, (nan_of_fin ⟨_, lit_one⟩).1, (nan_of_fin acc_two.fin).2.2]
  rw [show Elem.ln (.nan : F64 P) = .nan from rfl, (nan_of_fin aA.fin).2.1, (nan_of_fin ⟨v, hv⟩).1]

/-- C101: under a force above the largest force, the nondimensional lengths of the chain with Morse links are not numbers. -/
theorem C101_morse_nondimensional_lengths_above (P : Platform) (hN : 0 < N) (hN' : N ≤ 255) (mF : F64 P) (hℓ : Moderate ℓ) (hc : Moderate c) (hE : Moderate E)
    (hT : Moderate T) {k : ℝ} (hk : k = Polymers.BOLTZMANN_CONSTANT) (hκ : κ = c * ℓ ^ 2 / (k * T)) (hκ' : Moderate κ) (hκ0 : 0 < κ)
    (hu : u = E / (k * T)) (hu' : Moderate u) (hu0 : 0 < u) (hη : Moderate η) (h0 : 0 < η) (h1 : 1 + P.ε * 20 ≤ η / morseForceMax κ u) :
    (ApiF.morse_isotensional_asymptotic_reduced_lengths N (.fin ℓ : F64 P) mF (.fin c) (.fin E)).nd_length (.fin η) (.fin T) = .nan ∧
    (ApiF.morse_isotensional_asymptotic_reduced_lengths N (.fin ℓ : F64 P) mF (.fin c) (.fin E)).nd_length_per_link (.fin η) (.fin T) = .nan := by
  subst hk
  have az := acc_stiffness (P := P) hc hℓ hT
  rw [stiffness_eq hκ] at az
  have k := morse_length_above (acc_moderate (P := P) hη) h0 le_rfl (by norm_num) ⟨az.rel, hκ'.1, hκ'.2⟩ hκ0 (acc_link_energy (P := P) hE hT hu hu') hu0 h1
  exact ⟨(congrArg ((N : F64 P) * ·) k).trans (nan_of_fin (acc_nat hN hN').fin).2.1, k⟩

/-- C101: under a force above the largest force, the lengths of the chain with Morse links are not numbers. -/
theorem C101_morse_lengths_above (P : Platform) (hN : 0 < N) (hN' : N ≤ 255) (mF : F64 P) (hℓ : Moderate ℓ) (hc : Moderate c) (hE : Moderate E)
    (hf : Moderate f) (hT : Moderate T) {k : ℝ} (hk : k = Polymers.BOLTZMANN_CONSTANT) (hκ : κ = c * ℓ ^ 2 / (k * T)) (hκ' : Moderate κ) (hκ0 : 0 < κ)
    (hu : u = E / (k * T)) (hu' : Moderate u) (hu0 : 0 < u) (hη : η = f * ℓ / (k * T)) (hη' : Moderate η) (h0 : 0 < η)
    (h1 : 1 + P.ε * 20 ≤ η / morseForceMax κ u) :
    (ApiF.morse_isotensional_asymptotic_reduced_lengths N (.fin ℓ : F64 P) mF (.fin c) (.fin E)).length (.fin f) (.fin T) = .nan ∧
    (ApiF.morse_isotensional_asymptotic_reduced_lengths N (.fin ℓ : F64 P) mF (.fin c) (.fin E)).length_per_link (.fin f) (.fin T) = .nan := by
  subst hk
  have az := acc_stiffness (P := P) hc hℓ hT
  rw [stiffness_eq hκ] at az
  have ay := acc_moderate (P := P) hf ⊗ acc_moderate hℓ ⊘ acc_boltzmann ⊘ acc_moderate hT
  rw [show f * ℓ / (Polymers.BOLTZMANN_CONSTANT : ℝ) / T = η by rw [hη, div_div]] at ay
  have k := morse_length_above (n := 4) ⟨ay.rel.mono (mul_le_mul_of_nonneg_right (by norm_num) (unit_pos P).le), hη'.1, hη'.2⟩ h0 (by norm_num)
    le_rfl ⟨az.rel, hκ'.1, hκ'.2⟩ hκ0 (acc_link_energy (P := P) hE hT hu hu') hu0 h1
  exact ⟨(congrArg (fun v => (.fin ℓ : F64 P) * ((N : F64 P) * v)) k).trans
    ((congrArg ((.fin ℓ : F64 P) * ·) (nan_of_fin (acc_nat hN hN').fin).2.1).trans (nan_of_fin ⟨ℓ, rfl⟩).2.1),
    (congrArg ((.fin ℓ : F64 P) * ·) k).trans (nan_of_fin ⟨ℓ, rfl⟩).2.1⟩

/-! ### Concrete cases: twenty links of unit length with the stiffness and the energy 50000 under the nondimensional force 20, or the force 50000, at 300 K -/

/-- A force of at least twice the largest force is far enough from it. -/
theorem above_of_double (P : Platform) (hη : 0 ≤ η) (h0 : 0 < u * κ / 8) (h : u * κ / 8 ≤ (η / 2) ^ 2) : 1 + P.ε * 20 ≤ η / morseForceMax κ u := by
  have h1 := eps_small P
  have h2 : morseForceMax κ u ≤ η / 2 := (Real.sqrt_le_left (by positivity)).2 h
  have h3 : 0 < morseForceMax κ u := Real.sqrt_pos.2 h0
  have h4 : 2 ≤ η / morseForceMax κ u := by rw [le_div_iff₀ h3]; linarith
  linarith

example := C101_morse_nondimensional_lengths_above correctlyRounded (N := 20) (by norm_num) (by norm_num) (.fin 1) moderate_one (c := 50000)
  ⟨by norm_num, by norm_num⟩ (E := 50000) ⟨by norm_num, by norm_num⟩ moderate_300 rfl rfl (by unfold Polymers.BOLTZMANN_CONSTANT; constructor <;> norm_num)
  (by unfold Polymers.BOLTZMANN_CONSTANT; norm_num) rfl (by unfold Polymers.BOLTZMANN_CONSTANT; constructor <;> norm_num)
  (by unfold Polymers.BOLTZMANN_CONSTANT; norm_num) (η := 20) ⟨by norm_num, by norm_num⟩ (by norm_num)
  (above_of_double _ (by norm_num) (by unfold Polymers.BOLTZMANN_CONSTANT; norm_num) (by unfold Polymers.BOLTZMANN_CONSTANT; norm_num))
example := C101_morse_lengths_above correctlyRounded (N := 20) (by norm_num) (by norm_num) (.fin 1) moderate_one (c := 50000)
  ⟨by norm_num, by norm_num⟩ (E := 50000) ⟨by norm_num, by norm_num⟩ (f := 50000) ⟨by norm_num, by norm_num⟩ moderate_300 rfl rfl
  (by unfold Polymers.BOLTZMANN_CONSTANT; constructor <;> norm_num) (by unfold Polymers.BOLTZMANN_CONSTANT; norm_num) rfl
  (by unfold Polymers.BOLTZMANN_CONSTANT; constructor <;> norm_num) (by unfold Polymers.BOLTZMANN_CONSTANT; norm_num) rfl
  (by unfold Polymers.BOLTZMANN_CONSTANT; constructor <;> norm_num) (by unfold Polymers.BOLTZMANN_CONSTANT; norm_num)
  (above_of_double _ (by unfold Polymers.BOLTZMANN_CONSTANT; norm_num) (by unfold Polymers.BOLTZMANN_CONSTANT; norm_num)
    (by unfold Polymers.BOLTZMANN_CONSTANT; norm_num))

end Polymers.Props
