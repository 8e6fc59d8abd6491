import Verif.Props.MorseLegendre
import Verif.Props.DefinedMorse
import Verif.Props.DefinedEfjcAlternative
import Verif.Props.DefinedWlcIsotensional

/-! Definedness (C56) of the Morse-FJC model at fixed extension. -/

namespace Polymers.Props

open Polymers.Spec Polymers.SReal Polymers.Lemmas

set_option maxHeartbeats 1000000

/-- What holds at the start and is kept by the steps holds for the result. -/
theorem powered_mem {S : ℝ → Prop} {f fp : ℝ → ℝ} {y tol : ℝ} {p : ℕ} (hroot : ∀ x, S x → f x ≠ y)
    (hstep : ∀ x, S x → S (newtonStep y f fp p x)) {guess : ℝ} (h : S guess) (n : ℕ) :
    S (math.inverse_newton_raphson_powered y f fp guess tol n p) := by
  rw [math.inverse_newton_raphson_powered]
  generalize (1.0 : ℝ) = r
  induction n generalizing guess r with
  | zero => exact h
  | succ n ih =>
    rw [math.inverse_newton_raphson_powered_loop]
    split_ifs
    · simp only [powered_step y f fp p (hroot _ h)]
      exact ih (hstep _ h) _
    · exact h

theorem powered_step_val {y z v d : ℝ} (hv : v ≠ y) :
    z + -(Elem.powi (v - y) ((4 : ℕ) : ℤ)) / Elem.powi (v - y) (((4 : ℕ) : ℤ) - 1) / d / ((4 : ℕ) : ℝ) =
      newtonStep y (fun _ => v) (fun _ => d) 4 z :=
  powered_step y (fun _ => v) (fun _ => d) 4 (x := z) hv

/-- The forces between the solution and the largest force which the search visits. -/
def MorseOk (C : ℝ → ℝ) (a M γ x : ℝ) : Prop :=
  0 < x ∧ x < M ∧ langevin x ≤ γ ∧ γ < langevin x + C x + morsePsi a M x

theorem MorseOk.step {C C' f fp : ℝ → ℝ} {a M γ x : ℝ} (hC : GoodCorr C C' M) (ha : 0 < a) (h : MorseOk C a M γ x)
    (hf : f x = langevin x + C x + morsePsi a M x)
    (hfp : fp x = 1 / x ^ 2 - 1 / Real.sinh x ^ 2 + C' x + morsePsi' a M x) : MorseOk C a M γ (newtonStep γ f fp 4 x) := by
  obtain ⟨h1, h2, h3, h4⟩ := h
  obtain ⟨s1, s2, s3, s4, -⟩ := morse_quarter_step hC ha h1 h2 h3 h4 (z := newtonStep γ f fp 4 x)
    (by rw [newtonStep, hf, hfp])
  exact ⟨by linarith, by linarith, s3, s4⟩

/-- The extensions of the theorems below: those which the Langevin function reaches below the largest force `M`, and the
others up to the extension `top` at 95% of the largest force. -/
def MorseExt (M top γ : ℝ) : Prop :=
  0 < γ ∧ (γ < langevin M ∨ (1.000002 * langevin M ≤ γ ∨ 1 ≤ γ) ∧ γ < top)

theorem morse_ext_guess {C C' : ℝ → ℝ} {a M κ γ : ℝ} (hC : GoodCorr C C' M) (ha : 0 < a) (hM : 0 < M) (hκ : 4 * a * M = κ)
    (hκ6 : κ ≤ 1000000) (h : MorseExt M (langevin (19 / 20 * M) + C (19 / 20 * M) + morsePsi a M (19 / 20 * M)) γ) {x : ℝ}
    (hx : x = if M < (if γ < 1 then math.inverse_langevin γ else 19 / 20 * M) then 19 / 20 * M else
      if γ < 1 then math.inverse_langevin γ else 19 / 20 * M) : MorseOk C a M γ x := by
  have e : (1.000002 : ℝ) = 1000002 / 1000000 := by norm_num
  rw [MorseExt, e] at h
  obtain ⟨g1, g2, g3, g4, -⟩ := morse_guess hC ha hM hκ h.1 (h.2.imp (fun h => ⟨h, hκ6⟩) id) hx
  exact ⟨g1, g2, g3, g4⟩

section leaves

variable {x κ' ε' : SReal} {r κ ε : ℝ}

theorem morse_reduced_force_mem (hκ : 0 < κ) (hε : 0 < ε) (h6 : κ ≤ 1000000) (h : MorseExt (morseMax κ ε)
      (langevin (19 / 20 * morseMax κ ε) + 0 + morsePsi (morseA κ ε) (morseMax κ ε) (19 / 20 * morseMax κ ε)) r) :
    MorseOk (fun _ => 0) (morseA κ ε) (morseMax κ ε) r (ufjc.morse.thermodynamics.isometric.asymptotic.reduced.legendre.nondimensional_force κ ε r) := by
  have hM := morseMax_pos hκ hε
  have ha := morseA_pos hκ hε
  have hM' : √(ε * κ / 8) = morseMax κ ε := rfl
  have ha' : √(κ / ε / 2) = morseA κ ε := rfl
  simp only [ufjc.morse.thermodynamics.isometric.asymptotic.reduced.legendre.nondimensional_force, model_real, hM', ha']
  generalize hg : (if morseMax κ ε < (if r < 1 then math.inverse_langevin r else 19 / 20 * morseMax κ ε) then
    19 / 20 * morseMax κ ε else if r < 1 then math.inverse_langevin r else 19 / 20 * morseMax κ ε) = x0
  have hok := morse_ext_guess (goodCorr_zero _) ha hM (morse_four hκ hε) h6 h hg.symm
  refine powered_mem (fun z hz => ?_) (fun z hz => ?_) hok 100
  · have := hz.2.2.2
    simp only [langevin, morsePsi, add_zero] at this ⊢
    exact this.ne'
  · refine hz.step (goodCorr_zero _) ha ?_ ?_
    · simp only [langevin, morsePsi, add_zero]
    · simp only [morsePsi', add_zero, morse_slope hM hz.2.1]

theorem _root_.Polymers.SReal.Is.morse_reduced_force (hκ' : Is κ' κ) (hε' : Is ε' ε) (hx : Is x r) (hκ : 0 < κ) (hε : 0 < ε) (h6 : κ ≤ 1000000)
    (h : MorseExt (morseMax κ ε)
      (langevin (19 / 20 * morseMax κ ε) + 0 + morsePsi (morseA κ ε) (morseMax κ ε) (19 / 20 * morseMax κ ε)) r) :
    Is (ufjc.morse.thermodynamics.isometric.asymptotic.reduced.legendre.nondimensional_force κ' ε' x)
      (ufjc.morse.thermodynamics.isometric.asymptotic.reduced.legendre.nondimensional_force κ ε r) := by
  have hM := morseMax_pos hκ hε
  have ha := morseA_pos hκ hε
  have hM' : √(ε * κ / 8) = morseMax κ ε := rfl
  have ha' : √(κ / ε / 2) = morseA κ ε := rfl
  have e1 : (1.0 : ℝ) = 1 := by norm_num
  have hg1 : Is (if Elem.lt x 1.0 = true then math.inverse_langevin x else 0.95 * Elem.sqrt (ε' * κ' / 8.0))
      (if Elem.lt r 1.0 = true then math.inverse_langevin r else 0.95 * Elem.sqrt (ε * κ / 8.0)) :=
    Is.ite_lt hx (Is.lit _ _ _) (fun h1 => Is.inverse_langevin hx ⟨h.1, by rwa [e1] at h1⟩) (fun _ => by defined [hx, hκ', hε'])
  have hmax : Is (Elem.sqrt (ε' * κ' / 8.0)) (Elem.sqrt (ε * κ / 8.0)) := by defined [hx, hκ', hε']
  have hok := morse_ext_guess (goodCorr_zero _) ha hM (morse_four hκ hε) h6 h rfl
  have harg : ∀ z, z < morseMax κ ε → 0 < 1.0 - z / Elem.sqrt (ε * κ / 8.0) := fun z hz =>
    morse_arg_pos hκ hε (by rw [← morseMax_code]; exact hz)
  have hden : ∀ z, z < morseMax κ ε → Elem.sqrt (ε * κ / 8.0) * (Elem.sqrt (1.0 - z / Elem.sqrt (ε * κ / 8.0)) + 1.0) - z ≠ 0 := by
    intro z hz
    simp only [model_real, hM']
    obtain ⟨hs, hs2⟩ := morse_s hM hz
    have e : z = morseMax κ ε * (1 - √(1 - z / morseMax κ ε) ^ 2) := by rw [hs2]; field_simp; ring
    have e2 : morseMax κ ε * (√(1 - z / morseMax κ ε) + 1) - z =
        morseMax κ ε * √(1 - z / morseMax κ ε) * (1 + √(1 - z / morseMax κ ε)) := by
      nth_rewrite 2 [e]; ring
    rw [e2]
    positivity
  refine Is.newton_powered (S := MorseOk (fun _ => 0) (morseA κ ε) (morseMax κ ε) r) rfl rfl (by norm_num) hx h.1.ne'
    (Is.ite_lt hmax hg1 (fun _ => by defined [hx, hκ', hε']) (fun _ => hg1)) (Is.lit _ _ _)
    (fun z hz => ?_) (fun z hz => ?_) (fun z hz => ?_) (fun z hz => ?_) (fun z hz => ?_) ?_
  · have hz0 := hz.1
    have hs := harg z hz.2.1
    defined [hκ', hε']
  · have hz0 := hz.1
    have hs := harg z hz.2.1
    have hd := hden z hz.2.1
    defined [hκ', hε']
  · have hd := langevin_deriv_pos hz.1.ne'
    have h2 := (goodCorr_zero _).slope z hz.1 hz.2.1
    have h3 := morsePsi'_pos ha hM hz.2.1
    have h4 : 0 < 1 / z ^ 2 - 1 / Real.sinh z ^ 2 + 0 + morsePsi' (morseA κ ε) (morseMax κ ε) z := by linarith
    simp only [morsePsi', morse_slope hM hz.2.1, add_zero] at h4
    simp only [model_real, hM', ha']
    exact h4.ne'
  · have := hz.2.2.2
    simp only [langevin, morsePsi, add_zero] at this
    simp only [model_real, hM', ha']
    exact (sub_pos.2 this).ne'
  · rw [powered_step_val]
    · refine hz.step (goodCorr_zero _) ha ?_ ?_
      · simp only [model_real, hM', ha', langevin, morsePsi, add_zero]
      · simp only [model_real, hM', ha', morsePsi', add_zero, morse_slope hM hz.2.1]
    · have := hz.2.2.2
      simp only [langevin, morsePsi, add_zero] at this
      simp only [model_real, hM', ha']
      exact this.ne'
  · simpa only [model_real, hM', ha'] using hok

theorem _root_.Polymers.SReal.Is.morse_reduced_energy {N : ℕ} {ℓ m T : ℝ} {ℓ' m' T' : SReal} (hN : 0 < N)
    (Hℓ : Is ℓ' ℓ) (Hm : Is m' m) (HT : Is T' T) (hℓ : 0 < ℓ) (hm : 0 < m) (hT : 0 < T) (hκ' : Is κ' κ) (hε' : Is ε' ε) (hx : Is x r)
    (hκ : 0 < κ) (hε : 0 < ε) (h6 : κ ≤ 1000000) (h : MorseExt (morseMax κ ε)
      (langevin (19 / 20 * morseMax κ ε) + 0 + morsePsi (morseA κ ε) (morseMax κ ε) (19 / 20 * morseMax κ ε)) r) :
    Is (ufjc.morse.thermodynamics.isometric.asymptotic.reduced.legendre.nondimensional_helmholtz_free_energy_per_link N ℓ' m' κ' ε' x T')
      (ufjc.morse.thermodynamics.isometric.asymptotic.reduced.legendre.nondimensional_helmholtz_free_energy_per_link N ℓ m κ ε r T) := by
  have hN' : (0 : ℝ) < N := Nat.cast_pos.2 hN
  obtain ⟨hp, hp', -, -⟩ := morse_reduced_force_mem hκ hε h6 h
  have hs := morse_arg_pos hκ hε (by rw [← morseMax_code]; exact hp')
  defined [hx, hκ', hε', Hℓ, Hm, HT, Is.morse_reduced_force hκ' hε' hx hκ hε h6 h]

theorem morse_asymptotic_force_mem (hκ : 0 < κ) (hε : 0 < ε) (h1 : ε ≤ κ) (h6 : κ ≤ 1000000) (h : MorseExt (morseMax κ ε)
      (langevin (19 / 20 * morseMax κ ε) + asyC (1 / (1 + 3 / 2 * morseA κ ε) * κ) (19 / 20 * morseMax κ ε) + morsePsi (morseA κ ε) (morseMax κ ε) (19 / 20 * morseMax κ ε)) r) :
    MorseOk (asyC (1 / (1 + 3 / 2 * morseA κ ε) * κ)) (morseA κ ε) (morseMax κ ε) r (ufjc.morse.thermodynamics.isometric.asymptotic.legendre.nondimensional_force κ ε r) := by
  have hM := morseMax_pos hκ hε
  have ha := morseA_pos hκ hε
  have hM' : √(ε * κ / 8) = morseMax κ ε := rfl
  have ha' : √(κ / ε / 2) = morseA κ ε := rfl
  have hc : 0 < 1 / (1 + 3 / 2 * morseA κ ε) := by positivity
  simp only [ufjc.morse.thermodynamics.isometric.asymptotic.legendre.nondimensional_force, model_real, hM', ha']
  generalize hg : (if morseMax κ ε < (if r < 1 then math.inverse_langevin r else 19 / 20 * morseMax κ ε) then
    19 / 20 * morseMax κ ε else if r < 1 then math.inverse_langevin r else 19 / 20 * morseMax κ ε) = x0
  have hok := morse_ext_guess (morse_corr hε h1) ha hM (morse_four hκ hε) h6 h hg.symm
  refine powered_mem (fun z hz => ?_) (fun z hz => ?_) hok 100
  · have := hz.2.2.2
    simp only [langevin, morsePsi, corr_code hc hκ hz.1] at this ⊢
    exact this.ne'
  · refine hz.step (morse_corr hε h1) ha ?_ ?_
    · simp only [langevin, morsePsi, corr_code hc hκ hz.1]
    · simp only [morsePsi', morse_slope hM hz.2.1, corr_slope_code hc hκ hz.1]

theorem _root_.Polymers.SReal.Is.morse_asymptotic_force (hκ' : Is κ' κ) (hε' : Is ε' ε) (hx : Is x r) (hκ : 0 < κ) (hε : 0 < ε) (h1 : ε ≤ κ) (h6 : κ ≤ 1000000)
    (h : MorseExt (morseMax κ ε)
      (langevin (19 / 20 * morseMax κ ε) + asyC (1 / (1 + 3 / 2 * morseA κ ε) * κ) (19 / 20 * morseMax κ ε) + morsePsi (morseA κ ε) (morseMax κ ε) (19 / 20 * morseMax κ ε)) r) :
    Is (ufjc.morse.thermodynamics.isometric.asymptotic.legendre.nondimensional_force κ' ε' x)
      (ufjc.morse.thermodynamics.isometric.asymptotic.legendre.nondimensional_force κ ε r) := by
  have hM := morseMax_pos hκ hε
  have ha := morseA_pos hκ hε
  have hM' : √(ε * κ / 8) = morseMax κ ε := rfl
  have ha' : √(κ / ε / 2) = morseA κ ε := rfl
  have hc : 0 < 1 / (1 + 3 / 2 * morseA κ ε) := by positivity
  have e1 : (1.0 : ℝ) = 1 := by norm_num
  have hg1 : Is (if Elem.lt x 1.0 = true then math.inverse_langevin x else 0.95 * Elem.sqrt (ε' * κ' / 8.0))
      (if Elem.lt r 1.0 = true then math.inverse_langevin r else 0.95 * Elem.sqrt (ε * κ / 8.0)) :=
    Is.ite_lt hx (Is.lit _ _ _) (fun h1 => Is.inverse_langevin hx ⟨h.1, by rwa [e1] at h1⟩) (fun _ => by defined [hx, hκ', hε'])
  have hmax : Is (Elem.sqrt (ε' * κ' / 8.0)) (Elem.sqrt (ε * κ / 8.0)) := by defined [hx, hκ', hε']
  have hok := morse_ext_guess (morse_corr hε h1) ha hM (morse_four hκ hε) h6 h rfl
  have harg : ∀ z, z < morseMax κ ε → 0 < 1.0 - z / Elem.sqrt (ε * κ / 8.0) := fun z hz =>
    morse_arg_pos hκ hε (by rw [← morseMax_code]; exact hz)
  have hden : ∀ z, z < morseMax κ ε → Elem.sqrt (ε * κ / 8.0) * (Elem.sqrt (1.0 - z / Elem.sqrt (ε * κ / 8.0)) + 1.0) - z ≠ 0 := by
    intro z hz
    simp only [model_real, hM']
    obtain ⟨hs, hs2⟩ := morse_s hM hz
    have e : z = morseMax κ ε * (1 - √(1 - z / morseMax κ ε) ^ 2) := by rw [hs2]; field_simp; ring
    have e2 : morseMax κ ε * (√(1 - z / morseMax κ ε) + 1) - z =
        morseMax κ ε * √(1 - z / morseMax κ ε) * (1 + √(1 - z / morseMax κ ε)) := by
      nth_rewrite 2 [e]; ring
    rw [e2]
    positivity
  refine Is.newton_powered (S := MorseOk (asyC (1 / (1 + 3 / 2 * morseA κ ε) * κ)) (morseA κ ε) (morseMax κ ε) r) rfl rfl (by norm_num) hx h.1.ne'
    (Is.ite_lt hmax hg1 (fun _ => by defined [hx, hκ', hε']) (fun _ => hg1)) (Is.lit _ _ _)
    (fun z hz => ?_) (fun z hz => ?_) (fun z hz => ?_) (fun z hz => ?_) (fun z hz => ?_) ?_
  · have hz0 := hz.1
    have hs := harg z hz.2.1
    defined [hκ', hε']
  · have hz0 := hz.1
    have hs := harg z hz.2.1
    have hd := hden z hz.2.1
    defined [hκ', hε']
  · have hd := langevin_deriv_pos hz.1.ne'
    have h2 := (morse_corr hε h1).slope z hz.1 hz.2.1
    have h3 := morsePsi'_pos ha hM hz.2.1
    have h4 : 0 < 1 / z ^ 2 - 1 / Real.sinh z ^ 2 + asyC' (1 / (1 + 3 / 2 * morseA κ ε) * κ) z + morsePsi' (morseA κ ε) (morseMax κ ε) z := by linarith
    simp only [morsePsi', morse_slope hM hz.2.1] at h4
    simp only [model_real, hM', ha', corr_slope_code hc hκ hz.1]
    exact h4.ne'
  · have := hz.2.2.2
    simp only [langevin, morsePsi] at this
    simp only [model_real, hM', ha', corr_code hc hκ hz.1]
    exact (sub_pos.2 this).ne'
  · rw [powered_step_val]
    · refine hz.step (morse_corr hε h1) ha ?_ ?_
      · simp only [model_real, hM', ha', langevin, morsePsi, corr_code hc hκ hz.1]
      · simp only [model_real, hM', ha', morsePsi', morse_slope hM hz.2.1, corr_slope_code hc hκ hz.1]
    · have := hz.2.2.2
      simp only [langevin, morsePsi] at this
      simp only [model_real, hM', ha', corr_code hc hκ hz.1]
      exact this.ne'
  · simpa only [model_real, hM', ha'] using hok

theorem _root_.Polymers.SReal.Is.morse_asymptotic_energy {N : ℕ} {ℓ m T : ℝ} {ℓ' m' T' : SReal} (hN : 0 < N)
    (Hℓ : Is ℓ' ℓ) (Hm : Is m' m) (HT : Is T' T) (hℓ : 0 < ℓ) (hm : 0 < m) (hT : 0 < T) (hκ' : Is κ' κ) (hε' : Is ε' ε) (hx : Is x r)
    (hκ : 0 < κ) (hε : 0 < ε) (h1 : ε ≤ κ) (h6 : κ ≤ 1000000) (h : MorseExt (morseMax κ ε)
      (langevin (19 / 20 * morseMax κ ε) + asyC (1 / (1 + 3 / 2 * morseA κ ε) * κ) (19 / 20 * morseMax κ ε) + morsePsi (morseA κ ε) (morseMax κ ε) (19 / 20 * morseMax κ ε)) r) :
    Is (ufjc.morse.thermodynamics.isometric.asymptotic.legendre.nondimensional_helmholtz_free_energy_per_link N ℓ' m' κ' ε' x T')
      (ufjc.morse.thermodynamics.isometric.asymptotic.legendre.nondimensional_helmholtz_free_energy_per_link N ℓ m κ ε r T) := by
  have hN' : (0 : ℝ) < N := Nat.cast_pos.2 hN
  obtain ⟨hp, hp', -, -⟩ := morse_asymptotic_force_mem hκ hε h1 h6 h
  have hs := morse_arg_pos hκ hε (by rw [← morseMax_code]; exact hp')
  defined [hx, hκ', hε', Hℓ, Hm, HT, Is.morse_asymptotic_force hκ' hε' hx hκ hε h1 h6 h]

end leaves

/-- The parameters and extensions of the theorems below for the reduced asymptotic approach. -/
def MorseReducedDomain (N : ℕ) (ℓ m k ε y T : ℝ) : Prop :=
  ndStiffness k ℓ T ≤ 1000000 ∧ 1e-6 < langevin √(ndEnergy ε T * ndStiffness k ℓ T / 8) ∧
  MorseExt √(ndEnergy ε T * ndStiffness k ℓ T / 8)
    ((Api.morse_isotensional_asymptotic_reduced_lengths N ℓ m k ε).nd_length_per_link (19 / 20 * √(ndEnergy ε T * ndStiffness k ℓ T / 8)) T) y

theorem MorseReducedDomain.ext {N : ℕ} {ℓ m k ε y T : ℝ} (h : MorseReducedDomain N ℓ m k ε y T) (hℓ : 0 < ℓ) (hk : 0 < k)
    (hε : 0 < ε) (hT : 0 < T) {r : ℝ} (hr : r = y ∨ r = (ZERO : ℝ)) :
    MorseExt (morseMax (ndStiffness k ℓ T) (ndEnergy ε T))
      (langevin (19 / 20 * morseMax (ndStiffness k ℓ T) (ndEnergy ε T)) + 0 +
        morsePsi (morseA (ndStiffness k ℓ T) (ndEnergy ε T)) (morseMax (ndStiffness k ℓ T) (ndEnergy ε T))
          (19 / 20 * morseMax (ndStiffness k ℓ T) (ndEnergy ε T))) r := by
  rcases hr with rfl | rfl
  · have h4 := h.2.2
    rwa [morse_reduced_length_eq N hℓ hk hε hT (η := 19 / 20 * √(ndEnergy ε T * ndStiffness k ℓ T / 8))
      (mul_pos (by norm_num) (morseMax_pos (ndStiffness_pos hk hℓ hT) (ndEnergy_pos hε hT)))] at h4
  · exact ⟨fjc_zero_mem.1, .inl h.2.1⟩

/-- A chain at 300 K and half extension is in the domain. -/
example : MorseReducedDomain 8 1 1 50000 20000 (1 / 2) 300 := by
  obtain ⟨h1, h2, h3, h4, h5⟩ := morse_sample 0
  have hM : (0 : ℝ) < √(ndEnergy 20000 300 * ndStiffness 50000 1 300 / 8) :=
    morseMax_pos (ndStiffness_pos (by norm_num) (by norm_num) (by norm_num)) (ndEnergy_pos (by norm_num) (by norm_num))
  have hle : langevin (19 / 20 * √(ndEnergy 20000 300 * ndStiffness 50000 1 300 / 8)) <
      langevin √(ndEnergy 20000 300 * ndStiffness 50000 1 300 / 8) :=
    langevin_strictMonoOn (Set.mem_Ioi.2 (by positivity)) (Set.mem_Ioi.2 hM) (by linarith)
  have h7 : 1 / 2 ≤ langevin (19 / 20 * √(ndEnergy 20000 300 * ndStiffness 50000 1 300 / 8)) :=
    h5.resolve_right fun h => by linarith [h.2]
  refine ⟨h3, ?_, h4, .inl (by linarith)⟩
  refine lt_of_lt_of_le (by norm_num : (1e-6 : ℝ) < 1 / 2) ?_
  linarith

/-- C56: every method of the family is defined on the stated extensions. -/
theorem C56_morse_isometric_asymptotic_reduced_legendre_helmholtz {N : ℕ} (hN : 0 < N) {ℓ m k ε : ℝ} (hℓ : 0 < ℓ) (hm : 0 < m) (hk : 0 < k) (hε : 0 < ε) :
    (ApiS.morse_isometric_asymptotic_reduced_legendre_helmholtz N ℓ m k ε).DefinedAs (Api.morse_isometric_asymptotic_reduced_legendre_helmholtz N ℓ m k ε) (fun ξ _ => ξ / (N * ℓ))
      (MorseReducedDomain N ℓ m k ε) := by
  have hN' : (0 : ℝ) < N := Nat.cast_pos.2 (by omega)
  have eN : (ZERO : ℝ) * N * ℓ / (N * ℓ) = ZERO := by field_simp
  constructor <;> intro x T hT hD <;> refine (?_ : Is _ _)
  all_goals
    have h6 := hD.1
    have hE := fun r hr => hD.ext hℓ hk hε hT (r := r) hr
    rw [Props.ndStiffness_code] at h6
    simp only [Props.ndStiffness_code, Props.ndEnergy_code] at hE
    defined [Is.morse_reduced_energy (by first | exact hN | norm_num) ?_ ?_ ?_ ?_ ?_ ?_ ?_ ?_ ?_ ?_ ?_ h6 (hE _ (by first | exact .inl rfl | exact .inr rfl | exact .inr eN | (rw [div_div]; first | exact .inl rfl | exact .inr eN)))]

example : (ApiS.morse_isometric_asymptotic_reduced_legendre_helmholtz 8 1 1 50000 20000).DefinedAs (Api.morse_isometric_asymptotic_reduced_legendre_helmholtz 8 1 1 50000 20000) (fun ξ _ => ξ / ((8 : ℕ) * 1))
    (MorseReducedDomain 8 1 1 50000 20000) :=
  C56_morse_isometric_asymptotic_reduced_legendre_helmholtz (N := 8) (m := 1) (by norm_num) (by norm_num) (by norm_num) (by norm_num) (by norm_num)

/-- C56: every method of the family is defined on the stated extensions. -/
theorem C56_morse_isometric_asymptotic_reduced_legendre_forces {N : ℕ} (hN : 0 < N) {ℓ m k ε : ℝ} (hℓ : 0 < ℓ) (hk : 0 < k) (hε : 0 < ε) :
    (ApiS.morse_isometric_asymptotic_reduced_legendre_forces N ℓ m k ε).DefinedAs (Api.morse_isometric_asymptotic_reduced_legendre_forces N ℓ m k ε) (fun ξ _ => ξ / (N * ℓ))
      (MorseReducedDomain N ℓ m k ε) := by
  have hN' : (0 : ℝ) < N := Nat.cast_pos.2 (by omega)
  have eN : (ZERO : ℝ) * N * ℓ / (N * ℓ) = ZERO := by field_simp
  constructor <;> intro x T hT hD <;> refine (?_ : Is _ _)
  all_goals
    have h6 := hD.1
    have hE := fun r hr => hD.ext hℓ hk hε hT (r := r) hr
    rw [Props.ndStiffness_code] at h6
    simp only [Props.ndStiffness_code, Props.ndEnergy_code] at hE
    defined [Is.morse_reduced_force ?_ ?_ ?_ ?_ ?_ h6 (hE _ (by first | exact .inl rfl | exact .inr rfl | exact .inr eN | (rw [div_div]; first | exact .inl rfl | exact .inr eN)))]

example : (ApiS.morse_isometric_asymptotic_reduced_legendre_forces 8 1 1 50000 20000).DefinedAs (Api.morse_isometric_asymptotic_reduced_legendre_forces 8 1 1 50000 20000) (fun ξ _ => ξ / ((8 : ℕ) * 1))
    (MorseReducedDomain 8 1 1 50000 20000) :=
  C56_morse_isometric_asymptotic_reduced_legendre_forces (N := 8) (m := 1) (by norm_num) (by norm_num) (by norm_num) (by norm_num)

/-- The parameters and extensions of the theorems below for the asymptotic approach. -/
def MorseAsymptoticDomain (N : ℕ) (ℓ m k ε y T : ℝ) : Prop :=
  ndEnergy ε T ≤ ndStiffness k ℓ T ∧ ndStiffness k ℓ T ≤ 1000000 ∧ 1e-6 < langevin √(ndEnergy ε T * ndStiffness k ℓ T / 8) ∧
  MorseExt √(ndEnergy ε T * ndStiffness k ℓ T / 8)
    ((Api.morse_isotensional_asymptotic_lengths N ℓ m k ε).nd_length_per_link (19 / 20 * √(ndEnergy ε T * ndStiffness k ℓ T / 8)) T) y

theorem MorseAsymptoticDomain.ext {N : ℕ} {ℓ m k ε y T : ℝ} (h : MorseAsymptoticDomain N ℓ m k ε y T) (hℓ : 0 < ℓ) (hk : 0 < k)
    (hε : 0 < ε) (hT : 0 < T) {r : ℝ} (hr : r = y ∨ r = (ZERO : ℝ)) :
    MorseExt (morseMax (ndStiffness k ℓ T) (ndEnergy ε T))
      (langevin (19 / 20 * morseMax (ndStiffness k ℓ T) (ndEnergy ε T)) + asyC (1 / (1 + 3 / 2 * morseA (ndStiffness k ℓ T) (ndEnergy ε T)) * ndStiffness k ℓ T) (19 / 20 * morseMax (ndStiffness k ℓ T) (ndEnergy ε T)) +
        morsePsi (morseA (ndStiffness k ℓ T) (ndEnergy ε T)) (morseMax (ndStiffness k ℓ T) (ndEnergy ε T))
          (19 / 20 * morseMax (ndStiffness k ℓ T) (ndEnergy ε T))) r := by
  rcases hr with rfl | rfl
  · have h4 := h.2.2.2
    rwa [morse_asymptotic_length_eq N hℓ hk hε hT (η := 19 / 20 * √(ndEnergy ε T * ndStiffness k ℓ T / 8))
      (mul_pos (by norm_num) (morseMax_pos (ndStiffness_pos hk hℓ hT) (ndEnergy_pos hε hT)))] at h4
  · exact ⟨fjc_zero_mem.1, .inl h.2.2.1⟩

/-- A chain at 300 K and half extension is in the domain. -/
example : MorseAsymptoticDomain 8 1 1 50000 20000 (1 / 2) 300 := by
  obtain ⟨h1, h2, h3, h4, h5⟩ := morse_sample 0
  have hM : (0 : ℝ) < √(ndEnergy 20000 300 * ndStiffness 50000 1 300 / 8) :=
    morseMax_pos (ndStiffness_pos (by norm_num) (by norm_num) (by norm_num)) (ndEnergy_pos (by norm_num) (by norm_num))
  have hle : langevin (19 / 20 * √(ndEnergy 20000 300 * ndStiffness 50000 1 300 / 8)) <
      langevin √(ndEnergy 20000 300 * ndStiffness 50000 1 300 / 8) :=
    langevin_strictMonoOn (Set.mem_Ioi.2 (by positivity)) (Set.mem_Ioi.2 hM) (by linarith)
  have h7 : 1 / 2 ≤ langevin (19 / 20 * √(ndEnergy 20000 300 * ndStiffness 50000 1 300 / 8)) :=
    h5.resolve_right fun h => by linarith [h.2]
  refine ⟨h1, h3, ?_, h4, .inl (by linarith)⟩
  refine lt_of_lt_of_le (by norm_num : (1e-6 : ℝ) < 1 / 2) ?_
  linarith

/-- C56: every method of the family is defined on the stated extensions. -/
theorem C56_morse_isometric_asymptotic_legendre_helmholtz {N : ℕ} (hN : 0 < N) {ℓ m k ε : ℝ} (hℓ : 0 < ℓ) (hm : 0 < m) (hk : 0 < k) (hε : 0 < ε) :
    (ApiS.morse_isometric_asymptotic_legendre_helmholtz N ℓ m k ε).DefinedAs (Api.morse_isometric_asymptotic_legendre_helmholtz N ℓ m k ε) (fun ξ _ => ξ / (N * ℓ))
      (MorseAsymptoticDomain N ℓ m k ε) := by
  have hN' : (0 : ℝ) < N := Nat.cast_pos.2 (by omega)
  have eN : (ZERO : ℝ) * N * ℓ / (N * ℓ) = ZERO := by field_simp
  constructor <;> intro x T hT hD <;> refine (?_ : Is _ _)
  all_goals
    have h6 := hD.2.1
    have hE := fun r hr => hD.ext hℓ hk hε hT (r := r) hr
    rw [Props.ndStiffness_code] at h6
    simp only [Props.ndStiffness_code, Props.ndEnergy_code] at hE
    have h1 := hD.1
    rw [Props.ndStiffness_code, Props.ndEnergy_code] at h1
    defined [Is.morse_asymptotic_energy (by first | exact hN | norm_num) ?_ ?_ ?_ ?_ ?_ ?_ ?_ ?_ ?_ ?_ ?_ h1 h6 (hE _ (by first | exact .inl rfl | exact .inr rfl | exact .inr eN | (rw [div_div]; first | exact .inl rfl | exact .inr eN)))]

example : (ApiS.morse_isometric_asymptotic_legendre_helmholtz 8 1 1 50000 20000).DefinedAs (Api.morse_isometric_asymptotic_legendre_helmholtz 8 1 1 50000 20000) (fun ξ _ => ξ / ((8 : ℕ) * 1))
    (MorseAsymptoticDomain 8 1 1 50000 20000) :=
  C56_morse_isometric_asymptotic_legendre_helmholtz (N := 8) (m := 1) (by norm_num) (by norm_num) (by norm_num) (by norm_num) (by norm_num)

/-- C56: every method of the family is defined on the stated extensions. -/
theorem C56_morse_isometric_asymptotic_legendre_forces {N : ℕ} (hN : 0 < N) {ℓ m k ε : ℝ} (hℓ : 0 < ℓ) (hk : 0 < k) (hε : 0 < ε) :
    (ApiS.morse_isometric_asymptotic_legendre_forces N ℓ m k ε).DefinedAs (Api.morse_isometric_asymptotic_legendre_forces N ℓ m k ε) (fun ξ _ => ξ / (N * ℓ))
      (MorseAsymptoticDomain N ℓ m k ε) := by
  have hN' : (0 : ℝ) < N := Nat.cast_pos.2 (by omega)
  have eN : (ZERO : ℝ) * N * ℓ / (N * ℓ) = ZERO := by field_simp
  constructor <;> intro x T hT hD <;> refine (?_ : Is _ _)
  all_goals
    have h6 := hD.2.1
    have hE := fun r hr => hD.ext hℓ hk hε hT (r := r) hr
    rw [Props.ndStiffness_code] at h6
    simp only [Props.ndStiffness_code, Props.ndEnergy_code] at hE
    have h1 := hD.1
    rw [Props.ndStiffness_code, Props.ndEnergy_code] at h1
    defined [Is.morse_asymptotic_force ?_ ?_ ?_ ?_ ?_ h1 h6 (hE _ (by first | exact .inl rfl | exact .inr rfl | exact .inr eN | (rw [div_div]; first | exact .inl rfl | exact .inr eN)))]

example : (ApiS.morse_isometric_asymptotic_legendre_forces 8 1 1 50000 20000).DefinedAs (Api.morse_isometric_asymptotic_legendre_forces 8 1 1 50000 20000) (fun ξ _ => ξ / ((8 : ℕ) * 1))
    (MorseAsymptoticDomain 8 1 1 50000 20000) :=
  C56_morse_isometric_asymptotic_legendre_forces (N := 8) (m := 1) (by norm_num) (by norm_num) (by norm_num) (by norm_num)

end Polymers.Props
