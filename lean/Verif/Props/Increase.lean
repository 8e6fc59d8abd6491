import Verif.Spec.Increase
import Verif.Lemmas.LennardJonesNewton
import Verif.Lemmas.SwfjcSolve
import Verif.Props.DefinedLogSquaredIsometric
import Verif.Props.UfjcIsotensional

/-! Pulling harder makes the chain longer (C76). -/

namespace Polymers.Props

open Polymers.Spec Polymers.Api Polymers.Lemmas Set

theorem _root_.Polymers.Spec.LengthMethods.Increases.of_nd {l : LengthMethods} {N : ℕ} {ℓ : ℝ} {D : ℝ → ℝ → Prop}
    (hs : l.Scales N ℓ (ndForce ℓ)) (hN : 0 < N) (hℓ : 0 < ℓ)
    (h : ∀ η η' T, 0 < T → D η T → D η' T → η < η' → l.nd_length_per_link η T < l.nd_length_per_link η' T) :
    l.Increases ℓ D := by
  have hN' : (0 : ℝ) < N := Nat.cast_pos.2 hN
  have hf : ∀ f f' T, 0 < T → f < f' → ndForce ℓ f T < ndForce ℓ f' T := fun f f' T hT hff => by
    have := kT_pos hT
    unfold ndForce
    gcongr
  have hnd : ∀ η η' T, 0 < T → D η T → D η' T → η < η' → l.nd_length η T < l.nd_length η' T := fun η η' T hT h1 h2 h3 => by
    rw [hs.nd_total _ _ hT, hs.nd_total _ _ hT]
    exact mul_lt_mul_of_pos_left (h η η' T hT h1 h2 h3) hN'
  refine ⟨fun f f' T hT h1 h2 h3 => ?_, fun f f' T hT h1 h2 h3 => ?_, hnd, h⟩
  · rw [hs.length _ _ hT, hs.length _ _ hT]
    exact mul_lt_mul_of_pos_left (hnd _ _ T hT h1 h2 (hf f f' T hT h3)) hℓ
  · rw [hs.length_per_link _ _ hT, hs.length_per_link _ _ hT]
    exact mul_lt_mul_of_pos_left (h _ _ T hT h1 h2 (hf f f' T hT h3)) hℓ

theorem asyG_monotoneOn {β : ℝ} (hβ : 0 ≤ β) : MonotoneOn (asyG β) (Ioi 0) := by
  refine monotoneOn_of_deriv_nonneg (convex_Ioi 0) (fun x hx => (hasDerivAt_asyG hβ hx).continuousAt.continuousWithinAt)
    (fun x hx => ?_) (fun x hx => ?_)
  · rw [interior_Ioi] at hx
    exact (hasDerivAt_asyG hβ hx).differentiableAt.differentiableWithinAt
  · rw [interior_Ioi] at hx
    rw [(hasDerivAt_asyG hβ hx).deriv]
    exact asyG'_nonneg hβ hx

theorem strictMonoOn_of_slope {f f' : ℝ → ℝ} {M : ℝ} (hd : ∀ x, 0 < x → x < M → HasDerivAt f (f' x) x)
    (hp : ∀ x, 0 < x → x < M → 0 < f' x) : StrictMonoOn f (Ioo 0 M) := by
  refine strictMonoOn_of_deriv_pos (convex_Ioo 0 M) (fun x hx => (hd x hx.1 hx.2).continuousAt.continuousWithinAt) fun x hx => ?_
  rw [interior_Ioo] at hx
  rw [(hd x hx.1 hx.2).deriv]
  exact hp x hx.1 hx.2

theorem morsePsi_strictMonoOn {a M : ℝ} (ha : 0 < a) (hM : 0 < M) : StrictMonoOn (morsePsi a M) (Ioo 0 M) :=
  strictMonoOn_of_slope (fun _ _ hx => hasDerivAt_morsePsi hM hx) fun _ _ hx => morsePsi'_pos ha hM hx

theorem lsPsi_strictMonoOn {κ : ℝ} (hκ : 0 < κ) : StrictMonoOn (lsPsi κ) (Ioo 0 (κ / Real.exp 1)) := by
  have h : ∀ x, 0 < x → x < κ / Real.exp 1 → HasDerivAt (lsPsi κ) (deriv (lsPsi κ) x) x ∧ 0 < deriv (lsPsi κ) x := fun x hx hM => by
    obtain ⟨d, hd, h0, -, h1⟩ := hasDerivAt_lsPsi hκ hx hM
    rw [hd.deriv]
    refine ⟨hd, h0.lt_of_ne fun e => ?_⟩
    rw [← e, zero_mul] at h1
    have := Real.exp_pos (-lwIter 3 (-x / κ))
    exact absurd h1 (not_le.2 (by positivity))
  exact strictMonoOn_of_slope (fun x hx hM => (h x hx hM).1) fun x hx hM => (h x hx hM).2

theorem ljStretch_strictMonoOn {κ : ℝ} (hκ : 0 < κ) : StrictMonoOn (ljStretch κ) (Ioo 0 (κ / 6 * ljF ljMax)) := fun x hx y hy h => by
  have h1 := ljStretch_increase hκ hx.1 h.le hy.2
  have : 0 < (y - x) / κ := div_pos (by linarith) hκ
  linarith

/-- C76 for the ideal chain. -/
theorem C76_ideal (N : ℕ) (ℓ m : ℝ) (hN : 0 < N) (hℓ : 0 < ℓ) :
    (ideal_isotensional_lengths N ℓ m).Increases ℓ (fun _ _ => True) := by
  refine .of_nd (C15_ideal_isotensional_lengths N ℓ m hN hℓ) hN hℓ fun η η' T _ _ _ h => ?_
  simp only [api_core, ideal.thermodynamics.isotensional.nondimensional_end_to_end_length_per_link, model_real]
  linarith

/-- C76 for the freely jointed chain. -/
theorem C76_fjc (N : ℕ) (ℓ m : ℝ) (hN : 0 < N) (hℓ : 0 < ℓ) :
    (fjc_isotensional_lengths N ℓ m).Increases ℓ (fun η _ => 0 < η) := by
  refine .of_nd (C15_fjc_isotensional_lengths N ℓ m hN hℓ) hN hℓ fun η η' T _ h1 h2 h => ?_
  have := langevin_strictMonoOn h1 h2 h
  simpa only [api_core, fjc.thermodynamics.isotensional.nondimensional_end_to_end_length_per_link, model_real, langevin] using this

/-- C76 for the extensible chain, reduced asymptotic approach. -/
theorem C76_efjc_reduced (N : ℕ) (ℓ m k : ℝ) (hN : 0 < N) (hℓ : 0 < ℓ) (hk : 0 < k) :
    (efjc_isotensional_asymptotic_reduced_lengths N ℓ m k).Increases ℓ (fun η _ => 0 < η) := by
  refine .of_nd (C15_efjc_isotensional_asymptotic_reduced_lengths N ℓ m k hN hℓ) hN hℓ fun η η' T hT h1 h2 h => ?_
  exact C23_efjc_reduced_strictMono N ℓ m hℓ hk hT h1.ne' h2.ne' h

/-- C76 for the extensible chain, alternative asymptotic approach. -/
theorem C76_efjc_alternative (N : ℕ) (ℓ m k : ℝ) (hN : 0 < N) (hℓ : 0 < ℓ) (hk : 0 < k) :
    (efjc_isotensional_asymptotic_alternative_lengths N ℓ m k).Increases ℓ (fun η _ => 0 < η) := by
  refine .of_nd (C15_efjc_isotensional_asymptotic_alternative_lengths N ℓ m k hN hℓ) hN hℓ fun η η' T hT h1 h2 h => ?_
  have hκ := ndStiffness_pos hk hℓ hT
  rw [efjc_alternative_length, efjc_alternative_length]
  have := strictMonoOn_of_slope (M := η' + 1) (fun x hx _ => hasDerivAt_altF (κ := ndStiffness k ℓ T) hx)
    (fun x hx _ => altF'_pos hκ hx) ⟨h1, by linarith⟩ ⟨h2, by linarith⟩ h
  unfold altF altH at this
  simpa only [add_sub_assoc] using this

/-- C76 for the extensible chain, full asymptotic approach. -/
theorem C76_efjc_asymptotic (N : ℕ) (ℓ m k : ℝ) (hN : 0 < N) (hℓ : 0 < ℓ) (hk : 0 < k) :
    (efjc_isotensional_asymptotic_lengths N ℓ m k).Increases ℓ (fun η _ => 0 < η) := by
  refine .of_nd (C15_efjc_isotensional_asymptotic_lengths N ℓ m k hN hℓ) hN hℓ fun η η' T hT h1 h2 h => ?_
  have hκ := ndStiffness_pos hk hℓ hT
  have e : ∀ x, 0 < x → (efjc_isotensional_asymptotic_lengths N ℓ m k).nd_length_per_link x T = asyF (ndStiffness k ℓ T) x := fun x hx => by
    have := corr_code one_pos hκ hx
    rw [one_mul, one_mul] at this
    rw [efjc_asymptotic_length, asyF, asyG, ← this]
    ring
  rw [e η h1, e η' h2]
  exact strictMonoOn_of_slope (M := η' + 1) (fun x hx _ => hasDerivAt_asyF hκ hx)
    (fun x hx _ => asyF'_pos hκ hx) ⟨h1, by linarith⟩ ⟨h2, by linarith⟩ h

/-- C76 for the square-well chain, whatever the width of the well. -/
theorem C76_swfjc (N : ℕ) (ℓ m w : ℝ) (hN : 0 < N) (hℓ : 0 < ℓ) (hw : 0 < w) :
    (swfjc_isotensional_lengths N ℓ m w).Increases ℓ (fun η _ => 0 < η) := by
  refine .of_nd (C15_swfjc_isotensional_lengths N ℓ m w hN hℓ) hN hℓ fun η η' T hT h1 h2 h => ?_
  have hW := one_lt_well hℓ hw
  rw [swfjc_length, swfjc_length]
  exact strictMonoOn_of_slope (M := η' + 1) (fun x hx _ => hasDerivAt_swF hW hx)
    (fun x hx _ => (tame_swF hW).pos x hx) ⟨h1, by linarith⟩ ⟨h2, by linarith⟩ h

/-- C76 for Morse links, reduced asymptotic approach. -/
theorem C76_morse_reduced (N : ℕ) (ℓ m k ε : ℝ) (hN : 0 < N) (hℓ : 0 < ℓ) (hk : 0 < k) (hε : 0 < ε) :
    (morse_isotensional_asymptotic_reduced_lengths N ℓ m k ε).Increases ℓ
      (fun η T => 0 < η ∧ η < √(ndEnergy ε T * ndStiffness k ℓ T / 8)) := by
  refine .of_nd (C15_morse_isotensional_asymptotic_reduced_lengths N ℓ m k ε hN hℓ) hN hℓ fun η η' T hT h1 h2 h => ?_
  have hκ := ndStiffness_pos hk hℓ hT
  have hε' := ndEnergy_pos hε hT
  rw [morse_reduced_length_eq N hℓ hk hε hT h1.1, morse_reduced_length_eq N hℓ hk hε hT h2.1]
  have := langevin_strictMonoOn h1.1 h2.1 h
  have := morsePsi_strictMonoOn (morseA_pos hκ hε') (morseMax_pos hκ hε') h1 h2 h
  linarith

/-- C76 for Morse links, full asymptotic approach. -/
theorem C76_morse_asymptotic (N : ℕ) (ℓ m k ε : ℝ) (hN : 0 < N) (hℓ : 0 < ℓ) (hk : 0 < k) (hε : 0 < ε) :
    (morse_isotensional_asymptotic_lengths N ℓ m k ε).Increases ℓ
      (fun η T => 0 < η ∧ η < √(ndEnergy ε T * ndStiffness k ℓ T / 8)) := by
  refine .of_nd (C15_morse_isotensional_asymptotic_lengths N ℓ m k ε hN hℓ) hN hℓ fun η η' T hT h1 h2 h => ?_
  have hκ := ndStiffness_pos hk hℓ hT
  have hε' := ndEnergy_pos hε hT
  have ha := morseA_pos hκ hε'
  rw [morse_asymptotic_length_eq N hℓ hk hε hT h1.1, morse_asymptotic_length_eq N hℓ hk hε hT h2.1]
  have h3 := asyG_monotoneOn (β := 1 / (1 + 3 / 2 * morseA (ndStiffness k ℓ T) (ndEnergy ε T)) * ndStiffness k ℓ T) (by positivity) h1.1 h2.1 h.le
  have := morsePsi_strictMonoOn ha (morseMax_pos hκ hε') h1 h2 h
  unfold asyG at h3
  linarith

/-- C76 for log-squared links, reduced asymptotic approach. -/
theorem C76_log_squared_reduced (N : ℕ) (ℓ m k : ℝ) (hN : 0 < N) (hℓ : 0 < ℓ) (hk : 0 < k) :
    (log_squared_isotensional_asymptotic_reduced_lengths N ℓ m k).Increases ℓ
      (fun η T => 0 < η ∧ η < ndStiffness k ℓ T / Real.exp 1) := by
  refine .of_nd (C15_log_squared_isotensional_asymptotic_reduced_lengths N ℓ m k hN hℓ) hN hℓ fun η η' T hT h1 h2 h => ?_
  have hκ := ndStiffness_pos hk hℓ hT
  rw [log_squared_reduced_length_eq N hℓ hk hT h1.1, log_squared_reduced_length_eq N hℓ hk hT h2.1]
  have := langevin_strictMonoOn h1.1 h2.1 h
  have := lsPsi_strictMonoOn hκ h1 h2 h
  linarith

/-- C76 for log-squared links, full asymptotic approach. -/
theorem C76_log_squared_asymptotic (N : ℕ) (ℓ m k : ℝ) (hN : 0 < N) (hℓ : 0 < ℓ) (hk : 0 < k) :
    (log_squared_isotensional_asymptotic_lengths N ℓ m k).Increases ℓ
      (fun η T => 0 < η ∧ η < ndStiffness k ℓ T / Real.exp 1) := by
  refine .of_nd (C15_log_squared_isotensional_asymptotic_lengths N ℓ m k hN hℓ) hN hℓ fun η η' T hT h1 h2 h => ?_
  have hκ := ndStiffness_pos hk hℓ hT
  rw [log_squared_asymptotic_length_eq N hℓ hk hT h1.1, log_squared_asymptotic_length_eq N hℓ hk hT h2.1]
  have h3 := asyG_monotoneOn (β := 2 / 5 * ndStiffness k ℓ T) (by positivity) h1.1 h2.1 h.le
  have := lsPsi_strictMonoOn hκ h1 h2 h
  unfold asyG at h3
  linarith

/-- C76 for Lennard-Jones links, reduced asymptotic approach. -/
theorem C76_lennard_jones_reduced (N : ℕ) (ℓ m k : ℝ) (hN : 0 < N) (hℓ : 0 < ℓ) (hk : 0 < k) :
    (lennard_jones_isotensional_asymptotic_reduced_lengths N ℓ m k).Increases ℓ
      (fun η T => 0 < η ∧ η < deriv (lennardJonesEnergy (ndStiffness k ℓ T)) ((13 / 7) ^ (1 / 6 : ℝ))) := by
  refine .of_nd (C15_lennard_jones_isotensional_asymptotic_reduced_lengths N ℓ m k hN hℓ) hN hℓ fun η η' T hT h1 h2 h => ?_
  have hκ := ndStiffness_pos hk hℓ hT
  rw [ljMax_code] at h1 h2
  rw [lj_reduced_length, lj_reduced_length]
  have := langevin_strictMonoOn h1.1 h2.1 h
  have := ljStretch_strictMonoOn hκ h1 h2 h
  linarith

/-- C76 for Lennard-Jones links, full asymptotic approach. -/
theorem C76_lennard_jones_asymptotic (N : ℕ) (ℓ m k : ℝ) (hN : 0 < N) (hℓ : 0 < ℓ) (hk : 0 < k) :
    (lennard_jones_isotensional_asymptotic_lengths N ℓ m k).Increases ℓ
      (fun η T => 0 < η ∧ η < deriv (lennardJonesEnergy (ndStiffness k ℓ T)) ((13 / 7) ^ (1 / 6 : ℝ))) := by
  refine .of_nd (C15_lennard_jones_isotensional_asymptotic_lengths N ℓ m k hN hℓ) hN hℓ fun η η' T hT h1 h2 h => ?_
  have hκ := ndStiffness_pos hk hℓ hT
  rw [ljMax_code] at h1 h2
  rw [lj_asymptotic_length, lj_asymptotic_length, corr_code (by norm_num) hκ h1.1, corr_code (by norm_num) hκ h2.1]
  have h3 := asyG_monotoneOn (β := 2 / 23 * ndStiffness k ℓ T) (by positivity) h1.1 h2.1 h.le
  have := ljStretch_strictMonoOn hκ h1 h2 h
  unfold asyG at h3
  linarith

/-- C76 for the quadrature over Morse links. -/
theorem C76_morse (N : ℕ) (ℓ m k ε : ℝ) (hN : 0 < N) (hℓ : 0 < ℓ) :
    (morse_isotensional_lengths N ℓ m k ε).Increases ℓ (fun η _ => 0 < η) :=
  .of_nd (C15_morse_isotensional_lengths N ℓ m k ε hN hℓ) hN hℓ fun _ _ T _ h1 h2 h =>
    C51_morse_length_strictMono N ℓ m k ε T h1 h2 h

/-- C76 for the quadrature over log-squared links. -/
theorem C76_log_squared (N : ℕ) (ℓ m k : ℝ) (hN : 0 < N) (hℓ : 0 < ℓ) :
    (log_squared_isotensional_lengths N ℓ m k).Increases ℓ (fun η _ => 0 < η) :=
  .of_nd (C15_log_squared_isotensional_lengths N ℓ m k hN hℓ) hN hℓ fun _ _ T _ h1 h2 h =>
    C51_log_squared_length_strictMono N ℓ m k T h1 h2 h

/-- C76 for the quadrature over Lennard-Jones links. -/
theorem C76_lennard_jones (N : ℕ) (ℓ m k : ℝ) (hN : 0 < N) (hℓ : 0 < ℓ) :
    (lennard_jones_isotensional_lengths N ℓ m k).Increases ℓ (fun η _ => 0 < η) :=
  .of_nd (C15_lennard_jones_isotensional_lengths N ℓ m k hN hℓ) hN hℓ fun _ _ T _ h1 h2 h =>
    C51_lennard_jones_length_strictMono N ℓ m k T h1 h2 h

/-- Forces one and two give different extensions of a chain of Lennard-Jones links. -/
example : (lennard_jones_isotensional_asymptotic_reduced_lengths 8 1 1 500000).nd_length_per_link 1 300 <
    (lennard_jones_isotensional_asymptotic_reduced_lengths 8 1 1 500000).nd_length_per_link 2 300 := by
  have hκ : 150 ≤ ndStiffness 500000 1 300 := by norm_num [ndStiffness, kT, boltzmann_eq]
  have hM := (lj_force_max (show 0 < ndStiffness 500000 1 300 by linarith)).1
  refine (C76_lennard_jones_reduced 8 1 1 500000 (by norm_num) (by norm_num) (by norm_num)).nd_length_per_link 1 2 300
    (by norm_num) ⟨by norm_num, ?_⟩ ⟨by norm_num, ?_⟩ (by norm_num) <;> rw [ljMax_code] <;> linarith

end Polymers.Props
