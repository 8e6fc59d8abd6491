import Verif.Spec.Softer
import Verif.Props.Increase

/-! Softer links and wider wells make the chain longer (C87). -/

namespace Polymers.Props

open Polymers.Spec Polymers.Api Polymers.Lemmas Set

theorem _root_.Polymers.Spec.LengthMethods.ShorterThan.of_nd {l l' : LengthMethods} {N : ℕ} {ℓ : ℝ} {D : ℝ → ℝ → Prop}
    (hs : l.Scales N ℓ (ndForce ℓ)) (hs' : l'.Scales N ℓ (ndForce ℓ)) (hN : 0 < N) (hℓ : 0 < ℓ)
    (h : ∀ η T, 0 < T → D η T → l.nd_length_per_link η T < l'.nd_length_per_link η T) : l.ShorterThan l' ℓ D := by
  have hN' : (0 : ℝ) < N := Nat.cast_pos.2 hN
  have hnd : ∀ η T, 0 < T → D η T → l.nd_length η T < l'.nd_length η T := fun η T hT h1 => by
    rw [hs.nd_total _ _ hT, hs'.nd_total _ _ hT]
    exact mul_lt_mul_of_pos_left (h η T hT h1) hN'
  refine ⟨fun f T hT h1 => ?_, fun f T hT h1 => ?_, hnd, h⟩
  · rw [hs.length _ _ hT, hs'.length _ _ hT]
    exact mul_lt_mul_of_pos_left (hnd _ _ hT h1) hℓ
  · rw [hs.length_per_link _ _ hT, hs'.length_per_link _ _ hT]
    exact mul_lt_mul_of_pos_left (h _ _ hT h1) hℓ

theorem ndStiffness_lt {k k' ℓ T : ℝ} (hℓ : 0 < ℓ) (hT : 0 < T) (h : k < k') : ndStiffness k ℓ T < ndStiffness k' ℓ T := by
  have := kT_pos hT
  unfold ndStiffness
  gcongr

theorem fjc_length_langevin (N : ℕ) (ℓ m η T : ℝ) : (fjc_isotensional_lengths N ℓ m).nd_length_per_link η T = langevin η := by
  simp only [api_core, fjc.thermodynamics.isotensional.nondimensional_end_to_end_length_per_link, model_real, langevin]

/-! Harmonic links. -/

/-- C87 for the extensible chain, reduced asymptotic approach. -/
theorem C87_efjc_reduced (N : ℕ) (ℓ m : ℝ) {k k' : ℝ} (hN : 0 < N) (hℓ : 0 < ℓ) (hk : 0 < k) (h : k < k') :
    (efjc_isotensional_asymptotic_reduced_lengths N ℓ m k').ShorterThan (efjc_isotensional_asymptotic_reduced_lengths N ℓ m k) ℓ
      (fun η _ => 0 < η) ∧
    (fjc_isotensional_lengths N ℓ m).ShorterThan (efjc_isotensional_asymptotic_reduced_lengths N ℓ m k) ℓ (fun η _ => 0 < η) := by
  refine ⟨.of_nd (C15_efjc_isotensional_asymptotic_reduced_lengths N ℓ m k' hN hℓ)
    (C15_efjc_isotensional_asymptotic_reduced_lengths N ℓ m k hN hℓ) hN hℓ fun η T hT h1 => ?_,
    .of_nd (C15_fjc_isotensional_lengths N ℓ m hN hℓ)
    (C15_efjc_isotensional_asymptotic_reduced_lengths N ℓ m k hN hℓ) hN hℓ fun η T hT h1 => ?_⟩
  · rw [efjc_reduced_length, efjc_reduced_length]
    have := div_lt_div_of_pos_left h1 (ndStiffness_pos hk hℓ hT) (ndStiffness_lt hℓ hT h)
    linarith
  · have : 0 < η / ndStiffness k ℓ T := div_pos h1 (ndStiffness_pos hk hℓ hT)
    rw [efjc_reduced_length, fjc_length_langevin]
    linarith

/-- C87 for the extensible chain, alternative asymptotic approach. -/
theorem C87_efjc_alternative (N : ℕ) (ℓ m : ℝ) {k k' : ℝ} (hN : 0 < N) (hℓ : 0 < ℓ) (hk : 0 < k) (h : k < k') :
    (efjc_isotensional_asymptotic_alternative_lengths N ℓ m k').ShorterThan
      (efjc_isotensional_asymptotic_alternative_lengths N ℓ m k) ℓ (fun η _ => 0 < η) ∧
    (fjc_isotensional_lengths N ℓ m).ShorterThan (efjc_isotensional_asymptotic_alternative_lengths N ℓ m k) ℓ
      (fun η _ => 0 < η) := by
  have hp : ∀ η : ℝ, 0 < η → 0 < η + 1 / Real.tanh η - η / Real.sinh η ^ 2 := fun η hη => by
    have := altH_nonneg hη
    unfold altH at this
    linarith
  refine ⟨.of_nd (C15_efjc_isotensional_asymptotic_alternative_lengths N ℓ m k' hN hℓ)
    (C15_efjc_isotensional_asymptotic_alternative_lengths N ℓ m k hN hℓ) hN hℓ fun η T hT h1 => ?_,
    .of_nd (C15_fjc_isotensional_lengths N ℓ m hN hℓ)
    (C15_efjc_isotensional_asymptotic_alternative_lengths N ℓ m k hN hℓ) hN hℓ fun η T hT h1 => ?_⟩
  · rw [efjc_alternative_length, efjc_alternative_length]
    have := div_lt_div_of_pos_left (hp η h1) (ndStiffness_pos hk hℓ hT) (ndStiffness_lt hℓ hT h)
    linarith
  · have : 0 < (η + 1 / Real.tanh η - η / Real.sinh η ^ 2) / ndStiffness k ℓ T := div_pos (hp η h1) (ndStiffness_pos hk hℓ hT)
    rw [efjc_alternative_length, fjc_length_langevin]
    linarith

theorem asyC_antitone {β β' x : ℝ} (hβ : 0 ≤ β) (h : β ≤ β') (hx : 0 < x) : asyC β' x ≤ asyC β x := by
  have := div_tanh_pos hx
  have := altH_nonneg hx
  unfold asyC
  gcongr

theorem efjc_asymptotic_length_eq (N : ℕ) {ℓ m k η T : ℝ} (hℓ : 0 < ℓ) (hk : 0 < k) (hT : 0 < T) (hη : 0 < η) :
    (efjc_isotensional_asymptotic_lengths N ℓ m k).nd_length_per_link η T = asyF (ndStiffness k ℓ T) η := by
  have := corr_code one_pos (ndStiffness_pos hk hℓ hT) hη
  rw [one_mul, one_mul] at this
  rw [efjc_asymptotic_length, asyF, asyG, ← this]
  ring

/-- C87 for the extensible chain, full asymptotic approach. -/
theorem C87_efjc_asymptotic (N : ℕ) (ℓ m : ℝ) {k k' : ℝ} (hN : 0 < N) (hℓ : 0 < ℓ) (hk : 0 < k) (h : k < k') :
    (efjc_isotensional_asymptotic_lengths N ℓ m k').ShorterThan (efjc_isotensional_asymptotic_lengths N ℓ m k) ℓ
      (fun η _ => 0 < η) ∧
    (fjc_isotensional_lengths N ℓ m).ShorterThan (efjc_isotensional_asymptotic_lengths N ℓ m k) ℓ (fun η _ => 0 < η) := by
  refine ⟨.of_nd (C15_efjc_isotensional_asymptotic_lengths N ℓ m k' hN hℓ)
    (C15_efjc_isotensional_asymptotic_lengths N ℓ m k hN hℓ) hN hℓ fun η T hT h1 => ?_,
    .of_nd (C15_fjc_isotensional_lengths N ℓ m hN hℓ)
    (C15_efjc_isotensional_asymptotic_lengths N ℓ m k hN hℓ) hN hℓ fun η T hT h1 => ?_⟩
  · have hκ := ndStiffness_pos hk hℓ hT
    have h2 := ndStiffness_lt hℓ hT h
    rw [efjc_asymptotic_length_eq N hℓ hk hT h1, efjc_asymptotic_length_eq N hℓ (hk.trans h) hT h1]
    have h3 := div_lt_div_of_pos_left h1 hκ h2
    have h4 := asyC_antitone hκ.le h2.le h1
    unfold asyF asyG
    linarith
  · have hκ := ndStiffness_pos hk hℓ hT
    have h3 : 0 < η / ndStiffness k ℓ T := div_pos h1 hκ
    have h4 := asyC_nonneg hκ.le h1
    rw [efjc_asymptotic_length_eq N hℓ hk hT h1, fjc_length_langevin]
    unfold asyF asyG
    linarith

/-! Square wells. -/

theorem pos_of_deriv_pos {f f' : ℝ → ℝ} {a y : ℝ} (h0 : f a = 0) (hd : ∀ x, a ≤ x → HasDerivAt f (f' x) x)
    (hp : ∀ x, a < x → 0 < f' x) (hy : a < y) : 0 < f y := by
  have hm : StrictMonoOn f (Ici a) := by
    refine strictMonoOn_of_deriv_pos (convex_Ici a) (fun x hx => (hd x hx).continuousAt.continuousWithinAt) fun x hx => ?_
    rw [interior_Ici] at hx
    rw [(hd x (le_of_lt hx)).deriv]
    exact hp x hx
  have := hm (mem_Ici.2 le_rfl) (mem_Ici.2 hy.le) hy
  rwa [h0] at this

theorem swMean_lt {x y : ℝ} (hx : 0 < x) (h : x < y) : swMean x < swMean y := by
  have := pos_of_deriv_pos (f := fun y => swMean y - swMean x) (f' := swMean') (sub_self _)
    (fun t ht => (hasDerivAt_swMean (hx.trans_le ht)).sub_const _) (fun t ht => swMean'_pos (hx.trans ht)) h
  linarith

theorem swD_pos {a x : ℝ} (ha : 0 < a) (hx : a < x) : 0 < swD a x :=
  pos_of_deriv_pos (swD_self a) (fun _ hy => hasDerivAt_swD (ha.trans_le hy))
    (fun _ hy => mul_pos (swMean'_pos (ha.trans hy)) (swM_pos ha hy)) hx

theorem swF_strictMono_well {x W W' : ℝ} (hx : 0 < x) (hW : 1 < W) (h : W < W') : swF W x < swF W' x := by
  have hW' := hW.trans h
  rw [swF_eq hW hx, swF_eq hW' hx, ← swM_eq, ← swM_eq, ← swA1_eq, ← swA1_eq]
  have hm : StrictMonoOn (fun y => swA1 x y / swM x y) (Ioi x) := by
    have hd : ∀ y ∈ Ioi x, HasDerivAt (fun y => swA1 x y / swM x y) (y * Real.sinh y * swD x y / swM x y ^ 2) y := fun y hy => by
      have hM := swM_pos hx hy
      refine ((hasDerivAt_swA1 x y).fun_div (hasDerivAt_swM x y) hM.ne').congr_deriv ?_
      rw [swG_eq (hx.trans hy), swD]
      congr 1
      ring
    refine strictMonoOn_of_deriv_pos (convex_Ioi x) (fun y hy => (hd y hy).continuousAt.continuousWithinAt) fun y hy => ?_
    rw [interior_Ioi] at hy
    rw [(hd y hy).deriv]
    have := swM_pos hx hy
    have h0 : 0 < y := hx.trans hy
    have := Real.sinh_pos_iff.2 h0
    have := swD_pos hx hy
    positivity
  have := hm (lt_well hW hx) (lt_well hW' hx) (mul_lt_mul_of_pos_right h hx)
  simp only at this
  rw [mul_comm x, mul_comm x, ← div_div, ← div_div]
  exact div_lt_div_of_pos_right this hx

theorem langevin_lt_swF {x W : ℝ} (hx : 0 < x) (hW : 1 < W) : langevin x < swF W x := by
  have hM := swM_pos hx (lt_well hW hx)
  have h : ∀ y, x < y → 0 < swA1 x y - swMean x * swM x y := fun y hy => by
    refine pos_of_deriv_pos (f := fun y => swA1 x y - swMean x * swM x y)
      (f' := fun y => y * swG y - swMean x * (y * Real.sinh y)) (by simp [swA1_self, swM_self])
      (fun t _ => (hasDerivAt_swA1 x t).fun_sub ((hasDerivAt_swM x t).const_mul _)) (fun t ht => ?_) hy
    have h0 : 0 < t := hx.trans ht
    have h1 := Real.sinh_pos_iff.2 h0
    have h2 := mul_pos (mul_pos h0 h1) (sub_pos.2 (swMean_lt hx ht))
    rw [swG_eq h0]
    linarith
  have := h _ (lt_well hW hx)
  have e : langevin x = swMean x / x := by rw [swMean_eq hx]; field_simp
  rw [swF_eq hW hx, ← swM_eq, ← swA1_eq, e, ← div_div, div_right_comm]
  refine div_lt_div_of_pos_right ?_ hx
  rw [lt_div_iff₀ hM]
  linarith

/-- C87 for the square-well chain: wider wells make it longer, and it is longer than the freely jointed chain. -/
theorem C87_swfjc (N : ℕ) (ℓ m : ℝ) {w w' : ℝ} (hN : 0 < N) (hℓ : 0 < ℓ) (hw : 0 < w) (h : w < w') :
    (swfjc_isotensional_lengths N ℓ m w).ShorterThan (swfjc_isotensional_lengths N ℓ m w') ℓ (fun η _ => 0 < η) ∧
    (fjc_isotensional_lengths N ℓ m).ShorterThan (swfjc_isotensional_lengths N ℓ m w) ℓ (fun η _ => 0 < η) := by
  have hW := one_lt_well hℓ hw
  refine ⟨.of_nd (C15_swfjc_isotensional_lengths N ℓ m w hN hℓ) (C15_swfjc_isotensional_lengths N ℓ m w' hN hℓ) hN hℓ
    fun η T hT h1 => ?_, .of_nd (C15_fjc_isotensional_lengths N ℓ m hN hℓ)
    (C15_swfjc_isotensional_lengths N ℓ m w hN hℓ) hN hℓ fun η T hT h1 => ?_⟩
  · rw [swfjc_length, swfjc_length]
    exact swF_strictMono_well h1 hW (by gcongr)
  · rw [swfjc_length, fjc_length_langevin]
    exact langevin_lt_swF h1 hW

/-! Links with a potential that breaks. -/

/-- C87 for log-squared links, both asymptotic approaches, below the largest force of the softer link. -/
theorem C87_log_squared (N : ℕ) (ℓ m : ℝ) {k k' : ℝ} (hN : 0 < N) (hℓ : 0 < ℓ) (hk : 0 < k) (h : k < k') :
    (log_squared_isotensional_asymptotic_reduced_lengths N ℓ m k').ShorterThan
      (log_squared_isotensional_asymptotic_reduced_lengths N ℓ m k) ℓ (fun η T => 0 < η ∧ η < ndStiffness k ℓ T / Real.exp 1) ∧
    (log_squared_isotensional_asymptotic_lengths N ℓ m k').ShorterThan
      (log_squared_isotensional_asymptotic_lengths N ℓ m k) ℓ (fun η T => 0 < η ∧ η < ndStiffness k ℓ T / Real.exp 1) := by
  have hk' := hk.trans h
  have key : ∀ η T, 0 < T → (0 < η ∧ η < ndStiffness k ℓ T / Real.exp 1) →
      lsPsi (ndStiffness k' ℓ T) η < lsPsi (ndStiffness k ℓ T) η := fun η T hT h1 => by
    have hκ := ndStiffness_pos hk hℓ hT
    have h2 := ndStiffness_lt hℓ hT h
    have h3 := lsPsi_strictMonoOn hκ (a := η * (ndStiffness k ℓ T / ndStiffness k' ℓ T)) (b := η)
    have hr : ndStiffness k ℓ T / ndStiffness k' ℓ T < 1 := (div_lt_one (hκ.trans h2)).2 h2
    have hr0 : 0 < ndStiffness k ℓ T / ndStiffness k' ℓ T := div_pos hκ (hκ.trans h2)
    have h4 : η * (ndStiffness k ℓ T / ndStiffness k' ℓ T) < η := mul_lt_of_lt_one_right h1.1 hr
    have h5 := h3 ⟨mul_pos h1.1 hr0, h4.trans h1.2⟩ h1 h4
    have h6 : lsPsi (ndStiffness k' ℓ T) η = lsPsi (ndStiffness k ℓ T) (η * (ndStiffness k ℓ T / ndStiffness k' ℓ T)) := by
      have := hκ.trans h2
      unfold lsPsi logSquaredStretch
      congr 4
      field_simp
    rw [h6]
    exact h5
  refine ⟨.of_nd (C15_log_squared_isotensional_asymptotic_reduced_lengths N ℓ m k' hN hℓ)
    (C15_log_squared_isotensional_asymptotic_reduced_lengths N ℓ m k hN hℓ) hN hℓ fun η T hT h1 => ?_,
    .of_nd (C15_log_squared_isotensional_asymptotic_lengths N ℓ m k' hN hℓ)
    (C15_log_squared_isotensional_asymptotic_lengths N ℓ m k hN hℓ) hN hℓ fun η T hT h1 => ?_⟩
  · rw [log_squared_reduced_length_eq N hℓ hk' hT h1.1, log_squared_reduced_length_eq N hℓ hk hT h1.1]
    have := key η T hT h1
    linarith
  · rw [log_squared_asymptotic_length_eq N hℓ hk' hT h1.1, log_squared_asymptotic_length_eq N hℓ hk hT h1.1]
    have := key η T hT h1
    have hκ := ndStiffness_pos hk hℓ hT
    have := ndStiffness_lt hℓ hT h
    have := asyC_antitone (β := 2 / 5 * ndStiffness k ℓ T) (β' := 2 / 5 * ndStiffness k' ℓ T) (by positivity) (by linarith) h1.1
    linarith

/-- C87 for Lennard-Jones links, both asymptotic approaches, below the largest force of the softer link. -/
theorem C87_lennard_jones (N : ℕ) (ℓ m : ℝ) {k k' : ℝ} (hN : 0 < N) (hℓ : 0 < ℓ) (hk : 0 < k) (h : k < k') :
    (lennard_jones_isotensional_asymptotic_reduced_lengths N ℓ m k').ShorterThan
      (lennard_jones_isotensional_asymptotic_reduced_lengths N ℓ m k) ℓ
      (fun η T => 0 < η ∧ η < deriv (lennardJonesEnergy (ndStiffness k ℓ T)) ((13 / 7) ^ (1 / 6 : ℝ))) ∧
    (lennard_jones_isotensional_asymptotic_lengths N ℓ m k').ShorterThan
      (lennard_jones_isotensional_asymptotic_lengths N ℓ m k) ℓ
      (fun η T => 0 < η ∧ η < deriv (lennardJonesEnergy (ndStiffness k ℓ T)) ((13 / 7) ^ (1 / 6 : ℝ))) := by
  have hk' := hk.trans h
  have key : ∀ η T, 0 < T → (0 < η ∧ η < deriv (lennardJonesEnergy (ndStiffness k ℓ T)) ((13 / 7) ^ (1 / 6 : ℝ))) →
      ljStretch (ndStiffness k' ℓ T) η < ljStretch (ndStiffness k ℓ T) η := fun η T hT h1 => by
    rw [ljMax_code] at h1
    have hκ := ndStiffness_pos hk hℓ hT
    have h2 := ndStiffness_lt hℓ hT h
    have h3 := ljStretch_strictMonoOn hκ (a := η * (ndStiffness k ℓ T / ndStiffness k' ℓ T)) (b := η)
    have hr : ndStiffness k ℓ T / ndStiffness k' ℓ T < 1 := (div_lt_one (hκ.trans h2)).2 h2
    have hr0 : 0 < ndStiffness k ℓ T / ndStiffness k' ℓ T := div_pos hκ (hκ.trans h2)
    have h4 : η * (ndStiffness k ℓ T / ndStiffness k' ℓ T) < η := mul_lt_of_lt_one_right h1.1 hr
    have h5 := h3 ⟨mul_pos h1.1 hr0, h4.trans h1.2⟩ h1 h4
    have h6 : ljStretch (ndStiffness k' ℓ T) η = ljStretch (ndStiffness k ℓ T) (η * (ndStiffness k ℓ T / ndStiffness k' ℓ T)) := by
      have := hκ.trans h2
      unfold ljStretch
      congr 1
      field_simp
    rw [h6]
    exact h5
  refine ⟨.of_nd (C15_lennard_jones_isotensional_asymptotic_reduced_lengths N ℓ m k' hN hℓ)
    (C15_lennard_jones_isotensional_asymptotic_reduced_lengths N ℓ m k hN hℓ) hN hℓ fun η T hT h1 => ?_,
    .of_nd (C15_lennard_jones_isotensional_asymptotic_lengths N ℓ m k' hN hℓ)
    (C15_lennard_jones_isotensional_asymptotic_lengths N ℓ m k hN hℓ) hN hℓ fun η T hT h1 => ?_⟩
  · rw [lj_reduced_length, lj_reduced_length]
    have := key η T hT h1
    linarith
  · have hκ := ndStiffness_pos hk hℓ hT
    have h2 := ndStiffness_lt hℓ hT h
    rw [lj_asymptotic_length, lj_asymptotic_length, corr_code (by norm_num) hκ h1.1, corr_code (by norm_num) (hκ.trans h2) h1.1]
    have := key η T hT h1
    have := asyC_antitone (β := 2 / 23 * ndStiffness k ℓ T) (β' := 2 / 23 * ndStiffness k' ℓ T) (by positivity) (by linarith) h1.1
    linarith

theorem morse_log_pos {s : ℝ} (h0 : 0 < s) : 0 < Real.log (2 / (1 + √(1 - s))) := by
  refine Real.log_pos ?_
  have : √(1 - s) < 1 := by rw [Real.sqrt_lt' one_pos]; linarith
  have := Real.sqrt_nonneg (1 - s)
  rw [lt_div_iff₀ (by positivity)]
  linarith

/-- C87 for Morse links, both asymptotic approaches, below the largest force of the softer link. -/
theorem C87_morse (N : ℕ) (ℓ m ε : ℝ) {k k' : ℝ} (hN : 0 < N) (hℓ : 0 < ℓ) (hε : 0 < ε) (hk : 0 < k) (h : k < k') :
    (morse_isotensional_asymptotic_reduced_lengths N ℓ m k' ε).ShorterThan
      (morse_isotensional_asymptotic_reduced_lengths N ℓ m k ε) ℓ
      (fun η T => 0 < η ∧ η < √(ndEnergy ε T * ndStiffness k ℓ T / 8)) ∧
    (morse_isotensional_asymptotic_lengths N ℓ m k' ε).ShorterThan
      (morse_isotensional_asymptotic_lengths N ℓ m k ε) ℓ
      (fun η T => 0 < η ∧ η < √(ndEnergy ε T * ndStiffness k ℓ T / 8)) := by
  have hk' := hk.trans h
  have hA : ∀ T, 0 < T → morseA (ndStiffness k ℓ T) (ndEnergy ε T) < morseA (ndStiffness k' ℓ T) (ndEnergy ε T) := fun T hT => by
    have hκ := ndStiffness_pos hk hℓ hT
    have h2 := ndStiffness_lt hℓ hT h
    have hε' := ndEnergy_pos hε hT
    unfold morseA
    exact Real.sqrt_lt_sqrt (by positivity) (by gcongr)
  have key : ∀ η T, 0 < T → (0 < η ∧ η < √(ndEnergy ε T * ndStiffness k ℓ T / 8)) →
      morsePsi (morseA (ndStiffness k' ℓ T) (ndEnergy ε T)) (morseMax (ndStiffness k' ℓ T) (ndEnergy ε T)) η <
      morsePsi (morseA (ndStiffness k ℓ T) (ndEnergy ε T)) (morseMax (ndStiffness k ℓ T) (ndEnergy ε T)) η := fun η T hT h1 => by
    have hκ := ndStiffness_pos hk hℓ hT
    have h2 := ndStiffness_lt hℓ hT h
    have hε' := ndEnergy_pos hε hT
    have hM := morseMax_pos hκ hε'
    have hM' := morseMax_pos (hκ.trans h2) hε'
    have hMM : morseMax (ndStiffness k ℓ T) (ndEnergy ε T) < morseMax (ndStiffness k' ℓ T) (ndEnergy ε T) := by
      unfold morseMax
      exact Real.sqrt_lt_sqrt (by positivity) (by gcongr)
    have ha := morseA_pos hκ hε'
    have hr := Real.sqrt_nonneg (1 - η / morseMax (ndStiffness k ℓ T) (ndEnergy ε T))
    unfold morsePsi
    refine (div_lt_div_of_pos_left (morse_log_pos (div_pos h1.1 hM')) ha (hA T hT)).trans_le ?_
    have h3 := div_le_div_of_nonneg_left h1.1.le hM hMM.le
    gcongr
  refine ⟨.of_nd (C15_morse_isotensional_asymptotic_reduced_lengths N ℓ m k' ε hN hℓ)
    (C15_morse_isotensional_asymptotic_reduced_lengths N ℓ m k ε hN hℓ) hN hℓ fun η T hT h1 => ?_,
    .of_nd (C15_morse_isotensional_asymptotic_lengths N ℓ m k' ε hN hℓ)
    (C15_morse_isotensional_asymptotic_lengths N ℓ m k ε hN hℓ) hN hℓ fun η T hT h1 => ?_⟩
  · rw [morse_reduced_length_eq N hℓ hk' hε hT h1.1, morse_reduced_length_eq N hℓ hk hε hT h1.1]
    have := key η T hT h1
    linarith
  · rw [morse_asymptotic_length_eq N hℓ hk' hε hT h1.1, morse_asymptotic_length_eq N hℓ hk hε hT h1.1]
    have := key η T hT h1
    have hκ := ndStiffness_pos hk hℓ hT
    have h2 := ndStiffness_lt hℓ hT h
    have hε' := ndEnergy_pos hε hT
    have ha := morseA_pos hκ hε'
    have hb : 1 / (1 + 3 / 2 * morseA (ndStiffness k ℓ T) (ndEnergy ε T)) * ndStiffness k ℓ T ≤
        1 / (1 + 3 / 2 * morseA (ndStiffness k' ℓ T) (ndEnergy ε T)) * ndStiffness k' ℓ T := by
      have e : ∀ κ : ℝ, 0 < κ → κ = 2 * ndEnergy ε T * morseA κ (ndEnergy ε T) ^ 2 := fun κ hκ => by
        unfold morseA
        rw [Real.sq_sqrt (by positivity)]
        field_simp
      have ha' := hA T hT
      rw [one_div_mul_eq_div, one_div_mul_eq_div]
      have e1 := e _ hκ
      have e2 := e _ (hκ.trans h2)
      generalize morseA (ndStiffness k ℓ T) (ndEnergy ε T) = a at *
      generalize morseA (ndStiffness k' ℓ T) (ndEnergy ε T) = b at *
      have hb := ha.trans ha'
      rw [e1, e2, div_le_div_iff₀ (by positivity) (by positivity)]
      have h5 : a ^ 2 ≤ b ^ 2 := by gcongr
      have h6 : a ^ 2 * b ≤ b ^ 2 * a := by nlinarith [mul_pos ha hb]
      nlinarith
    have := asyC_antitone (by positivity) hb h1.1
    linarith

theorem morse_quotient_strictMonoOn : StrictMonoOn (fun s => Real.log (2 / (1 + √(1 - s))) / s) (Ioo 0 1) := by
  have hd : ∀ s ∈ Ioo (0 : ℝ) 1, HasDerivAt (fun s => Real.log (2 / (1 + √(1 - s))) / s)
      ((1 / (2 * √(1 - s) * (1 + √(1 - s))) * s - Real.log (2 / (1 + √(1 - s)))) / s ^ 2) s := fun s hs => by
    have h := hasDerivAt_morse_log one_pos hs.2
    simp only [div_one, mul_one] at h
    refine (h.fun_div (hasDerivAt_id s) hs.1.ne').congr_deriv ?_
    simp
  refine strictMonoOn_of_deriv_pos (convex_Ioo 0 1) (fun y hy => (hd y hy).continuousAt.continuousWithinAt) fun s hs => ?_
  rw [interior_Ioo] at hs
  rw [(hd s hs).deriv]
  have h0 : 0 < √(1 - s) := Real.sqrt_pos.2 (by linarith [hs.2])
  have h1 : √(1 - s) < 1 := by rw [Real.sqrt_lt' one_pos]; linarith [hs.1]
  have e : s = 1 - √(1 - s) ^ 2 := by rw [Real.sq_sqrt (by linarith [hs.2])]; ring
  have h2 := Real.log_le_sub_one_of_pos (x := 2 / (1 + √(1 - s))) (by positivity)
  refine div_pos (sub_pos.2 (h2.trans_lt ?_)) (pow_pos hs.1 2)
  generalize √(1 - s) = r at *
  rw [e, show 1 / (2 * r * (1 + r)) * (1 - r ^ 2) = (1 - r) / (2 * r) by field_simp; ring,
    show 2 / (1 + r) - 1 = (1 - r) / (1 + r) by field_simp; ring]
  exact div_lt_div_of_pos_left (by linarith) (by positivity) (by linarith)

theorem ndEnergy_lt {ε ε' T : ℝ} (hT : 0 < T) (h : ε < ε') : ndEnergy ε T < ndEnergy ε' T := by
  have := kT_pos hT
  unfold ndEnergy
  gcongr

/-- C87 for the depth of the Morse potential: at the same stiffness a deeper well makes the chain shorter, below the largest force
of the shallower one. -/
theorem C87_morse_depth (N : ℕ) (ℓ m k : ℝ) {ε ε' : ℝ} (hN : 0 < N) (hℓ : 0 < ℓ) (hk : 0 < k) (hε : 0 < ε) (h : ε < ε') :
    (morse_isotensional_asymptotic_reduced_lengths N ℓ m k ε').ShorterThan
      (morse_isotensional_asymptotic_reduced_lengths N ℓ m k ε) ℓ
      (fun η T => 0 < η ∧ η < √(ndEnergy ε T * ndStiffness k ℓ T / 8)) ∧
    (morse_isotensional_asymptotic_lengths N ℓ m k ε').ShorterThan
      (morse_isotensional_asymptotic_lengths N ℓ m k ε) ℓ
      (fun η T => 0 < η ∧ η < √(ndEnergy ε T * ndStiffness k ℓ T / 8)) := by
  have hε' := hε.trans h
  have key : ∀ η T, 0 < T → (0 < η ∧ η < √(ndEnergy ε T * ndStiffness k ℓ T / 8)) →
      morsePsi (morseA (ndStiffness k ℓ T) (ndEnergy ε' T)) (morseMax (ndStiffness k ℓ T) (ndEnergy ε' T)) η <
      morsePsi (morseA (ndStiffness k ℓ T) (ndEnergy ε T)) (morseMax (ndStiffness k ℓ T) (ndEnergy ε T)) η := fun η T hT h1 => by
    have hκ := ndStiffness_pos hk hℓ hT
    have he := ndEnergy_pos hε hT
    have h2 := ndEnergy_lt hT h
    have he' := he.trans h2
    have hM := morseMax_pos hκ he
    have hMM : morseMax (ndStiffness k ℓ T) (ndEnergy ε T) < morseMax (ndStiffness k ℓ T) (ndEnergy ε' T) := by
      unfold morseMax
      exact Real.sqrt_lt_sqrt (by positivity) (by gcongr)
    have e : ∀ e : ℝ, 0 < e → morsePsi (morseA (ndStiffness k ℓ T) e) (morseMax (ndStiffness k ℓ T) e) η =
        4 * η / ndStiffness k ℓ T * (Real.log (2 / (1 + √(1 - η / morseMax (ndStiffness k ℓ T) e))) /
          (η / morseMax (ndStiffness k ℓ T) e)) := fun e he => by
      have ha := morseA_pos hκ he
      have hm := morseMax_pos hκ he
      have hp : morseA (ndStiffness k ℓ T) e * morseMax (ndStiffness k ℓ T) e = ndStiffness k ℓ T / 4 := by
        unfold morseA morseMax
        rw [← Real.sqrt_mul (by positivity), show ndStiffness k ℓ T / e / 2 * (e * ndStiffness k ℓ T / 8) =
          (ndStiffness k ℓ T / 4) ^ 2 by field_simp; norm_num, Real.sqrt_sq (by positivity)]
      have h3 : ndStiffness k ℓ T = 4 * (morseA (ndStiffness k ℓ T) e * morseMax (ndStiffness k ℓ T) e) := by rw [hp]; ring
      have h4 := h1.1
      unfold morsePsi
      generalize morseA (ndStiffness k ℓ T) e = a at *
      generalize morseMax (ndStiffness k ℓ T) e = M at *
      rw [h3]
      field_simp
    rw [e _ he, e _ he']
    have h4 := h1.1
    refine mul_lt_mul_of_pos_left ?_ (by positivity)
    refine morse_quotient_strictMonoOn ⟨div_pos h4 (hM.trans hMM), (div_lt_one (hM.trans hMM)).2 (h1.2.trans hMM)⟩
      ⟨div_pos h4 hM, (div_lt_one hM).2 h1.2⟩ (div_lt_div_of_pos_left h4 hM hMM)
  refine ⟨.of_nd (C15_morse_isotensional_asymptotic_reduced_lengths N ℓ m k ε' hN hℓ)
    (C15_morse_isotensional_asymptotic_reduced_lengths N ℓ m k ε hN hℓ) hN hℓ fun η T hT h1 => ?_,
    .of_nd (C15_morse_isotensional_asymptotic_lengths N ℓ m k ε' hN hℓ)
    (C15_morse_isotensional_asymptotic_lengths N ℓ m k ε hN hℓ) hN hℓ fun η T hT h1 => ?_⟩
  · rw [morse_reduced_length_eq N hℓ hk hε' hT h1.1, morse_reduced_length_eq N hℓ hk hε hT h1.1]
    have := key η T hT h1
    linarith
  · rw [morse_asymptotic_length_eq N hℓ hk hε' hT h1.1, morse_asymptotic_length_eq N hℓ hk hε hT h1.1]
    have := key η T hT h1
    have hκ := ndStiffness_pos hk hℓ hT
    have he := ndEnergy_pos hε hT
    have h2 := ndEnergy_lt hT h
    have he' := he.trans h2
    have ha := morseA_pos hκ he
    have ha' := morseA_pos hκ he'
    have haa : morseA (ndStiffness k ℓ T) (ndEnergy ε' T) ≤ morseA (ndStiffness k ℓ T) (ndEnergy ε T) := by
      unfold morseA
      exact Real.sqrt_le_sqrt (by gcongr)
    have hb : 1 / (1 + 3 / 2 * morseA (ndStiffness k ℓ T) (ndEnergy ε T)) * ndStiffness k ℓ T ≤
        1 / (1 + 3 / 2 * morseA (ndStiffness k ℓ T) (ndEnergy ε' T)) * ndStiffness k ℓ T := by gcongr
    have := asyC_antitone (by positivity) hb h1.1
    linarith

/-! Twice the stiffness or the width. -/

example : (efjc_isotensional_asymptotic_lengths 8 1 1 1000).nd_length 5 300 <
    (efjc_isotensional_asymptotic_lengths 8 1 1 500).nd_length 5 300 :=
  (C87_efjc_asymptotic 8 1 1 (by norm_num) (by norm_num) (by norm_num) (by norm_num)).1.nd_length 5 300 (by norm_num) (by norm_num)

example : (fjc_isotensional_lengths 8 1 1).nd_length 5 300 <
    (efjc_isotensional_asymptotic_reduced_lengths 8 1 1 500).nd_length 5 300 :=
  (C87_efjc_reduced 8 1 1 (k' := 1000) (by norm_num) (by norm_num) (by norm_num) (by norm_num)).2.nd_length 5 300 (by norm_num)
    (by norm_num)

example : (swfjc_isotensional_lengths 8 1 1 (1 / 4)).nd_length 5 300 < (swfjc_isotensional_lengths 8 1 1 (1 / 2)).nd_length 5 300 ∧
    (fjc_isotensional_lengths 8 1 1).nd_length 5 300 < (swfjc_isotensional_lengths 8 1 1 (1 / 4)).nd_length 5 300 := by
  have := C87_swfjc 8 1 1 (w := 1 / 4) (w' := 1 / 2) (by norm_num) (by norm_num) (by norm_num) (by norm_num)
  exact ⟨this.1.nd_length 5 300 (by norm_num) (by norm_num), this.2.nd_length 5 300 (by norm_num) (by norm_num)⟩

example : (log_squared_isotensional_asymptotic_lengths 8 1 1 200000).nd_length 5 300 <
    (log_squared_isotensional_asymptotic_lengths 8 1 1 100000).nd_length 5 300 := by
  refine (C87_log_squared 8 1 1 (by norm_num) (by norm_num) (by norm_num) (by norm_num)).2.nd_length 5 300 (by norm_num)
    ⟨by norm_num, ?_⟩
  have he := Real.exp_one_lt_d9
  rw [lt_div_iff₀ (Real.exp_pos 1)]
  norm_num [ndStiffness, kT]
  linarith

example : (morse_isotensional_asymptotic_lengths 8 1 1 100000 200000).nd_length 5 300 <
    (morse_isotensional_asymptotic_lengths 8 1 1 100000 100000).nd_length 5 300 := by
  refine (C87_morse_depth 8 1 1 100000 (by norm_num) (by norm_num) (by norm_num) (by norm_num) (by norm_num)).2.nd_length 5 300
    (by norm_num) ⟨by norm_num, ?_⟩
  rw [Real.lt_sqrt (by norm_num)]
  norm_num [ndStiffness, ndEnergy, kT]

end Polymers.Props
