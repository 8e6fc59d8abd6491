import Verif.Props.FjcIsotensional
import Verif.Props.Ideal
import Verif.Props.Efjc
import Verif.Props.Swfjc
import Verif.Props.Morse

/-! Property C63: the response of the chains to a small force. -/

namespace Polymers.Props

open Polymers.Spec Polymers.Api Filter Topology Set

theorem ideal_nd_length (N : ℕ) (ℓ m η T : ℝ) : (ideal_isotensional_lengths N ℓ m).nd_length_per_link η T = η / 3 := by
  simp only [ideal_isotensional_lengths, ideal.Ideal.init, ideal.thermodynamics.Ideal.init,
    ideal.thermodynamics.isotensional.Ideal.init,
    ideal.thermodynamics.isotensional.Ideal.nondimensional_end_to_end_length_per_link,
    ideal.thermodynamics.isotensional.nondimensional_end_to_end_length_per_link, model_real]

theorem ideal_nd_gibbs (N : ℕ) (ℓ m η T : ℝ) : (ideal_isotensional_gibbs N ℓ m).nd_relative_per_link η T = -η ^ 2 / 6 := by
  simp only [ideal_isotensional_gibbs, ideal.Ideal.init, ideal.thermodynamics.Ideal.init,
    ideal.thermodynamics.isotensional.Ideal.init,
    ideal.thermodynamics.isotensional.Ideal.nondimensional_relative_gibbs_free_energy_per_link,
    ideal.thermodynamics.isotensional.nondimensional_relative_gibbs_free_energy_per_link, model_real]

/-- C63: the freely jointed chain is shorter than the ideal chain under the same force, by less than `η³/45` per link. -/
theorem C63_fjc_ideal_length (N : ℕ) (ℓ m T : ℝ) {η : ℝ} (hη : 0 < η) :
    (fjc_isotensional_lengths N ℓ m).nd_length_per_link η T < (ideal_isotensional_lengths N ℓ m).nd_length_per_link η T ∧
    (ideal_isotensional_lengths N ℓ m).nd_length_per_link η T <
      (fjc_isotensional_lengths N ℓ m).nd_length_per_link η T + η ^ 3 / 45 := by
  rw [fjc_nd_length_per_link, ideal_nd_length]
  have := langevin_gt_cubic hη
  exact ⟨langevin_lt_third hη, by linarith⟩

/-- C63: the relative Gibbs free energy of the freely jointed chain is above that of the ideal chain, by less than `η⁴/180`. -/
theorem C63_fjc_ideal_gibbs (N : ℕ) (ℓ m T : ℝ) {η : ℝ} (hη : 0 < η) :
    (ideal_isotensional_gibbs N ℓ m).nd_relative_per_link η T < (fjc_isotensional_gibbs N ℓ m).nd_relative_per_link η T ∧
    (fjc_isotensional_gibbs N ℓ m).nd_relative_per_link η T <
      (ideal_isotensional_gibbs N ℓ m).nd_relative_per_link η T + η ^ 4 / 180 := by
  rw [fjc_nd_relative_gibbs_per_link, ideal_nd_gibbs]
  -- a function increasing from the limit zero is positive
  have key : ∀ g g' : ℝ → ℝ, (∀ x, 0 < x → HasDerivAt g (g' x) x) → (∀ x, 0 < x → 0 < g' x) → Tendsto g (𝓝[>] 0) (𝓝 0) →
      0 < g η := by
    intro g g' hd hp hl
    have hm : StrictMonoOn g (Ioi 0) := by
      refine strictMonoOn_of_deriv_pos (convex_Ioi 0) (fun x hx => (hd x hx).continuousAt.continuousWithinAt) fun x hx => ?_
      rw [interior_Ioi] at hx
      rw [(hd x hx).deriv]
      exact hp x hx
    have h1 : 0 ≤ g (η / 2) := by
      refine le_of_tendsto hl ?_
      filter_upwards [Ioo_mem_nhdsGT (by linarith : (0 : ℝ) < η / 2)] with x hx
      exact (hm hx.1 (by simpa using hη) hx.2).le
    have h2 := hm (by simpa using hη : η / 2 ∈ Ioi (0 : ℝ)) (by simpa using hη : η ∈ Ioi (0 : ℝ)) (by linarith)
    linarith
  have hlog : Tendsto (fun x : ℝ => Real.log (Real.sinh x / x)) (𝓝[>] 0) (𝓝 0) :=
    log_sinh_div_tendsto_zero.mono_left (nhdsWithin_mono _ fun x hx => ne_of_gt hx)
  have hpoly : ∀ p : ℝ → ℝ, Continuous p → p 0 = 0 → Tendsto p (𝓝[>] 0) (𝓝 0) := by
    intro p hp h0
    have := (hp.tendsto 0).mono_left (nhdsWithin_le_nhds (s := Ioi 0))
    rwa [h0] at this
  constructor
  · have h := key (fun x => x ^ 2 / 6 - Real.log (Real.sinh x / x)) (fun x => x / 3 - langevin x)
      (fun x hx => by
        refine (((hasDerivAt_pow 2 x).div_const 6).sub (hasDerivAt_log_sinh_div hx.ne')).congr_deriv ?_
        norm_num
        ring)
      (fun x hx => sub_pos.2 (langevin_lt_third hx)) (by
        have := (hpoly (fun x => x ^ 2 / 6) (by fun_prop) (by norm_num)).sub hlog
        rwa [sub_zero] at this)
    linarith
  · have h := key (fun x => Real.log (Real.sinh x / x) - (x ^ 2 / 6 - x ^ 4 / 180)) (fun x => langevin x - (x / 3 - x ^ 3 / 45))
      (fun x hx => by
        refine ((hasDerivAt_log_sinh_div hx.ne').sub (((hasDerivAt_pow 2 x).div_const 6).sub
          ((hasDerivAt_pow 4 x).div_const 180))).congr_deriv ?_
        norm_num
        ring)
      (fun x hx => sub_pos.2 (langevin_gt_cubic hx)) (by
        have := hlog.sub (hpoly (fun x => x ^ 2 / 6 - x ^ 4 / 180) (by fun_prop) (by norm_num))
        rwa [sub_zero] at this)
    linarith

example : (fjc_isotensional_gibbs 8 1 1).nd_relative_per_link 1 300 < -1 / 6 + 1 / 180 := by
  have h := (C63_fjc_ideal_gibbs 8 1 1 300 (η := 1) one_pos).2
  rw [ideal_nd_gibbs] at h
  norm_num at h ⊢
  exact h

theorem tendsto_langevin_div : Tendsto (fun η => langevin η / η) (𝓝[>] 0) (𝓝 (1 / 3)) := by
  have h1 : Tendsto (fun η : ℝ => 1 / 3 - η ^ 2 / 45) (𝓝[>] 0) (𝓝 (1 / 3)) := by
    have : Tendsto (fun η : ℝ => 1 / 3 - η ^ 2 / 45) (𝓝 0) (𝓝 (1 / 3 - 0 ^ 2 / 45)) :=
      (Continuous.tendsto (by fun_prop) 0)
    norm_num at this
    exact (by norm_num : (1 : ℝ) / 3 = 3⁻¹) ▸ this.mono_left nhdsWithin_le_nhds
  refine tendsto_of_tendsto_of_tendsto_of_le_of_le' h1 tendsto_const_nhds ?_ ?_
  · filter_upwards [self_mem_nhdsWithin] with η hη
    have hη : 0 < η := hη
    rw [le_div_iff₀ hη]
    have := langevin_gt_cubic hη
    nlinarith
  · filter_upwards [self_mem_nhdsWithin] with η hη
    have hη : 0 < η := hη
    rw [div_le_iff₀ hη]
    have := langevin_lt_third hη
    linarith

theorem tendsto_tanh_div : Tendsto (fun η => Real.tanh η / η) (𝓝[>] 0) (𝓝 1) := by
  have h := (div_tanh_tendsto_one.mono_left (nhdsWithin_mono (0 : ℝ) fun x (hx : (0 : ℝ) < x) => hx.ne')).inv₀ one_ne_zero
  rw [inv_one] at h
  exact h.congr fun x => inv_div _ _

/-- The correction of the asymptotic approaches at small force. -/
theorem tendsto_correction {c κ : ℝ} (hc : 0 < c) (hκ : 0 < κ) :
    Tendsto (fun η => (Real.tanh η - 1 / Real.tanh η + 1 / η) / (c * Real.tanh η + η / κ)) (𝓝[>] 0)
      (𝓝 (2 / 3 / (c + 1 / κ))) := by
  have h := (tendsto_tanh_div.sub tendsto_langevin_div).div ((tendsto_tanh_div.const_mul c).add_const (1 / κ))
    (by positivity)
  have e : ((1 : ℝ) - 1 / 3) / (c * 1 + 1 / κ) = 2 / 3 / (c + 1 / κ) := by norm_num
  rw [e] at h
  refine h.congr' ?_
  filter_upwards [self_mem_nhdsWithin] with η hη
  have hη : 0 < η := hη
  have ht : 0 < Real.tanh η := by rw [Real.tanh_eq_sinh_div_cosh]; exact div_pos (Real.sinh_pos_iff.2 hη) (Real.cosh_pos η)
  have h1 : c * Real.tanh η + η / κ ≠ 0 := by positivity
  have h2 : c * (Real.tanh η / η) + 1 / κ = (c * Real.tanh η + η / κ) / η := by field_simp
  have h3 : Real.tanh η / η - langevin η / η = (Real.tanh η - 1 / Real.tanh η + 1 / η) / η := by
    unfold langevin
    field_simp
    ring
  rw [Pi.div_apply, h2, h3, div_div_div_cancel_right₀ hη.ne']

/-- C63: the compliance of the extensible chain at small force, reduced approach. -/
theorem C63_efjc_reduced (N : ℕ) (ℓ m : ℝ) {k T : ℝ} (hℓ : 0 < ℓ) (hk : 0 < k) (hT : 0 < T) :
    Tendsto (fun η => (efjc_isotensional_asymptotic_reduced_lengths N ℓ m k).nd_length_per_link η T / η) (𝓝[>] 0)
      (𝓝 (1 / 3 + 1 / ndStiffness k ℓ T)) := by
  have hκ := ndStiffness_pos hk hℓ hT
  simp only [efjc_reduced_length]
  refine (tendsto_langevin_div.add_const (1 / ndStiffness k ℓ T)).congr' ?_
  filter_upwards [self_mem_nhdsWithin] with η hη
  have hη : η ≠ 0 := ne_of_gt hη
  field_simp

/-- C63: asymptotic approach. -/
theorem C63_efjc_asymptotic (N : ℕ) (ℓ m : ℝ) {k T : ℝ} (hℓ : 0 < ℓ) (hk : 0 < k) (hT : 0 < T) :
    Tendsto (fun η => (efjc_isotensional_asymptotic_lengths N ℓ m k).nd_length_per_link η T / η) (𝓝[>] 0)
      (𝓝 (1 / 3 + 1 / ndStiffness k ℓ T * (1 + 2 / 3 / (1 + 1 / ndStiffness k ℓ T)))) := by
  have hκ := ndStiffness_pos hk hℓ hT
  simp only [efjc_asymptotic_length]
  refine (tendsto_langevin_div.add (((tendsto_correction one_pos hκ).const_add 1).const_mul (1 / ndStiffness k ℓ T))).congr' ?_
  filter_upwards [self_mem_nhdsWithin] with η hη
  have hη : η ≠ 0 := ne_of_gt hη
  rw [one_mul]
  generalize (Real.tanh η - 1 / Real.tanh η + 1 / η) / (Real.tanh η + η / ndStiffness k ℓ T) = c
  field_simp

/-- C63: alternative asymptotic approach. -/
theorem C63_efjc_alternative (N : ℕ) (ℓ m : ℝ) {k T : ℝ} (hℓ : 0 < ℓ) (hk : 0 < k) (hT : 0 < T) :
    Tendsto (fun η => (efjc_isotensional_asymptotic_alternative_lengths N ℓ m k).nd_length_per_link η T / η) (𝓝[>] 0)
      (𝓝 (1 / 3 + 5 / 3 / ndStiffness k ℓ T)) := by
  have hκ := ndStiffness_pos hk hℓ hT
  simp only [efjc_alternative_length]
  have h0 : Tendsto langevin (𝓝[>] 0) (𝓝 0) :=
    langevin_tendsto_zero.mono_left (nhdsWithin_mono _ fun x (hx : (0 : ℝ) < x) => hx.ne')
  have h := tendsto_langevin_div.add
    ((((((tendsto_const_nhds (x := (2 : ℝ))).sub (h0.pow 2)).sub tendsto_langevin_div)).div_const (ndStiffness k ℓ T)))
  rw [show (2 - (0 : ℝ) ^ 2 - 1 / 3) = 5 / 3 by norm_num] at h
  refine h.congr' ?_
  filter_upwards [self_mem_nhdsWithin] with η hη
  have hη : 0 < η := hη
  have hs := (Real.sinh_pos_iff.2 hη).ne'
  have hc := Real.cosh_sq η
  have e : η + 1 / Real.tanh η - η / Real.sinh η ^ 2 = η * (2 - langevin η ^ 2 - langevin η / η) := by
    unfold langevin
    rw [one_div_tanh]
    field_simp
    linear_combination η ^ 2 * hc
  rw [e]
  field_simp

theorem swG_bounds {x : ℝ} (hx : 0 < x) : x ^ 3 / 3 ≤ swG x ∧ swG x ≤ x ^ 2 * Real.sinh x / 3 := by
  constructor
  · have := pos_of_deriv_pos (f := fun x => swG x - x ^ 3 / 3) (f' := fun x => x * (Real.sinh x - x)) (by simp [swG])
      (fun x => ((hasDerivAt_swG x).sub ((hasDerivAt_pow 3 x).div_const 3)).congr_deriv (by norm_num; ring))
      (fun x hx => mul_pos hx (sub_pos.2 (self_lt_sinh' hx))) hx
    linarith
  · have := langevin_third_aux hx
    unfold swG
    linarith

/-- `x² sinh x - 3 (x cosh x - sinh x)` between its leading term and a multiple. -/
theorem swK_bounds {x : ℝ} (hx : 0 < x) : x ^ 5 / 15 ≤ x ^ 2 * Real.sinh x - 3 * swG x ∧
    x ^ 2 * Real.sinh x - 3 * swG x ≤ x ^ 4 * Real.sinh x / 15 := by
  constructor
  · have := pos_of_deriv_pos (f := fun x => x ^ 2 * Real.sinh x - 3 * swG x - x ^ 5 / 15)
      (f' := fun x => x * (x * Real.cosh x - Real.sinh x - x ^ 3 / 3)) (by simp [swG])
      (fun x => (((((hasDerivAt_pow 2 x).mul (Real.hasDerivAt_sinh x)).sub ((hasDerivAt_swG x).const_mul 3))).sub
        ((hasDerivAt_pow 5 x).div_const 15)).congr_deriv (by norm_num; ring))
      (fun x hx => by
        refine mul_pos hx ?_
        have := pos_of_deriv_pos (f := fun x => swG x - x ^ 3 / 3) (f' := fun x => x * (Real.sinh x - x)) (by simp [swG])
          (fun x => ((hasDerivAt_swG x).sub ((hasDerivAt_pow 3 x).div_const 3)).congr_deriv (by norm_num; ring))
          (fun x hx => mul_pos hx (sub_pos.2 (self_lt_sinh' hx))) hx
        unfold swG at this
        linarith) hx
    linarith
  · have := langevin_cubic_aux hx
    unfold swG
    linarith

theorem tendsto_swG : Tendsto (fun x => swG x / x ^ 3) (𝓝[>] 0) (𝓝 (1 / 3)) ∧
    Tendsto (fun x => (x ^ 2 * Real.sinh x - 3 * swG x) / x ^ 5) (𝓝[>] 0) (𝓝 (1 / 15)) := by
  have hs : Tendsto (fun x : ℝ => Real.sinh x / x) (𝓝[>] 0) (𝓝 1) := by
    have h2 := (hasDerivAt_iff_tendsto_slope.1 (Real.hasDerivAt_sinh 0)).mono_left
      (nhdsWithin_mono (0 : ℝ) fun x (hx : (0 : ℝ) < x) => hx.ne')
    rw [Real.cosh_zero] at h2
    refine h2.congr fun x => ?_
    rw [slope_def_field, Real.sinh_zero, sub_zero, sub_zero]
  constructor
  · have h3 := hs.div_const 3
    refine tendsto_of_tendsto_of_tendsto_of_le_of_le' tendsto_const_nhds h3 ?_ ?_
    · filter_upwards [self_mem_nhdsWithin] with x hx
      have hx : 0 < x := hx
      rw [le_div_iff₀ (by positivity)]
      have := (swG_bounds hx).1
      linarith
    · filter_upwards [self_mem_nhdsWithin] with x hx
      have hx : 0 < x := hx
      rw [div_le_iff₀ (by positivity)]
      have e : Real.sinh x / x / 3 * x ^ 3 = x ^ 2 * Real.sinh x / 3 := by field_simp
      rw [e]
      exact (swG_bounds hx).2
  · have h3 := hs.div_const 15
    refine tendsto_of_tendsto_of_tendsto_of_le_of_le' tendsto_const_nhds h3 ?_ ?_
    · filter_upwards [self_mem_nhdsWithin] with x hx
      have hx : 0 < x := hx
      rw [le_div_iff₀ (by positivity)]
      have := (swK_bounds hx).1
      linarith
    · filter_upwards [self_mem_nhdsWithin] with x hx
      have hx : 0 < x := hx
      rw [div_le_iff₀ (by positivity)]
      have e : Real.sinh x / x / 15 * x ^ 5 = x ^ 4 * Real.sinh x / 15 := by field_simp
      rw [e]
      exact (swK_bounds hx).2

/-- C63: the square-well chain, with `b = 1 + w/ℓ` the largest length of a link. -/
theorem C63_swfjc (N : ℕ) (ℓ m T : ℝ) {w : ℝ} (hℓ : 0 < ℓ) (hw : 0 < w) :
    Tendsto (fun η => (swfjc_isotensional_lengths N ℓ m w).nd_length_per_link η T / η) (𝓝[>] 0)
      (𝓝 (((1 + w / ℓ) ^ 5 - 1) / (5 * ((1 + w / ℓ) ^ 3 - 1)))) := by
  have hW := one_lt_well hℓ hw
  simp only [swfjc_length]
  generalize 1 + w / ℓ = W at *
  have hW0 : 0 < W := by linarith
  have hmul : Tendsto (fun η : ℝ => W * η) (𝓝[>] 0) (𝓝[>] 0) := by
    rw [tendsto_nhdsWithin_iff]
    refine ⟨?_, ?_⟩
    · have : Tendsto (fun η : ℝ => W * η) (𝓝 0) (𝓝 (W * 0)) := (continuous_const.mul continuous_id).tendsto 0
      rw [mul_zero] at this
      exact this.mono_left nhdsWithin_le_nhds
    · filter_upwards [self_mem_nhdsWithin] with η hη
      exact mul_pos hW0 hη
  obtain ⟨g1, g2⟩ := tendsto_swG
  have a1 := ((g1.comp hmul).const_mul (W ^ 3)).sub g1
  have a2 := ((g2.comp hmul).const_mul (W ^ 5)).sub g2
  have hW3 : 0 < W ^ 3 - 1 := by nlinarith [mul_pos hW0 hW0]
  have hd : W ^ 3 * (1 / 3) - 1 / 3 ≠ 0 := by
    have : 0 < W ^ 3 * (1 / 3) - 1 / 3 := by linarith
    exact this.ne'
  have h := a2.div a1 hd
  have e : (W ^ 5 * (1 / 15) - 1 / 15) / (W ^ 3 * (1 / 3) - 1 / 3) = (W ^ 5 - 1) / (5 * (W ^ 3 - 1)) := by
    have := hW3.ne'
    rw [div_eq_div_iff hd (by positivity)]
    ring
  rw [e] at h
  refine h.congr' ?_
  filter_upwards [self_mem_nhdsWithin] with η hη
  have hη : 0 < η := hη
  have hZ := (swZ_pos hW hη).ne'
  have hZ' : W ^ 3 * (swG (W * η) / (W * η) ^ 3) - swG η / η ^ 3 = swZ W η / η ^ 3 := by
    unfold swZ
    field_simp
  have hK : W ^ 5 * (((W * η) ^ 2 * Real.sinh (W * η) - 3 * swG (W * η)) / (W * η) ^ 5) -
      (η ^ 2 * Real.sinh η - 3 * swG η) / η ^ 5 =
      (η * (W ^ 2 * η * Real.sinh (W * η) - η * Real.sinh η) - 3 * swZ W η) / η ^ 5 := by
    unfold swZ
    field_simp
    ring
  simp only [Function.comp, Pi.div_apply]
  rw [hZ', hK]
  field_simp

theorem tendsto_morse_part {κ ε : ℝ} (hκ : 0 < κ) (hε : 0 < ε) :
    Tendsto (fun η => Real.log (2 / (1 + √(1 - η / morseMax κ ε))) / η / morseA κ ε) (𝓝[>] 0) (𝓝 (1 / κ)) := by
  have hM := morseMax_pos hκ hε
  have hA := morseA_pos hκ hε
  have h := (hasDerivAt_iff_tendsto_slope.1 (hasDerivAt_morse_log hM hM)).mono_left
    (nhdsWithin_mono (0 : ℝ) fun x (hx : (0 : ℝ) < x) => hx.ne')
  have h2 := h.div_const (morseA κ ε)
  have e : 1 / (2 * morseMax κ ε * √(1 - 0 / morseMax κ ε) * (1 + √(1 - 0 / morseMax κ ε))) / morseA κ ε = 1 / κ := by
    have hsq : morseA κ ε ^ 2 = κ / ε / 2 := by rw [morseA, Real.sq_sqrt (by positivity)]
    rw [zero_div, sub_zero, Real.sqrt_one, morseMax_eq hκ hε, div_div]
    congr 1
    have : 2 * (ε * morseA κ ε / 2) * 1 * (1 + 1) * morseA κ ε = 2 * ε * morseA κ ε ^ 2 := by ring
    rw [this, hsq]
    field_simp
  rw [e] at h2
  refine h2.congr fun x => ?_
  rw [slope_def_field]
  have e2 : (2 : ℝ) / (1 + 1) = 1 := by norm_num
  simp [e2]

/-- C63: the chain of Morse links, reduced approach. -/
theorem C63_morse_reduced (N : ℕ) (ℓ m : ℝ) {k ε T : ℝ} (hℓ : 0 < ℓ) (hk : 0 < k) (hε : 0 < ε) (hT : 0 < T) :
    Tendsto (fun η => (morse_isotensional_asymptotic_reduced_lengths N ℓ m k ε).nd_length_per_link η T / η) (𝓝[>] 0)
      (𝓝 (1 / 3 + 1 / ndStiffness k ℓ T)) := by
  have hκ := ndStiffness_pos hk hℓ hT
  have hε' := ndEnergy_pos hε hT
  simp only [morse_reduced_length]
  refine (tendsto_langevin_div.add (tendsto_morse_part hκ hε')).congr' ?_
  filter_upwards [self_mem_nhdsWithin] with η hη
  rw [add_div, div_right_comm]

/-- C63: the chain of Morse links, asymptotic approach. -/
theorem C63_morse_asymptotic (N : ℕ) (ℓ m : ℝ) {k ε T : ℝ} (hℓ : 0 < ℓ) (hk : 0 < k) (hε : 0 < ε) (hT : 0 < T) :
    Tendsto (fun η => (morse_isotensional_asymptotic_lengths N ℓ m k ε).nd_length_per_link η T / η) (𝓝[>] 0)
      (𝓝 (1 / 3 + 1 / ndStiffness k ℓ T * (1 + 2 / 3 /
        (1 / (1 + 3 / 2 * √(ndStiffness k ℓ T / (2 * ndEnergy ε T))) + 1 / ndStiffness k ℓ T)))) := by
  have hκ := ndStiffness_pos hk hℓ hT
  have hε' := ndEnergy_pos hε hT
  simp only [morse_asymptotic_length, morseA_spec]
  have hA := morseA_pos hκ hε'
  have h := (tendsto_langevin_div.add (((tendsto_correction (c := 1 / (1 + 3 / 2 * morseA (ndStiffness k ℓ T) (ndEnergy ε T)))
    (by positivity) hκ)).const_mul (1 / ndStiffness k ℓ T))).add (tendsto_morse_part hκ hε')
  refine (h.congr' ?_).trans (le_of_eq (by congr 1; ring))
  filter_upwards [self_mem_nhdsWithin] with η hη
  have hη : η ≠ 0 := ne_of_gt hη
  generalize (Real.tanh η - 1 / Real.tanh η + 1 / η) / _ = c
  field_simp

/-- Links which can only lengthen make the chain more compliant: a well as wide as the link multiplies its response by `31/35·3`. -/
example : Tendsto (fun η => (swfjc_isotensional_lengths 8 1 1 1).nd_length_per_link η 300 / η) (𝓝[>] 0) (𝓝 (31 / 35)) := by
  have h := C63_swfjc 8 1 1 300 (w := 1) one_pos one_pos
  norm_num at h ⊢
  exact h

example : Tendsto (fun η => (morse_isotensional_asymptotic_reduced_lengths 8 1 1 2 3).nd_length_per_link η 300 / η) (𝓝[>] 0)
    (𝓝 (1 / 3 + 1 / ndStiffness 2 1 300)) :=
  C63_morse_reduced 8 1 1 one_pos two_pos three_pos (by norm_num)

end Polymers.Props
