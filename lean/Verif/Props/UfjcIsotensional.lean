import Verif.Props.ScalingMorse
import Verif.Props.ScalingLogSquared
import Verif.Props.ScalingLennardJones
import Verif.Spec.Links
import Verif.Lemmas.ApiCore
import Verif.Lemmas.Gradient
import Verif.Lemmas.LinkPartition

/-! Properties C29 and C51: the isotensional ensembles of the chains with Morse, log-squared and Lennard-Jones links,
evaluated by quadrature. -/

namespace Polymers.Props

open Polymers.Spec Polymers.Api Polymers.Lemmas Set Filter Topology

/-- The largest Morse link stretch used in the quadrature. -/
noncomputable def morseStretchMax (κ ε : ℝ) : ℝ := 1 + Real.log 2 / √(κ / ε / 2)

theorem morseStretchMax_gt {κ ε : ℝ} : (ZERO : ℝ) < morseStretchMax κ ε := by
  have : 0 ≤ Real.log 2 / √(κ / ε / 2) := div_nonneg (Real.log_nonneg (by norm_num)) (Real.sqrt_nonneg _)
  have h0 : (ZERO : ℝ) = 1e-6 := rfl
  rw [h0]; unfold morseStretchMax
  norm_num at *; linarith

theorem logSquaredStretchMax_gt : (ZERO : ℝ) < Real.exp 1 := by
  have h0 : (ZERO : ℝ) = 1e-6 := rfl
  rw [h0]
  have := Real.add_one_le_exp (1 : ℝ)
  norm_num at *; linarith

theorem ljStretchMax_gt : (ZERO : ℝ) < (13 / 7 : ℝ) ^ (1 / 6 : ℝ) := by
  have h0 : (ZERO : ℝ) = 1e-6 := rfl
  rw [h0]
  have := Real.one_le_rpow (x := 13 / 7) (z := 1 / 6) (by norm_num) (by norm_num)
  norm_num at *; linarith

theorem zero_nonneg : (0 : ℝ) ≤ (ZERO : ℝ) := zero_pos'.le

theorem points_pos : 0 < POINTS := by decide

/-! ### Morse -/

theorem morse_core_gibbs (ℓ m κ ε T : ℝ) {η : ℝ} (hη : 0 < η) :
    ufjc.morse.thermodynamics.isotensional.nondimensional_gibbs_free_energy_per_link ℓ m κ ε η T =
      -Real.log (linkZ (morseEnergy κ ε) ZERO (morseStretchMax κ ε) POINTS η) -
        Real.log (8 * Real.pi ^ 2 * m * ℓ ^ 2 * BOLTZMANN_CONSTANT * T / PLANCK_CONSTANT ^ 2) := by
  simp only [ufjc.morse.thermodynamics.isotensional.nondimensional_gibbs_free_energy_per_link, model_real]
  congr 3
  unfold linkZ
  refine math.integrate_1d_congr morseStretchMax_gt fun x hx => ?_
  rw [← code_weight _ hη (zero_pos'.trans hx.1), morseEnergy, div_div, mul_comm ε 2]

theorem morse_core_length (κ ε : ℝ) {η : ℝ} (hη : 0 < η) :
    ufjc.morse.thermodynamics.isotensional.nondimensional_end_to_end_length_per_link κ ε η =
      linkGamma (morseEnergy κ ε) ZERO (morseStretchMax κ ε) POINTS η := by
  simp only [ufjc.morse.thermodynamics.isotensional.nondimensional_end_to_end_length_per_link, model_real]
  rw [math.integrate_1d_div_const]
  unfold linkGamma linkZ
  congr 1
  · refine math.integrate_1d_congr morseStretchMax_gt fun x hx => ?_
    rw [← code_weight' _ hη (zero_pos'.trans hx.1), morseEnergy, div_div, mul_comm ε 2]
  · refine math.integrate_1d_congr morseStretchMax_gt fun x hx => ?_
    rw [← code_weight _ hη (zero_pos'.trans hx.1), morseEnergy, div_div, mul_comm ε 2]

/-- C29: the Gibbs free energy is minus the logarithm of the discretised partition function of one link. -/
theorem C29_morse_partition (N : ℕ) (ℓ m k ε : ℝ) {η T : ℝ} (hη : 0 < η) :
    (morse_isotensional_gibbs N ℓ m k ε).nd_energy_per_link η T =
      -Real.log (midpointSum (linkWeight (morseEnergy (ndStiffness k ℓ T) (ndEnergy ε T)) η) 1e-6
          (1 + Real.log 2 / √(ndStiffness k ℓ T / ndEnergy ε T / 2)) 64) -
        Real.log (8 * Real.pi ^ 2 * m * ℓ ^ 2 * BOLTZMANN_CONSTANT * T / PLANCK_CONSTANT ^ 2) := by
  rw [← integrate_1d_eq_midpointSum]
  simp only [api_core]
  exact morse_core_gibbs _ _ _ _ _ hη

example : (morse_isotensional_gibbs 8 1 1 500 80).nd_energy_per_link 5 300 =
      -Real.log (midpointSum (linkWeight (morseEnergy (ndStiffness 500 1 300) (ndEnergy 80 300)) 5) 1e-6
          (1 + Real.log 2 / √(ndStiffness 500 1 300 / ndEnergy 80 300 / 2)) 64) -
        Real.log (8 * Real.pi ^ 2 * 1 * 1 ^ 2 * BOLTZMANN_CONSTANT * 300 / PLANCK_CONSTANT ^ 2) :=
  C29_morse_partition 8 1 1 500 80 (by norm_num)

/-- C29: the extension is minus the gradient of the Gibbs free energy. -/
theorem C29_morse_length_is_gradient (N : ℕ) (ℓ m k ε : ℝ) (hN : 0 < N) (hℓ : 0 < ℓ) :
    (morse_isotensional_lengths N ℓ m k ε).IsMinusGradient (morse_isotensional_gibbs N ℓ m k ε) ℓ (fun η _ => 0 < η) := by
  refine .of_nd (C15_morse_isotensional_gibbs N ℓ m k ε hN hℓ) (C15_morse_isotensional_lengths N ℓ m k ε hN hℓ) ?_
  intro η T hT hη
  simp only [api_core]
  rw [morse_core_length _ _ hη]
  have h := ((hasDerivAt_log_linkZ (U := morseEnergy (ndStiffness k ℓ T) (ndEnergy ε T)) (n := POINTS) zero_nonneg
    (morseStretchMax_gt (κ := ndStiffness k ℓ T) (ε := ndEnergy ε T)) points_pos hη).neg).sub_const
      (Real.log (8 * Real.pi ^ 2 * m * ℓ ^ 2 * BOLTZMANN_CONSTANT * T / PLANCK_CONSTANT ^ 2))
  refine h.congr_of_eventuallyEq ?_
  filter_upwards [lt_mem_nhds hη] with y hy
  exact morse_core_gibbs _ _ _ _ _ hy

example : (morse_isotensional_lengths 8 1 1 500 80).IsMinusGradient (morse_isotensional_gibbs 8 1 1 500 80) 1
    (fun η _ => 0 < η) := C29_morse_length_is_gradient 8 1 1 500 80 (by norm_num) (by norm_num)

/-- C51: under a positive force the extension per link is positive and below the largest link stretch considered. -/
theorem C51_morse_length_bounds (N : ℕ) (ℓ m k ε : ℝ) {η T : ℝ} (hη : 0 < η) :
    0 < (morse_isotensional_lengths N ℓ m k ε).nd_length_per_link η T ∧
      (morse_isotensional_lengths N ℓ m k ε).nd_length_per_link η T <
        1 + Real.log 2 / √(ndStiffness k ℓ T / ndEnergy ε T / 2) := by
  simp only [api_core]
  rw [morse_core_length _ _ hη]
  exact ⟨linkGamma_pos zero_nonneg morseStretchMax_gt points_pos hη,
    linkGamma_lt zero_nonneg morseStretchMax_gt points_pos hη⟩

example : 0 < (morse_isotensional_lengths 8 1 1 500 80).nd_length_per_link 5 300 :=
  (C51_morse_length_bounds 8 1 1 500 80 (by norm_num)).1

/-- C51: the extension per link is strictly increasing in the force. -/
theorem C51_morse_length_strictMono (N : ℕ) (ℓ m k ε T : ℝ) :
    StrictMonoOn (fun η => (morse_isotensional_lengths N ℓ m k ε).nd_length_per_link η T) (Ioi 0) := by
  intro η hη η' hη' h
  simp only [api_core]
  rw [morse_core_length _ _ hη, morse_core_length _ _ hη']
  exact linkGamma_strictMonoOn zero_nonneg morseStretchMax_gt points_pos hη hη' h

example : (morse_isotensional_lengths 8 1 1 500 80).nd_length_per_link 5 300 <
    (morse_isotensional_lengths 8 1 1 500 80).nd_length_per_link 6 300 :=
  C51_morse_length_strictMono 8 1 1 500 80 300 (by norm_num : (0:ℝ) < 5) (by norm_num : (0:ℝ) < 6) (by norm_num)

/-! ### Log-squared -/

theorem log_squared_core_gibbs (ℓ m κ T : ℝ) {η : ℝ} (hη : 0 < η) :
    ufjc.log_squared.thermodynamics.isotensional.nondimensional_gibbs_free_energy_per_link ℓ m κ η T =
      -Real.log (linkZ (logSquaredEnergy κ) ZERO (Real.exp 1) POINTS η) -
        Real.log (8 * Real.pi ^ 2 * m * ℓ ^ 2 * BOLTZMANN_CONSTANT * T / PLANCK_CONSTANT ^ 2) := by
  simp only [ufjc.log_squared.thermodynamics.isotensional.nondimensional_gibbs_free_energy_per_link, model_real]
  congr 3
  unfold linkZ
  refine math.integrate_1d_congr logSquaredStretchMax_gt fun x hx => ?_
  rw [← code_weight _ hη (zero_pos'.trans hx.1), logSquaredEnergy]
  ring_nf

theorem log_squared_core_length (κ : ℝ) {η : ℝ} (hη : 0 < η) :
    ufjc.log_squared.thermodynamics.isotensional.nondimensional_end_to_end_length_per_link κ η =
      linkGamma (logSquaredEnergy κ) ZERO (Real.exp 1) POINTS η := by
  simp only [ufjc.log_squared.thermodynamics.isotensional.nondimensional_end_to_end_length_per_link, model_real]
  rw [math.integrate_1d_div_const]
  unfold linkGamma linkZ
  congr 1
  · refine math.integrate_1d_congr logSquaredStretchMax_gt fun x hx => ?_
    rw [← code_weight' _ hη (zero_pos'.trans hx.1), logSquaredEnergy]
    ring_nf
  · refine math.integrate_1d_congr logSquaredStretchMax_gt fun x hx => ?_
    rw [← code_weight _ hη (zero_pos'.trans hx.1), logSquaredEnergy]
    ring_nf

/-- C29: the Gibbs free energy is minus the logarithm of the discretised partition function of one link. -/
theorem C29_log_squared_partition (N : ℕ) (ℓ m k : ℝ) {η T : ℝ} (hη : 0 < η) :
    (log_squared_isotensional_gibbs N ℓ m k).nd_energy_per_link η T =
      -Real.log (midpointSum (linkWeight (logSquaredEnergy (ndStiffness k ℓ T)) η) 1e-6 (Real.exp 1) 64) -
        Real.log (8 * Real.pi ^ 2 * m * ℓ ^ 2 * BOLTZMANN_CONSTANT * T / PLANCK_CONSTANT ^ 2) := by
  rw [← integrate_1d_eq_midpointSum]
  simp only [api_core]
  exact log_squared_core_gibbs _ _ _ _ hη

example : (log_squared_isotensional_gibbs 8 1 1 500).nd_energy_per_link 5 300 =
      -Real.log (midpointSum (linkWeight (logSquaredEnergy (ndStiffness 500 1 300)) 5) 1e-6 (Real.exp 1) 64) -
        Real.log (8 * Real.pi ^ 2 * 1 * 1 ^ 2 * BOLTZMANN_CONSTANT * 300 / PLANCK_CONSTANT ^ 2) :=
  C29_log_squared_partition 8 1 1 500 (by norm_num)

/-- C29: the extension is minus the gradient of the Gibbs free energy. -/
theorem C29_log_squared_length_is_gradient (N : ℕ) (ℓ m k : ℝ) (hN : 0 < N) (hℓ : 0 < ℓ) :
    (log_squared_isotensional_lengths N ℓ m k).IsMinusGradient (log_squared_isotensional_gibbs N ℓ m k) ℓ
      (fun η _ => 0 < η) := by
  refine .of_nd (C15_log_squared_isotensional_gibbs N ℓ m k hN hℓ) (C15_log_squared_isotensional_lengths N ℓ m k hN hℓ) ?_
  intro η T hT hη
  simp only [api_core]
  rw [log_squared_core_length _ hη]
  have h := ((hasDerivAt_log_linkZ (U := logSquaredEnergy (ndStiffness k ℓ T)) (n := POINTS) zero_nonneg
    logSquaredStretchMax_gt points_pos hη).neg).sub_const
      (Real.log (8 * Real.pi ^ 2 * m * ℓ ^ 2 * BOLTZMANN_CONSTANT * T / PLANCK_CONSTANT ^ 2))
  refine h.congr_of_eventuallyEq ?_
  filter_upwards [lt_mem_nhds hη] with y hy
  exact log_squared_core_gibbs _ _ _ _ hy

example : (log_squared_isotensional_lengths 8 1 1 500).IsMinusGradient (log_squared_isotensional_gibbs 8 1 1 500) 1
    (fun η _ => 0 < η) := C29_log_squared_length_is_gradient 8 1 1 500 (by norm_num) (by norm_num)

/-- C51: under a positive force the extension per link is positive and below the largest link stretch considered. -/
theorem C51_log_squared_length_bounds (N : ℕ) (ℓ m k : ℝ) {η T : ℝ} (hη : 0 < η) :
    0 < (log_squared_isotensional_lengths N ℓ m k).nd_length_per_link η T ∧
      (log_squared_isotensional_lengths N ℓ m k).nd_length_per_link η T < Real.exp 1 := by
  simp only [api_core]
  rw [log_squared_core_length _ hη]
  exact ⟨linkGamma_pos zero_nonneg logSquaredStretchMax_gt points_pos hη,
    linkGamma_lt zero_nonneg logSquaredStretchMax_gt points_pos hη⟩

example : 0 < (log_squared_isotensional_lengths 8 1 1 500).nd_length_per_link 5 300 :=
  (C51_log_squared_length_bounds 8 1 1 500 (by norm_num)).1

/-- C51: the extension per link is strictly increasing in the force. -/
theorem C51_log_squared_length_strictMono (N : ℕ) (ℓ m k T : ℝ) :
    StrictMonoOn (fun η => (log_squared_isotensional_lengths N ℓ m k).nd_length_per_link η T) (Ioi 0) := by
  intro η hη η' hη' h
  simp only [api_core]
  rw [log_squared_core_length _ hη, log_squared_core_length _ hη']
  exact linkGamma_strictMonoOn zero_nonneg logSquaredStretchMax_gt points_pos hη hη' h

example : (log_squared_isotensional_lengths 8 1 1 500).nd_length_per_link 5 300 <
    (log_squared_isotensional_lengths 8 1 1 500).nd_length_per_link 6 300 :=
  C51_log_squared_length_strictMono 8 1 1 500 300 (by norm_num : (0:ℝ) < 5) (by norm_num : (0:ℝ) < 6) (by norm_num)

/-! ### Lennard-Jones -/

theorem lj_zpow (κ x : ℝ) : κ / 72 * (x ^ (-12 : ℤ) - 2 * x ^ (-6 : ℤ)) = lennardJonesEnergy κ x := by
  rw [lennardJonesEnergy, zpow_neg, zpow_neg, one_div, div_eq_mul_inv 2]
  norm_cast

theorem lennard_jones_core_gibbs (ℓ m κ T : ℝ) {η : ℝ} (hη : 0 < η) :
    ufjc.lennard_jones.thermodynamics.isotensional.nondimensional_gibbs_free_energy_per_link ℓ m κ η T =
      -Real.log (linkZ (lennardJonesEnergy κ) ZERO ((13 / 7 : ℝ) ^ (1 / 6 : ℝ)) POINTS η) -
        Real.log (8 * Real.pi ^ 2 * m * ℓ ^ 2 * BOLTZMANN_CONSTANT * T / PLANCK_CONSTANT ^ 2) := by
  simp only [ufjc.lennard_jones.thermodynamics.isotensional.nondimensional_gibbs_free_energy_per_link, model_real]
  congr 3
  unfold linkZ
  refine math.integrate_1d_congr ljStretchMax_gt fun x hx => ?_
  rw [← code_weight _ hη (zero_pos'.trans hx.1), ← lj_zpow]

theorem lennard_jones_core_length (κ : ℝ) {η : ℝ} (hη : 0 < η) :
    ufjc.lennard_jones.thermodynamics.isotensional.nondimensional_end_to_end_length_per_link κ η =
      linkGamma (lennardJonesEnergy κ) ZERO ((13 / 7 : ℝ) ^ (1 / 6 : ℝ)) POINTS η := by
  simp only [ufjc.lennard_jones.thermodynamics.isotensional.nondimensional_end_to_end_length_per_link, model_real]
  rw [math.integrate_1d_div_const]
  unfold linkGamma linkZ
  congr 1
  · refine math.integrate_1d_congr ljStretchMax_gt fun x hx => ?_
    rw [← code_weight' _ hη (zero_pos'.trans hx.1), ← lj_zpow]
  · refine math.integrate_1d_congr ljStretchMax_gt fun x hx => ?_
    rw [← code_weight _ hη (zero_pos'.trans hx.1), ← lj_zpow]

/-- C29: the Gibbs free energy is minus the logarithm of the discretised partition function of one link. -/
theorem C29_lennard_jones_partition (N : ℕ) (ℓ m k : ℝ) {η T : ℝ} (hη : 0 < η) :
    (lennard_jones_isotensional_gibbs N ℓ m k).nd_energy_per_link η T =
      -Real.log (midpointSum (linkWeight (lennardJonesEnergy (ndStiffness k ℓ T)) η) 1e-6
          ((13 / 7 : ℝ) ^ (1 / 6 : ℝ)) 64) -
        Real.log (8 * Real.pi ^ 2 * m * ℓ ^ 2 * BOLTZMANN_CONSTANT * T / PLANCK_CONSTANT ^ 2) := by
  rw [← integrate_1d_eq_midpointSum]
  simp only [api_core]
  exact lennard_jones_core_gibbs _ _ _ _ hη

example : (lennard_jones_isotensional_gibbs 8 1 1 500).nd_energy_per_link 5 300 =
      -Real.log (midpointSum (linkWeight (lennardJonesEnergy (ndStiffness 500 1 300)) 5) 1e-6
          ((13 / 7 : ℝ) ^ (1 / 6 : ℝ)) 64) -
        Real.log (8 * Real.pi ^ 2 * 1 * 1 ^ 2 * BOLTZMANN_CONSTANT * 300 / PLANCK_CONSTANT ^ 2) :=
  C29_lennard_jones_partition 8 1 1 500 (by norm_num)

/-- C29: the extension is minus the gradient of the Gibbs free energy. -/
theorem C29_lennard_jones_length_is_gradient (N : ℕ) (ℓ m k : ℝ) (hN : 0 < N) (hℓ : 0 < ℓ) :
    (lennard_jones_isotensional_lengths N ℓ m k).IsMinusGradient (lennard_jones_isotensional_gibbs N ℓ m k) ℓ
      (fun η _ => 0 < η) := by
  refine .of_nd (C15_lennard_jones_isotensional_gibbs N ℓ m k hN hℓ)
    (C15_lennard_jones_isotensional_lengths N ℓ m k hN hℓ) ?_
  intro η T hT hη
  simp only [api_core]
  rw [lennard_jones_core_length _ hη]
  have h := ((hasDerivAt_log_linkZ (U := lennardJonesEnergy (ndStiffness k ℓ T)) (n := POINTS) zero_nonneg
    ljStretchMax_gt points_pos hη).neg).sub_const
      (Real.log (8 * Real.pi ^ 2 * m * ℓ ^ 2 * BOLTZMANN_CONSTANT * T / PLANCK_CONSTANT ^ 2))
  refine h.congr_of_eventuallyEq ?_
  filter_upwards [lt_mem_nhds hη] with y hy
  exact lennard_jones_core_gibbs _ _ _ _ hy

example : (lennard_jones_isotensional_lengths 8 1 1 500).IsMinusGradient (lennard_jones_isotensional_gibbs 8 1 1 500) 1
    (fun η _ => 0 < η) := C29_lennard_jones_length_is_gradient 8 1 1 500 (by norm_num) (by norm_num)

/-- C51: under a positive force the extension per link is positive and below the largest link stretch considered. -/
theorem C51_lennard_jones_length_bounds (N : ℕ) (ℓ m k : ℝ) {η T : ℝ} (hη : 0 < η) :
    0 < (lennard_jones_isotensional_lengths N ℓ m k).nd_length_per_link η T ∧
      (lennard_jones_isotensional_lengths N ℓ m k).nd_length_per_link η T < (13 / 7 : ℝ) ^ (1 / 6 : ℝ) := by
  simp only [api_core]
  rw [lennard_jones_core_length _ hη]
  exact ⟨linkGamma_pos zero_nonneg ljStretchMax_gt points_pos hη,
    linkGamma_lt zero_nonneg ljStretchMax_gt points_pos hη⟩

example : 0 < (lennard_jones_isotensional_lengths 8 1 1 500).nd_length_per_link 5 300 :=
  (C51_lennard_jones_length_bounds 8 1 1 500 (by norm_num)).1

/-- C51: the extension per link is strictly increasing in the force. -/
theorem C51_lennard_jones_length_strictMono (N : ℕ) (ℓ m k T : ℝ) :
    StrictMonoOn (fun η => (lennard_jones_isotensional_lengths N ℓ m k).nd_length_per_link η T) (Ioi 0) := by
  intro η hη η' hη' h
  simp only [api_core]
  rw [lennard_jones_core_length _ hη, lennard_jones_core_length _ hη']
  exact linkGamma_strictMonoOn zero_nonneg ljStretchMax_gt points_pos hη hη' h

example : (lennard_jones_isotensional_lengths 8 1 1 500).nd_length_per_link 5 300 <
    (lennard_jones_isotensional_lengths 8 1 1 500).nd_length_per_link 6 300 :=
  C51_lennard_jones_length_strictMono 8 1 1 500 300 (by norm_num : (0:ℝ) < 5) (by norm_num : (0:ℝ) < 6) (by norm_num)

end Polymers.Props
