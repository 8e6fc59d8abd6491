import Verif.Props.NetworkLimits
import Verif.Props.BindingsConstitutive
import Verif.Props.Ideal
import Verif.Props.FjcIsotensional
import Verif.Props.FjcStretch
import Verif.Props.EnsembleTransform
import Verif.Props.TreloarFailure
import Verif.Props.LinearResponse
import Verif.Props.LinkStatistics
import Verif.Props.PotentialLimits
import Verif.Props.StrongPotential
import Verif.Props.WeakPotential
import Verif.Props.Increase
import Verif.Props.EfjcExact
import Verif.Props.Swfjc
import Verif.Props.StiffLinks
import Verif.Props.StiffQuadrature
import Verif.Props.WlcIsotensional
import Verif.Props.WlcSearch
import Verif.Props.DefinedWlcIsotensional
import Verif.Props.IeeeFjc
import Verif.Props.IeeeInverseLangevinGlobal
import Verif.Props.IeeeOverflow
import Verif.Props.ErfcRelative
import Verif.Props.LambertW
import Verif.Props.Quadrature
import Verif.Props.MonteCarlo
import Verif.Props.Histogram

/-!
Concrete cases which meet the hypotheses of theorems that have no such case beside them. `example := C... ...` states the theorem
at the given parameters; the remaining hypotheses follow.
-/

namespace Polymers.Props

open Polymers.Spec Polymers.Api Polymers.Lemmas Set Filter Topology

/-! ## Ideal and freely jointed chains -/

example := C11_ideal_relative 8 1 1 (by norm_num) (by norm_num)
example := C13_ideal_length_is_gradient 8 1 1 (by norm_num) (by norm_num)
example := C13_ideal_relative 8 1 1 (by norm_num) (by norm_num)
example := C12_ideal_distribution_scales 8 1 1 (by norm_num) (by norm_num)
example := C16_reference_fjc_isotensional_legendre_helmholtz 8 1 1 (by norm_num) (by norm_num)
example := C76_ideal 8 1 1 (by norm_num) (by norm_num)
example := C76_fjc 8 1 1 (by norm_num) (by norm_num)
example := C12_ideal_density_pos 8 1 1 2 (by norm_num) (by norm_num)
example := C66_fjc_partition 8 1 1 (by norm_num) (by norm_num) (η := 2) (by norm_num)
example := C66_fjc_gibbs 8 1 1 (by norm_num) (by norm_num) (η := 2) (T := 300) (by norm_num)
example := C68_fjc_physical_force_pos 8 1 1 (by norm_num) (by norm_num) (by norm_num) (ξ := 3) (T := 300) (by norm_num) (by norm_num) (by norm_num)
example := C68_fjc_force_zero 8 1 1 300 (by norm_num) (by norm_num)
example := C68_fjc_force_end 8 1 1 300 (by norm_num) (by norm_num) (γ := 0.9) (by norm_num) (by norm_num) (by norm_num)
example := C68_fjc_force_diverges 8 1 1 300 (by norm_num) (by norm_num)
example := (C68_fjc_few_links 1 1 300).1 0.5 (by norm_num) (by norm_num)
example := C63_fjc_ideal_length 8 1 1 300 (η := 2) (by norm_num)
example := C69_fjc_length 8 1 1 300 (η := 2) (by norm_num)
example := C18_helmholtz_panics 8 1 1 0.5 300 (by norm_num)
example := C64_strong_potential_nd_force 8 1 1 (T := 300) 0.5 (by norm_num) (by norm_num)
example := C64_strong_potential_force 8 1 1 (T := 300) 4 (by norm_num) (by norm_num) (by norm_num)
example := C64_strong_potential_nd_relative 8 1 1 (T := 300) (d := 0.5) (by norm_num) (by norm_num) (by norm_num) (by norm_num) (by norm_num) (by norm_num)
example := C65_exact_correction 8 1 1 (by norm_num) (by norm_num) (by norm_num) (d := 0.5) (T := 300) (by norm_num) (by norm_num) (by norm_num)
example := C65_code_correction 8 1 1 100 (by norm_num) (by norm_num) (by norm_num) (by norm_num) (d := 0.5) (T := 300) (by norm_num) (by norm_num) (by norm_num)
example := C65_weak_error_pos 8 1 1 (by norm_num) (η := 2) (T := 300) (by norm_num)

/-! ## Extensible and square-well chains -/

example := C22_efjc_reduced_length_is_gradient 8 1 1 500 (by norm_num) (by norm_num)
example := C22_efjc_alternative_length_is_gradient 8 1 1 500 (by norm_num) (by norm_num)
example := C76_morse 8 1 1 500 50 (by norm_num) (by norm_num)
example := C76_log_squared 8 1 1 500 (by norm_num) (by norm_num)
example := C76_lennard_jones 8 1 1 500 (by norm_num) (by norm_num)
example := C76_efjc_reduced 8 1 1 500 (by norm_num) (by norm_num) (by norm_num)
example := C76_efjc_alternative 8 1 1 500 (by norm_num) (by norm_num) (by norm_num)
example := C76_efjc_asymptotic 8 1 1 500 (by norm_num) (by norm_num) (by norm_num)
example := C76_swfjc 8 1 1 500 (by norm_num) (by norm_num) (by norm_num)
example := C76_log_squared_reduced 8 1 1 500 (by norm_num) (by norm_num) (by norm_num)
example := C76_log_squared_asymptotic 8 1 1 500 (by norm_num) (by norm_num) (by norm_num)
example := C76_lennard_jones_asymptotic 8 1 1 500 (by norm_num) (by norm_num) (by norm_num)
example := C76_morse_reduced 8 1 1 500 50 (by norm_num) (by norm_num) (by norm_num) (by norm_num)
example := C76_morse_asymptotic 8 1 1 500 50 (by norm_num) (by norm_num) (by norm_num) (by norm_num)
example := C30_morse_reduced_length_is_gradient 8 1 1 500 50 (by norm_num) (by norm_num) (by norm_num) (by norm_num)
example := C23_efjc_reduced_excess_length 8 1 1 (k := 500) (T := 300) 20 (by norm_num) (by norm_num) (by norm_num) (by norm_num)
example := C23_efjc_stiff_limit 8 1 1 (T := 300) (η := 2) (by norm_num) (by norm_num) (by norm_num)
example := C25_efjc_asymptotic 8 1 1 500 300 (by norm_num) (by norm_num) (by norm_num)
example := C24_efjc_length_is_not_gradient 8 1 1 500 (by norm_num) (by norm_num)
example := C63_efjc_reduced 8 1 1 (k := 500) (T := 300) (by norm_num) (by norm_num) (by norm_num)
example := C63_efjc_asymptotic 8 1 1 (k := 500) (T := 300) (by norm_num) (by norm_num) (by norm_num)
example := C63_efjc_alternative 8 1 1 (k := 500) (T := 300) (by norm_num) (by norm_num) (by norm_num)
example := C63_morse_asymptotic 8 1 1 (k := 500) (ε := 50) (T := 300) (by norm_num) (by norm_num) (by norm_num) (by norm_num)
example := C69_swfjc_energy 8 (ℓ := 1) (m := 1) (w := 0.5) (η := 2) (T := 300) (by norm_num) (by norm_num) (by norm_num) (by norm_num) (by norm_num)
example := C69_efjc_asymptotic_energy 8 (ℓ := 1) (m := 1) (k := 500) (η := 2) (T := 300) (by norm_num) (by norm_num) (by norm_num) (by norm_num) (by norm_num)
example := C27_swfjc_narrow_well 8 1 1 (η := 2) (T := 300) (by norm_num) (by norm_num)
example := C70_efjc_asymptotic 8 1 1 (b := 2) (T := 300) (η := 2) (η' := 1) (by norm_num) (by norm_num) (by norm_num) (by norm_num) (by norm_num)
example := C70_efjc_alternative 8 1 1 (b := 2) (T := 300) (η := 2) (η' := 1) (by norm_num) (by norm_num) (by norm_num) (by norm_num) (by norm_num)
example := C70_efjc_reduced 8 1 1 (b := 2) (T := 300) (η := 2) (η' := 1) (by norm_num) (by norm_num) (by norm_num) (by norm_num) (by norm_num)
example := C70_log_squared_asymptotic 8 1 1 (b := 2) (T := 300) (η := 2) (η' := 1) (by norm_num) (by norm_num) (by norm_num) (by norm_num) (by norm_num)
example := C70_log_squared_reduced 8 1 1 (b := 2) (T := 300) (η := 2) (η' := 1) (by norm_num) (by norm_num) (by norm_num) (by norm_num) (by norm_num)
example := C70_lennard_jones_asymptotic 8 1 1 (b := 2) (T := 300) (η := 2) (η' := 1) (by norm_num) (by norm_num) (by norm_num) (by norm_num) (by norm_num)
example := C70_lennard_jones_reduced 8 1 1 (b := 2) (T := 300) (η := 2) (η' := 1) (by norm_num) (by norm_num) (by norm_num) (by norm_num) (by norm_num)
example := C70_morse_reduced 8 1 1 (b := 2) (a := 1) (T := 300) (η := 2) (η' := 1) (by norm_num) (by norm_num) (by norm_num) (by norm_num) (by norm_num) (by norm_num)
example := C70_reduced_error_ne_zero (η := 1) (η' := 2) (by norm_num) (by norm_num)
example := C71_log_squared_stiff.choose_spec.2 8 1 1 300 2 (by norm_num) (by norm_num) (by norm_num)
example := C71_lennard_jones_stiff.choose_spec.2 8 1 1 300 2 (by norm_num) (by norm_num) (by norm_num)

/-! ## Breakable links -/

example := C32_lennard_jones_max_force (κ := 200) (by norm_num)
example := C32_log_squared_max_force (κ := 200) (by norm_num)
example := C32_morse_max_force (κ := 200) (ε := 50) (by norm_num) (by norm_num)
example := C57_lennard_jones_reduced 8 1 1 500 300 (by norm_num) (by norm_num) (by norm_num)
example := C57_lennard_jones_asymptotic 8 1 1 500 300 (by norm_num) (by norm_num) (by norm_num)
example := C57_log_squared_reduced 8 1 1 500 300 (by norm_num) (by norm_num) (by norm_num)
example := C57_log_squared_asymptotic 8 1 1 500 300 (by norm_num) (by norm_num) (by norm_num)
example := C25_morse_reduced 8 1 1 500 50 300 (by norm_num) (by norm_num) (by norm_num) (by norm_num)
example := C25_morse_asymptotic 8 1 1 500 50 300 (by norm_num) (by norm_num) (by norm_num) (by norm_num)

/-- Small forces on Lennard-Jones links: the solver stops after its second step, well below the tolerance. -/
theorem lj_residual_case (j : ℕ) : relResidual 6e-9 (fun x => (x ^ 7)⁻¹ - (x ^ 13)⁻¹)
    (newtonIterate 6e-9 (fun x => (x ^ 7)⁻¹ - (x ^ 13)⁻¹) (fun x => 13 * (x ^ 14)⁻¹ - 7 * (x ^ 8)⁻¹) 1 1 j) ≠ 1 / 1000000 := by
  change relResidual 6e-9 ljF (newtonIterate 6e-9 ljF ljF' 1 1 j) ≠ 1 / 1000000
  have hM : (1.03 : ℝ) < ljMax := (lt_ljMax_iff (by norm_num)).2 (by norm_num)
  have h2 : ljF 1.03 < ljF ljMax := ljF_strictMonoOn ⟨by norm_num, hM.le⟩ (right_mem_Icc.2 one_lt_ljMax.le) hM
  have h3 : 0.132 < ljF 1.03 := by norm_num [ljF]
  obtain ⟨s, hs, hfs⟩ := exists_lj_root (y := 6e-9) (by norm_num) (by norm_num at h2 h3 ⊢; linarith)
  have h0 : ∀ x ∈ Icc 1 s, 0 < x := fun x hx => by linarith [hx.1]
  have hd : ∀ x ∈ Icc 1 s, HasDerivAt ljF (ljF' x) x := fun x hx => hasDerivAt_ljF (h0 x hx).ne'
  have hp : ∀ x ∈ Icc 1 s, 0 < ljF' x := fun x hx => ljF'_pos (h0 x hx) (hx.2.trans_lt hs.2)
  have hmem := newtonIterate_concave hs.1.le hfs hd hp (ljF_concave hs.2.le)
  have hmono := (C05_newton_concave hs.1.le hfs hd hp (ljF_concave hs.2.le) 1e-6 100).1
  have hin : ∀ {x}, x ∈ Icc 1 s → x ∈ Icc 1 ljMax := fun hx => ⟨hx.1, hx.2.trans hs.2.le⟩
  rcases j with _ | j
  · change |(ljF 1 - 6e-9) / 6e-9| ≠ _
    rw [ljF_one]; norm_num
  · have e1 : newtonIterate 6e-9 ljF ljF' 1 1 1 = 1 + 1e-9 := by
      rw [newtonIterate_succ]
      change newtonStep 6e-9 ljF ljF' 1 1 = _
      unfold newtonStep ljF ljF'
      norm_num
    have hl := ljF_strictMonoOn.monotoneOn (hin (hmem 1)) (hin (hmem (j + 1))) (hmono (by omega : 1 ≤ j + 1))
    have hu := ljF_strictMonoOn.monotoneOn (hin (hmem (j + 1))) (hin (right_mem_Icc.2 hs.1.le)) (hmem (j + 1)).2
    rw [e1] at hl
    rw [hfs] at hu
    have hb : (6e-9 : ℝ) - 1e-16 < ljF (1 + 1e-9) := by norm_num [ljF]
    unfold relResidual
    generalize ljF (newtonIterate 6e-9 ljF ljF' 1 1 (j + 1)) = v at hl hu ⊢
    clear hd hp hmem hmono hin e1
    refine ne_of_lt ?_
    rw [abs_lt, lt_div_iff₀ (by norm_num), div_lt_iff₀ (by norm_num)]
    norm_num at *
    constructor <;> linarith

/-- C31, concrete case: extension and energies of the Lennard-Jones chain at a small force. -/
example : ∃ η s' : ℝ, 0 < η ∧
    HasDerivAt (fun η => (lennard_jones_isotensional_asymptotic_reduced_gibbs 8 1 1 500).nd_energy_per_link η 300)
      (-(lennard_jones_isotensional_asymptotic_reduced_lengths 8 1 1 500).nd_length_per_link η 300 +
        (deriv (lennardJonesEnergy (ndStiffness 500 1 300))
          ((lennard_jones_isotensional_asymptotic_reduced_lengths 8 1 1 500).nd_length_per_link η 300 -
            (1 / Real.tanh η - 1 / η) + 1) - η) * s') η := by
  have hκ : 0 < ndStiffness 500 1 300 := ndStiffness_pos (by norm_num) (by norm_num) (by norm_num)
  have hη : 0 < ndStiffness 500 1 300 * 1e-9 := by positivity
  have hlt : ndStiffness 500 1 300 * 1e-9 < deriv (lennardJonesEnergy (ndStiffness 500 1 300)) ((13 / 7) ^ (1 / 6 : ℝ)) := by
    change _ < deriv _ ljMax
    rw [(hasDerivAt_lennardJonesEnergy ljMax_pos.ne').deriv]
    have hM : (1.03 : ℝ) < ljMax := (lt_ljMax_iff (by norm_num)).2 (by norm_num)
    have h2 : ljF 1.03 < ljF ljMax := ljF_strictMonoOn ⟨by norm_num, hM.le⟩ (right_mem_Icc.2 one_lt_ljMax.le) hM
    have h3 : 0.132 < ljF 1.03 := by norm_num [ljF]
    nlinarith
  have hd := (C31_lennard_jones_stretch_differentiable 8 1 1 500 (η := ndStiffness 500 1 300 * 1e-9) (T := 300) (by norm_num)
    (by norm_num) (by norm_num) hη hlt (fun j _ => by
      rw [show 6 * (ndStiffness 500 1 300 * 1e-9) / ndStiffness 500 1 300 = 6e-9 by field_simp; norm_num]
      exact lj_residual_case j)).hasDerivAt
  refine ⟨_, _, hη, C31_lennard_jones_reduced_gradient 8 1 1 500 (by norm_num) (by norm_num) (by norm_num) hη.ne' ?_ hd⟩
  obtain ⟨x, x', h1, -, -, -, -, -, h⟩ := C31_lennard_jones_stretch 8 1 1 500 (T := 300) (by norm_num) (by norm_num) (by norm_num) hη hlt
  beta_reduce
  rw [h]
  intro hc
  linarith


theorem log_squared_case : (1 / 100 : ℝ) < ndStiffness 500 1 300 / Real.exp 1 := by
  rw [lt_div_iff₀ (Real.exp_pos 1)]
  have := Real.exp_one_lt_d9
  unfold ndStiffness kT
  norm_num at this ⊢
  linarith

example := C31_log_squared_reduced_gradient 8 1 1 500 (η := 1 / 100) (T := 300) (by norm_num) (by norm_num) (by norm_num) (by norm_num) log_squared_case
example := C31_log_squared_asymptotic_gradient 8 1 1 500 (η := 1 / 100) (T := 300) (by norm_num) (by norm_num) (by norm_num) (by norm_num) log_squared_case

/-! ## Worm-like chain -/

example := C34_wlc_partition 100 1 1 2 (η := 50) (T := 300) (by norm_num) (by norm_num) (by norm_num) (by norm_num) (by norm_num)
  (by norm_num) (by norm_num)
  (wlc_succeeds_flexible 1 1 2 (by norm_num) (by norm_num) (by norm_num) (by norm_num) (by norm_num) (by norm_num) (by norm_num))

/-- C35, concrete case: the search for the force 50 succeeds, the search for the force at 0.9999 does not, and the extension at that
force is a panic. -/
example : WlcFinds 100 1 1 2 (.val 50) ∧ ∃ η : ℝ, ¬WlcFinds 100 1 1 2 (.val η) ∧
    (wlcS 100 1 1 2).isotensional.nondimensional_end_to_end_length (.val η) = .panic := by
  constructor
  · by_contra h
    have h1 := ((C35_wlc_lengths 100 1 1 2).1 50).2 h
    have h2 := (C56_wlc_isotensional_lengths (N := 100) (by norm_num) (by norm_num) (ℓ := 1) (m := 1) (p := 2) (by norm_num)
      (by norm_num) (by norm_num)).nd_length 50 300 (by norm_num) (by norm_num)
    exact SReal.noConfusion (h1.symm.trans h2)
  · have h := (C46_wlc_isometric_forces (N := 100) (by norm_num) (ℓ := 1) (m := 1) (p := 2) (by norm_num) (by norm_num)).nd_force
      0.9999 300 (by norm_num) (by norm_num)
    have h' := C35_wlc_exact_start 100 1 1 2 _ h
    exact ⟨_, h', ((C35_wlc_lengths 100 1 1 2).1 _).2 h'⟩

/-! ## Floating point -/

example := C72_fjc_length_accuracy correctlyRounded 8 1.0 1.0 (η := 2) ((zpow_two_le (by norm_num)).trans (by norm_num : (2:ℝ) ^ (0:ℤ) ≤ 2)) ((by norm_num : (2:ℝ) ≤ 2 ^ (1:ℤ)).trans (zpow_two_le (by norm_num)))
example := C73_fjc_gibbs_accuracy correctlyRounded 8 1.0 1.0 (η := 2) ((zpow_two_le (by norm_num)).trans (by norm_num : (2:ℝ) ^ (0:ℤ) ≤ 2)) (by norm_num)
example := C75_inverse_langevin correctlyRounded (γ := 0.5) (by norm_num) (by norm_num)
example := C75_inverse_langevin_small correctlyRounded (γ := 2 ^ (-20 : ℤ)) (zpow_two_le (by norm_num)) (by norm_num)
example := C75_fjc_round_trip correctlyRounded 8 1.0 1.0 (.fin 300) (γ := 0.5) (by norm_num) (by norm_num)
example := C73_efjc_isotensional_asymptotic_overflow correctlyRounded 8 1.0 1.0 500.0 (η := 800) (by norm_num)
example := C73_efjc_isotensional_asymptotic_legendre_overflow correctlyRounded 8 1.0 1.0 500.0 (η := 800) (by norm_num)
example := C73_efjc_isotensional_asymptotic_alternative_overflow correctlyRounded 8 1.0 1.0 500.0 (η := 800) (by norm_num)
example := C73_efjc_isotensional_asymptotic_alternative_legendre_overflow correctlyRounded 8 1.0 1.0 500.0 (η := 800) (by norm_num)
example := C73_efjc_isotensional_asymptotic_reduced_overflow correctlyRounded 8 1.0 1.0 500.0 (η := 800) (by norm_num)
example := C73_efjc_isotensional_asymptotic_reduced_legendre_overflow correctlyRounded 8 1.0 1.0 500.0 (η := 800) (by norm_num)
example := C73_efjc_isotensional_overflow correctlyRounded 8 1.0 1.0 500.0 (η := 800) (by norm_num)
example := C73_efjc_isotensional_legendre_overflow correctlyRounded 8 1.0 1.0 500.0 (η := 800) (by norm_num)
example := C73_swfjc_isotensional_overflow correctlyRounded 8 1.0 1.0 500.0 (η := 800) (by norm_num)
example := C73_swfjc_isotensional_legendre_overflow correctlyRounded 8 1.0 1.0 500.0 (η := 800) (by norm_num)
example := C73_lennard_jones_isotensional_asymptotic_overflow correctlyRounded 8 1.0 1.0 500.0 (η := 800) (by norm_num)
example := C73_lennard_jones_isotensional_asymptotic_legendre_overflow correctlyRounded 8 1.0 1.0 500.0 (η := 800) (by norm_num)
example := C73_lennard_jones_isotensional_asymptotic_reduced_overflow correctlyRounded 8 1.0 1.0 500.0 (η := 800) (by norm_num)
example := C73_lennard_jones_isotensional_asymptotic_reduced_legendre_overflow correctlyRounded 8 1.0 1.0 500.0 (η := 800) (by norm_num)
example := C73_log_squared_isotensional_asymptotic_overflow correctlyRounded 8 1.0 1.0 500.0 (η := 800) (by norm_num)
example := C73_log_squared_isotensional_asymptotic_legendre_overflow correctlyRounded 8 1.0 1.0 500.0 (η := 800) (by norm_num)
example := C73_log_squared_isotensional_asymptotic_reduced_overflow correctlyRounded 8 1.0 1.0 500.0 (η := 800) (by norm_num)
example := C73_log_squared_isotensional_asymptotic_reduced_legendre_overflow correctlyRounded 8 1.0 1.0 500.0 (η := 800) (by norm_num)
example := C73_morse_isotensional_asymptotic_overflow correctlyRounded 8 1.0 1.0 500.0 50.0 (η := 800) (by norm_num)
example := C73_morse_isotensional_asymptotic_legendre_overflow correctlyRounded 8 1.0 1.0 500.0 50.0 (η := 800) (by norm_num)
example := C73_morse_isotensional_asymptotic_reduced_overflow correctlyRounded 8 1.0 1.0 500.0 50.0 (η := 800) (by norm_num)
example := C73_morse_isotensional_asymptotic_reduced_legendre_overflow correctlyRounded 8 1.0 1.0 500.0 50.0 (η := 800) (by norm_num)
example := C73_fjc_isotensional_legendre_overflow correctlyRounded 8 1.0 1.0 (η := 800) (by norm_num)
example := C73_swfjc_length_overflow correctlyRounded 8 1.0 1.0 0.5 (η := 800) (by norm_num) (.fin 300)
example := C73_efjc_length_overflow correctlyRounded 8 1.0 1.0 500.0 (η := 800) (by norm_num) (.fin 300)

/-! ## Numerical routines -/

example := C10_erfc_relative_far (x := 60) (by norm_num)
example := C10_erfcx_relative (x := -20) (by norm_num)
example := (C08_lambert_w_updates 5).2 (by norm_num [abs_of_pos])
example := C08_lambert_w_converges (x := 2 * Real.exp 2) (w := 2) (by norm_num) rfl
example := C08_lambert_w_negative_side (x := -(1 / 2) * Real.exp (-(1 / 2))) (w := -(1 / 2)) (by norm_num) (by norm_num) rfl
example := C08_lambert_w_fixed_points (x := 0) (w := 1) (by norm_num) (by have := Real.exp_pos 1; field_simp; nlinarith)
example := C04_newton_result (y := 3) (by norm_num) (fun x => x ^ 2) (fun x => 2 * x) 1 1e-6 100
example := C04_newton_steps 3 (fun x => x ^ 2) (fun x => 2 * x) 1 (tol := 1e-6) (maxIters := 100) (by norm_num) (by norm_num)
example := C04_newton_exact_guess 4 (fun x => x ^ 2) (fun x => 2 * x) (guess := 2) (by norm_num) 1e-6 100
example : ∃ m, ∀ n ≥ m, math.inverse_newton_raphson (2 : ℝ) Real.sqrt (fun x => 1 / (2 * Real.sqrt x)) 1 1e-6 n =
    math.inverse_newton_raphson 2 Real.sqrt (fun x => 1 / (2 * Real.sqrt x)) 1 1e-6 m := by
  have hpos : ∀ x ∈ Icc (1 : ℝ) 4, 0 < x := fun x hx => lt_of_lt_of_le one_pos hx.1
  exact C05_newton_concave_terminates_by_tolerance (s := 4)
    (by norm_num) (by rw [show (4 : ℝ) = 2 ^ 2 by norm_num]; exact Real.sqrt_sq (by norm_num))
    (fun x hx => Real.hasDerivAt_sqrt (hpos x hx).ne')
    (fun x hx => by have := Real.sqrt_pos.2 (hpos x hx); positivity)
    (Real.strictConcaveOn_sqrt.concaveOn.subset (fun x hx => (hpos x hx).le) (convex_Icc 1 4)) (by norm_num) (by norm_num)
example := C06_powered_undefined_at_root 1 2 5 1e-6 (fun _ => .val 1) (fun _ => .val 5) rfl rfl (p := 2) (maxIters := 100)
  (by norm_num) (by norm_num) (by norm_num) (by norm_num)
example := C01_integrate_1d_monotone (f := fun x => x - 1) (g := fun x => x) (a := 0) (b := 1) (by norm_num) 64 (fun x _ => by linarith)
example := C01_integrate_1d_strict_mono (f := fun x => x - 1) (g := fun x => x) (a := 0) (b := 1) (by norm_num) (n := 64) (by norm_num)
  (fun x _ => by linarith)
example := C02_integrate_1d_tendsto (f := Real.exp) (a := 0) (b := 1) (by norm_num) Real.continuous_exp.continuousOn
example := C03_integrate_grid_eq Real.exp (fun x y => x * y) 0 1 0 2 64 _ _ rfl rfl

/-! ## Monte Carlo -/

/-- Links which alternate between two directions. -/
theorem half_draw : ∀ i : ℕ, 0 ≤ ((fun i => ((i : ℝ) / 7, (1 / 2 : ℝ))) i : ℝ × ℝ).2 ∧ ((fun i => ((i : ℝ) / 7, (1 / 2 : ℝ))) i : ℝ × ℝ).2 ≤ 1 :=
  fun i => by norm_num

example := C39_fjc_links 8 _ fun i _ => half_draw i
example := C39_fjc_extension (N := 8) (by norm_num) _ fun i _ => half_draw i
example := C39_fjc_samples (N := 8) (by norm_num) 10 _ half_draw
example := C42_fjc_single_link_dropped 100 10 _ half_draw
example := C42_fjc_total (B := 100) (by norm_num) 8 10 fun i => ((i : ℝ) / 7, (1 / 2 : ℝ))
example := C41_efjc_links 8 (fun i => (1.1, (i : ℝ) / 7, 1 / 2)) fun i _ => by norm_num
example := C41_efjc_extension (N := 8) (by norm_num) (fun i => (1.1, (i : ℝ) / 7, 1 / 2)) fun i _ => by norm_num
example := C40_frc_odd_panics (B := 100) (N := 5) (by norm_num) (by decide) (S := 10) (by norm_num) (θ := Real.pi / 2)
  (by rw [show Real.pi / 2 / 2 = Real.pi / 4 by ring, Real.cos_pi_div_four]; positivity) (by rw [Real.cos_pi_div_two]; norm_num)
example := C41_cut_off (B := 100) (by norm_num) 8 10 (γmax := 2) (κ := 50) (by norm_num) (by norm_num)

/-- C42, concrete case: ten samples of an extensible chain whose links all have length 1.1, below the cut-off 2. -/
example : ∃ out, efjc.thermodynamics.isometric.monte_carlo.nondimensional_equilibrium_radial_distribution 100 8 2 50 10
      (fun i => ((1.1 : ℝ), (i : ℝ) / 7, (1 / 2 : ℝ))) = some out ∧ out.2.sum * (2 / (100 : ℕ)) = 1 := by
  have hs : ∀ γ ∈ efjcSamples 8 10 (fun i => ((1.1 : ℝ), (i : ℝ) / 7, (1 / 2 : ℝ))), γ < 2 := by
    intro γ hγ
    obtain ⟨k, -, rfl⟩ := List.mem_map.1 hγ
    have := C41_efjc_extension (N := 8) (by norm_num) (fun i => ((1.1 : ℝ), ((k * 8 + i : ℕ) : ℝ) / 7, (1 / 2 : ℝ)))
      fun i _ => by norm_num
    have e : ((List.range 8).map fun _ : ℕ => |(1.1 : ℝ)|).sum = 8.8 := by
      rw [abs_of_pos (by norm_num)]; norm_num
    simp only [e] at this
    rw [div_lt_iff₀ (by norm_num)]
    refine lt_of_le_of_lt this ?_
    norm_num
  obtain ⟨h1, h2⟩ := C42_efjc_histogram (B := 100) (by norm_num) 8 10 (γmax := 2) (κ := 50) (by norm_num) (by norm_num)
    (fun i => ((1.1 : ℝ), (i : ℝ) / 7, (1 / 2 : ℝ)))
  obtain ⟨out, ho⟩ := Option.ne_none_iff_exists'.1 fun h => by
    obtain ⟨γ, hγ, h⟩ := h1.1 h
    exact absurd (hs γ hγ) (not_lt.2 h.le)
  refine ⟨out, ho, (h2 out ho).normalised (by norm_num) (by norm_num) (efjcSamples_nonneg _ _ _) hs ?_⟩
  intro h
  simpa [efjcSamples] using congrArg List.length h

/-- C40 and C42, concrete case: samples of a freely rotating chain of eight links at a right angle. -/
example : ∃ (draw : ℕ → ℝ × V3 ℝ) (out : List ℝ × List ℝ),
    (∀ i < 8, ¬ Parallel (previousLink (frc.thermodynamics.isometric.monte_carlo.random_configuration 8 (Real.pi / 2) draw) i) (draw i).2) ∧
    frc.thermodynamics.isometric.monte_carlo.random_nondimensional_end_to_end_length 8 (Real.pi / 2) draw ≤
      (8 : ℕ) * |Real.cos (Real.pi / 2 / 2)| ∧
    frc.thermodynamics.isometric.monte_carlo.nondimensional_equilibrium_radial_distribution 100 8 (Real.pi / 2) 1 draw = some out ∧
    out.2.sum * (|Real.cos (Real.pi / 2 / 2)| / (100 : ℕ)) =
      (samplesIn (frcSamples 8 (Real.pi / 2) 1 draw) 0 |Real.cos (Real.pi / 2 / 2)| : ℝ) / (1 : ℕ) := by
  obtain ⟨draw, -, -, h⟩ := C40_frc_reachable 8 (Real.pi / 2)
    (fun i => if i % 2 = 0 then (⟨0, 1, 0⟩ : V3 ℝ) else ⟨1, 0, 0⟩)
    (by intro i; split <;> simp [dot]) (by simp)
    (by
      intro i
      rcases Nat.mod_two_eq_zero_or_one i with h | h
      · have : (i + 1) % 2 ≠ 0 := by omega
        simp [h, this, dot]
      · have : (i + 1) % 2 = 0 := by omega
        simp [h, this, dot])
  have hc : Real.cos (Real.pi / 2 / 2) ≠ 0 := by
    rw [show Real.pi / 2 / 2 = Real.pi / 4 by ring, Real.cos_pi_div_four]; positivity
  obtain ⟨out, ho⟩ := Option.ne_none_iff_exists'.1 (C40_frc_even_no_panic (B := 100) (N := 8) (by norm_num) (by norm_num) (by decide) 1 hc draw
    fun k hk i hi => by
      obtain rfl : k = 0 := by omega
      simpa using h i hi)
  exact ⟨draw, out, h, C40_frc_extension_even (by norm_num) (by decide) _ draw h, ho, C42_frc_total (by norm_num) 8 1 hc draw ho⟩

/-! ## Constitutive models -/

section
open constitutive.hyperelastic.buche_silberstein

example : ∃ model : BucheSilberstein ℝ, BucheSilberstein.init 3 50 8 = some model ∧
    (∀ s, (model.uniaxial_tension s).isSome = true) ∧
    (∃ U B : ℝ → ℝ, (∀ s, 0 < s → model.uniaxial_tension s = some (U s) ∧ model.equibiaxial_tension s = some (B s)) ∧
      ∃ E, 0 < E ∧ HasDerivAt U E 1 ∧ HasDerivAt B (2 * E) 1) ∧
    model.equibiaxial_tension 2 = some (-networkStress tanhRule 8 (chainForce 50) fun z r =>
      density tanhRule (exponent 3 8 50) √((z * 2 ^ 2) ^ 2 + (r / 2) ^ 2)) := by
  obtain ⟨model, h⟩ := Option.isSome_iff_exists.1 ((C43_init_method 3 50 8).2 (Or.inr rfl))
  refine ⟨model, h, fun s => (C43_tension_defined h s).1, C83_modulus (by norm_num) (by norm_num) h, ?_⟩
  exact_mod_cast C78_equibiaxial (by norm_num) h (by norm_num : (0:ℝ) < 2)

example := C81_hyperelastic_energy_stretch (κ := 50) (N := 8) (by norm_num) (by norm_num)
end

section
open constitutive.hyperelastic_damage.buche_silberstein

/-- C44, C79 and C81, concrete case: the histories 1, 2, 1.5 and 2, 1.5 of a swollen network. -/
example : ∃ (model : BucheSilberstein ℝ) (out out' : List (ℝ × ℝ)), BucheSilberstein.init 3 1.5 50 8 1.2 = some model ∧
    model.uniaxial_tension 3 [1, 2, 1.5] = some out ∧ model.uniaxial_tension 2 [2, 1.5] = some out' ∧ out[2]? = out'[1]? ∧
    out[2]? = some
      (networkStress (endRule 1.5) (8 : ℕ) (chainForce 50) (network (gaussianExponent (8 : ℕ) (meanSquareLink 50)) 1.5 1.2
        (1.2 ^ (1 / 3 : ℝ)) 1.5 (runningMax [1, 2, 1.5] 2)) / 1.2,
      networkFraction (endRule 1.5) (network (gaussianExponent (8 : ℕ) (meanSquareLink 50)) 1.5 1.2 (1.2 ^ (1 / 3 : ℝ))
        1.5 (runningMax [1, 2, 1.5] 2))) := by
  obtain ⟨model, h⟩ := Option.isSome_iff_exists.1 ((C45_init_method 3 1.5 50 8 1.2).2 (Or.inr rfl))
  obtain ⟨out, ho⟩ := Option.isSome_iff_exists.1 ((C45_rejects_below_one h 3 [1, 2, 1.5]).1.2 ⟨by simp, by norm_num⟩)
  obtain ⟨out', ho'⟩ := Option.isSome_iff_exists.1 ((C45_rejects_below_one h 2 [2, 1.5]).1.2 ⟨by simp, by norm_num⟩)
  refine ⟨model, out, out', h, ho, ho', ?_, ?_⟩
  · refine C44_history_through_maximum ho ho' (by norm_num) (by norm_num) rfl ?_
    simp [runningMax]
  · exact C79_gaussian (by norm_num) (by norm_num) h ho (by norm_num) (by norm_num)

example := C79_normalised (c := 1.5) (by norm_num) fun x => x ^ 2
example := C49_damage_can_heal [] 1 50 8 (normalization := 1) (J := 1) (by norm_num) (by norm_num)
end

end Polymers.Props
