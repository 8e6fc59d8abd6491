import Verif.Props.LegendreIsotensional
import Verif.Spec.Legendre

/-! Property C48: the Helmholtz free energies of the isometric Legendre approximations are the Legendre transforms of the
isotensional Gibbs free energies at the force the approximation returns. -/

namespace Polymers.Props

open Polymers.Spec Polymers.Api

theorem isLegendreAtForceDim_of_nd {h g : EnergyMethods} {p : ForceMethods} {N : ℕ} {ℓ : ℝ} (hN : 0 < N) (hℓ : 0 < ℓ)
    (hh : h.Scales N (ndLength N ℓ)) (hg : g.Scales N (ndForce ℓ)) (hp : p.Scales ℓ (ndLength N ℓ))
    (H : h.IsLegendreAtForce g p) : h.IsLegendreAtForceDim g p := by
  intro ξ₁ ξ₂ T hT
  have hk := (kT_pos hT).ne'
  have hN' : (N : ℝ) ≠ 0 := by exact_mod_cast hN.ne'
  have key : ∀ ξ, g.energy (p.force ξ T) T + p.force ξ T * ξ =
      kT T * (N * (g.nd_energy_per_link (p.nd_force (ndLength N ℓ ξ T) T) T +
        p.nd_force (ndLength N ℓ ξ T) T * ndLength N ℓ ξ T)) := by
    intro ξ
    have e1 : ndForce ℓ (p.force ξ T) T = p.nd_force (ndLength N ℓ ξ T) T := by
      rw [hp ξ T hT]; unfold ndForce; field_simp
    rw [hg.energy _ T hT, hg.nd_total _ T hT, e1, hp ξ T hT]
    unfold ndLength
    field_simp
  rw [key, key, hh.energy _ T hT, hh.energy _ T hT, hh.nd_total _ T hT, hh.nd_total _ T hT]
  linear_combination kT T * N * H (ndLength N ℓ ξ₁ T) (ndLength N ℓ ξ₂ T) T hT

/-- C48: fjc. -/
theorem C48_fjc (N : ℕ) (ℓ m : ℝ) (hN : 0 < N) (hℓ : 0 < ℓ) :
    (fjc_isometric_legendre_helmholtz N ℓ m).IsLegendreAtForce (fjc_isotensional_gibbs N ℓ m)
      (fjc_isometric_legendre_forces N ℓ m) ∧
    (fjc_isometric_legendre_helmholtz N ℓ m).IsLegendreAtForceDim (fjc_isotensional_gibbs N ℓ m)
      (fjc_isometric_legendre_forces N ℓ m) := by
  have H : (fjc_isometric_legendre_helmholtz N ℓ m).IsLegendreAtForce (fjc_isotensional_gibbs N ℓ m)
      (fjc_isometric_legendre_forces N ℓ m) := by
    intro γ₁ γ₂ T hT
    simp only [api_core, fjc.thermodynamics.isometric.legendre.nondimensional_helmholtz_free_energy_per_link,
      fjc.thermodynamics.isotensional.nondimensional_gibbs_free_energy_per_link, fjc.thermodynamics.isometric.legendre.nondimensional_relative_helmholtz_free_energy_per_link, model_real]
    ring
  exact ⟨H, isLegendreAtForceDim_of_nd hN hℓ (C15_fjc_isometric_legendre_helmholtz N ℓ m hN hℓ)
    (C15_fjc_isotensional_gibbs N ℓ m hN hℓ) (C15_fjc_isometric_legendre_forces N ℓ m hN hℓ) H⟩

example : (fjc_isometric_legendre_helmholtz 8 1 1).IsLegendreAtForce (fjc_isotensional_gibbs 8 1 1)
    (fjc_isometric_legendre_forces 8 1 1) :=
  (C48_fjc 8 1 1 (by norm_num) (by norm_num)).1

/-- C48: efjc asymptotic alternative. -/
theorem C48_efjc_asymptotic_alternative (N : ℕ) (ℓ m k : ℝ) (hN : 0 < N) (hℓ : 0 < ℓ) :
    (efjc_isometric_asymptotic_alternative_legendre_helmholtz N ℓ m k).IsLegendreAtForce (efjc_isotensional_asymptotic_alternative_gibbs N ℓ m k)
      (efjc_isometric_asymptotic_alternative_legendre_forces N ℓ m k) ∧
    (efjc_isometric_asymptotic_alternative_legendre_helmholtz N ℓ m k).IsLegendreAtForceDim (efjc_isotensional_asymptotic_alternative_gibbs N ℓ m k)
      (efjc_isometric_asymptotic_alternative_legendre_forces N ℓ m k) := by
  have H : (efjc_isometric_asymptotic_alternative_legendre_helmholtz N ℓ m k).IsLegendreAtForce (efjc_isotensional_asymptotic_alternative_gibbs N ℓ m k)
      (efjc_isometric_asymptotic_alternative_legendre_forces N ℓ m k) := by
    intro γ₁ γ₂ T hT
    simp only [api_core, efjc.thermodynamics.isometric.asymptotic.alternative.legendre.nondimensional_helmholtz_free_energy_per_link,
      efjc.thermodynamics.isotensional.asymptotic.alternative.nondimensional_gibbs_free_energy_per_link, model_real]
    ring
  exact ⟨H, isLegendreAtForceDim_of_nd hN hℓ (C15_efjc_isometric_asymptotic_alternative_legendre_helmholtz N ℓ m k hN hℓ)
    (C15_efjc_isotensional_asymptotic_alternative_gibbs N ℓ m k hN hℓ) (C15_efjc_isometric_asymptotic_alternative_legendre_forces N ℓ m k hN hℓ) H⟩

example : (efjc_isometric_asymptotic_alternative_legendre_helmholtz 8 1 1 500).IsLegendreAtForce (efjc_isotensional_asymptotic_alternative_gibbs 8 1 1 500)
    (efjc_isometric_asymptotic_alternative_legendre_forces 8 1 1 500) :=
  (C48_efjc_asymptotic_alternative 8 1 1 500 (by norm_num) (by norm_num)).1

/-- C48: efjc asymptotic reduced. -/
theorem C48_efjc_asymptotic_reduced (N : ℕ) (ℓ m k : ℝ) (hN : 0 < N) (hℓ : 0 < ℓ) :
    (efjc_isometric_asymptotic_reduced_legendre_helmholtz N ℓ m k).IsLegendreAtForce (efjc_isotensional_asymptotic_reduced_gibbs N ℓ m k)
      (efjc_isometric_asymptotic_reduced_legendre_forces N ℓ m k) ∧
    (efjc_isometric_asymptotic_reduced_legendre_helmholtz N ℓ m k).IsLegendreAtForceDim (efjc_isotensional_asymptotic_reduced_gibbs N ℓ m k)
      (efjc_isometric_asymptotic_reduced_legendre_forces N ℓ m k) := by
  have H : (efjc_isometric_asymptotic_reduced_legendre_helmholtz N ℓ m k).IsLegendreAtForce (efjc_isotensional_asymptotic_reduced_gibbs N ℓ m k)
      (efjc_isometric_asymptotic_reduced_legendre_forces N ℓ m k) := by
    intro γ₁ γ₂ T hT
    simp only [api_core, efjc.thermodynamics.isometric.asymptotic.reduced.legendre.nondimensional_helmholtz_free_energy_per_link,
      efjc.thermodynamics.isotensional.asymptotic.reduced.nondimensional_gibbs_free_energy_per_link, model_real]
    ring
  exact ⟨H, isLegendreAtForceDim_of_nd hN hℓ (C15_efjc_isometric_asymptotic_reduced_legendre_helmholtz N ℓ m k hN hℓ)
    (C15_efjc_isotensional_asymptotic_reduced_gibbs N ℓ m k hN hℓ) (C15_efjc_isometric_asymptotic_reduced_legendre_forces N ℓ m k hN hℓ) H⟩

example : (efjc_isometric_asymptotic_reduced_legendre_helmholtz 8 1 1 500).IsLegendreAtForce (efjc_isotensional_asymptotic_reduced_gibbs 8 1 1 500)
    (efjc_isometric_asymptotic_reduced_legendre_forces 8 1 1 500) :=
  (C48_efjc_asymptotic_reduced 8 1 1 500 (by norm_num) (by norm_num)).1

/-- C48: efjc asymptotic. -/
theorem C48_efjc_asymptotic (N : ℕ) (ℓ m k : ℝ) (hN : 0 < N) (hℓ : 0 < ℓ) :
    (efjc_isometric_asymptotic_legendre_helmholtz N ℓ m k).IsLegendreAtForce (efjc_isotensional_asymptotic_gibbs N ℓ m k)
      (efjc_isometric_asymptotic_legendre_forces N ℓ m k) ∧
    (efjc_isometric_asymptotic_legendre_helmholtz N ℓ m k).IsLegendreAtForceDim (efjc_isotensional_asymptotic_gibbs N ℓ m k)
      (efjc_isometric_asymptotic_legendre_forces N ℓ m k) := by
  have H : (efjc_isometric_asymptotic_legendre_helmholtz N ℓ m k).IsLegendreAtForce (efjc_isotensional_asymptotic_gibbs N ℓ m k)
      (efjc_isometric_asymptotic_legendre_forces N ℓ m k) := by
    intro γ₁ γ₂ T hT
    simp only [api_core, efjc.thermodynamics.isometric.asymptotic.legendre.nondimensional_helmholtz_free_energy_per_link,
      efjc.thermodynamics.isotensional.asymptotic.nondimensional_gibbs_free_energy_per_link, model_real]
    ring
  exact ⟨H, isLegendreAtForceDim_of_nd hN hℓ (C15_efjc_isometric_asymptotic_legendre_helmholtz N ℓ m k hN hℓ)
    (C15_efjc_isotensional_asymptotic_gibbs N ℓ m k hN hℓ) (C15_efjc_isometric_asymptotic_legendre_forces N ℓ m k hN hℓ) H⟩

example : (efjc_isometric_asymptotic_legendre_helmholtz 8 1 1 500).IsLegendreAtForce (efjc_isotensional_asymptotic_gibbs 8 1 1 500)
    (efjc_isometric_asymptotic_legendre_forces 8 1 1 500) :=
  (C48_efjc_asymptotic 8 1 1 500 (by norm_num) (by norm_num)).1

/-- C48: swfjc. -/
theorem C48_swfjc (N : ℕ) (ℓ m w : ℝ) (hN : 0 < N) (hℓ : 0 < ℓ) :
    (swfjc_isometric_legendre_helmholtz N ℓ m w).IsLegendreAtForce (swfjc_isotensional_gibbs N ℓ m w)
      (swfjc_isometric_legendre_forces N ℓ m w) ∧
    (swfjc_isometric_legendre_helmholtz N ℓ m w).IsLegendreAtForceDim (swfjc_isotensional_gibbs N ℓ m w)
      (swfjc_isometric_legendre_forces N ℓ m w) := by
  have H : (swfjc_isometric_legendre_helmholtz N ℓ m w).IsLegendreAtForce (swfjc_isotensional_gibbs N ℓ m w)
      (swfjc_isometric_legendre_forces N ℓ m w) := by
    intro γ₁ γ₂ T hT
    simp only [api_core, swfjc.thermodynamics.isometric.legendre.nondimensional_helmholtz_free_energy_per_link,
      swfjc.thermodynamics.isotensional.nondimensional_gibbs_free_energy_per_link, model_real]
    ring
  exact ⟨H, isLegendreAtForceDim_of_nd hN hℓ (C15_swfjc_isometric_legendre_helmholtz N ℓ m w hN hℓ)
    (C15_swfjc_isotensional_gibbs N ℓ m w hN hℓ) (C15_swfjc_isometric_legendre_forces N ℓ m w hN hℓ) H⟩

example : (swfjc_isometric_legendre_helmholtz 8 1 1 (1/2)).IsLegendreAtForce (swfjc_isotensional_gibbs 8 1 1 (1/2))
    (swfjc_isometric_legendre_forces 8 1 1 (1/2)) :=
  (C48_swfjc 8 1 1 (1/2) (by norm_num) (by norm_num)).1

/-- C48: morse asymptotic reduced. -/
theorem C48_morse_asymptotic_reduced (N : ℕ) (ℓ m k ε : ℝ) (hN : 0 < N) (hℓ : 0 < ℓ) :
    (morse_isometric_asymptotic_reduced_legendre_helmholtz N ℓ m k ε).IsLegendreAtForce (morse_isotensional_asymptotic_reduced_gibbs N ℓ m k ε)
      (morse_isometric_asymptotic_reduced_legendre_forces N ℓ m k ε) ∧
    (morse_isometric_asymptotic_reduced_legendre_helmholtz N ℓ m k ε).IsLegendreAtForceDim (morse_isotensional_asymptotic_reduced_gibbs N ℓ m k ε)
      (morse_isometric_asymptotic_reduced_legendre_forces N ℓ m k ε) := by
  have H : (morse_isometric_asymptotic_reduced_legendre_helmholtz N ℓ m k ε).IsLegendreAtForce (morse_isotensional_asymptotic_reduced_gibbs N ℓ m k ε)
      (morse_isometric_asymptotic_reduced_legendre_forces N ℓ m k ε) := by
    intro γ₁ γ₂ T hT
    simp only [api_core, ufjc.morse.thermodynamics.isometric.asymptotic.reduced.legendre.nondimensional_helmholtz_free_energy_per_link,
      ufjc.morse.thermodynamics.isotensional.asymptotic.reduced.nondimensional_gibbs_free_energy_per_link, model_real]
    ring
  exact ⟨H, isLegendreAtForceDim_of_nd hN hℓ (C15_morse_isometric_asymptotic_reduced_legendre_helmholtz N ℓ m k ε hN hℓ)
    (C15_morse_isotensional_asymptotic_reduced_gibbs N ℓ m k ε hN hℓ) (C15_morse_isometric_asymptotic_reduced_legendre_forces N ℓ m k ε hN hℓ) H⟩

example : (morse_isometric_asymptotic_reduced_legendre_helmholtz 8 1 1 500 80).IsLegendreAtForce (morse_isotensional_asymptotic_reduced_gibbs 8 1 1 500 80)
    (morse_isometric_asymptotic_reduced_legendre_forces 8 1 1 500 80) :=
  (C48_morse_asymptotic_reduced 8 1 1 500 80 (by norm_num) (by norm_num)).1

/-- C48: morse asymptotic. -/
theorem C48_morse_asymptotic (N : ℕ) (ℓ m k ε : ℝ) (hN : 0 < N) (hℓ : 0 < ℓ) :
    (morse_isometric_asymptotic_legendre_helmholtz N ℓ m k ε).IsLegendreAtForce (morse_isotensional_asymptotic_gibbs N ℓ m k ε)
      (morse_isometric_asymptotic_legendre_forces N ℓ m k ε) ∧
    (morse_isometric_asymptotic_legendre_helmholtz N ℓ m k ε).IsLegendreAtForceDim (morse_isotensional_asymptotic_gibbs N ℓ m k ε)
      (morse_isometric_asymptotic_legendre_forces N ℓ m k ε) := by
  have H : (morse_isometric_asymptotic_legendre_helmholtz N ℓ m k ε).IsLegendreAtForce (morse_isotensional_asymptotic_gibbs N ℓ m k ε)
      (morse_isometric_asymptotic_legendre_forces N ℓ m k ε) := by
    intro γ₁ γ₂ T hT
    simp only [api_core, ufjc.morse.thermodynamics.isometric.asymptotic.legendre.nondimensional_helmholtz_free_energy_per_link,
      ufjc.morse.thermodynamics.isotensional.asymptotic.nondimensional_gibbs_free_energy_per_link, model_real]
    ring
  exact ⟨H, isLegendreAtForceDim_of_nd hN hℓ (C15_morse_isometric_asymptotic_legendre_helmholtz N ℓ m k ε hN hℓ)
    (C15_morse_isotensional_asymptotic_gibbs N ℓ m k ε hN hℓ) (C15_morse_isometric_asymptotic_legendre_forces N ℓ m k ε hN hℓ) H⟩

example : (morse_isometric_asymptotic_legendre_helmholtz 8 1 1 500 80).IsLegendreAtForce (morse_isotensional_asymptotic_gibbs 8 1 1 500 80)
    (morse_isometric_asymptotic_legendre_forces 8 1 1 500 80) :=
  (C48_morse_asymptotic 8 1 1 500 80 (by norm_num) (by norm_num)).1

/-- C48: log squared asymptotic reduced. -/
theorem C48_log_squared_asymptotic_reduced (N : ℕ) (ℓ m k : ℝ) (hN : 0 < N) (hℓ : 0 < ℓ) :
    (log_squared_isometric_asymptotic_reduced_legendre_helmholtz N ℓ m k).IsLegendreAtForce (log_squared_isotensional_asymptotic_reduced_gibbs N ℓ m k)
      (log_squared_isometric_asymptotic_reduced_legendre_forces N ℓ m k) ∧
    (log_squared_isometric_asymptotic_reduced_legendre_helmholtz N ℓ m k).IsLegendreAtForceDim (log_squared_isotensional_asymptotic_reduced_gibbs N ℓ m k)
      (log_squared_isometric_asymptotic_reduced_legendre_forces N ℓ m k) := by
  have H : (log_squared_isometric_asymptotic_reduced_legendre_helmholtz N ℓ m k).IsLegendreAtForce (log_squared_isotensional_asymptotic_reduced_gibbs N ℓ m k)
      (log_squared_isometric_asymptotic_reduced_legendre_forces N ℓ m k) := by
    intro γ₁ γ₂ T hT
    simp only [api_core, ufjc.log_squared.thermodynamics.isometric.asymptotic.reduced.legendre.nondimensional_helmholtz_free_energy_per_link,
      ufjc.log_squared.thermodynamics.isotensional.asymptotic.reduced.nondimensional_gibbs_free_energy_per_link, model_real]
    ring
  exact ⟨H, isLegendreAtForceDim_of_nd hN hℓ (C15_log_squared_isometric_asymptotic_reduced_legendre_helmholtz N ℓ m k hN hℓ)
    (C15_log_squared_isotensional_asymptotic_reduced_gibbs N ℓ m k hN hℓ) (C15_log_squared_isometric_asymptotic_reduced_legendre_forces N ℓ m k hN hℓ) H⟩

example : (log_squared_isometric_asymptotic_reduced_legendre_helmholtz 8 1 1 500).IsLegendreAtForce (log_squared_isotensional_asymptotic_reduced_gibbs 8 1 1 500)
    (log_squared_isometric_asymptotic_reduced_legendre_forces 8 1 1 500) :=
  (C48_log_squared_asymptotic_reduced 8 1 1 500 (by norm_num) (by norm_num)).1

/-- C48: log squared asymptotic. -/
theorem C48_log_squared_asymptotic (N : ℕ) (ℓ m k : ℝ) (hN : 0 < N) (hℓ : 0 < ℓ) :
    (log_squared_isometric_asymptotic_legendre_helmholtz N ℓ m k).IsLegendreAtForce (log_squared_isotensional_asymptotic_gibbs N ℓ m k)
      (log_squared_isometric_asymptotic_legendre_forces N ℓ m k) ∧
    (log_squared_isometric_asymptotic_legendre_helmholtz N ℓ m k).IsLegendreAtForceDim (log_squared_isotensional_asymptotic_gibbs N ℓ m k)
      (log_squared_isometric_asymptotic_legendre_forces N ℓ m k) := by
  have H : (log_squared_isometric_asymptotic_legendre_helmholtz N ℓ m k).IsLegendreAtForce (log_squared_isotensional_asymptotic_gibbs N ℓ m k)
      (log_squared_isometric_asymptotic_legendre_forces N ℓ m k) := by
    intro γ₁ γ₂ T hT
    simp only [api_core, ufjc.log_squared.thermodynamics.isometric.asymptotic.legendre.nondimensional_helmholtz_free_energy_per_link,
      ufjc.log_squared.thermodynamics.isotensional.asymptotic.nondimensional_gibbs_free_energy_per_link, model_real]
    ring
  exact ⟨H, isLegendreAtForceDim_of_nd hN hℓ (C15_log_squared_isometric_asymptotic_legendre_helmholtz N ℓ m k hN hℓ)
    (C15_log_squared_isotensional_asymptotic_gibbs N ℓ m k hN hℓ) (C15_log_squared_isometric_asymptotic_legendre_forces N ℓ m k hN hℓ) H⟩

example : (log_squared_isometric_asymptotic_legendre_helmholtz 8 1 1 500).IsLegendreAtForce (log_squared_isotensional_asymptotic_gibbs 8 1 1 500)
    (log_squared_isometric_asymptotic_legendre_forces 8 1 1 500) :=
  (C48_log_squared_asymptotic 8 1 1 500 (by norm_num) (by norm_num)).1

/-- C48: lennard jones asymptotic reduced. -/
theorem C48_lennard_jones_asymptotic_reduced (N : ℕ) (ℓ m k : ℝ) (hN : 0 < N) (hℓ : 0 < ℓ) :
    (lennard_jones_isometric_asymptotic_reduced_legendre_helmholtz N ℓ m k).IsLegendreAtForce (lennard_jones_isotensional_asymptotic_reduced_gibbs N ℓ m k)
      (lennard_jones_isometric_asymptotic_reduced_legendre_forces N ℓ m k) ∧
    (lennard_jones_isometric_asymptotic_reduced_legendre_helmholtz N ℓ m k).IsLegendreAtForceDim (lennard_jones_isotensional_asymptotic_reduced_gibbs N ℓ m k)
      (lennard_jones_isometric_asymptotic_reduced_legendre_forces N ℓ m k) := by
  have H : (lennard_jones_isometric_asymptotic_reduced_legendre_helmholtz N ℓ m k).IsLegendreAtForce (lennard_jones_isotensional_asymptotic_reduced_gibbs N ℓ m k)
      (lennard_jones_isometric_asymptotic_reduced_legendre_forces N ℓ m k) := by
    intro γ₁ γ₂ T hT
    simp only [api_core, ufjc.lennard_jones.thermodynamics.isometric.asymptotic.reduced.legendre.nondimensional_helmholtz_free_energy_per_link,
      ufjc.lennard_jones.thermodynamics.isotensional.asymptotic.reduced.nondimensional_gibbs_free_energy_per_link, model_real]
    ring
  exact ⟨H, isLegendreAtForceDim_of_nd hN hℓ (C15_lennard_jones_isometric_asymptotic_reduced_legendre_helmholtz N ℓ m k hN hℓ)
    (C15_lennard_jones_isotensional_asymptotic_reduced_gibbs N ℓ m k hN hℓ) (C15_lennard_jones_isometric_asymptotic_reduced_legendre_forces N ℓ m k hN hℓ) H⟩

example : (lennard_jones_isometric_asymptotic_reduced_legendre_helmholtz 8 1 1 500).IsLegendreAtForce (lennard_jones_isotensional_asymptotic_reduced_gibbs 8 1 1 500)
    (lennard_jones_isometric_asymptotic_reduced_legendre_forces 8 1 1 500) :=
  (C48_lennard_jones_asymptotic_reduced 8 1 1 500 (by norm_num) (by norm_num)).1

/-- C48: lennard jones asymptotic. -/
theorem C48_lennard_jones_asymptotic (N : ℕ) (ℓ m k : ℝ) (hN : 0 < N) (hℓ : 0 < ℓ) :
    (lennard_jones_isometric_asymptotic_legendre_helmholtz N ℓ m k).IsLegendreAtForce (lennard_jones_isotensional_asymptotic_gibbs N ℓ m k)
      (lennard_jones_isometric_asymptotic_legendre_forces N ℓ m k) ∧
    (lennard_jones_isometric_asymptotic_legendre_helmholtz N ℓ m k).IsLegendreAtForceDim (lennard_jones_isotensional_asymptotic_gibbs N ℓ m k)
      (lennard_jones_isometric_asymptotic_legendre_forces N ℓ m k) := by
  have H : (lennard_jones_isometric_asymptotic_legendre_helmholtz N ℓ m k).IsLegendreAtForce (lennard_jones_isotensional_asymptotic_gibbs N ℓ m k)
      (lennard_jones_isometric_asymptotic_legendre_forces N ℓ m k) := by
    intro γ₁ γ₂ T hT
    simp only [api_core, ufjc.lennard_jones.thermodynamics.isometric.asymptotic.legendre.nondimensional_helmholtz_free_energy_per_link,
      ufjc.lennard_jones.thermodynamics.isotensional.asymptotic.nondimensional_gibbs_free_energy_per_link, model_real]
    ring
  exact ⟨H, isLegendreAtForceDim_of_nd hN hℓ (C15_lennard_jones_isometric_asymptotic_legendre_helmholtz N ℓ m k hN hℓ)
    (C15_lennard_jones_isotensional_asymptotic_gibbs N ℓ m k hN hℓ) (C15_lennard_jones_isometric_asymptotic_legendre_forces N ℓ m k hN hℓ) H⟩

example : (lennard_jones_isometric_asymptotic_legendre_helmholtz 8 1 1 500).IsLegendreAtForce (lennard_jones_isotensional_asymptotic_gibbs 8 1 1 500)
    (lennard_jones_isometric_asymptotic_legendre_forces 8 1 1 500) :=
  (C48_lennard_jones_asymptotic 8 1 1 500 (by norm_num) (by norm_num)).1

end Polymers.Props
