import Verif.Spec.Ensembles
import Verif.Lemmas.Lits
import Mathlib.Tactic.FieldSimp
import Mathlib.Tactic.Ring

/-! The tactic used for the scaling properties (C15). -/

namespace Polymers

open Polymers.Spec

theorem ndForce_code (ℓ f T : ℝ) : f * ℓ / (BOLTZMANN_CONSTANT : ℝ) / T = ndForce ℓ f T := by
  unfold ndForce kT BOLTZMANN_CONSTANT; rw [div_div]

theorem ndForce_code' (ℓ f T : ℝ) : f / (BOLTZMANN_CONSTANT : ℝ) / T * ℓ = ndForce ℓ f T := by
  unfold ndForce kT BOLTZMANN_CONSTANT; rw [div_div]; ring

theorem ndStiffness_code (k ℓ T : ℝ) : k * Elem.powi ℓ 2 / (BOLTZMANN_CONSTANT : ℝ) / T = ndStiffness k ℓ T := by
  unfold ndStiffness kT BOLTZMANN_CONSTANT; rw [div_div, elem_powi, zpow_ofNat]

theorem ndEnergy_code (ε T : ℝ) : ε / (BOLTZMANN_CONSTANT : ℝ) / T = ndEnergy ε T := by
  unfold ndEnergy kT BOLTZMANN_CONSTANT; rw [div_div]

theorem ndStiffness_pos {k ℓ T : ℝ} (hk : 0 < k) (hℓ : 0 < ℓ) (hT : 0 < T) : 0 < ndStiffness k ℓ T := by
  unfold ndStiffness kT; positivity

theorem ndEnergy_pos {ε T : ℝ} (hε : 0 < ε) (hT : 0 < T) : 0 < ndEnergy ε T := by
  unfold ndEnergy kT; positivity

theorem ndLength_code (N : ℕ) (ℓ x T : ℝ) : x / ((N : ℝ) * ℓ) = ndLength N ℓ x T := rfl

theorem ndLength_code' (N : ℕ) (ℓ x T : ℝ) : x / (N : ℝ) / ℓ = ndLength N ℓ x T := by
  unfold ndLength; rw [div_div]

theorem kT_code (T : ℝ) : (BOLTZMANN_CONSTANT : ℝ) * T = kT T := rfl

theorem kT_eq (T : ℝ) : kT T = (BOLTZMANN_CONSTANT : ℝ) * T := rfl

theorem kT_pos {T : ℝ} (hT : 0 < T) : 0 < kT T := by unfold kT; positivity

theorem ndForce_ref {ℓ T : ℝ} (hℓ : 0 < ℓ) (hT : 0 < T) (z : ℝ) :
    ndForce ℓ (z * (BOLTZMANN_CONSTANT : ℝ) * T / ℓ) T = z := by
  unfold ndForce kT BOLTZMANN_CONSTANT
  field_simp

theorem ndLength_ref {N : ℕ} {ℓ : ℝ} (hN : 0 < N) (hℓ : 0 < ℓ) (z T : ℝ) :
    ndLength N ℓ (z * (N : ℝ) * ℓ) T = z := by
  unfold ndLength
  have : (N : ℝ) ≠ 0 := by exact_mod_cast hN.ne'
  field_simp

/-- Given the scaling relations, the reference-state relation only has to be checked for the nondimensional energy per
link. -/
theorem Spec.EnergyMethods.RelativeTo.of_nd {e : EnergyMethods} {N : ℕ} (_hN : 0 < N) {nd : ℝ → ℝ → ℝ} {ref : ℝ}
    (h : e.Scales N nd)
    (h1 : ∀ y T, 0 < T → e.nd_relative_per_link y T = e.nd_energy_per_link y T - e.nd_energy_per_link ref T) :
    e.RelativeTo nd ref := by
  have h2 : ∀ y T, 0 < T → e.nd_relative y T = e.nd_energy y T - e.nd_energy ref T := by
    intro y T hT
    rw [h.nd_relative_total y T hT, h.nd_total y T hT, h.nd_total ref T hT, h1 y T hT]; ring
  refine ⟨?_, ?_, h2, h1⟩
  · intro x x₀ T hT h0
    rw [h.relative x T hT, h.energy x T hT, h.energy x₀ T hT, h0, h2 _ T hT]; ring
  · intro x x₀ T hT h0
    rw [h.relative_per_link x T hT, h.energy_per_link x T hT, h.energy_per_link x₀ T hT, h0, h1 _ T hT]; ring

theorem Spec.EnergyMethods.RelativeToLimit.of_nd {e : EnergyMethods} {N : ℕ} {nd : ℝ → ℝ → ℝ} {F : Filter ℝ}
    (h : e.Scales N nd)
    (h1 : ∀ T, 0 < T → ∃ c, Filter.Tendsto (fun y => e.nd_energy_per_link y T) F (nhds c) ∧
      ∀ y, e.nd_relative_per_link y T = e.nd_energy_per_link y T - c) :
    e.RelativeToLimit N F := by
  intro T hT
  obtain ⟨c, hc, h2⟩ := h1 T hT
  refine ⟨c, hc, h2, ?_, ?_, ?_⟩
  · intro y; rw [h.nd_relative_total y T hT, h.nd_total y T hT, h2]; ring
  · intro x; rw [h.relative_per_link x T hT, h.energy_per_link x T hT, h2]; ring
  · intro x
    rw [h.relative x T hT, h.energy x T hT, h.nd_relative_total _ T hT, h.nd_total _ T hT, h2]; ring

end Polymers

/-- Unfold the definitions of the first list and compare both sides as polynomials in the nondimensional functions;
if that is not enough unfold the second list too. -/
macro "scaling_tac" hN:ident hℓ:ident "[" ts:Lean.Parser.Tactic.simpLemma,* "]" "[" us:Lean.Parser.Tactic.simpLemma,* "]" : tactic =>
  `(tactic| (
    have hN' := ((Nat.cast_pos (α := ℝ)).2 $hN).ne'
    have hℓ' := ($hℓ).ne'
    try constructor
    all_goals
      intro x T hT
      have hT' := hT.ne'
      have hk := Polymers.boltzmann_pos.ne'
      simp only [$ts,*, Polymers.ndForce_code, Polymers.ndForce_code', Polymers.ndLength_code _ _ _ T, Polymers.ndLength_code' _ _ _ T,
        Polymers.ndForce_ref $hℓ hT, Polymers.ndLength_ref $hN $hℓ, Polymers.kT_eq, model_real]
      first
      | done
      | with_reducible rfl
      | ring1
      | (field_simp; done)
      | (simp only [$us,*, $ts,*, Polymers.kT_eq, model_real]; done)
      | (simp only [$us,*, $ts,*, Polymers.kT_eq, model_real]; ring1)
      | (simp only [$us,*, $ts,*, Polymers.kT_eq, model_real]; field_simp; done)
      | (simp only [$us,*, $ts,*, Polymers.kT_eq, model_real]; field_simp; ring1)
      | (simp only [$us,*, $ts,*, Polymers.kT_eq, Polymers.Spec.ndForce, Polymers.Spec.ndLength, model_real]; field_simp; done)
      | (simp only [$us,*, $ts,*, Polymers.kT_eq, Polymers.Spec.ndForce, Polymers.Spec.ndLength, model_real]; field_simp; ring1)
      | skip))

/-- Unfold and compare: the relative nondimensional energy per link is a difference of energies. -/
macro "relative_tac" hN:ident "[" ts:Lean.Parser.Tactic.simpLemma,* "]" "[" us:Lean.Parser.Tactic.simpLemma,* "]" : tactic =>
  `(tactic| (
    have hN' := ((Nat.cast_pos (α := ℝ)).2 $hN).ne'
    intro y T hT
    simp only [$ts,*, Polymers.zero_eq, model_real]
    first
    | done
    | with_reducible rfl
    | ring1
    | (simp only [$us,*, $ts,*, Polymers.zero_eq, model_real]; done)
    | (simp only [$us,*, $ts,*, Polymers.zero_eq, model_real]; ring1)
    | (simp only [$us,*, $ts,*, Polymers.zero_eq, model_real]; field_simp; ring1)
    | skip))

/-- Unfold and compare the four distributions. -/
macro "distribution_tac" hN:ident hℓ:ident "[" ts:Lean.Parser.Tactic.simpLemma,* "]" : tactic =>
  `(tactic| (
    have hN' := ((Nat.cast_pos (α := ℝ)).2 $hN).ne'
    have hℓ' := ($hℓ).ne'
    constructor
    all_goals
      intro x
      simp only [$ts,*, Polymers.zero_eq, model_real]
      first
      | done
      | ring1
      | (field_simp; done)
      | (field_simp; ring1)
      | skip))
