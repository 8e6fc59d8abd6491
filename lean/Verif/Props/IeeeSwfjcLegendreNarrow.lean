import Verif.Props.IeeeSwfjcLegendre
import Verif.Props.IeeeSwfjcNarrow

/-! C99: the Helmholtz energies at fixed force of a square well that is too narrow for the floating-point numbers. -/

namespace Polymers.Props

open Polymers.Ieee Polymers.Spec Polymers.Lemmas
open Polymers.swfjc.thermodynamics.isotensional.legendre

variable {P : Platform} {N : ℕ} {ℓ m c T f η W n s t : ℝ} {a b : ℤ} {x y z : F64 P}

theorem narrow_helmholtz (hG : ∀ f v, P.fn f v ∈ grid) (hℓ : 0 < ℓ) (hW : 0 ≤ W) (hn : W ≤ 2 ^ (-56 : ℤ) * ℓ) (hη : η ∈ grid) (h0 : 2 ^ (-900 : ℤ) ≤ η) (h1 : η ≤ 1)
    (mF TF : F64 P) : NeverFinite (nondimensional_helmholtz_free_energy_per_link (.fin ℓ) mF (.fin W) (.fin η) TF : F64 P) := by
  obtain ⟨e1, e2⟩ := narrow_sum hG hη h0 h1
  unfold nondimensional_helmholtz_free_energy_per_link
  simp only [narrow_well hℓ hW hn, e1, e2]
  exact neverFinite_sub_left (neverFinite_sub_right neverFinite_ln_zero)

/-- C99: in a well narrower than `2^-56` link lengths no nondimensional Helmholtz energy is finite at nondimensional forces up to one, and no relative Helmholtz
energy is finite at any force and temperature. -/
theorem C99_swfjc_narrow_well_helmholtz (P : Platform) (hG : ∀ f v, P.fn f v ∈ grid) (hℓ : 0 < ℓ) (hW : 0 ≤ W) (hn : W ≤ 2 ^ (-56 : ℤ) * ℓ) (N : ℕ) (m : F64 P)
    {F : ApiF.EnergyMethodsF P} (hF : F = ApiF.swfjc_isotensional_legendre_helmholtz N (.fin ℓ) m (.fin W)) :
    (∀ (η : ℝ) (T : F64 P), η ∈ grid → 2 ^ (-900 : ℤ) ≤ η → η ≤ 1 → NeverFinite (F.nd_energy (.fin η) T) ∧ NeverFinite (F.nd_energy_per_link (.fin η) T)) ∧
    (∀ x T : F64 P, NeverFinite (F.nd_relative x T) ∧ NeverFinite (F.nd_relative_per_link x T) ∧ NeverFinite (F.relative x T) ∧
      NeverFinite (F.relative_per_link x T)) := by
  subst hF
  refine ⟨fun η T hη h0 h1 => ?_, fun x T => ?_⟩
  · have k := narrow_helmholtz hG hℓ hW hn hη h0 h1 m T
    exact ⟨neverFinite_mul_right k, k⟩
  · obtain ⟨δ, hδ, hv⟩ := (zero_lit (P := P)).rel
    have hδ' := abs_le.1 (hδ.trans (units_le_one P (by norm_num)))
    have u : Real.exp δ ≤ 3 := (Real.exp_le_exp.2 hδ'.2).trans (by linarith [Real.exp_one_lt_d9])
    have l : 0.1 ≤ Real.exp δ := by
      refine le_trans ?_ (Real.exp_le_exp.2 hδ'.1)
      rw [Real.exp_neg, le_inv_comm₀ (by norm_num) (Real.exp_pos _)]
      linarith [Real.exp_one_lt_d9]
    have tiny : (2 : ℝ) ^ (-900 : ℤ) ≤ 1e-7 := (two_zpow_mono (show (-900 : ℤ) ≤ -30 by norm_num)).trans (by norm_num)
    have ez : (Polymers.ZERO : ℝ) = 1e-6 := by unfold Polymers.ZERO; norm_num
    rw [ez] at hv
    have k := narrow_helmholtz hG hℓ hW hn (out_grid hv) (tiny.trans (by linarith)) (by linarith) 1.0 300.0
    rw [← hv] at k
    have k1 : ∀ y : F64 P, NeverFinite (nondimensional_relative_helmholtz_free_energy N (.fin ℓ) (.fin W) y) := fun y =>
      neverFinite_sub_right (neverFinite_mul_right k)
    have k2 : ∀ y : F64 P, NeverFinite (nondimensional_relative_helmholtz_free_energy_per_link (.fin ℓ) (.fin W) y) := fun y => neverFinite_sub_right k
    exact ⟨k1 x, k2 x, neverFinite_mul_left (neverFinite_mul_left (k1 _)), neverFinite_mul_left (neverFinite_mul_left (k2 _))⟩

/-! ### Concrete case: unit links with a well of the width 1e-17 -/

example := (C99_swfjc_narrow_well_helmholtz correctlyRounded correctlyRounded_fn_mem (ℓ := 1) (W := 1e-17) one_pos (by norm_num) (by norm_num) 20 (.fin 1) rfl).2
  (.fin 5000) (.fin 300)

end Polymers.Props
