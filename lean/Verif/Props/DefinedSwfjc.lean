import Verif.Lemmas.Defined
import Verif.Spec.ApiDefined
import Verif.Spec.Api
import Verif.Props.Swfjc

/-! Definedness (C46) of the square-well freely jointed chain at fixed force. -/

namespace Polymers.Props

open Polymers.Spec Polymers.SReal

set_option maxHeartbeats 2000000

/-- The link partition function as the code writes it is positive. -/
theorem sw_code_pos {ℓ w η : ℝ} (hℓ : 0 < ℓ) (hw : 0 < w) (hη : 0 < η) :
    0 < (1.0 + w / ℓ) * η * Elem.cosh ((1.0 + w / ℓ) * η) - Elem.sinh ((1.0 + w / ℓ) * η) - η * Elem.cosh η + Elem.sinh η := by
  have hW : 1 < 1 + w / ℓ := by have := div_pos hw hℓ; linarith
  have h := swZ_pos hW hη
  simp only [swZ, swG] at h
  simp only [model_real]
  linarith

/-- C46: every method of the family is defined for every positive force. -/
theorem C46_swfjc_isotensional_gibbs {N : ℕ} (hN : 0 < N) {ℓ m w : ℝ} (hℓ : 0 < ℓ) (hm : 0 < m) (hw : 0 < w) :
    (ApiS.swfjc_isotensional_gibbs N ℓ m w).DefinedAs (Api.swfjc_isotensional_gibbs N ℓ m w) (fun f T => ndForce ℓ f T)
      (fun y _ => 0 < y) := by
  have hN' : (0 : ℝ) < N := Nat.cast_pos.2 (by omega)
  constructor <;> intro x T hT hD <;> (have hx : 0 < x := by first | exact hD | exact pos_of_ndForce hℓ hT hD) <;> refine (?_ : Is _ _) <;> (defined; all_goals exact sw_code_pos hℓ hw (by side))

example : (ApiS.swfjc_isotensional_gibbs 8 1 1 (1/2)).DefinedAs (Api.swfjc_isotensional_gibbs 8 1 1 (1/2)) (fun f T => ndForce 1 f T)
    (fun y _ => 0 < y) :=
  C46_swfjc_isotensional_gibbs (N := 8) (m := 1) (by norm_num) (by norm_num) (by norm_num) (by norm_num)

/-- C46: every method of the family is defined for every positive force. -/
theorem C46_swfjc_isotensional_lengths {N : ℕ} (hN : 0 < N) {ℓ m w : ℝ} (hℓ : 0 < ℓ) (hw : 0 < w) :
    (ApiS.swfjc_isotensional_lengths N ℓ m w).DefinedAs (Api.swfjc_isotensional_lengths N ℓ m w) (fun f T => ndForce ℓ f T)
      (fun y _ => 0 < y) := by
  have hN' : (0 : ℝ) < N := Nat.cast_pos.2 (by omega)
  constructor <;> intro x T hT hD <;> (have hx : 0 < x := by first | exact hD | exact pos_of_ndForce hℓ hT hD) <;> refine (?_ : Is _ _) <;> (defined <;> first | exact sw_code_pos hℓ hw (by side) | exact (sw_code_pos hℓ hw (by side)).ne')

example : (ApiS.swfjc_isotensional_lengths 8 1 1 (1/2)).DefinedAs (Api.swfjc_isotensional_lengths 8 1 1 (1/2)) (fun f T => ndForce 1 f T)
    (fun y _ => 0 < y) :=
  C46_swfjc_isotensional_lengths (N := 8) (m := 1) (by norm_num) (by norm_num) (by norm_num)

/-- C46: every method of the family is defined for every positive force. -/
theorem C46_swfjc_isotensional_legendre_helmholtz {N : ℕ} (hN : 0 < N) {ℓ m w : ℝ} (hℓ : 0 < ℓ) (hm : 0 < m) (hw : 0 < w) :
    (ApiS.swfjc_isotensional_legendre_helmholtz N ℓ m w).DefinedAs (Api.swfjc_isotensional_legendre_helmholtz N ℓ m w) (fun f T => ndForce ℓ f T)
      (fun y _ => 0 < y) := by
  have hN' : (0 : ℝ) < N := Nat.cast_pos.2 (by omega)
  constructor <;> intro x T hT hD <;> (have hx : 0 < x := by first | exact hD | exact pos_of_ndForce hℓ hT hD) <;> refine (?_ : Is _ _) <;> (defined <;> first | exact sw_code_pos hℓ hw (by side) | exact (sw_code_pos hℓ hw (by side)).ne')

example : (ApiS.swfjc_isotensional_legendre_helmholtz 8 1 1 (1/2)).DefinedAs (Api.swfjc_isotensional_legendre_helmholtz 8 1 1 (1/2)) (fun f T => ndForce 1 f T)
    (fun y _ => 0 < y) :=
  C46_swfjc_isotensional_legendre_helmholtz (N := 8) (m := 1) (by norm_num) (by norm_num) (by norm_num) (by norm_num)

end Polymers.Props
