import Verif.Lemmas.Defined
import Verif.Spec.ApiDefined
import Verif.Spec.Api
import Verif.Lemmas.Live

/-! Definedness (C46) of the ideal chain and of the freely jointed chain at fixed force. -/

namespace Polymers.Props

open Polymers.Spec Polymers.SReal

/-- C46: every method of the family is defined for all arguments. -/
theorem C46_ideal_isometric_helmholtz {N : ℕ} (hN : 0 < N) {ℓ m : ℝ} (hℓ : 0 < ℓ) (hm : 0 < m) :
    (ApiS.ideal_isometric_helmholtz N ℓ m).DefinedAs (Api.ideal_isometric_helmholtz N ℓ m) (fun ξ _ => ξ / (N * ℓ))
      (fun _ _ => True) := by
  have hN' : (0 : ℝ) < N := Nat.cast_pos.2 (by omega)
  constructor <;> intro x T hT hD <;> refine (?_ : Is _ _) <;> defined

example : (ApiS.ideal_isometric_helmholtz 8 1 1).DefinedAs (Api.ideal_isometric_helmholtz 8 1 1) (fun ξ _ => ξ / ((8 : ℕ) * 1))
    (fun _ _ => True) :=
  C46_ideal_isometric_helmholtz (N := 8) (m := 1) (by norm_num) (by norm_num) (by norm_num)

/-- C46: every method of the family is defined for all arguments. -/
theorem C46_ideal_isometric_forces {N : ℕ} (hN : 0 < N) {ℓ m : ℝ} (hℓ : 0 < ℓ) :
    (ApiS.ideal_isometric_forces N ℓ m).DefinedAs (Api.ideal_isometric_forces N ℓ m) (fun ξ _ => ξ / (N * ℓ))
      (fun _ _ => True) := by
  have hN' : (0 : ℝ) < N := Nat.cast_pos.2 (by omega)
  constructor <;> intro x T hT hD <;> refine (?_ : Is _ _) <;> defined

example : (ApiS.ideal_isometric_forces 8 1 1).DefinedAs (Api.ideal_isometric_forces 8 1 1) (fun ξ _ => ξ / ((8 : ℕ) * 1))
    (fun _ _ => True) :=
  C46_ideal_isometric_forces (N := 8) (m := 1) (by norm_num) (by norm_num)

/-- C46: every method of the family is defined for all arguments. -/
theorem C46_ideal_isometric_distribution {N : ℕ} (hN : 0 < N) {ℓ m : ℝ} (hℓ : 0 < ℓ) :
    (ApiS.ideal_isometric_distribution N ℓ m).DefinedAs (Api.ideal_isometric_distribution N ℓ m) (fun ξ => ξ / (N * ℓ))
      (fun _ => True) := by
  have hN' : (0 : ℝ) < N := Nat.cast_pos.2 (by omega)
  constructor <;> intro x hD <;> refine (?_ : Is _ _) <;> defined

example : (ApiS.ideal_isometric_distribution 8 1 1).DefinedAs (Api.ideal_isometric_distribution 8 1 1) (fun ξ => ξ / ((8 : ℕ) * 1))
    (fun _ => True) :=
  C46_ideal_isometric_distribution (N := 8) (m := 1) (by norm_num) (by norm_num)

/-- C46: every method of the family is defined for all arguments. -/
theorem C46_ideal_isotensional_gibbs {N : ℕ} (hN : 0 < N) {ℓ m : ℝ} (hℓ : 0 < ℓ) (hm : 0 < m) :
    (ApiS.ideal_isotensional_gibbs N ℓ m).DefinedAs (Api.ideal_isotensional_gibbs N ℓ m) (fun f T => ndForce ℓ f T)
      (fun _ _ => True) := by
  have hN' : (0 : ℝ) < N := Nat.cast_pos.2 (by omega)
  constructor <;> intro x T hT hD <;> refine (?_ : Is _ _) <;> defined

example : (ApiS.ideal_isotensional_gibbs 8 1 1).DefinedAs (Api.ideal_isotensional_gibbs 8 1 1) (fun f T => ndForce 1 f T)
    (fun _ _ => True) :=
  C46_ideal_isotensional_gibbs (N := 8) (m := 1) (by norm_num) (by norm_num) (by norm_num)

/-- C46: every method of the family is defined for all arguments. -/
theorem C46_ideal_isotensional_lengths {N : ℕ} (hN : 0 < N) {ℓ m : ℝ}  :
    (ApiS.ideal_isotensional_lengths N ℓ m).DefinedAs (Api.ideal_isotensional_lengths N ℓ m) (fun f T => ndForce ℓ f T)
      (fun _ _ => True) := by
  have hN' : (0 : ℝ) < N := Nat.cast_pos.2 (by omega)
  constructor <;> intro x T hT hD <;> refine (?_ : Is _ _) <;> defined

example : (ApiS.ideal_isotensional_lengths 8 1 1).DefinedAs (Api.ideal_isotensional_lengths 8 1 1) (fun f T => ndForce 1 f T)
    (fun _ _ => True) :=
  C46_ideal_isotensional_lengths (N := 8) (m := 1) (by norm_num) 

/-- C46: every method of the family is defined for every positive force. -/
theorem C46_fjc_isotensional_gibbs {N : ℕ} (hN : 0 < N) {ℓ m : ℝ} (hℓ : 0 < ℓ) (hm : 0 < m) :
    (ApiS.fjc_isotensional_gibbs N ℓ m).DefinedAs (Api.fjc_isotensional_gibbs N ℓ m) (fun f T => ndForce ℓ f T)
      (fun y _ => 0 < y) := by
  have hN' : (0 : ℝ) < N := Nat.cast_pos.2 (by omega)
  constructor <;> intro x T hT hD <;> (have hx : 0 < x := by first | exact hD | exact pos_of_ndForce hℓ hT hD) <;> refine (?_ : Is _ _) <;> defined

example : (ApiS.fjc_isotensional_gibbs 8 1 1).DefinedAs (Api.fjc_isotensional_gibbs 8 1 1) (fun f T => ndForce 1 f T)
    (fun y _ => 0 < y) :=
  C46_fjc_isotensional_gibbs (N := 8) (m := 1) (by norm_num) (by norm_num) (by norm_num)

/-- C46: every method of the family is defined for every positive force. -/
theorem C46_fjc_isotensional_lengths {N : ℕ} (hN : 0 < N) {ℓ m : ℝ} (hℓ : 0 < ℓ) :
    (ApiS.fjc_isotensional_lengths N ℓ m).DefinedAs (Api.fjc_isotensional_lengths N ℓ m) (fun f T => ndForce ℓ f T)
      (fun y _ => 0 < y) := by
  have hN' : (0 : ℝ) < N := Nat.cast_pos.2 (by omega)
  constructor <;> intro x T hT hD <;> (have hx : 0 < x := by first | exact hD | exact pos_of_ndForce hℓ hT hD) <;> refine (?_ : Is _ _) <;> defined

example : (ApiS.fjc_isotensional_lengths 8 1 1).DefinedAs (Api.fjc_isotensional_lengths 8 1 1) (fun f T => ndForce 1 f T)
    (fun y _ => 0 < y) :=
  C46_fjc_isotensional_lengths (N := 8) (m := 1) (by norm_num) (by norm_num)

/-- C46: every method of the family is defined for every positive force. -/
theorem C46_fjc_isotensional_legendre_helmholtz {N : ℕ} (hN : 0 < N) {ℓ m : ℝ} (hℓ : 0 < ℓ) (hm : 0 < m) :
    (ApiS.fjc_isotensional_legendre_helmholtz N ℓ m).DefinedAs (Api.fjc_isotensional_legendre_helmholtz N ℓ m) (fun f T => ndForce ℓ f T)
      (fun y _ => 0 < y) := by
  have hN' : (0 : ℝ) < N := Nat.cast_pos.2 (by omega)
  constructor <;> intro x T hT hD <;> (have hx : 0 < x := by first | exact hD | exact pos_of_ndForce hℓ hT hD) <;> refine (?_ : Is _ _) <;> defined

example : (ApiS.fjc_isotensional_legendre_helmholtz 8 1 1).DefinedAs (Api.fjc_isotensional_legendre_helmholtz 8 1 1) (fun f T => ndForce 1 f T)
    (fun y _ => 0 < y) :=
  C46_fjc_isotensional_legendre_helmholtz (N := 8) (m := 1) (by norm_num) (by norm_num) (by norm_num)

/-- C46: at zero force the nondimensional Gibbs energies and lengths of the freely jointed chain are undefined. -/
theorem C46_fjc_zero_force (N : ℕ) (ℓ m T : ℝ) :
    (ApiS.fjc_isotensional_gibbs N ℓ m).nd_energy 0 T = undef ∧
    (ApiS.fjc_isotensional_gibbs N ℓ m).nd_energy_per_link 0 T = undef ∧
    (ApiS.fjc_isotensional_gibbs N ℓ m).nd_relative 0 T = undef ∧
    (ApiS.fjc_isotensional_gibbs N ℓ m).nd_relative_per_link 0 T = undef ∧
    (ApiS.fjc_isotensional_lengths N ℓ m).nd_length 0 T = undef ∧
    (ApiS.fjc_isotensional_lengths N ℓ m).nd_length_per_link 0 T = undef := by
  have hl : Elem.ln (Elem.sinh (val 0) / val 0) = undef := by rw [sinh_val, SReal.div_zero, ln_of_undef]
  have ht : (1.0 : SReal) / Elem.tanh (val 0) - 1.0 / val 0 = undef := by
    rw [tanh_val, Real.tanh_zero, show (1.0 : SReal) = val 1.0 from rfl, SReal.div_zero, undef_sub_undef]
  have hs : ∀ a, Live a → undef - a = undef := by
    intro a ha
    cases a with
    | val r => exact undef_sub _
    | undef => exact undef_sub_undef
    | panic => exact absurd rfl ha
  have hm : Live (Elem.ln (8.0 * Elem.powi (Elem.pi : SReal) 2 * val m * Elem.powi (val ℓ) 2 * (BOLTZMANN_CONSTANT : SReal) *
      val T / Elem.powi (PLANCK_CONSTANT : SReal) 2)) := by
    unfold BOLTZMANN_CONSTANT PLANCK_CONSTANT
    live
  refine ⟨?_, ?_, ?_, ?_, ?_, ?_⟩
  · change (N : SReal) * (-Elem.ln (Elem.sinh (val 0) / val 0) - _) = undef
    rw [hl, neg_undef]
    exact (congrArg ((N : SReal) * ·) (hs _ hm)).trans rfl
  · change -Elem.ln (Elem.sinh (val 0) / val 0) - _ = undef
    rw [hl, neg_undef]
    exact hs _ hm
  · change -(N : SReal) * Elem.ln (Elem.sinh (val 0) / val 0) = undef
    rw [hl, natCast_val, neg_val, mul_undef]
  · change -Elem.ln (Elem.sinh (val 0) / val 0) = undef
    rw [hl, neg_undef]
  · change (1.0 / Elem.tanh (val 0) - 1.0 / val 0) * (N : SReal) = undef
    rw [ht, natCast_val, undef_mul]
  · exact ht

end Polymers.Props
