import Verif.Lemmas.Defined
import Verif.Spec.ApiDefined
import Verif.Spec.Api

/-! Definedness (C46) of the extensible freely jointed chain at fixed force (asymptotic models). -/

namespace Polymers.Props

open Polymers.Spec Polymers.SReal

set_option maxHeartbeats 2000000

/-- C46: every method of the family is defined for every positive force. -/
theorem C46_efjc_isotensional_asymptotic_alternative_gibbs {N : ℕ} (hN : 0 < N) {ℓ m k : ℝ} (hℓ : 0 < ℓ) (hm : 0 < m) (hk : 0 < k) :
    (ApiS.efjc_isotensional_asymptotic_alternative_gibbs N ℓ m k).DefinedAs (Api.efjc_isotensional_asymptotic_alternative_gibbs N ℓ m k) (fun f T => ndForce ℓ f T)
      (fun y _ => 0 < y) := by
  have hN' : (0 : ℝ) < N := Nat.cast_pos.2 (by omega)
  constructor <;> intro x T hT hD <;> (have hx : 0 < x := by first | exact hD | exact pos_of_ndForce hℓ hT hD) <;> refine (?_ : Is _ _) <;> defined

example : (ApiS.efjc_isotensional_asymptotic_alternative_gibbs 8 1 1 500).DefinedAs (Api.efjc_isotensional_asymptotic_alternative_gibbs 8 1 1 500) (fun f T => ndForce 1 f T)
    (fun y _ => 0 < y) :=
  C46_efjc_isotensional_asymptotic_alternative_gibbs (N := 8) (m := 1) (by norm_num) (by norm_num) (by norm_num) (by norm_num)

/-- C46: every method of the family is defined for every positive force. -/
theorem C46_efjc_isotensional_asymptotic_alternative_lengths {N : ℕ} (hN : 0 < N) {ℓ m k : ℝ} (hℓ : 0 < ℓ) (hk : 0 < k) :
    (ApiS.efjc_isotensional_asymptotic_alternative_lengths N ℓ m k).DefinedAs (Api.efjc_isotensional_asymptotic_alternative_lengths N ℓ m k) (fun f T => ndForce ℓ f T)
      (fun y _ => 0 < y) := by
  have hN' : (0 : ℝ) < N := Nat.cast_pos.2 (by omega)
  constructor <;> intro x T hT hD <;> (have hx : 0 < x := by first | exact hD | exact pos_of_ndForce hℓ hT hD) <;> refine (?_ : Is _ _) <;> defined

example : (ApiS.efjc_isotensional_asymptotic_alternative_lengths 8 1 1 500).DefinedAs (Api.efjc_isotensional_asymptotic_alternative_lengths 8 1 1 500) (fun f T => ndForce 1 f T)
    (fun y _ => 0 < y) :=
  C46_efjc_isotensional_asymptotic_alternative_lengths (N := 8) (m := 1) (by norm_num) (by norm_num) (by norm_num)

/-- C46: every method of the family is defined for every positive force. -/
theorem C46_efjc_isotensional_asymptotic_alternative_legendre_helmholtz {N : ℕ} (hN : 0 < N) {ℓ m k : ℝ} (hℓ : 0 < ℓ) (hm : 0 < m) (hk : 0 < k) :
    (ApiS.efjc_isotensional_asymptotic_alternative_legendre_helmholtz N ℓ m k).DefinedAs (Api.efjc_isotensional_asymptotic_alternative_legendre_helmholtz N ℓ m k) (fun f T => ndForce ℓ f T)
      (fun y _ => 0 < y) := by
  have hN' : (0 : ℝ) < N := Nat.cast_pos.2 (by omega)
  constructor <;> intro x T hT hD <;> (have hx : 0 < x := by first | exact hD | exact pos_of_ndForce hℓ hT hD) <;> refine (?_ : Is _ _) <;> defined

example : (ApiS.efjc_isotensional_asymptotic_alternative_legendre_helmholtz 8 1 1 500).DefinedAs (Api.efjc_isotensional_asymptotic_alternative_legendre_helmholtz 8 1 1 500) (fun f T => ndForce 1 f T)
    (fun y _ => 0 < y) :=
  C46_efjc_isotensional_asymptotic_alternative_legendre_helmholtz (N := 8) (m := 1) (by norm_num) (by norm_num) (by norm_num) (by norm_num)

/-- C46: every method of the family is defined for every positive force. -/
theorem C46_efjc_isotensional_asymptotic_reduced_gibbs {N : ℕ} (hN : 0 < N) {ℓ m k : ℝ} (hℓ : 0 < ℓ) (hm : 0 < m) (hk : 0 < k) :
    (ApiS.efjc_isotensional_asymptotic_reduced_gibbs N ℓ m k).DefinedAs (Api.efjc_isotensional_asymptotic_reduced_gibbs N ℓ m k) (fun f T => ndForce ℓ f T)
      (fun y _ => 0 < y) := by
  have hN' : (0 : ℝ) < N := Nat.cast_pos.2 (by omega)
  constructor <;> intro x T hT hD <;> (have hx : 0 < x := by first | exact hD | exact pos_of_ndForce hℓ hT hD) <;> refine (?_ : Is _ _) <;> defined

example : (ApiS.efjc_isotensional_asymptotic_reduced_gibbs 8 1 1 500).DefinedAs (Api.efjc_isotensional_asymptotic_reduced_gibbs 8 1 1 500) (fun f T => ndForce 1 f T)
    (fun y _ => 0 < y) :=
  C46_efjc_isotensional_asymptotic_reduced_gibbs (N := 8) (m := 1) (by norm_num) (by norm_num) (by norm_num) (by norm_num)

/-- C46: every method of the family is defined for every positive force. -/
theorem C46_efjc_isotensional_asymptotic_reduced_lengths {N : ℕ} (hN : 0 < N) {ℓ m k : ℝ} (hℓ : 0 < ℓ) (hk : 0 < k) :
    (ApiS.efjc_isotensional_asymptotic_reduced_lengths N ℓ m k).DefinedAs (Api.efjc_isotensional_asymptotic_reduced_lengths N ℓ m k) (fun f T => ndForce ℓ f T)
      (fun y _ => 0 < y) := by
  have hN' : (0 : ℝ) < N := Nat.cast_pos.2 (by omega)
  constructor <;> intro x T hT hD <;> (have hx : 0 < x := by first | exact hD | exact pos_of_ndForce hℓ hT hD) <;> refine (?_ : Is _ _) <;> defined

example : (ApiS.efjc_isotensional_asymptotic_reduced_lengths 8 1 1 500).DefinedAs (Api.efjc_isotensional_asymptotic_reduced_lengths 8 1 1 500) (fun f T => ndForce 1 f T)
    (fun y _ => 0 < y) :=
  C46_efjc_isotensional_asymptotic_reduced_lengths (N := 8) (m := 1) (by norm_num) (by norm_num) (by norm_num)

/-- C46: every method of the family is defined for every positive force. -/
theorem C46_efjc_isotensional_asymptotic_reduced_legendre_helmholtz {N : ℕ} (hN : 0 < N) {ℓ m k : ℝ} (hℓ : 0 < ℓ) (hm : 0 < m) (hk : 0 < k) :
    (ApiS.efjc_isotensional_asymptotic_reduced_legendre_helmholtz N ℓ m k).DefinedAs (Api.efjc_isotensional_asymptotic_reduced_legendre_helmholtz N ℓ m k) (fun f T => ndForce ℓ f T)
      (fun y _ => 0 < y) := by
  have hN' : (0 : ℝ) < N := Nat.cast_pos.2 (by omega)
  constructor <;> intro x T hT hD <;> (have hx : 0 < x := by first | exact hD | exact pos_of_ndForce hℓ hT hD) <;> refine (?_ : Is _ _) <;> defined

example : (ApiS.efjc_isotensional_asymptotic_reduced_legendre_helmholtz 8 1 1 500).DefinedAs (Api.efjc_isotensional_asymptotic_reduced_legendre_helmholtz 8 1 1 500) (fun f T => ndForce 1 f T)
    (fun y _ => 0 < y) :=
  C46_efjc_isotensional_asymptotic_reduced_legendre_helmholtz (N := 8) (m := 1) (by norm_num) (by norm_num) (by norm_num) (by norm_num)

/-- C46: every method of the family is defined for every positive force. -/
theorem C46_efjc_isotensional_asymptotic_gibbs {N : ℕ} (hN : 0 < N) {ℓ m k : ℝ} (hℓ : 0 < ℓ) (hm : 0 < m) (hk : 0 < k) :
    (ApiS.efjc_isotensional_asymptotic_gibbs N ℓ m k).DefinedAs (Api.efjc_isotensional_asymptotic_gibbs N ℓ m k) (fun f T => ndForce ℓ f T)
      (fun y _ => 0 < y) := by
  have hN' : (0 : ℝ) < N := Nat.cast_pos.2 (by omega)
  constructor <;> intro x T hT hD <;> (have hx : 0 < x := by first | exact hD | exact pos_of_ndForce hℓ hT hD) <;> refine (?_ : Is _ _) <;> defined

example : (ApiS.efjc_isotensional_asymptotic_gibbs 8 1 1 500).DefinedAs (Api.efjc_isotensional_asymptotic_gibbs 8 1 1 500) (fun f T => ndForce 1 f T)
    (fun y _ => 0 < y) :=
  C46_efjc_isotensional_asymptotic_gibbs (N := 8) (m := 1) (by norm_num) (by norm_num) (by norm_num) (by norm_num)

/-- C46: every method of the family is defined for every positive force. -/
theorem C46_efjc_isotensional_asymptotic_lengths {N : ℕ} (hN : 0 < N) {ℓ m k : ℝ} (hℓ : 0 < ℓ) (hk : 0 < k) :
    (ApiS.efjc_isotensional_asymptotic_lengths N ℓ m k).DefinedAs (Api.efjc_isotensional_asymptotic_lengths N ℓ m k) (fun f T => ndForce ℓ f T)
      (fun y _ => 0 < y) := by
  have hN' : (0 : ℝ) < N := Nat.cast_pos.2 (by omega)
  constructor <;> intro x T hT hD <;> (have hx : 0 < x := by first | exact hD | exact pos_of_ndForce hℓ hT hD) <;> refine (?_ : Is _ _) <;> defined

example : (ApiS.efjc_isotensional_asymptotic_lengths 8 1 1 500).DefinedAs (Api.efjc_isotensional_asymptotic_lengths 8 1 1 500) (fun f T => ndForce 1 f T)
    (fun y _ => 0 < y) :=
  C46_efjc_isotensional_asymptotic_lengths (N := 8) (m := 1) (by norm_num) (by norm_num) (by norm_num)

/-- C46: every method of the family is defined for every positive force. -/
theorem C46_efjc_isotensional_asymptotic_legendre_helmholtz {N : ℕ} (hN : 0 < N) {ℓ m k : ℝ} (hℓ : 0 < ℓ) (hm : 0 < m) (hk : 0 < k) :
    (ApiS.efjc_isotensional_asymptotic_legendre_helmholtz N ℓ m k).DefinedAs (Api.efjc_isotensional_asymptotic_legendre_helmholtz N ℓ m k) (fun f T => ndForce ℓ f T)
      (fun y _ => 0 < y) := by
  have hN' : (0 : ℝ) < N := Nat.cast_pos.2 (by omega)
  constructor <;> intro x T hT hD <;> (have hx : 0 < x := by first | exact hD | exact pos_of_ndForce hℓ hT hD) <;> refine (?_ : Is _ _) <;> defined

example : (ApiS.efjc_isotensional_asymptotic_legendre_helmholtz 8 1 1 500).DefinedAs (Api.efjc_isotensional_asymptotic_legendre_helmholtz 8 1 1 500) (fun f T => ndForce 1 f T)
    (fun y _ => 0 < y) :=
  C46_efjc_isotensional_asymptotic_legendre_helmholtz (N := 8) (m := 1) (by norm_num) (by norm_num) (by norm_num) (by norm_num)

end Polymers.Props
