import Verif.Lemmas.Defined
import Verif.Spec.ApiDefined
import Verif.Spec.ApiPotential
import Verif.Props.TreloarFailure
import Verif.Props.InverseLangevin
import Verif.Props.FjcLegendre
import Verif.Props.FjcPotential

/-! Definedness (C46) of the freely jointed chain at fixed extension and in harmonic potentials. -/

namespace Polymers.Props

open Polymers.Spec Polymers.SReal Polymers.Lemmas

set_option maxHeartbeats 1000000

section leaves

open fjc.thermodynamics

variable {N : ℕ} {x : SReal} {r : ℝ}

theorem _root_.Polymers.SReal.Is.treloar_sums (hN2 : 2 ≤ N) (hN : N ≤ 34) (hx : Is x r) (h : 0 < r ∧ r < 1) {orders : List ℤ}
    {i : ℕ} (hi : i < orders.length) :
    Is (List.getD (treloar_sums N x orders) i Elem.panic) (List.getD (treloar_sums N r orders) i Elem.panic) := by
  rw [Is] at hx
  subst hx
  have e : ∀ o : ℤ, treloar_sum N (val r) o = val (treloar_sum N r o) := fun o =>
    treloar_sum_value (by omega) hN (by linarith [h.1]) h.2 o
  simp only [Is, treloar_sums, List.getD_eq_getElem?_getD, List.getElem?_map, List.getElem?_eq_getElem hi, Option.map_some,
    Option.getD_some, if_neg (show ¬N < 2 by omega), e]

theorem treloar_sums_zero_pos (hN2 : 2 ≤ N) (hN : N ≤ 34) (h : 0 < r ∧ r < 1) (l : List ℤ) :
    0 < List.getD (treloar_sums N r (0 :: l)) 0 Elem.panic := by
  simp only [treloar_sums, List.map_cons, List.getD_cons_zero, if_neg (show ¬N < 2 by omega), sub_zero]
  exact treloar_sum_pos hN2 hN h.1 h.2

theorem _root_.Polymers.SReal.Is.treloar_density (hN2 : 2 ≤ N) (hN : N ≤ 26) (hx : Is x r) (h : 0 < r ∧ r < 1) :
    Is (treloar_sum_0_with_prefactor N x) (treloar_sum_0_with_prefactor N r) := by
  rw [Is] at hx
  subst hx
  exact prefactor_value hN2 hN h.1 h.2

theorem _root_.Polymers.SReal.Is.inverse_langevin (hx : Is x r) (h : 0 < r ∧ r < 1) :
    Is (math.inverse_langevin x) (math.inverse_langevin r) := by
  rw [Is] at hx
  subst hx
  exact C46_inverse_langevin r h.1 h.2

theorem inverse_langevin_pos (h : 0 < r ∧ r < 1) : 0 < math.inverse_langevin r := (inverse_langevin_spec h.1 h.2).1

theorem _root_.Polymers.SReal.Is.fjc_legendre_density (hx : Is x r) (h : 0 < r ∧ r < 1) {c : SReal} {c' : ℝ} (hc : Is c c')
    (hc0 : c' ≠ 0) :
    Is (isometric.legendre.nondimensional_equilibrium_distribution N c x)
      (isometric.legendre.nondimensional_equilibrium_distribution N c' r) := by
  defined [Is.inverse_langevin hx h]
  exact (inverse_langevin_pos h).ne'

theorem _root_.Polymers.SReal.Is.fjc_legendre_normalization :
    Is (math.integrate_1d (fun γ => isometric.legendre.nondimensional_equilibrium_radial_distribution N 1.0 γ) (ZERO : SReal)
      ONE POINTS)
      (math.integrate_1d (fun γ => isometric.legendre.nondimensional_equilibrium_radial_distribution N 1.0 γ) (ZERO : ℝ)
      ONE POINTS) := by
  refine Is.integrate_Ioo rfl (Is.lit _ _ _) (Is.lit _ _ _) (by norm_num [POINTS]) zero_lt_one_grid fun t h0 h1 => ?_
  have h' : 0 < t ∧ t < 1 := ⟨zero_pos'.trans h0, h1.trans_eq one_eq'⟩
  defined [Is.fjc_legendre_density (Is.val _) h' (Is.lit _ _ _) (by norm_num)]

theorem _root_.Polymers.SReal.Is.fjc_legendre_energy (hx : Is x r) (h : 0 < r ∧ r < 1) :
    Is (isometric.legendre.nondimensional_relative_helmholtz_free_energy_per_link x)
      (isometric.legendre.nondimensional_relative_helmholtz_free_energy_per_link r) := by
  have hp := inverse_langevin_pos h
  defined [hx, Is.inverse_langevin hx h]

theorem _root_.Polymers.SReal.Is.fjc_isometric_force (hN2 : 2 ≤ N) (hN : N ≤ 34) (hx : Is x r) (h : 0 < r ∧ r < 1) :
    Is (isometric.nondimensional_force N x) (isometric.nondimensional_force N r) := by
  have hN' : (0 : ℝ) < N := Nat.cast_pos.2 (by omega)
  have h0 := h.1
  have hp := treloar_sums_zero_pos hN2 hN h [1]
  defined [hx, Is.treloar_sums hN2 hN hx h (by decide)]

theorem _root_.Polymers.SReal.Is.fjc_isometric_density {ℓ : ℝ} (hN2 : 2 ≤ N) (hN : N ≤ 26) (hℓ : 0 < ℓ) (hx : Is x r)
    (h : 0 < r ∧ r < 1) :
    Is (isometric.equilibrium_distribution N (val ℓ) (x * (N : SReal) * val ℓ))
      (isometric.equilibrium_distribution N ℓ (r * (N : ℝ) * ℓ)) ∧
    0 < isometric.equilibrium_distribution N ℓ (r * (N : ℝ) * ℓ) := by
  have hN' : (0 : ℝ) < N := Nat.cast_pos.2 (by omega)
  have h' : 0 < r * (N : ℝ) * ℓ / (N * ℓ) ∧ r * (N : ℝ) * ℓ / (N * ℓ) < 1 := by
    rwa [show r * (N : ℝ) * ℓ / (N * ℓ) = r by field_simp]
  constructor
  · defined [hx, Is.treloar_density hN2 hN ?_ h']
  · exact div_pos (treloar_density_pos hN2 hN h'.1 h'.2) (by side)

theorem _root_.Polymers.SReal.Is.fjc_isometric_energy {ℓ m T : ℝ} (hN2 : 2 ≤ N) (hN : N ≤ 26) (hℓ : 0 < ℓ) (hm : 0 < m)
    (hT : 0 < T) (hx : Is x r) (h : 0 < r ∧ r < 1) :
    Is (isometric.nondimensional_helmholtz_free_energy N (val ℓ) (val m) x (val T))
      (isometric.nondimensional_helmholtz_free_energy N ℓ m r T) := by
  have hN' : (0 : ℝ) < N := Nat.cast_pos.2 (by omega)
  have hp := (Is.fjc_isometric_density hN2 hN hℓ hx h).2
  defined [(Is.fjc_isometric_density hN2 hN hℓ hx h).1]

theorem _root_.Polymers.SReal.Is.fjc_isometric_relative (hN2 : 2 ≤ N) (hN : N ≤ 26) (hx : Is x r) (h : 0 < r ∧ r < 1) :
    Is (isometric.nondimensional_relative_helmholtz_free_energy N x)
      (isometric.nondimensional_relative_helmholtz_free_energy N r) := by
  have h0 : 0 < isometric.nondimensional_equilibrium_distribution N (ZERO : ℝ) :=
    treloar_density_pos hN2 hN fjc_zero_mem.1 fjc_zero_mem.2
  have h1 : 0 < isometric.nondimensional_equilibrium_distribution N r := treloar_density_pos hN2 hN h.1 h.2
  defined [hx, Is.treloar_density hN2 hN ?_ (by first | exact h | exact fjc_zero_mem)]

theorem _root_.Polymers.SReal.Is.fjc_legendre_gibbs {ℓ m T : ℝ} {ℓ' m' T' : SReal} (hN2 : 2 ≤ N) (hN : N ≤ 26)
    (Hℓ : Is ℓ' ℓ) (Hm : Is m' m) (HT : Is T' T) (hℓ : 0 < ℓ) (hm : 0 < m) (hT : 0 < T) (hx : Is x r) (h : 0 < r ∧ r < 1) :
    Is (isometric.legendre.nondimensional_gibbs_free_energy N ℓ' m' x T')
      (isometric.legendre.nondimensional_gibbs_free_energy N ℓ m r T) := by
  have hN' : (0 : ℝ) < N := Nat.cast_pos.2 (by omega)
  have h0 := h.1
  have hp := treloar_sums_zero_pos hN2 (by omega) h [1]
  have hd := treloar_density_pos hN2 hN h.1 h.2
  defined [hx, Hℓ, Hm, HT, Is.treloar_sums hN2 (by omega) hx h (by decide), Is.treloar_density hN2 hN hx h]

theorem mc_weight_pos {c d γ : ℝ} (hc : 0 < c) (hd : 0 < d) (hγ : 0 < γ) :
    0 < Elem.exp ((-0.5) * c * Elem.powi (d - γ) 2) - Elem.exp ((-0.5) * c * Elem.powi (d + γ) 2) := by
  simp only [model_real, sub_pos, Real.exp_lt_exp]
  nlinarith [mul_pos (mul_pos hc hd) hγ]

variable {d κ : ℝ} {y : SReal}

theorem mc_integral_pos (hN2 : 2 ≤ N) (hN : N ≤ 26) (hd : 0 < d) (hκ : 0 < κ) :
    0 < math.integrate_1d (fun γ : ℝ => 4.0 * (Elem.pi : ℝ) * Elem.powi γ 2 * treloar_sum_0_with_prefactor N γ *
        (Elem.exp ((-0.5) * (Elem.powi (N : ℝ) 2 * κ) * Elem.powi (d - γ) 2) -
          Elem.exp ((-0.5) * (Elem.powi (N : ℝ) 2 * κ) * Elem.powi (d + γ) 2)) /
        (2.0 * (Elem.powi (N : ℝ) 2 * κ) * d * γ)) ZERO ONE POINTS := by
  have hN' : (0 : ℝ) < N := Nat.cast_pos.2 (by omega)
  have hc : 0 < Elem.powi (N : ℝ) 2 * κ := by side
  refine math.integrate_1d_pos zero_lt_one_grid (by norm_num [POINTS]) fun t ht => ?_
  have h0 := zero_pos'.trans ht.1
  have := treloar_density_pos hN2 hN h0 (ht.2.trans_eq one_eq')
  have := mc_weight_pos hc hd h0
  side

theorem _root_.Polymers.SReal.Is.mc_energy {ℓ m T : ℝ} {ℓ' m' T' : SReal} (hN2 : 2 ≤ N) (hN : N ≤ 26)
    (Hℓ : Is ℓ' ℓ) (Hm : Is m' m) (HT : Is T' T) (hℓ : 0 < ℓ) (hm : 0 < m) (hT : 0 < T) (hx : Is x d) (hy : Is y κ)
    (hd : 0 < d) (hκ : 0 < κ) :
    Is (modified_canonical.nondimensional_helmholtz_free_energy N ℓ' m' x y T')
      (modified_canonical.nondimensional_helmholtz_free_energy N ℓ m d κ T) := by
  have hN' : (0 : ℝ) < N := Nat.cast_pos.2 (by omega)
  have hc : 0 < Elem.powi (N : ℝ) 2 * κ := by side
  defined [hx, hy, Hℓ, Hm, HT, Is.integrate_Ioo rfl ?_ ?_ ?_ zero_lt_one_grid fun t h0 h1 => ?_,
    Is.treloar_density hN2 hN ?_ ⟨zero_pos'.trans (by assumption), lt_of_lt_of_eq (by assumption) one_eq'⟩]
  · norm_num [POINTS]
  · have ht := zero_pos'.trans ‹(ZERO : ℝ) < _›
    side
  · exact mc_integral_pos hN2 hN hd hκ

theorem _root_.Polymers.SReal.Is.mc_force (hN2 : 2 ≤ N) (hN : N ≤ 26) (hx : Is x d) (hy : Is y κ)
    (hd : 0 < d) (hκ : 0 < κ) :
    Is (modified_canonical.nondimensional_force N x y) (modified_canonical.nondimensional_force N d κ) := by
  have hN' : (0 : ℝ) < N := Nat.cast_pos.2 (by omega)
  have hc : 0 < Elem.powi (N : ℝ) 2 * κ := by side
  defined [hx, hy, Is.integrate_Ioo rfl ?_ ?_ ?_ zero_lt_one_grid fun t h0 h1 => ?_,
    Is.treloar_density hN2 hN ?_ ⟨zero_pos'.trans (by assumption), lt_of_lt_of_eq (by assumption) one_eq'⟩]
  · norm_num [POINTS]
  · have ht := zero_pos'.trans ‹(ZERO : ℝ) < _›
    side
  · have ht := zero_pos'.trans ‹(ZERO : ℝ) < _›
    side
  · norm_num [POINTS]
  · have ht := zero_pos'.trans ‹(ZERO : ℝ) < _›
    side
  · exact (mc_integral_pos hN2 hN hd hκ).ne'

theorem _root_.Polymers.SReal.Is.strong_energy {ℓ m T : ℝ} {ℓ' m' T' : SReal} (hN2 : 2 ≤ N) (hN : N ≤ 26)
    (Hℓ : Is ℓ' ℓ) (Hm : Is m' m) (HT : Is T' T) (hℓ : 0 < ℓ) (hm : 0 < m) (hT : 0 < T) (hx : Is x d) (hy : Is y κ)
    (h : 0 < d ∧ d < 1) (hκ : 0 < κ) :
    Is (modified_canonical.asymptotic.strong_potential.nondimensional_helmholtz_free_energy N ℓ' m' x y T')
      (modified_canonical.asymptotic.strong_potential.nondimensional_helmholtz_free_energy N ℓ m d κ T) := by
  have hN' : (0 : ℝ) < N := Nat.cast_pos.2 (by omega)
  have h0 := h.1
  have hp := treloar_sums_zero_pos hN2 (by omega) h [1, 2]
  have hd := treloar_density_pos hN2 hN h.1 h.2
  defined [hx, hy, Hℓ, Hm, HT, Is.treloar_sums hN2 (by omega) hx h (by decide), Is.treloar_density hN2 hN hx h]

theorem _root_.Polymers.SReal.Is.strong_force (hN2 : 2 ≤ N) (hN : N ≤ 34) (hx : Is x d) (hy : Is y κ)
    (h : 0 < d ∧ d < 1) (hκ : 0 < κ) :
    Is (modified_canonical.asymptotic.strong_potential.nondimensional_force N x y)
      (modified_canonical.asymptotic.strong_potential.nondimensional_force N d κ) := by
  have hN' : (0 : ℝ) < N := Nat.cast_pos.2 (by omega)
  have h0 := h.1
  have hp := treloar_sums_zero_pos hN2 (by omega) h [1, 2, 3]
  defined [hx, hy, Is.treloar_sums hN2 (by omega) hx h (by decide)]

theorem fjc_back_mem {ℓ : ℝ} (hN : 0 < (N : ℝ)) (hℓ : 0 < ℓ) :
    0 < (ZERO : ℝ) * N * ℓ / (N * ℓ) ∧ (ZERO : ℝ) * N * ℓ / (N * ℓ) < 1 := by
  rw [show (ZERO : ℝ) * N * ℓ / (N * ℓ) = ZERO by field_simp]
  exact fjc_zero_mem

end leaves

/-- C46: every method of the family is defined strictly between zero and full extension. -/
theorem C46_fjc_isometric_legendre_helmholtz {N : ℕ} (hN : 0 < N) {ℓ m : ℝ} (hℓ : 0 < ℓ) (hm : 0 < m) :
    (ApiS.fjc_isometric_legendre_helmholtz N ℓ m).DefinedAs (Api.fjc_isometric_legendre_helmholtz N ℓ m) (fun ξ _ => ξ / (N * ℓ))
      (fun y _ => 0 < y ∧ y < 1) := by
  have hN' : (0 : ℝ) < N := Nat.cast_pos.2 (by omega)
  constructor <;> intro x T hT hD <;> refine (?_ : Is _ _) <;> defined [Is.fjc_legendre_energy ?_ hD]

example : (ApiS.fjc_isometric_legendre_helmholtz 8 1 1).DefinedAs (Api.fjc_isometric_legendre_helmholtz 8 1 1) (fun ξ _ => ξ / ((8 : ℕ) * 1))
    (fun y _ => 0 < y ∧ y < 1) :=
  C46_fjc_isometric_legendre_helmholtz (N := 8) (m := 1) (by norm_num) (by norm_num) (by norm_num)

/-- C46: every method of the family is defined strictly between zero and full extension. -/
theorem C46_fjc_isometric_legendre_forces {N : ℕ} (hN : 0 < N) {ℓ m : ℝ} (hℓ : 0 < ℓ) :
    (ApiS.fjc_isometric_legendre_forces N ℓ m).DefinedAs (Api.fjc_isometric_legendre_forces N ℓ m) (fun ξ _ => ξ / (N * ℓ))
      (fun y _ => 0 < y ∧ y < 1) := by
  have hN' : (0 : ℝ) < N := Nat.cast_pos.2 (by omega)
  constructor <;> intro x T hT hD <;> refine (?_ : Is _ _) <;> defined [Is.inverse_langevin ?_ hD]

example : (ApiS.fjc_isometric_legendre_forces 8 1 1).DefinedAs (Api.fjc_isometric_legendre_forces 8 1 1) (fun ξ _ => ξ / ((8 : ℕ) * 1))
    (fun y _ => 0 < y ∧ y < 1) :=
  C46_fjc_isometric_legendre_forces (N := 8) (m := 1) (by norm_num) (by norm_num)

/-- C46: every method of the family is defined strictly between zero and full extension. -/
theorem C46_fjc_isometric_legendre_distribution {N : ℕ} (hN : 0 < N) {ℓ m : ℝ} (hℓ : 0 < ℓ) :
    (ApiS.fjc_isometric_legendre_distribution N ℓ m).DefinedAs (Api.fjc_isometric_legendre_distribution N ℓ m) (fun ξ => ξ / (N * ℓ))
      (fun y => 0 < y ∧ y < 1) := by
  have hN' : (0 : ℝ) < N := Nat.cast_pos.2 (by omega)
  constructor <;> intro x hD <;> refine (?_ : Is _ _) <;> defined [Is.fjc_legendre_density ?_ hD ?_ (fjc_legendre_normalization_pos N).ne', Is.fjc_legendre_normalization]

example : (ApiS.fjc_isometric_legendre_distribution 8 1 1).DefinedAs (Api.fjc_isometric_legendre_distribution 8 1 1) (fun ξ => ξ / ((8 : ℕ) * 1))
    (fun y => 0 < y ∧ y < 1) :=
  C46_fjc_isometric_legendre_distribution (N := 8) (m := 1) (by norm_num) (by norm_num)

/-- C46: every method of the family is defined strictly between zero and full extension, for 2 to 26 links. -/
theorem C46_fjc_isometric_legendre_gibbs {N : ℕ} (hN2 : 2 ≤ N) (hN : N ≤ 26) {ℓ m : ℝ} (hℓ : 0 < ℓ) (hm : 0 < m) :
    (ApiS.fjc_isometric_legendre_gibbs N ℓ m).DefinedAs (Api.fjc_isometric_legendre_gibbs N ℓ m) (fun ξ _ => ξ / (N * ℓ))
      (fun y _ => 0 < y ∧ y < 1) := by
  have hN' : (0 : ℝ) < N := Nat.cast_pos.2 (by omega)
  constructor <;> intro x T hT hD <;> refine (?_ : Is _ _) <;> defined [Is.fjc_legendre_gibbs hN2 hN ?_ ?_ ?_ ?_ ?_ ?_ ?_ (by first | exact hD | exact fjc_zero_mem)]

example : (ApiS.fjc_isometric_legendre_gibbs 8 1 1).DefinedAs (Api.fjc_isometric_legendre_gibbs 8 1 1) (fun ξ _ => ξ / ((8 : ℕ) * 1))
    (fun y _ => 0 < y ∧ y < 1) :=
  C46_fjc_isometric_legendre_gibbs (N := 8) (m := 1) (by norm_num) (by norm_num) (by norm_num) (by norm_num)

/-- C46: every method of the family is defined strictly between zero and full extension, for 2 to 26 links. -/
theorem C46_fjc_isometric_helmholtz {N : ℕ} (hN2 : 2 ≤ N) (hN : N ≤ 26) {ℓ m : ℝ} (hℓ : 0 < ℓ) (hm : 0 < m) :
    (ApiS.fjc_isometric_helmholtz N ℓ m).DefinedAs (Api.fjc_isometric_helmholtz N ℓ m) (fun ξ _ => ξ / (N * ℓ))
      (fun y _ => 0 < y ∧ y < 1) := by
  have hN' : (0 : ℝ) < N := Nat.cast_pos.2 (by omega)
  constructor <;> intro x T hT hD <;> refine (?_ : Is _ _) <;> defined [Is.fjc_isometric_energy hN2 hN hℓ hm hT ?_ hD, Is.fjc_isometric_relative hN2 hN ?_ hD]

example : (ApiS.fjc_isometric_helmholtz 8 1 1).DefinedAs (Api.fjc_isometric_helmholtz 8 1 1) (fun ξ _ => ξ / ((8 : ℕ) * 1))
    (fun y _ => 0 < y ∧ y < 1) :=
  C46_fjc_isometric_helmholtz (N := 8) (m := 1) (by norm_num) (by norm_num) (by norm_num) (by norm_num)

/-- C46: every method of the family is defined strictly between zero and full extension, for 2 to 34 links. -/
theorem C46_fjc_isometric_forces {N : ℕ} (hN2 : 2 ≤ N) (hN : N ≤ 34) {ℓ m : ℝ} (hℓ : 0 < ℓ) :
    (ApiS.fjc_isometric_forces N ℓ m).DefinedAs (Api.fjc_isometric_forces N ℓ m) (fun ξ _ => ξ / (N * ℓ))
      (fun y _ => 0 < y ∧ y < 1) := by
  have hN' : (0 : ℝ) < N := Nat.cast_pos.2 (by omega)
  constructor <;> intro x T hT hD <;> refine (?_ : Is _ _) <;> defined [Is.fjc_isometric_force hN2 hN ?_ hD]

example : (ApiS.fjc_isometric_forces 8 1 1).DefinedAs (Api.fjc_isometric_forces 8 1 1) (fun ξ _ => ξ / ((8 : ℕ) * 1))
    (fun y _ => 0 < y ∧ y < 1) :=
  C46_fjc_isometric_forces (N := 8) (m := 1) (by norm_num) (by norm_num) (by norm_num)

/-- C46: every method of the family is defined strictly between zero and full extension, for 2 to 26 links. -/
theorem C46_fjc_isometric_distribution {N : ℕ} (hN2 : 2 ≤ N) (hN : N ≤ 26) {ℓ m : ℝ} (hℓ : 0 < ℓ) :
    (ApiS.fjc_isometric_distribution N ℓ m).DefinedAs (Api.fjc_isometric_distribution N ℓ m) (fun ξ => ξ / (N * ℓ))
      (fun y => 0 < y ∧ y < 1) := by
  have hN' : (0 : ℝ) < N := Nat.cast_pos.2 (by omega)
  constructor <;> intro x hD <;> refine (?_ : Is _ _) <;> defined [Is.treloar_density hN2 hN ?_ hD]

example : (ApiS.fjc_isometric_distribution 8 1 1).DefinedAs (Api.fjc_isometric_distribution 8 1 1) (fun ξ => ξ / ((8 : ℕ) * 1))
    (fun y => 0 < y ∧ y < 1) :=
  C46_fjc_isometric_distribution (N := 8) (m := 1) (by norm_num) (by norm_num) (by norm_num)

/-- C46: every method of the family is defined for every positive potential distance, for 2 to 26 links. -/
theorem C46_fjc_modified_canonical_helmholtz {N : ℕ} (hN2 : 2 ≤ N) (hN : N ≤ 26) {ℓ m K : ℝ} (hℓ : 0 < ℓ) (hm : 0 < m) (hK : 0 < K) :
    (ApiS.fjc_modified_canonical_helmholtz N ℓ m K).DefinedAs (Api.fjc_modified_canonical_helmholtz N ℓ m K) (fun ξ _ => ξ / (N * ℓ))
      (fun y _ => 0 < y) := by
  have hN' : (0 : ℝ) < N := Nat.cast_pos.2 (by omega)
  have hκ : ∀ {T : ℝ}, 0 < T → 0 < ndStiffness K ℓ T := fun {T} hT => by
    have := Polymers.boltzmann_pos
    unfold ndStiffness kT
    positivity
  constructor <;> intro x T hT hD <;> refine (?_ : Is _ _) <;> (have hx : 0 < x := by first | exact hD | exact (div_pos_iff_of_pos_right (by positivity)).1 hD) <;> have hκT := hκ hT <;> defined [Is.mc_energy hN2 hN ?_ ?_ ?_ ?_ ?_ ?_ ?_ ?_ ?_ ?_]

example : (ApiS.fjc_modified_canonical_helmholtz 8 1 1 5).DefinedAs (Api.fjc_modified_canonical_helmholtz 8 1 1 5) (fun ξ _ => ξ / ((8 : ℕ) * 1))
    (fun y _ => 0 < y) :=
  C46_fjc_modified_canonical_helmholtz (N := 8) (m := 1) (by norm_num) (by norm_num) (by norm_num) (by norm_num) (by norm_num)

/-- C46: every method of the family is defined for every positive potential distance, for 2 to 26 links. -/
theorem C46_fjc_modified_canonical_gibbs {N : ℕ} (hN2 : 2 ≤ N) (hN : N ≤ 26) {ℓ m K : ℝ} (hℓ : 0 < ℓ) (hm : 0 < m) (hK : 0 < K) :
    (ApiS.fjc_modified_canonical_gibbs N ℓ m K).DefinedAs (Api.fjc_modified_canonical_gibbs N ℓ m K) (fun ξ _ => ξ / (N * ℓ))
      (fun y _ => 0 < y) := by
  have hN' : (0 : ℝ) < N := Nat.cast_pos.2 (by omega)
  have hκ : ∀ {T : ℝ}, 0 < T → 0 < ndStiffness K ℓ T := fun {T} hT => by
    have := Polymers.boltzmann_pos
    unfold ndStiffness kT
    positivity
  constructor <;> intro x T hT hD <;> refine (?_ : Is _ _) <;> (have hx : 0 < x := by first | exact hD | exact (div_pos_iff_of_pos_right (by positivity)).1 hD) <;> have hκT := hκ hT <;> defined [Is.mc_energy hN2 hN ?_ ?_ ?_ ?_ ?_ ?_ ?_ ?_ ?_ ?_]

example : (ApiS.fjc_modified_canonical_gibbs 8 1 1 5).DefinedAs (Api.fjc_modified_canonical_gibbs 8 1 1 5) (fun ξ _ => ξ / ((8 : ℕ) * 1))
    (fun y _ => 0 < y) :=
  C46_fjc_modified_canonical_gibbs (N := 8) (m := 1) (by norm_num) (by norm_num) (by norm_num) (by norm_num) (by norm_num)

/-- C46: every method of the family is defined for every positive potential distance, for 2 to 26 links. -/
theorem C46_fjc_modified_canonical_lengths {N : ℕ} (hN2 : 2 ≤ N) (hN : N ≤ 26) {ℓ m K : ℝ} (hℓ : 0 < ℓ) (hK : 0 < K) :
    (ApiS.fjc_modified_canonical_lengths N ℓ m K).DefinedAs (Api.fjc_modified_canonical_lengths N ℓ m K) (fun ξ _ => ξ / (N * ℓ))
      (fun y _ => 0 < y) := by
  have hN' : (0 : ℝ) < N := Nat.cast_pos.2 (by omega)
  have hκ : ∀ {T : ℝ}, 0 < T → 0 < ndStiffness K ℓ T := fun {T} hT => by
    have := Polymers.boltzmann_pos
    unfold ndStiffness kT
    positivity
  constructor <;> intro x T hT hD <;> refine (?_ : Is _ _) <;> (have hx : 0 < x := by first | exact hD | exact (div_pos_iff_of_pos_right (by positivity)).1 hD) <;> have hκT := hκ hT <;> defined [Is.mc_force hN2 hN ?_ ?_ ?_ ?_]

example : (ApiS.fjc_modified_canonical_lengths 8 1 1 5).DefinedAs (Api.fjc_modified_canonical_lengths 8 1 1 5) (fun ξ _ => ξ / ((8 : ℕ) * 1))
    (fun y _ => 0 < y) :=
  C46_fjc_modified_canonical_lengths (N := 8) (m := 1) (by norm_num) (by norm_num) (by norm_num) (by norm_num)

/-- C46: every method of the family is defined for every positive potential distance, for 2 to 26 links. -/
theorem C46_fjc_modified_canonical_forces {N : ℕ} (hN2 : 2 ≤ N) (hN : N ≤ 26) {ℓ m K : ℝ} (hℓ : 0 < ℓ) (hK : 0 < K) :
    (ApiS.fjc_modified_canonical_forces N ℓ m K).DefinedAs (Api.fjc_modified_canonical_forces N ℓ m K) (fun ξ _ => ξ / (N * ℓ))
      (fun y _ => 0 < y) := by
  have hN' : (0 : ℝ) < N := Nat.cast_pos.2 (by omega)
  have hκ : ∀ {T : ℝ}, 0 < T → 0 < ndStiffness K ℓ T := fun {T} hT => by
    have := Polymers.boltzmann_pos
    unfold ndStiffness kT
    positivity
  constructor <;> intro x T hT hD <;> refine (?_ : Is _ _) <;> (have hx : 0 < x := by first | exact hD | exact (div_pos_iff_of_pos_right (by positivity)).1 hD) <;> have hκT := hκ hT <;> defined [Is.mc_force hN2 hN ?_ ?_ ?_ ?_]

example : (ApiS.fjc_modified_canonical_forces 8 1 1 5).DefinedAs (Api.fjc_modified_canonical_forces 8 1 1 5) (fun ξ _ => ξ / ((8 : ℕ) * 1))
    (fun y _ => 0 < y) :=
  C46_fjc_modified_canonical_forces (N := 8) (m := 1) (by norm_num) (by norm_num) (by norm_num) (by norm_num)

/-- C46: every method of the family is defined strictly between zero and full extension, for 2 to 26 links. -/
theorem C46_fjc_strong_potential_helmholtz {N : ℕ} (hN2 : 2 ≤ N) (hN : N ≤ 26) {ℓ m K : ℝ} (hℓ : 0 < ℓ) (hm : 0 < m) (hK : 0 < K) :
    (ApiS.fjc_strong_potential_helmholtz N ℓ m K).DefinedAs (Api.fjc_strong_potential_helmholtz N ℓ m K) (fun ξ _ => ξ / (N * ℓ))
      (fun y _ => 0 < y ∧ y < 1) := by
  have hN' : (0 : ℝ) < N := Nat.cast_pos.2 (by omega)
  have hκ : ∀ {T : ℝ}, 0 < T → 0 < ndStiffness K ℓ T := fun {T} hT => by
    have := Polymers.boltzmann_pos
    unfold ndStiffness kT
    positivity
  constructor <;> intro x T hT hD <;> refine (?_ : Is _ _) <;> (have hx : 0 < x := by first | exact hD.1 | exact (div_pos_iff_of_pos_right (by positivity)).1 hD.1) <;> have hκT := hκ hT <;> defined [Is.strong_energy hN2 hN ?_ ?_ ?_ ?_ ?_ ?_ ?_ ?_ (by first | exact hD | exact fjc_zero_mem | exact fjc_back_mem hN' hℓ) ?_]

example : (ApiS.fjc_strong_potential_helmholtz 8 1 1 5).DefinedAs (Api.fjc_strong_potential_helmholtz 8 1 1 5) (fun ξ _ => ξ / ((8 : ℕ) * 1))
    (fun y _ => 0 < y ∧ y < 1) :=
  C46_fjc_strong_potential_helmholtz (N := 8) (m := 1) (by norm_num) (by norm_num) (by norm_num) (by norm_num) (by norm_num)

/-- C46: every method of the family is defined strictly between zero and full extension, for 2 to 34 links. -/
theorem C46_fjc_strong_potential_forces {N : ℕ} (hN2 : 2 ≤ N) (hN : N ≤ 34) {ℓ m K : ℝ} (hℓ : 0 < ℓ) (hK : 0 < K) :
    (ApiS.fjc_strong_potential_forces N ℓ m K).DefinedAs (Api.fjc_strong_potential_forces N ℓ m K) (fun ξ _ => ξ / (N * ℓ))
      (fun y _ => 0 < y ∧ y < 1) := by
  have hN' : (0 : ℝ) < N := Nat.cast_pos.2 (by omega)
  have hκ : ∀ {T : ℝ}, 0 < T → 0 < ndStiffness K ℓ T := fun {T} hT => by
    have := Polymers.boltzmann_pos
    unfold ndStiffness kT
    positivity
  constructor <;> intro x T hT hD <;> refine (?_ : Is _ _) <;> (have hx : 0 < x := by first | exact hD.1 | exact (div_pos_iff_of_pos_right (by positivity)).1 hD.1) <;> have hκT := hκ hT <;> defined [Is.strong_force hN2 hN ?_ ?_ hD ?_]

example : (ApiS.fjc_strong_potential_forces 8 1 1 5).DefinedAs (Api.fjc_strong_potential_forces 8 1 1 5) (fun ξ _ => ξ / ((8 : ℕ) * 1))
    (fun y _ => 0 < y ∧ y < 1) :=
  C46_fjc_strong_potential_forces (N := 8) (m := 1) (by norm_num) (by norm_num) (by norm_num) (by norm_num)

/-- C46: every method of the family is defined for every positive potential distance. -/
theorem C46_fjc_weak_potential_gibbs {N : ℕ} (hN : 0 < N) {ℓ m K : ℝ} (hℓ : 0 < ℓ) (hm : 0 < m) (hK : 0 < K) :
    (ApiS.fjc_weak_potential_gibbs N ℓ m K).DefinedAs (Api.fjc_weak_potential_gibbs N ℓ m K) (fun ξ _ => ξ / (N * ℓ))
      (fun y _ => 0 < y) := by
  have hN' : (0 : ℝ) < N := Nat.cast_pos.2 (by omega)
  have hκ : ∀ {T : ℝ}, 0 < T → 0 < ndStiffness K ℓ T := fun {T} hT => by
    have := Polymers.boltzmann_pos
    unfold ndStiffness kT
    positivity
  constructor <;> intro x T hT hD <;> refine (?_ : Is _ _) <;> (have hx : 0 < x := by first | exact hD | exact (div_pos_iff_of_pos_right (by positivity)).1 hD) <;> have hκT := hκ hT <;> defined [Is.val _]

example : (ApiS.fjc_weak_potential_gibbs 8 1 1 5).DefinedAs (Api.fjc_weak_potential_gibbs 8 1 1 5) (fun ξ _ => ξ / ((8 : ℕ) * 1))
    (fun y _ => 0 < y) :=
  C46_fjc_weak_potential_gibbs (N := 8) (m := 1) (by norm_num) (by norm_num) (by norm_num) (by norm_num)

/-- C46: every method of the family is defined for every positive potential distance. -/
theorem C46_fjc_weak_potential_lengths {N : ℕ} (hN : 0 < N) {ℓ m K : ℝ} (hℓ : 0 < ℓ) (hK : 0 < K) :
    (ApiS.fjc_weak_potential_lengths N ℓ m K).DefinedAs (Api.fjc_weak_potential_lengths N ℓ m K) (fun ξ _ => ξ / (N * ℓ))
      (fun y _ => 0 < y) := by
  have hN' : (0 : ℝ) < N := Nat.cast_pos.2 (by omega)
  have hκ : ∀ {T : ℝ}, 0 < T → 0 < ndStiffness K ℓ T := fun {T} hT => by
    have := Polymers.boltzmann_pos
    unfold ndStiffness kT
    positivity
  constructor <;> intro x T hT hD <;> refine (?_ : Is _ _) <;> (have hx : 0 < x := by first | exact hD | exact (div_pos_iff_of_pos_right (by positivity)).1 hD) <;> have hκT := hκ hT <;> defined [Is.val _]

example : (ApiS.fjc_weak_potential_lengths 8 1 1 5).DefinedAs (Api.fjc_weak_potential_lengths 8 1 1 5) (fun ξ _ => ξ / ((8 : ℕ) * 1))
    (fun y _ => 0 < y) :=
  C46_fjc_weak_potential_lengths (N := 8) (m := 1) (by norm_num) (by norm_num) (by norm_num)

/-- C46: every method of the family is defined for every positive potential distance. -/
theorem C46_fjc_weak_potential_forces {N : ℕ} (hN : 0 < N) {ℓ m K : ℝ} (hℓ : 0 < ℓ) (hK : 0 < K) :
    (ApiS.fjc_weak_potential_forces N ℓ m K).DefinedAs (Api.fjc_weak_potential_forces N ℓ m K) (fun ξ _ => ξ / (N * ℓ))
      (fun y _ => 0 < y) := by
  have hN' : (0 : ℝ) < N := Nat.cast_pos.2 (by omega)
  have hκ : ∀ {T : ℝ}, 0 < T → 0 < ndStiffness K ℓ T := fun {T} hT => by
    have := Polymers.boltzmann_pos
    unfold ndStiffness kT
    positivity
  constructor <;> intro x T hT hD <;> refine (?_ : Is _ _) <;> (have hx : 0 < x := by first | exact hD | exact (div_pos_iff_of_pos_right (by positivity)).1 hD) <;> have hκT := hκ hT <;> defined [Is.val _]

example : (ApiS.fjc_weak_potential_forces 8 1 1 5).DefinedAs (Api.fjc_weak_potential_forces 8 1 1 5) (fun ξ _ => ξ / ((8 : ℕ) * 1))
    (fun y _ => 0 < y) :=
  C46_fjc_weak_potential_forces (N := 8) (m := 1) (by norm_num) (by norm_num) (by norm_num)

end Polymers.Props
