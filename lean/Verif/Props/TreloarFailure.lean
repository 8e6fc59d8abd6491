import Verif.Lemmas.Failure
import Verif.Props.FjcIsometric

/-! C18: where the exact isometric functions of the freely jointed chain panic, and where they have a value.

The chain is built over `SReal`, whose numbers are a real value, an undefined result, or a panic. -/

namespace Polymers.Props

open Polymers.Spec Polymers.Api Polymers.Lemmas Polymers.SReal Set Filter Topology

/-- The isometric ensemble of a freely jointed chain, computed with explicit failure. -/
noncomputable def fjcIsometricS (N : ℕ) (ℓ m : ℝ) : fjc.thermodynamics.isometric.FJC SReal :=
  (fjc.FJC.init N (val ℓ) (val m)).thermodynamics.isometric

/-- The same chain over the reals. -/
noncomputable def fjcIsometricR (N : ℕ) (ℓ m : ℝ) : fjc.thermodynamics.isometric.FJC ℝ :=
  (fjc.FJC.init N ℓ m).thermodynamics.isometric

/-- The arguments for which Treloar's sums panic when the largest number of links is `M`. -/
def TreloarPanics (M N : ℕ) (γ : ℝ) : Prop := N < 2 ∨ M < N ∨ 1 ≤ γ ∨ γ < -1 - 2 / (N : ℝ)

theorem prefactor_panics (N : ℕ) (γ : ℝ) :
    fjc.thermodynamics.treloar_sum_0_with_prefactor N (val γ) = SReal.panic ↔ TreloarPanics 26 N γ := by
  unfold fjc.thermodynamics.treloar_sum_0_with_prefactor TreloarPanics
  by_cases h2 : N < 2
  · simp [h2]
  rw [if_neg h2]
  by_cases h27 : 26 < N
  · refine iff_of_true ?_ (by tauto)
    have := le_pow_self (n := N) (by omega)
    rw [fjc.thermodynamics.pow_u128, if_neg (by omega)]
    rfl
  · rw [fjc.thermodynamics.pow_u128, if_pos (pow_self_lt (by omega)), product_u128_eq, if_pos (factorial_lt (by omega))]
    dsimp only
    have hfac : (((N - 2).factorial : ℕ) : ℝ) ≠ 0 := by exact_mod_cast Nat.factorial_ne_zero _
    rw [show (N < 2 ∨ 26 < N ∨ 1 ≤ γ ∨ γ < -1 - 2 / (N : ℝ)) ↔ (1 ≤ γ ∨ N = 0 ∨ 35 ≤ N ∨ γ < -1 - 2 / (N : ℝ)) by
      constructor
      · rintro (h | h | h | h)
        · omega
        · omega
        · tauto
        · tauto
      · rintro (h | h | h | h)
        · tauto
        · omega
        · omega
        · tauto]
    rw [← treloar_sum_panics ((N : ℤ) - 2)]
    constructor
    · intro h
      by_contra hc
      exact mul_ne_panic (div_ne_panic (mul_ne_panic (div_ne_panic (div_ne_panic (by simp) (by simp)) (by simp)) (by simp))
        (by simp)) hc h
    · intro h
      rw [h]
      simp

/-- C18: the density panics exactly for less than two or more than 26 links, at or beyond full extension, and for
extensions below `-1 - 2/N`. -/
theorem C18_density_panics (N : ℕ) (ℓ m γ : ℝ) :
    (fjcIsometricS N ℓ m).nondimensional_equilibrium_distribution (val γ) = SReal.panic ↔
      N < 2 ∨ 27 ≤ N ∨ 1 ≤ γ ∨ γ < -1 - 2 / (N : ℝ) :=
  prefactor_panics N γ

theorem prefactor_value {N : ℕ} (hN2 : 2 ≤ N) (hN : N ≤ 26) {γ : ℝ} (h0 : 0 < γ) (h1 : γ < 1) :
    fjc.thermodynamics.treloar_sum_0_with_prefactor N (val γ) =
      val (fjc.thermodynamics.treloar_sum_0_with_prefactor N γ) := by
  unfold fjc.thermodynamics.treloar_sum_0_with_prefactor
  have hfac : (((N - 2).factorial : ℕ) : ℝ) ≠ 0 := by exact_mod_cast Nat.factorial_ne_zero _
  rw [if_neg (by omega), if_neg (by omega), fjc.thermodynamics.pow_u128, if_pos (pow_self_lt (by omega)),
    product_u128_eq, if_pos (factorial_lt (by omega))]
  dsimp only
  rw [treloar_sum_value (by omega) (by omega) (by linarith) h1]
  simp only [lit_val, pi_val, div_val _ Real.pi_ne_zero, div_val _ h0.ne', natCast_val, mul_val, div_val _ hfac, elem_pi]

/-- C18: for 2 to 26 links and extensions strictly between 0 and 1 the density has a value, a positive one. -/
theorem C18_density_value (N : ℕ) (ℓ m γ : ℝ) (hN2 : 2 ≤ N) (hN : N ≤ 26) (h0 : 0 < γ) (h1 : γ < 1) :
    (fjcIsometricS N ℓ m).nondimensional_equilibrium_distribution (val γ) =
      val ((fjcIsometricR N ℓ m).nondimensional_equilibrium_distribution γ) ∧
    0 < (fjcIsometricR N ℓ m).nondimensional_equilibrium_distribution γ :=
  ⟨prefactor_value hN2 hN h0 h1, treloar_density_pos hN2 hN h0 h1⟩

example : ∃ x : ℝ, 0 < x ∧ (fjcIsometricS 26 1 1).nondimensional_equilibrium_distribution (val (1 / 2)) = val x :=
  ⟨_, (C18_density_value 26 1 1 (1 / 2) (by norm_num) (by norm_num) (by norm_num) (by norm_num)).2,
    (C18_density_value 26 1 1 (1 / 2) (by norm_num) (by norm_num) (by norm_num) (by norm_num)).1⟩

example : (fjcIsometricS 27 1 1).nondimensional_equilibrium_distribution (val (1 / 2)) = SReal.panic :=
  (C18_density_panics 27 1 1 (1 / 2)).2 (by norm_num)

/-- C18: the force panics exactly for less than two or more than 34 links, at or beyond full extension, and for
extensions below `-1 - 2/N`. -/
theorem C18_force_panics (N : ℕ) (ℓ m γ : ℝ) :
    (fjcIsometricS N ℓ m).nondimensional_force (val γ) = SReal.panic ↔
      N < 2 ∨ 35 ≤ N ∨ 1 ≤ γ ∨ γ < -1 - 2 / (N : ℝ) := by
  simp only [fjcIsometricS, fjc.FJC.init, fjc.thermodynamics.FJC.init, fjc.thermodynamics.isometric.FJC.init,
    fjc.thermodynamics.isometric.FJC.nondimensional_force, fjc.thermodynamics.isometric.nondimensional_force]
  by_cases h2 : N < 2
  · refine iff_of_true ?_ (Or.inl h2)
    simp [fjc.thermodynamics.treloar_sums, h2]
  have hs : fjc.thermodynamics.treloar_sums N (val γ) [0, 1] =
      [fjc.thermodynamics.treloar_sum N (val γ) ((N : ℤ) - 2 - 0), fjc.thermodynamics.treloar_sum N (val γ) ((N : ℤ) - 2 - 1)] := by
    simp [fjc.thermodynamics.treloar_sums, h2]
  rw [hs]
  simp only [List.getD_cons_succ, List.getD_cons_zero]
  have key : (N < 2 ∨ 35 ≤ N ∨ 1 ≤ γ ∨ γ < -1 - 2 / (N : ℝ)) ↔ (1 ≤ γ ∨ N = 0 ∨ 35 ≤ N ∨ γ < -1 - 2 / (N : ℝ)) := by
    constructor
    · rintro (h | h | h | h)
      · omega
      · tauto
      · tauto
      · tauto
    · rintro (h | h | h | h)
      · tauto
      · omega
      · tauto
      · tauto
  rw [key]
  constructor
  · intro h
    by_contra hc
    have a0 := fun h => hc ((treloar_sum_panics ((N : ℤ) - 2 - 0)).1 h)
    have a1 := fun h => hc ((treloar_sum_panics ((N : ℤ) - 2 - 1)).1 h)
    exact div_ne_panic (add_ne_panic (div_ne_panic (by simp) (by simp))
      (div_ne_panic (mul_ne_panic (by simp) a1) a0)) (by simp) h
  · intro h
    rw [(treloar_sum_panics ((N : ℤ) - 2 - 0)).2 h]
    simp

/-- C18: for 2 to 34 links and extensions strictly between 0 and 1 the force has a value. -/
theorem C18_force_value (N : ℕ) (ℓ m γ : ℝ) (hN2 : 2 ≤ N) (hN : N ≤ 34) (h0 : 0 < γ) (h1 : γ < 1) :
    (fjcIsometricS N ℓ m).nondimensional_force (val γ) = val ((fjcIsometricR N ℓ m).nondimensional_force γ) := by
  have h2 : ¬ N < 2 := by omega
  have hs : ∀ x : SReal, fjc.thermodynamics.treloar_sums N x [0, 1] =
      [fjc.thermodynamics.treloar_sum N x ((N : ℤ) - 2 - 0), fjc.thermodynamics.treloar_sum N x ((N : ℤ) - 2 - 1)] := by
    intro x
    simp [fjc.thermodynamics.treloar_sums, h2]
  have hs' : ∀ x : ℝ, fjc.thermodynamics.treloar_sums N x [0, 1] =
      [fjc.thermodynamics.treloar_sum N x ((N : ℤ) - 2 - 0), fjc.thermodynamics.treloar_sum N x ((N : ℤ) - 2 - 1)] := by
    intro x
    simp [fjc.thermodynamics.treloar_sums, h2]
  simp only [fjcIsometricS, fjcIsometricR, fjc.FJC.init, fjc.thermodynamics.FJC.init,
    fjc.thermodynamics.isometric.FJC.init, fjc.thermodynamics.isometric.FJC.nondimensional_force,
    fjc.thermodynamics.isometric.nondimensional_force, hs, hs', List.getD_cons_succ, List.getD_cons_zero]
  rw [treloar_sum_value (by omega) hN (by linarith) h1, treloar_sum_value (by omega) hN (by linarith) h1]
  have hN' : (N : ℝ) ≠ 0 := by positivity
  have hS : fjc.thermodynamics.treloar_sum N γ ((N : ℤ) - 2 - 0) ≠ 0 := by
    rw [sub_zero]; exact (treloar_sum_pos hN2 hN h0 h1).ne'
  simp only [lit_val, natCast_val, mul_val, sub_val, div_val _ h0.ne', div_val _ hS, add_val, div_val _ hN']

example : ∃ x : ℝ, (fjcIsometricS 34 1 1).nondimensional_force (val (1 / 2)) = val x :=
  ⟨_, C18_force_value 34 1 1 (1 / 2) (by norm_num) (by norm_num) (by norm_num) (by norm_num)⟩

example : (fjcIsometricS 35 1 1).nondimensional_force (val (1 / 2)) = SReal.panic :=
  (C18_force_panics 35 1 1 (1 / 2)).2 (by norm_num)

/-- C18: the Helmholtz free energy panics exactly where the density does. -/
theorem C18_helmholtz_panics (N : ℕ) (ℓ m γ T : ℝ) (hℓ : 0 < ℓ) :
    (fjcIsometricS N ℓ m).nondimensional_helmholtz_free_energy (val γ) (val T) = SReal.panic ↔
      N < 2 ∨ 27 ≤ N ∨ 1 ≤ γ ∨ γ < -1 - 2 / (N : ℝ) := by
  simp only [fjcIsometricS, fjc.FJC.init, fjc.thermodynamics.FJC.init, fjc.thermodynamics.isometric.FJC.init,
    fjc.thermodynamics.isometric.FJC.nondimensional_helmholtz_free_energy,
    fjc.thermodynamics.isometric.nondimensional_helmholtz_free_energy,
    fjc.thermodynamics.isometric.equilibrium_distribution,
    fjc.thermodynamics.isometric.nondimensional_equilibrium_distribution]
  by_cases h2 : N < 2
  · refine iff_of_true ?_ (Or.inl h2)
    simp [fjc.thermodynamics.treloar_sum_0_with_prefactor, h2]
  have hN' : (N : ℝ) ≠ 0 := by
    have : 0 < N := by omega
    positivity
  have e : val γ * ((N : ℕ) : SReal) * val ℓ / (((N : ℕ) : SReal) * val ℓ) = val γ := by
    simp only [natCast_val, mul_val, div_val _ (mul_ne_zero hN' hℓ.ne')]
    congr 1
    field_simp
  rw [e]
  have key := prefactor_panics N γ
  unfold TreloarPanics at key
  rw [show (N < 2 ∨ 27 ≤ N ∨ 1 ≤ γ ∨ γ < -1 - 2 / (N : ℝ)) = (N < 2 ∨ 26 < N ∨ 1 ≤ γ ∨ γ < -1 - 2 / (N : ℝ)) from rfl,
    ← key]
  constructor
  · intro h
    by_contra hc
    refine sub_ne_panic (neg_ne_panic (ln_ne_panic (div_ne_panic hc (powi_ne_panic (by simp) _))))
      (mul_ne_panic (by simp) (ln_ne_panic (div_ne_panic ?_ (powi_ne_panic (by simp [PLANCK_CONSTANT]) _)))) h
    exact mul_ne_panic (mul_ne_panic (mul_ne_panic (mul_ne_panic (mul_ne_panic (by simp) (powi_ne_panic (by simp) _)) (by simp))
      (powi_ne_panic (by simp) _)) (by simp [BOLTZMANN_CONSTANT])) (by simp)
  · intro h
    rw [h]
    simp

/-- C18: for 2 to 26 links, extensions strictly between 0 and 1 and positive parameters the Helmholtz free energy has
a value. -/
theorem C18_helmholtz_value (N : ℕ) (ℓ m γ T : ℝ) (hN2 : 2 ≤ N) (hN : N ≤ 26) (hℓ : 0 < ℓ) (hm : 0 < m) (hT : 0 < T)
    (h0 : 0 < γ) (h1 : γ < 1) :
    (fjcIsometricS N ℓ m).nondimensional_helmholtz_free_energy (val γ) (val T) =
      val ((fjcIsometricR N ℓ m).nondimensional_helmholtz_free_energy γ T) := by
  simp only [fjcIsometricS, fjcIsometricR, fjc.FJC.init, fjc.thermodynamics.FJC.init,
    fjc.thermodynamics.isometric.FJC.init,
    fjc.thermodynamics.isometric.FJC.nondimensional_helmholtz_free_energy,
    fjc.thermodynamics.isometric.nondimensional_helmholtz_free_energy,
    fjc.thermodynamics.isometric.equilibrium_distribution,
    fjc.thermodynamics.isometric.nondimensional_equilibrium_distribution]
  have hN' : (N : ℝ) ≠ 0 := by positivity
  have hNp : (0 : ℝ) < N := by positivity
  have e : γ * (N : ℝ) * ℓ / ((N : ℝ) * ℓ) = γ := by field_simp
  have hc : (0 : ℝ) < ((N : ℝ) * ℓ) ^ (3 : ℤ) := by positivity
  have hb : (BOLTZMANN_CONSTANT : SReal) = val (BOLTZMANN_CONSTANT : ℝ) := by simp [BOLTZMANN_CONSTANT]
  have hp : (PLANCK_CONSTANT : SReal) = val (PLANCK_CONSTANT : ℝ) := by simp [PLANCK_CONSTANT]
  have hp0 : (PLANCK_CONSTANT : ℝ) ^ (2 : ℤ) ≠ 0 := by
    simp only [PLANCK_CONSTANT, model_real]; norm_num
  have hpp : (0 : ℝ) < (PLANCK_CONSTANT : ℝ) ^ (2 : ℤ) := lt_of_le_of_ne (by positivity) hp0.symm
  have hbp : (0 : ℝ) < (BOLTZMANN_CONSTANT : ℝ) := by
    simp only [BOLTZMANN_CONSTANT, model_real]; norm_num
  have hpi := Real.pi_pos
  have hbig : (0 : ℝ) < 8.0 * Real.pi ^ (2 : ℤ) * m * ℓ ^ (2 : ℤ) * BOLTZMANN_CONSTANT * T / (PLANCK_CONSTANT : ℝ) ^ (2 : ℤ) := by
    have : (0 : ℝ) < 8.0 := by norm_num
    positivity
  simp only [natCast_val, mul_val, div_val _ (mul_ne_zero hN' hℓ.ne'), e, prefactor_value hN2 hN h0 h1,
    powi_val_ne (mul_ne_zero hN' hℓ.ne'), div_val _ hc.ne', ln_val (div_pos (treloar_density_pos hN2 hN h0 h1) hc),
    hb, hp, pi_val, powi_val_ne hpi.ne', powi_val_ne hℓ.ne', lit_val, powi_val (Or.inr (by norm_num : (0 : ℤ) ≤ 2)),
    div_val _ hp0, ln_val hbig, neg_val, sub_val, elem_ln, elem_pi, elem_powi]

example : ∃ x : ℝ, (fjcIsometricS 8 1 1).nondimensional_helmholtz_free_energy (val (1 / 2)) (val 300) = val x :=
  ⟨_, C18_helmholtz_value 8 1 1 (1 / 2) 300 (by norm_num) (by norm_num) (by norm_num) (by norm_num) (by norm_num)
    (by norm_num) (by norm_num)⟩

/-- C18: at zero extension there is no value either, since both functions divide by the extension. -/
theorem C18_zero_undefined (N : ℕ) (ℓ m : ℝ) (hN2 : 2 ≤ N) (hN : N ≤ 26) :
    (fjcIsometricS N ℓ m).nondimensional_equilibrium_distribution (val 0) = SReal.undef ∧
    (fjcIsometricS N ℓ m).nondimensional_force (val 0) = SReal.undef := by
  constructor
  · simp only [fjcIsometricS, fjc.FJC.init, fjc.thermodynamics.FJC.init, fjc.thermodynamics.isometric.FJC.init,
      fjc.thermodynamics.isometric.FJC.nondimensional_equilibrium_distribution,
      fjc.thermodynamics.isometric.nondimensional_equilibrium_distribution]
    unfold fjc.thermodynamics.treloar_sum_0_with_prefactor
    rw [if_neg (by omega), fjc.thermodynamics.pow_u128, if_pos (pow_self_lt (by omega)),
      product_u128_eq, if_pos (factorial_lt (by omega))]
    dsimp only
    rw [treloar_sum_value (by omega) (by omega) (by norm_num) (by norm_num)]
    simp [div_val _ Real.pi_ne_zero]
  · have h2 : ¬ N < 2 := by omega
    have hs : ∀ (x : SReal), fjc.thermodynamics.treloar_sums N x [0, 1] =
        [fjc.thermodynamics.treloar_sum N x ((N : ℤ) - 2 - 0), fjc.thermodynamics.treloar_sum N x ((N : ℤ) - 2 - 1)] := by
      intro x
      simp [fjc.thermodynamics.treloar_sums, h2]
    simp only [fjcIsometricS, fjc.FJC.init, fjc.thermodynamics.FJC.init, fjc.thermodynamics.isometric.FJC.init,
      fjc.thermodynamics.isometric.FJC.nondimensional_force, fjc.thermodynamics.isometric.nondimensional_force, hs,
      List.getD_cons_succ, List.getD_cons_zero]
    rw [treloar_sum_value (by omega) (by omega) (by norm_num) (by norm_num),
      treloar_sum_value (by omega) (by omega) (by norm_num) (by norm_num)]
    simp only [lit_val, SReal.div_zero, natCast_val, mul_val, sub_val]
    by_cases h : fjc.thermodynamics.treloar_sum N (0 : ℝ) ((N : ℤ) - 2 - 0) = 0
    · rw [h]
      simp
    · rw [div_val _ h]
      simp

example : (fjcIsometricS 8 1 1).nondimensional_force (val 0) = SReal.undef :=
  (C18_zero_undefined 8 1 1 (by norm_num) (by norm_num)).2

end Polymers.Props
