import Verif.Props.FjcPotential

/-! Property C21: the strong- and weak-potential asymptotics of the modified canonical ensemble. -/

namespace Polymers.Lemmas

open Polymers.fjc.thermodynamics

/-- The Treloar sum of exponent `e` is differentiable off the breakpoints, and at every extension if `e ≥ 2`. -/
theorem hasDerivAt_treloar_general {N : ℕ} (hN0 : 0 < N) (hN : N ≤ 34) {γ : ℝ} (h0 : 0 < γ) (h1 : γ < 1) (e : ℤ)
    (h : 2 ≤ e ∨ treloarX N γ < ⌈treloarX N γ⌉₊) :
    HasDerivAt (fun γ => treloar_sum N γ e) (-(e / 2 : ℝ) * treloar_sum N γ (e - 1)) γ := by
  rcases h with h | h
  · obtain ⟨q, rfl⟩ : ∃ q : ℕ, e = ((q + 2 : ℕ) : ℤ) := ⟨(e - 2).toNat, by omega⟩
    have e2 : ((q + 2 : ℕ) : ℤ) - 1 = ((q + 1 : ℕ) : ℤ) := by push_cast; ring
    rw [e2, treloar_sum_spline hN0 hN (by linarith) h1 (by omega)]
    have hloc : (fun γ => treloar_sum N γ ((q + 2 : ℕ) : ℤ)) =ᶠ[nhds γ]
        fun γ => spline N (q + 2) (treloarX N γ) / (N : ℝ) ^ (q + 2) := by
      filter_upwards [Ioo_mem_nhds h0 h1] with y hy
      exact treloar_sum_spline hN0 hN (by linarith [hy.1]) hy.2 (by omega)
    refine HasDerivAt.congr_of_eventuallyEq ?_ hloc
    refine (((hasDerivAt_spline N q _).comp γ (hasDerivAt_treloarX N γ)).div_const _).congr_deriv ?_
    have hN' : (N : ℝ) ≠ 0 := by positivity
    rw [pow_succ]
    push_cast
    field_simp
  · exact hasDerivAt_treloar_smooth hN0 hN h0 h1 e h

theorem treloarX_lt_ceil {N : ℕ} (hN0 : 0 < N) {γ : ℝ} (h : ∀ j : ℕ, γ ≠ 1 - 2 * j / N) :
    treloarX N γ < ⌈treloarX N γ⌉₊ := by
  have hN' : (N : ℝ) ≠ 0 := by positivity
  refine lt_of_le_of_ne (Nat.le_ceil _) fun e => h ⌈treloarX N γ⌉₊ ?_
  rw [← e]
  unfold treloarX
  field_simp
  ring

end Polymers.Lemmas

namespace Polymers.Props

open Polymers.Spec Polymers.Api Polymers.Lemmas Set Filter Topology

/-- The distances of the strong potential at which its asymptotic free energy is differentiable: strictly between zero
and one and, for fewer than six links, not at a breakpoint `1 - 2j/N` of the exact density. -/
def StrongDistance (N : ℕ) (d _T : ℝ) : Prop := 0 < d ∧ d < 1 ∧ (N < 6 → ∀ j : ℕ, d ≠ 1 - 2 * j / N)

theorem strong_deriv {S0 S1 S2 : ℝ → ℝ} {S3 a b c d : ℝ} (hd : d ≠ 0) (h0 : HasDerivAt S0 (-a * S1 d) d)
    (h1 : HasDerivAt S1 (-b * S2 d) d) (h2 : HasDerivAt S2 (-c * S3) d) (hS : S0 d ≠ 0) :
    HasDerivAt (fun d => a * (a * (S1 d / S0 d) ^ 2 - b * S2 d / S0 d) - (d ^ 2)⁻¹ - (a * S1 d / S0 d + d⁻¹) ^ 2)
      (a * (a * S1 d / S0 d * (2 * a * (S1 d / S0 d) ^ 2 - 2 * b * S2 d / S0 d) -
        b * (a * S1 d * S2 d / S0 d ^ 2 - c * S3 / S0 d)) + 2 * (d ^ 3)⁻¹ -
        2 * (a * S1 d / S0 d + d⁻¹) * (a * (a * (S1 d / S0 d) ^ 2 - b * S2 d / S0 d) - (d ^ 2)⁻¹)) d := by
  have hr1 := h1.div h0 hS
  have hr1' := (h1.const_mul a).div h0 hS
  have hr2 := (h2.const_mul b).div h0 hS
  have hd2 := (hasDerivAt_pow 2 d).inv (pow_ne_zero 2 hd)
  have H := ((((hr1.pow 2).const_mul a).sub hr2).const_mul a).sub hd2 |>.sub ((hr1'.add (hasDerivAt_inv hd)).pow 2)
  refine hasDerivAt_of_eq H (fun y => rfl) ?_
  simp only [Pi.div_apply, Pi.add_apply, show 2 - 1 = 1 from rfl, pow_one, Nat.cast_ofNat]
  field_simp
  ring

/-- C21: the force of the strong-potential asymptotics is the gradient of its Helmholtz free energy. -/
theorem C21_strong_potential (N : ℕ) (ℓ m K : ℝ) (hN2 : 2 ≤ N) (hN : N ≤ 26) (hℓ : 0 < ℓ) (hK : 0 < K) :
    (fjc_strong_potential_forces N ℓ m K).IsGradient (fjc_strong_potential_helmholtz N ℓ m K) N ℓ (StrongDistance N) := by
  have hN0 : (0 : ℝ) < N := by positivity
  have key : ∀ d T, 0 < T → StrongDistance N d T →
      HasDerivAt (fun d => (fjc_strong_potential_helmholtz N ℓ m K).nd_energy_per_link d T)
        ((fjc_strong_potential_forces N ℓ m K).nd_force d T) d := by
    rintro d T hT ⟨h0, h1, h6⟩
    have hκ := ndStiffness_pos hK hℓ hT
    have hb : ∀ i : ℤ, i ≤ 2 → 2 ≤ (N : ℤ) - 2 - i ∨ treloarX N d < ⌈treloarX N d⌉₊ := by
      intro i hi
      rcases Nat.lt_or_ge N 6 with h | h
      · exact .inr (treloarX_lt_ceil (by omega) (h6 h))
      · exact .inl (by omega)
    have hS := treloar_sum_pos hN2 (by omega : N ≤ 34) h0 h1
    have d0 := hasDerivAt_treloar_general (by omega) (by omega : N ≤ 34) h0 h1 ((N : ℤ) - 2 - 0) (hb 0 (by norm_num))
    have d1 := hasDerivAt_treloar_general (by omega) (by omega : N ≤ 34) h0 h1 ((N : ℤ) - 2 - 1) (hb 1 (by norm_num))
    have d2 := hasDerivAt_treloar_general (by omega) (by omega : N ≤ 34) h0 h1 ((N : ℤ) - 2 - 2) (hb 2 (by norm_num))
    rw [sub_zero] at d0
    have e2 : (N : ℤ) - 2 - 1 - 1 = (N : ℤ) - 2 - 2 := by ring
    have e3 : (N : ℤ) - 2 - 2 - 1 = (N : ℤ) - 2 - 3 := by ring
    rw [e2] at d1
    rw [e3] at d2
    replace d0 := d0.congr_deriv (g' := -((N : ℝ) / 2 - 1) * fjc.thermodynamics.treloar_sum N d ((N : ℤ) - 2 - 1))
      (by push_cast; ring)
    have A := strong_deriv (a := (N : ℝ) / 2 - 1) (b := (N : ℝ) / 2 - 3 / 2) (c := (N : ℝ) / 2 - 2)
      (S0 := fun y => fjc.thermodynamics.treloar_sum N y ((N : ℤ) - 2))
      (S1 := fun y => fjc.thermodynamics.treloar_sum N y ((N : ℤ) - 2 - 1))
      (S2 := fun y => fjc.thermodynamics.treloar_sum N y ((N : ℤ) - 2 - 2))
      (S3 := fjc.thermodynamics.treloar_sum N d ((N : ℤ) - 2 - 3)) h0.ne'
      d0 (d1.congr_deriv (by push_cast; ring)) (d2.congr_deriv (by push_cast; ring)) hS.ne'
    have hC := (treloarFactor_pos (by omega : 0 < N))
    have hL : (0 : ℝ) < ((N : ℝ) * ℓ) ^ 3 := by positivity
    have B := (((d0.div (hasDerivAt_id d) h0.ne').const_mul (treloarFactor N)).div_const (((N : ℝ) * ℓ) ^ 3)).log
      (div_pos (mul_pos hC (div_pos hS h0)) hL).ne'
    have F := ((((B.neg.sub_const (((N : ℝ) - 1) * Real.log (8 * Real.pi ^ 2 * m * ℓ ^ 2 * BOLTZMANN_CONSTANT * T /
      PLANCK_CONSTANT ^ 2))).sub_const (3 / 2 * Real.log (2 * Real.pi / ndStiffness K ℓ T / (N : ℝ) ^ 2))).sub_const
      (3 * Real.log ((N : ℝ) * ℓ))).add (A.const_mul (1 / 2 / ndStiffness K ℓ T / (N : ℝ) ^ 2))).div_const (N : ℝ)
    refine hasDerivAt_of_eq F (fun y => ?_) ?_
    · rw [sp_nd_energy_per_link]
      simp only [fjc.thermodynamics.modified_canonical.asymptotic.strong_potential.nondimensional_helmholtz_free_energy,
        treloar_sums_eq hN2, List.map_cons, List.map_nil, List.getD_cons_succ, List.getD_cons_zero, sub_zero,
        treloar_density_eq hN2 hN]
      simp only [model_real, Pi.div_apply, id, Pi.add_apply]
      rw [show y ^ (-2 : ℤ) = (y ^ 2)⁻¹ from zpow_neg y 2, zpow_neg_one, show (1 / 2 * (N : ℝ)) = N / 2 by ring]
      rfl
    · rw [sp_nd_force]
      simp only [fjc.thermodynamics.modified_canonical.asymptotic.strong_potential.nondimensional_force,
        treloar_sums_eq hN2, List.map_cons, List.map_nil, List.getD_cons_succ, List.getD_cons_zero, sub_zero]
      simp only [model_real, Pi.div_apply, id, Pi.add_apply]
      have := h0.ne'
      have := hS.ne'
      have := hC.ne'
      field_simp
      ring
  refine ⟨fun ξ T hT hD => ?_, key⟩
  have h := (HasDerivAt.comp ξ (key _ T hT hD) (hasDerivAt_ndLength (N := N) (ℓ := ℓ) (T := T))).const_mul (N * kT T)
  rw [C15_fjc_strong_potential_forces N ℓ m K ξ T hT]
  refine hasDerivAt_of_eq h (fun y => ?_) ?_
  · rw [sp_energy, Function.comp, sp_nd_energy_per_link, kT_eq]
    field_simp
  · field_simp

example : (fjc_strong_potential_forces 8 1 1 500).IsGradient (fjc_strong_potential_helmholtz 8 1 1 500) 8 1
    (StrongDistance 8) :=
  C21_strong_potential 8 1 1 500 (by norm_num) (by norm_num) (by norm_num) (by norm_num)

example : StrongDistance 8 (1 / 2) 300 := ⟨by norm_num, by norm_num, by norm_num⟩

/-- C21: the expected length of the weak-potential asymptotics is minus the derivative of its Gibbs free energy in the
force the potential exerts at zero length, `f = Kξ`, or `η = Nκd` in nondimensional form; in the distance of the
potential this gives the factors `K` and `Nκ`. -/
theorem C21_weak_potential (N : ℕ) (ℓ m K : ℝ) (hN : 0 < N) (hℓ : 0 < ℓ) (hK : 0 < K) {T : ℝ} (hT : 0 < T) :
    (∀ ξ, ξ ≠ 0 → HasDerivAt (fun ξ => (fjc_weak_potential_gibbs N ℓ m K).energy ξ T)
      (-(K * (fjc_weak_potential_lengths N ℓ m K).length ξ T)) ξ) ∧
    (∀ ξ, ξ ≠ 0 → HasDerivAt (fun ξ => (fjc_weak_potential_gibbs N ℓ m K).energy_per_link ξ T)
      (-(K * (fjc_weak_potential_lengths N ℓ m K).length_per_link ξ T)) ξ) ∧
    (∀ d, d ≠ 0 → HasDerivAt (fun d => (fjc_weak_potential_gibbs N ℓ m K).nd_energy d T)
      (-(N * ndStiffness K ℓ T * (fjc_weak_potential_lengths N ℓ m K).nd_length d T)) d) ∧
    ∀ d, d ≠ 0 → HasDerivAt (fun d => (fjc_weak_potential_gibbs N ℓ m K).nd_energy_per_link d T)
      (-(N * ndStiffness K ℓ T * (fjc_weak_potential_lengths N ℓ m K).nd_length_per_link d T)) d := by
  have hN' := ((Nat.cast_pos (α := ℝ)).2 hN).ne'
  have hκ := ndStiffness_pos hK hℓ hT
  have hs := C15_fjc_weak_potential_gibbs N ℓ m K hN hℓ
  have hl := C15_fjc_weak_potential_lengths N ℓ m K hN hℓ
  have h4 : ∀ d, d ≠ 0 → HasDerivAt (fun d => (fjc_weak_potential_gibbs N ℓ m K).nd_energy_per_link d T)
      (-(N * ndStiffness K ℓ T * (fjc_weak_potential_lengths N ℓ m K).nd_length_per_link d T)) d := by
    intro d hd
    have hx : N * ndStiffness K ℓ T * d ≠ 0 := by positivity
    have hx' := (hasDerivAt_id d).const_mul (N * ndStiffness K ℓ T)
    have A := (HasDerivAt.comp d (hasDerivAt_log_sinh_div hx) hx').neg
    have B := ((HasDerivAt.comp d (hasDerivAt_langevin hx) hx').pow 2).const_mul (1 / 2 * ndStiffness K ℓ T * N)
    have e1 : ∀ y, (fjc_weak_potential_gibbs N ℓ m K).nd_energy_per_link y T =
      fjc.thermodynamics.modified_canonical.asymptotic.weak_potential.nondimensional_gibbs_free_energy_per_link N ℓ m y
        (ndStiffness K ℓ T) T := fun _ => rfl
    have e2 : (fjc_weak_potential_lengths N ℓ m K).nd_length_per_link d T =
      fjc.thermodynamics.modified_canonical.asymptotic.weak_potential.nondimensional_end_to_end_length_per_link N d
        (ndStiffness K ℓ T) := rfl
    refine hasDerivAt_of_eq ((A.add B).sub_const (Real.log (8 * Real.pi ^ 2 * m * ℓ ^ 2 * BOLTZMANN_CONSTANT * T /
      PLANCK_CONSTANT ^ 2))) (fun y => ?_) ?_
    · rw [e1]
      simp only [fjc.thermodynamics.modified_canonical.asymptotic.weak_potential.nondimensional_gibbs_free_energy_per_link,
        model_real]
      rfl
    · rw [e2]
      simp only [fjc.thermodynamics.modified_canonical.asymptotic.weak_potential.nondimensional_end_to_end_length_per_link,
        model_real, Function.comp, langevin]
      have z : ∀ x : ℝ, x ^ (-2 : ℤ) = 1 / x ^ 2 := fun x => by rw [one_div]; exact zpow_neg x 2
      rw [z, z]
      ring
  have key : ∀ ξ : ℝ, ξ ≠ 0 → ndLength N ℓ ξ T ≠ 0 := by
    intro ξ h; unfold ndLength; positivity
  have h3 : ∀ d, d ≠ 0 → HasDerivAt (fun d => (fjc_weak_potential_gibbs N ℓ m K).nd_energy d T)
      (-(N * ndStiffness K ℓ T * (fjc_weak_potential_lengths N ℓ m K).nd_length d T)) d := by
    intro d hd
    refine hasDerivAt_of_eq ((h4 d hd).const_mul (N : ℝ)) (fun y => hs.nd_total y T hT) ?_
    rw [hl.nd_total d T hT]; ring
  have hc : ∀ c : ℝ, c / (N * ℓ) * kT T * (N * ndStiffness K ℓ T) = K * (c * ℓ) := by
    intro c
    have hk := (kT_pos hT).ne'
    unfold ndStiffness; field_simp
  refine ⟨fun ξ h => ?_, fun ξ h => ?_, h3, h4⟩
  · refine hasDerivAt_of_eq ((HasDerivAt.comp ξ (h3 _ (key ξ h)) (hasDerivAt_ndLength (N := N) (ℓ := ℓ) (T := T))).const_mul
      (kT T)) (fun y => hs.energy y T hT) ?_
    rw [hl.length ξ T hT]
    linear_combination -hc ((fjc_weak_potential_lengths N ℓ m K).nd_length (ndLength N ℓ ξ T) T)
  · refine hasDerivAt_of_eq ((HasDerivAt.comp ξ (h4 _ (key ξ h)) (hasDerivAt_ndLength (N := N) (ℓ := ℓ) (T := T))).const_mul
      (kT T)) (fun y => hs.energy_per_link y T hT) ?_
    rw [hl.length_per_link ξ T hT]
    linear_combination -hc ((fjc_weak_potential_lengths N ℓ m K).nd_length_per_link (ndLength N ℓ ξ T) T)

example : HasDerivAt (fun ξ => (fjc_weak_potential_gibbs 8 1 1 500).energy ξ 300)
    (-(500 * (fjc_weak_potential_lengths 8 1 1 500).length 4 300)) 4 :=
  (C21_weak_potential 8 1 1 500 (by norm_num) (by norm_num) (by norm_num) (by norm_num)).1 4 (by norm_num)

end Polymers.Props
