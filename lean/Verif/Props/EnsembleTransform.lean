import Verif.Spec.Ensemble
import Verif.Lemmas.SplineTransform
import Verif.Lemmas.ParamIntegral
import Verif.Props.Normalization
import Verif.Props.FjcIsotensional
import Mathlib.Analysis.SpecialFunctions.Gaussian.GaussianIntegral

/-! Property C66: the ensemble at fixed force is the Laplace transform of the ensemble at fixed extension. -/

namespace Polymers.Props

open Polymers.Spec Polymers.Api Polymers.Lemmas Set Filter Topology MeasureTheory

/-- On the extensions between zero and one, the sum of Treloar is a continuous function with a known transform. -/
theorem treloar_transform {N : ℕ} (hN2 : 2 ≤ N) (hN : N ≤ 34) :
    ∃ F : ℝ → ℝ, Continuous F ∧
      (∀ γ ∈ Ioo (0 : ℝ) 1, fjc.thermodynamics.treloar_sum N γ ((N : ℤ) - 2) = F γ) ∧
      ∀ η, 0 < η → ∫ γ in (0 : ℝ)..1, F γ * Real.sinh (N * η * γ) =
        2 * Real.sinh η ^ N * (N - 2).factorial / (η ^ (N - 1) * (N : ℝ) ^ (N - 1)) := by
  rcases Nat.lt_or_ge N 3 with h | h
  · obtain rfl : N = 2 := by omega
    refine ⟨fun _ => 1, continuous_const, fun γ hγ => ?_, fun η hη => ?_⟩
    · rw [treloar_sum_eq (by norm_num) (by norm_num) (by linarith [hγ.1]) hγ.2]
      have : ⌈treloarX 2 γ⌉₊ = 1 := by
        rw [Nat.ceil_eq_iff (by norm_num)]
        unfold treloarX
        push_cast
        have := hγ.1
        have := hγ.2
        constructor <;> norm_num <;> linarith
      rw [this]
      norm_num
    · simp only [one_mul, Nat.cast_ofNat]
      have h2 : 2 * η ≠ 0 := by positivity
      rw [intervalIntegral.integral_comp_mul_left (fun x => Real.sinh x) h2,
        intervalIntegral.integral_eq_sub_of_hasDerivAt (fun x _ => Real.hasDerivAt_cosh x)
          (Real.continuous_sinh.intervalIntegrable _ _), mul_zero, mul_one, Real.cosh_zero,
        Real.cosh_two_mul, Real.cosh_sq, smul_eq_mul]
      norm_num
      field_simp
      ring
  · obtain ⟨n, rfl⟩ : ∃ n, N = n + 3 := ⟨N - 3, by omega⟩
    have hc : Continuous (spline (n + 3) (n + 1)) := by unfold spline tpow; fun_prop
    refine ⟨fun γ => spline (n + 3) (n + 1) (((n + 3 : ℕ) : ℝ) * ((1 - γ) / 2)) / ((n + 3 : ℕ) : ℝ) ^ (n + 1), by fun_prop,
      fun γ hγ => ?_, fun η hη => ?_⟩
    · rw [show ((n + 3 : ℕ) : ℤ) - 2 = ((n + 1 : ℕ) : ℤ) by push_cast; ring,
        treloar_sum_spline (by omega) hN (by linarith [hγ.1]) hγ.2 (by omega), treloarX]
    · have := spline_sinh n hη
      simp only [div_mul_eq_mul_div]
      rw [intervalIntegral.integral_div, this, show n + 3 - 2 = n + 1 from rfl, show n + 3 - 1 = n + 2 from rfl,
        pow_succ (((n + 3 : ℕ) : ℝ)) (n + 1)]
      field_simp

/-- C66: the partition function of the exact distribution of the extension under a force is that of `N` independent links. -/
theorem C66_fjc_partition (N : ℕ) (ℓ m : ℝ) (hN2 : 2 ≤ N) (hN : N ≤ 26) {η : ℝ} (hη : η ≠ 0) :
    forcePartition (fjc_isometric_distribution N ℓ m).nd_radial N η = (Real.sinh η / η) ^ N := by
  have key : ∀ η, 0 < η → forcePartition (fjc_isometric_distribution N ℓ m).nd_radial N η = (Real.sinh η / η) ^ N := by
    intro η hη
    obtain ⟨F, hF, hS, hT⟩ := treloar_transform hN2 (by omega : N ≤ 34)
    have hN0 : (0 : ℝ) < N := by positivity
    have e : EqOn (forceWeight (fjc_isometric_distribution N ℓ m).nd_radial N η)
        (fun γ => 4 * Real.pi * treloarFactor N / (N * η) * (F γ * Real.sinh (N * η * γ))) (Ioo 0 1) := by
      intro γ hγ
      have h0 : 0 < γ := hγ.1
      simp only [forceWeight, fjc_nd_radial hN2 hN ℓ m h0, hS γ hγ]
      field_simp
    rw [forcePartition, intervalIntegral.integral_congr_Ioo_of_le zero_le_one e, intervalIntegral.integral_const_mul, hT η hη,
      treloarFactor, div_pow]
    have hf : ((N - 2).factorial : ℝ) ≠ 0 := by exact_mod_cast (N - 2).factorial_ne_zero
    have hpi := Real.pi_ne_zero
    obtain ⟨n, rfl⟩ : ∃ n, N = n + 1 := ⟨N - 1, by omega⟩
    rw [show n + 1 - 1 = n from rfl, pow_succ (((n + 1 : ℕ) : ℝ)) n, pow_succ η n]
    field_simp
    norm_num
  rcases lt_or_gt_of_ne hη with h | h
  · have := key (-η) (by linarith)
    rw [Real.sinh_neg, neg_div_neg_eq] at this
    rw [← this]
    unfold forcePartition forceWeight
    congr 1
    funext γ
    rw [show (N : ℝ) * -η * γ = -(N * η * γ) by ring, Real.sinh_neg, neg_div_neg_eq]
  · exact key η h

/-- C66: the Gibbs free energy at fixed force is minus the logarithm of the partition function of the exact distribution of the
extension under that force. -/
theorem C66_fjc_gibbs (N : ℕ) (ℓ m : ℝ) (hN2 : 2 ≤ N) (hN : N ≤ 26) {η T : ℝ} (hη : η ≠ 0) :
    (fjc_isotensional_gibbs N ℓ m).nd_relative η T =
      -Real.log (forcePartition (fjc_isometric_distribution N ℓ m).nd_radial N η) := by
  have e3 : (fjc_isotensional_gibbs N ℓ m).nd_relative η T = -(N : ℝ) * Real.log (Real.sinh η / η) := rfl
  rw [C66_fjc_partition N ℓ m hN2 hN hη, Real.log_pow, e3]
  ring

/-- The first two moments of the extension under a force. -/
theorem fjc_force_moments {N : ℕ} (ℓ m : ℝ) (hN2 : 2 ≤ N) (hN : N ≤ 26) {η : ℝ} (hη : 0 < η) :
    (∫ γ in (0 : ℝ)..1, alongForce N η γ * forceWeight (fjc_isometric_distribution N ℓ m).nd_radial N η γ) =
      forcePartition (fjc_isometric_distribution N ℓ m).nd_radial N η * langevin η ∧
    (∫ γ in (0 : ℝ)..1, γ ^ 2 * forceWeight (fjc_isometric_distribution N ℓ m).nd_radial N η γ) =
      forcePartition (fjc_isometric_distribution N ℓ m).nd_radial N η *
        (langevin η ^ 2 + (1 / η ^ 2 - 1 / Real.sinh η ^ 2) / N + 2 * langevin η / (N * η)) := by
  obtain ⟨F, hF, hS, hT⟩ := treloar_transform hN2 (by omega : N ≤ 34)
  have hN0 : (0 : ℝ) < N := by positivity
  set k := 4 * Real.pi * treloarFactor N / (N * η) with hk
  set c := 2 * ((N - 2).factorial : ℝ) / (N : ℝ) ^ (N - 1) with hc
  have hw : ∀ γ ∈ Ioo (0 : ℝ) 1, forceWeight (fjc_isometric_distribution N ℓ m).nd_radial N η γ =
      k * (F γ * Real.sinh (N * η * γ)) := by
    intro γ hγ
    have h0 : 0 < γ := hγ.1
    simp only [forceWeight, fjc_nd_radial hN2 hN ℓ m h0, hS γ hγ, hk]
    field_simp
  -- the transform and its derivatives
  set J : ℝ → ℝ := fun x => ∫ γ in (0 : ℝ)..1, F γ * Real.sinh (N * x * γ) with hJ
  set J1 : ℝ → ℝ := fun x => ∫ γ in (0 : ℝ)..1, F γ * (Real.cosh (N * x * γ) * (N * γ)) with hJ1
  set J2 : ℝ → ℝ := fun x => ∫ γ in (0 : ℝ)..1, F γ * (Real.sinh (N * x * γ) * (N * γ) * (N * γ)) with hJ2
  have hx : ∀ x γ : ℝ, HasDerivAt (fun x => N * x * γ) (N * γ) x := fun x γ =>
    (((hasDerivAt_id x).const_mul (N : ℝ)).mul_const γ).congr_deriv (by ring)
  have dJ : ∀ x, HasDerivAt J (J1 x) x := fun x =>
    hasDerivAt_param (g := fun x γ => F γ * Real.sinh (N * x * γ)) (g' := fun x γ => F γ * (Real.cosh (N * x * γ) * (N * γ)))
      (by simp only [Function.uncurry_def]; fun_prop) (by simp only [Function.uncurry_def]; fun_prop)
      (fun x γ => (((Real.hasDerivAt_sinh _).comp x (hx x γ)).const_mul (F γ))) x
  have dJ1 : ∀ x, HasDerivAt J1 (J2 x) x := fun x =>
    hasDerivAt_param (g := fun x γ => F γ * (Real.cosh (N * x * γ) * (N * γ)))
      (g' := fun x γ => F γ * (Real.sinh (N * x * γ) * (N * γ) * (N * γ)))
      (by simp only [Function.uncurry_def]; fun_prop) (by simp only [Function.uncurry_def]; fun_prop)
      (fun x γ => ((((Real.hasDerivAt_cosh _).comp x (hx x γ)).mul_const _).const_mul (F γ))) x
  obtain ⟨n, hn⟩ : ∃ n, N = n + 1 := ⟨N - 1, by omega⟩
  have hn' : (n : ℝ) = N - 1 := by rw [hn]; push_cast; ring
  have vJ : ∀ x, 0 < x → J x = c * (Real.sinh x ^ (n + 1) / x ^ n) := by
    intro x hx
    have := hT x hx
    rw [show N - 1 = n by omega] at this hc
    simp only [hJ, hc, this]
    rw [← hn]
    field_simp
  have vJ1 : ∀ x, 0 < x → J1 x = c * (Real.sinh x ^ (n + 1) / x ^ n) * (N * (Real.cosh x / Real.sinh x) - (N - 1) / x) := by
    intro x hx
    have hs := (Real.sinh_pos_iff.2 hx).ne'
    have h1 := (((Real.hasDerivAt_sinh x).pow (n + 1)).div (hasDerivAt_pow n x) (by positivity)).const_mul c
    have h2 := (dJ x).congr_of_eventuallyEq (f₁ := fun x => c * (Real.sinh x ^ (n + 1) / x ^ n))
      ((lt_mem_nhds hx).mono fun y hy => (vJ y hy).symm)
    rw [h2.unique h1, ← hn', hn]
    rcases Nat.eq_zero_or_pos n with h | h
    · omega
    · obtain ⟨j, rfl⟩ : ∃ j, n = j + 1 := ⟨n - 1, by omega⟩
      simp only [Nat.add_sub_cancel, Pi.pow_apply]
      push_cast
      field_simp
      ring
  have vJ2 : J2 η = J η * ((N * (Real.cosh η / Real.sinh η) - (N - 1) / η) ^ 2 + (-(N / Real.sinh η ^ 2) + (N - 1) / η ^ 2)) := by
    have hs := (Real.sinh_pos_iff.2 hη).ne'
    have g1 : HasDerivAt (fun x => N * (Real.cosh x / Real.sinh x) - (N - 1) / x)
        (-(N / Real.sinh η ^ 2) + (N - 1) / η ^ 2) η := by
      refine ((((Real.hasDerivAt_cosh η).div (Real.hasDerivAt_sinh η) hs).const_mul (N : ℝ)).sub
        (((hasDerivAt_id η).inv hη.ne').const_mul ((N : ℝ) - 1))).congr_deriv ?_
      have := Real.cosh_sq η
      simp only [id]
      field_simp
      rw [this]
      ring
    have h1 := (dJ η).mul g1
    have h2 := (dJ1 η).congr_of_eventuallyEq (f₁ := J * fun x => N * (Real.cosh x / Real.sinh x) - (N - 1) / x)
      ((lt_mem_nhds hη).mono fun y hy => by simp only [Pi.mul_apply]; rw [vJ1 y hy, vJ y hy])
    rw [h2.unique h1, vJ1 η hη, ← vJ η hη]
    ring
  have hZ : forcePartition (fjc_isometric_distribution N ℓ m).nd_radial N η = k * J η := by
    rw [forcePartition, intervalIntegral.integral_congr_Ioo_of_le zero_le_one (fun γ hγ => hw γ hγ),
      intervalIntegral.integral_const_mul]
  have hs := Real.sinh_pos_iff.2 hη
  constructor
  · have e : EqOn (fun γ => alongForce N η γ * forceWeight (fjc_isometric_distribution N ℓ m).nd_radial N η γ)
        (fun γ => k / N * (F γ * (Real.cosh (N * η * γ) * (N * γ))) - k / (N * η) * (F γ * Real.sinh (N * η * γ))) (Ioo 0 1) := by
      intro γ hγ
      have h0 : 0 < γ := hγ.1
      have hs : 0 < Real.sinh (N * η * γ) := Real.sinh_pos_iff.2 (by positivity)
      simp only [alongForce, hw γ hγ]
      field_simp
    rw [intervalIntegral.integral_congr_Ioo_of_le zero_le_one e, intervalIntegral.integral_sub
      (Continuous.intervalIntegrable (by fun_prop) _ _) (Continuous.intervalIntegrable (by fun_prop) _ _),
      intervalIntegral.integral_const_mul, intervalIntegral.integral_const_mul, hZ]
    have a1 : ∫ γ in (0 : ℝ)..1, F γ * (Real.cosh (N * η * γ) * (N * γ)) = J1 η := rfl
    have a2 : ∫ γ in (0 : ℝ)..1, F γ * Real.sinh (N * η * γ) = J η := rfl
    rw [a1, a2, vJ1 η hη, ← vJ η hη, langevin, Real.tanh_eq_sinh_div_cosh]
    have := (Real.cosh_pos η).ne'
    field_simp
    ring
  · have e : EqOn (fun γ => γ ^ 2 * forceWeight (fjc_isometric_distribution N ℓ m).nd_radial N η γ)
        (fun γ => k / N ^ 2 * (F γ * (Real.sinh (N * η * γ) * (N * γ) * (N * γ)))) (Ioo 0 1) := by
      intro γ hγ
      simp only [hw γ hγ]
      field_simp
    rw [intervalIntegral.integral_congr_Ioo_of_le zero_le_one e, intervalIntegral.integral_const_mul, hZ]
    have a1 : ∫ γ in (0 : ℝ)..1, F γ * (Real.sinh (N * η * γ) * (N * γ) * (N * γ)) = J2 η := rfl
    rw [a1, vJ2, langevin, Real.tanh_eq_sinh_div_cosh]
    have := (Real.cosh_pos η).ne'
    field_simp
    ring

/-- C66: the extension at fixed force is the mean component along the force of the extension of the exact distribution under that
force. -/
theorem C66_fjc_length (N : ℕ) (ℓ m : ℝ) (hN2 : 2 ≤ N) (hN : N ≤ 26) {η T : ℝ} (hη : η ≠ 0) :
    (fjc_isotensional_lengths N ℓ m).nd_length_per_link η T =
      forceMean (fjc_isometric_distribution N ℓ m).nd_radial N η (alongForce N η) := by
  have e : (fjc_isotensional_lengths N ℓ m).nd_length_per_link η T = langevin η := by
    have e1 : (fjc_isotensional_lengths N ℓ m).nd_length_per_link η T =
      fjc.thermodynamics.isotensional.nondimensional_end_to_end_length_per_link η := rfl
    rw [e1]
    simp only [fjc.thermodynamics.isotensional.nondimensional_end_to_end_length_per_link, model_real, langevin]
  have key : ∀ η, 0 < η → langevin η = forceMean (fjc_isometric_distribution N ℓ m).nd_radial N η (alongForce N η) := by
    intro η hη
    have hZ : forcePartition (fjc_isometric_distribution N ℓ m).nd_radial N η ≠ 0 := by
      rw [C66_fjc_partition N ℓ m hN2 hN hη.ne']
      have := Real.sinh_pos_iff.2 hη
      positivity
    rw [forceMean, (fjc_force_moments ℓ m hN2 hN hη).1]
    field_simp
  rw [e]
  rcases lt_or_gt_of_ne hη with h | h
  · have := key (-η) (by linarith)
    rw [langevin_neg] at this
    rw [← neg_neg (langevin η), this, forceMean, forceMean, ← neg_div, ← intervalIntegral.integral_neg]
    have e2 : ∀ γ : ℝ, forceWeight (fjc_isometric_distribution N ℓ m).nd_radial N (-η) γ =
        forceWeight (fjc_isometric_distribution N ℓ m).nd_radial N η γ := by
      intro γ
      unfold forceWeight
      rw [show (N : ℝ) * -η * γ = -(N * η * γ) by ring, Real.sinh_neg, neg_div_neg_eq]
    have e3 : ∀ γ : ℝ, alongForce N (-η) γ = -alongForce N η γ := by
      intro γ
      unfold alongForce
      rw [show (N : ℝ) * -η * γ = -(N * η * γ) by ring, Real.sinh_neg, Real.cosh_neg, div_neg, div_neg]
      ring
    simp only [forcePartition, e2, e3]
    congr 1
    congr 1
    funext γ
    ring
  · exact key η h

example : (fjc_isotensional_lengths 8 1 1).nd_length_per_link 3 300 =
    forceMean (fjc_isometric_distribution 8 1 1).nd_radial 8 3 (alongForce 8 3) :=
  C66_fjc_length 8 1 1 (by norm_num) (by norm_num) (by norm_num)

theorem integral_mul_sinh_gauss {b : ℝ} (hb : 0 < b) (a : ℝ) :
    ∫ x in Ioi (0 : ℝ), x * Real.sinh (a * x) * Real.exp (-b * x ^ 2) =
      a / (4 * b) * Real.sqrt (Real.pi / b) * Real.exp (a ^ 2 / (4 * b)) := by
  have h1 := integral_comp_abs (f := fun x => x * Real.sinh (a * x) * Real.exp (-b * x ^ 2))
  have ha : ∀ x : ℝ, |x| * Real.sinh (a * |x|) * Real.exp (-b * |x| ^ 2) = x * Real.sinh (a * x) * Real.exp (-b * x ^ 2) := by
    intro x
    rw [sq_abs]
    rcases le_total 0 x with h | h
    · rw [abs_of_nonneg h]
    · rw [abs_of_nonpos h, mul_neg, Real.sinh_neg]; ring
  simp only [ha] at h1
  -- the Gaussian shifted by `c`
  have g : ∀ c : ℝ, Integrable (fun x => x * Real.exp (-b * (x - c) ^ 2)) ∧
      ∫ x, x * Real.exp (-b * (x - c) ^ 2) = c * Real.sqrt (Real.pi / b) := by
    intro c
    have i1 := (integrable_mul_exp_neg_mul_sq hb).add ((integrable_exp_neg_mul_sq hb).const_mul c)
    have e : ∀ x : ℝ, x * Real.exp (-b * (x - c) ^ 2) =
        (fun y => y * Real.exp (-b * y ^ 2) + c * Real.exp (-b * y ^ 2)) (x - c) := fun x => by simp only; ring
    refine ⟨(i1.comp_sub_right c).congr (.of_forall fun x => (e x).symm), ?_⟩
    simp only [e]
    rw [integral_sub_right_eq_self (fun y => y * Real.exp (-b * y ^ 2) + c * Real.exp (-b * y ^ 2)) c,
      integral_add (integrable_mul_exp_neg_mul_sq hb) ((integrable_exp_neg_mul_sq hb).const_mul c), integral_const_mul,
      integral_gaussian]
    have h := integral_neg_eq_self (fun s : ℝ => s * Real.exp (-b * s ^ 2)) volume
    have e : ∀ s : ℝ, -s * Real.exp (-b * (-s) ^ 2) = -(s * Real.exp (-b * s ^ 2)) := fun s => by rw [neg_sq]; ring
    simp only [e, integral_neg] at h
    linarith
  have e : ∀ x : ℝ, x * Real.sinh (a * x) * Real.exp (-b * x ^ 2) =
      Real.exp (a ^ 2 / (4 * b)) / 2 * (x * Real.exp (-b * (x - a / (2 * b)) ^ 2)) -
        Real.exp (a ^ 2 / (4 * b)) / 2 * (x * Real.exp (-b * (x - -(a / (2 * b))) ^ 2)) := by
    intro x
    have p : ∀ s t u v : ℝ, s + t = u + v → Real.exp s * Real.exp t = Real.exp u * Real.exp v := by
      intro s t u v h; rw [← Real.exp_add, ← Real.exp_add, h]
    have e1 := p (a ^ 2 / (4 * b)) (-b * (x - a / (2 * b)) ^ 2) (a * x) (-b * x ^ 2) (by field_simp; ring)
    have e2 := p (a ^ 2 / (4 * b)) (-b * (x - -(a / (2 * b))) ^ 2) (-(a * x)) (-b * x ^ 2) (by field_simp; ring)
    rw [Real.sinh_eq]
    linear_combination (-x / 2) * e1 + x / 2 * e2
  simp only [e] at h1
  rw [integral_sub ((g _).1.const_mul _) ((g _).1.const_mul _), integral_const_mul, integral_const_mul, (g _).2, (g _).2,
    ← integral_congr_ae (.of_forall fun x => e x)] at h1
  have : ∫ x in Ioi (0 : ℝ), x * Real.sinh (a * x) * Real.exp (-b * x ^ 2) =
      (Real.exp (a ^ 2 / (4 * b)) / 2 * (a / (2 * b) * Real.sqrt (Real.pi / b)) -
        Real.exp (a ^ 2 / (4 * b)) / 2 * (-(a / (2 * b)) * Real.sqrt (Real.pi / b))) / 2 := by linarith
  rw [this]
  field_simp
  ring

/-- C66: for the ideal chain the Gibbs free energy at fixed force is minus the logarithm of the partition function of its
distribution of extensions under that force. -/
theorem C66_ideal_gibbs (N : ℕ) (ℓ m : ℝ) (hN : 0 < N) {η T : ℝ} (hη : η ≠ 0) :
    (ideal_isotensional_gibbs N ℓ m).nd_relative η T =
      -Real.log (∫ γ in Ioi (0 : ℝ), forceWeight (ideal_isometric_distribution N ℓ m).nd_radial N η γ) := by
  have hN' : (0 : ℝ) < N := by exact_mod_cast hN
  have hb : (0 : ℝ) < 3 / 2 * N := by positivity
  have e : EqOn (forceWeight (ideal_isometric_distribution N ℓ m).nd_radial N η) (fun γ =>
      4 * Real.pi * (3 / 2 / Real.pi * N) ^ (3 / 2 : ℝ) / (N * η) *
        (γ * Real.sinh (N * η * γ) * Real.exp (-(3 / 2 * N) * γ ^ 2))) (Ioi 0) := by
    intro γ hγ
    have h0 : (0 : ℝ) < γ := hγ
    have e1 : (ideal_isometric_distribution N ℓ m).nd_radial γ =
        4 * Real.pi * (3 / 2 / Real.pi * N) ^ (3 / 2 : ℝ) * (γ ^ 2 * Real.exp (-(3 / 2 * N) * γ ^ 2)) := by
      simp only [ideal_isometric_distribution, ideal.Ideal.init, ideal.thermodynamics.Ideal.init,
        ideal.thermodynamics.isometric.Ideal.init,
        ideal.thermodynamics.isometric.Ideal.nondimensional_equilibrium_radial_distribution,
        ideal.thermodynamics.isometric.nondimensional_equilibrium_radial_distribution, model_real]
      rw [show (-(3 / 2) * γ ^ 2 * (N : ℝ)) = -(3 / 2 * N) * γ ^ 2 by ring]
      ring
    simp only [forceWeight, e1]
    field_simp
  rw [setIntegral_congr_fun measurableSet_Ioi e, integral_const_mul, integral_mul_sinh_gauss hb]
  have e3 : (ideal_isotensional_gibbs N ℓ m).nd_relative η T =
    ideal.thermodynamics.isotensional.nondimensional_relative_gibbs_free_energy N η := rfl
  rw [e3]
  simp only [ideal.thermodynamics.isotensional.nondimensional_relative_gibbs_free_energy, model_real]
  have hpi := Real.pi_pos
  set B : ℝ := 3 / 2 * N with hB
  have h2 : (3 / 2 / Real.pi * (N : ℝ)) ^ (3 / 2 : ℝ) * Real.sqrt (Real.pi / B) = B / Real.pi := by
    rw [show 3 / 2 / Real.pi * (N : ℝ) = B / Real.pi by rw [hB]; ring, show Real.pi / B = (B / Real.pi)⁻¹ by rw [inv_div],
      show (3 / 2 : ℝ) = 1 + 1 / 2 by norm_num, Real.rpow_add (by positivity), Real.rpow_one, ← Real.sqrt_eq_rpow, Real.sqrt_inv]
    have : Real.sqrt (B / Real.pi) ≠ 0 := (Real.sqrt_pos.2 (by positivity)).ne'
    field_simp
  have h3 : 4 * Real.pi * (3 / 2 / Real.pi * (N : ℝ)) ^ (3 / 2 : ℝ) / (N * η) *
      (N * η / (4 * B) * Real.sqrt (Real.pi / B) * Real.exp ((N * η) ^ 2 / (4 * B))) = Real.exp ((N * η) ^ 2 / (4 * B)) := by
    have : 4 * Real.pi * (3 / 2 / Real.pi * (N : ℝ)) ^ (3 / 2 : ℝ) / (N * η) *
      (N * η / (4 * B) * Real.sqrt (Real.pi / B) * Real.exp ((N * η) ^ 2 / (4 * B))) =
      Real.pi / B * ((3 / 2 / Real.pi * (N : ℝ)) ^ (3 / 2 : ℝ) * Real.sqrt (Real.pi / B)) * Real.exp ((N * η) ^ 2 / (4 * B)) := by
      field_simp
    rw [this, h2]
    field_simp
  rw [h3, Real.log_exp, hB]
  field_simp
  norm_num

example : (ideal_isotensional_gibbs 8 1 1).nd_relative 3 300 =
    -Real.log (∫ γ in Ioi (0 : ℝ), forceWeight (ideal_isometric_distribution 8 1 1).nd_radial 8 3 γ) :=
  C66_ideal_gibbs 8 1 1 (by norm_num) (by norm_num)

end Polymers.Props
