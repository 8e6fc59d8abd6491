import Verif.Lemmas.LinkStatistics
import Verif.Props.FjcIsotensional
import Verif.Props.Swfjc
import Verif.Props.Efjc
import Verif.Props.EfjcStiff

/-! C69: the models at fixed force are the statistical mechanics of one link. -/

namespace Polymers.Props

open Polymers.Spec Polymers.Api Polymers.Lemmas Real Set Filter Topology MeasureTheory

/-- The logarithm the code subtracts is that of the sphere and the hinge. -/
theorem log_hinge {ℓ m T : ℝ} (hm : 0 < m) (hT : 0 < T) :
    0 < hingeFactor m T ∧
    log (8 * π ^ 2 * m * ℓ ^ 2 * (BOLTZMANN_CONSTANT : ℝ) * T / (PLANCK_CONSTANT : ℝ) ^ 2) = log (4 * π * ℓ ^ 2 * hingeFactor m T) := by
  have := pi_pos
  constructor
  · unfold hingeFactor; positivity
  · congr 1
    unfold hingeFactor BOLTZMANN_CONSTANT PLANCK_CONSTANT
    norm_num
    ring

/-- C69: the Gibbs energy of the freely jointed chain. -/
theorem C69_fjc_energy (N : ℕ) {ℓ m η T : ℝ} (hℓ : 0 < ℓ) (hm : 0 < m) (hη : η ≠ 0) (hT : 0 < T) :
    (fjc_isotensional_gibbs N ℓ m).nd_energy_per_link η T = -log (4 * π * ℓ ^ 2 * directionAverage η * hingeFactor m T) := by
  obtain ⟨h0, h1⟩ := log_hinge (ℓ := ℓ) hm hT
  have hp := pi_pos
  have hs : 0 < sinh η / η := by
    rcases lt_or_gt_of_ne hη with h | h
    · exact div_pos_of_neg_of_neg (sinh_neg_iff.2 h) h
    · exact div_pos (sinh_pos_iff.2 h) h
  rw [directionAverage_eq hη, show 4 * π * ℓ ^ 2 * (sinh η / η) * hingeFactor m T = sinh η / η * (4 * π * ℓ ^ 2 * hingeFactor m T) by ring,
    log_mul hs.ne' (by positivity)]
  simp only [api_core, fjc.thermodynamics.isotensional.nondimensional_gibbs_free_energy_per_link, model_real]
  rw [h1]
  ring

/-- C69: the extension of the freely jointed chain. -/
theorem C69_fjc_length (N : ℕ) (ℓ m T : ℝ) {η : ℝ} (hη : η ≠ 0) :
    (fjc_isotensional_lengths N ℓ m).nd_length_per_link η T =
      (1 / 2 * ∫ x in (-1 : ℝ)..1, x * exp (η * x)) / directionAverage η := by
  have h := directionMoment_eq hη one_ne_zero
  simp only [one_mul, mul_one] at h
  have hs : sinh η ≠ 0 := by simpa using hη
  rw [h, directionAverage_eq hη]
  simp only [api_core, fjc.thermodynamics.isotensional.nondimensional_end_to_end_length_per_link, model_real]
  rw [tanh_eq_sinh_div_cosh]
  field_simp

theorem well_partition {b η : ℝ} (hb : 1 < b) (hη : η ≠ 0) : linkPartition (squareWell b) η = swZ b η / η ^ 3 := by
  rw [linkPartition_eq _ hη, squareWell_integral hb]
  have h : ∀ s ∈ uIcc (1 : ℝ) b, HasDerivAt (fun s => swG (η * s) / η ^ 3) (s * sinh (η * s) / η) s := fun s _ => by
    have h0 : HasDerivAt (fun s => η * s) η s := by simpa using (hasDerivAt_id s).const_mul η
    refine (((hasDerivAt_swG (η * s)).comp s h0).div_const (η ^ 3)).congr_deriv ?_
    field_simp
  rw [intervalIntegral.integral_eq_sub_of_hasDerivAt h (by apply Continuous.intervalIntegrable; fun_prop), swZ, mul_one, mul_comm b]
  ring

/-- C69: the Gibbs energy of the chain of square-well links. -/
theorem C69_swfjc_energy (N : ℕ) {ℓ m w η T : ℝ} (hℓ : 0 < ℓ) (hm : 0 < m) (hw : 0 < w) (hη : 0 < η) (hT : 0 < T) :
    (swfjc_isotensional_gibbs N ℓ m w).nd_energy_per_link η T =
      -log (4 * π * ℓ ^ 2 * linkPartition (squareWell (1 + w / ℓ)) η * hingeFactor m T) := by
  obtain ⟨h0, h1⟩ := log_hinge (ℓ := ℓ) hm hT
  have hp := pi_pos
  have hb := one_lt_well hℓ hw
  have hz := swZ_pos hb hη
  rw [well_partition hb hη.ne', show ∀ z, 4 * π * ℓ ^ 2 * (z / η ^ 3) * hingeFactor m T = z / η ^ 3 * (4 * π * ℓ ^ 2 * hingeFactor m T)
    by intro z; ring, log_mul (by positivity) (by positivity), log_div hz.ne' (by positivity), log_pow]
  simp only [api_core, swfjc.thermodynamics.isotensional.nondimensional_gibbs_free_energy_per_link, model_real]
  rw [h1, show swZ (1 + w / ℓ) η = (1 + w / ℓ) * η * cosh ((1 + w / ℓ) * η) - sinh ((1 + w / ℓ) * η) - η * cosh η + sinh η by
    unfold swZ swG; ring]
  push_cast
  ring

/-- C69: the extension of the chain of square-well links. -/
theorem C69_swfjc_length (N : ℕ) (m T : ℝ) {ℓ w η : ℝ} (hℓ : 0 < ℓ) (hw : 0 < w) (hη : 0 < η) :
    (swfjc_isotensional_lengths N ℓ m w).nd_length_per_link η T = linkExtension (squareWell (1 + w / ℓ)) η := by
  have hb := one_lt_well hℓ hw
  have hz := swZ_pos hb hη
  rw [swfjc_length]
  generalize 1 + w / ℓ = b at *
  unfold linkExtension
  have e : ∫ s in Ioi (0 : ℝ), s ^ 2 * squareWell b s * (1 / 2 * ∫ x in (-1 : ℝ)..1, s * x * exp (η * s * x)) =
      ∫ s in Ioi (0 : ℝ), squareWell b s * (s ^ 2 * cosh (η * s) / η - s * sinh (η * s) / η ^ 2) := by
    refine setIntegral_congr_fun measurableSet_Ioi fun s hs => ?_
    have hs : s ≠ 0 := ne_of_gt hs
    rw [directionMoment_eq hη.ne' hs]
    field_simp
  rw [e, squareWell_integral hb, well_partition hb hη.ne']
  have h : ∀ s ∈ uIcc (1 : ℝ) b, HasDerivAt (fun s => s ^ 2 * sinh (η * s) / η ^ 2 - 3 * swG (η * s) / η ^ 4)
      (s ^ 2 * cosh (η * s) / η - s * sinh (η * s) / η ^ 2) s := fun s _ => by
    have h0 : HasDerivAt (fun s => η * s) η s := by simpa using (hasDerivAt_id s).const_mul η
    refine ((((hasDerivAt_pow 2 s).mul h0.sinh).div_const (η ^ 2)).sub
      ((((hasDerivAt_swG (η * s)).comp s h0).const_mul 3).div_const (η ^ 4))).congr_deriv ?_
    norm_num
    field_simp
    ring
  rw [intervalIntegral.integral_eq_sub_of_hasDerivAt h (by apply Continuous.intervalIntegrable; fun_prop)]
  have ez : swZ b η = swG (η * b) - swG (η * 1) := by rw [swZ, mul_one, mul_comm]
  have e1 : swG (η * b) = swZ b η + swG (η * 1) := by rw [ez]; ring
  rw [mul_comm b η, e1, one_pow, mul_one]
  field_simp
  ring

theorem harmonic_partition {κ η : ℝ} (hκ : 0 < κ) (hη : η ≠ 0) :
    linkPartition (fun s => exp (-harmonicEnergy κ s)) η = √(π / (2 * κ)) * exp (η ^ 2 / (2 * κ)) / (2 * η) *
      (exp η * (1 + η / κ) * (1 + errorFunction ((1 + η / κ) * √(κ / 2))) -
        exp (-η) * (1 - η / κ) * (1 + errorFunction ((1 - η / κ) * √(κ / 2)))) := by
  rw [linkPartition_eq _ hη]
  have := (gauss_sinh hκ 1 hη).2
  rw [one_mul] at this
  exact this

/-- The partition function of the asymptotic approach. -/
noncomputable def efjcZ (κ η : ℝ) : ℝ := √(2 * π / κ) * exp (η ^ 2 / (2 * κ)) * (sinh η / η) * (1 + η / tanh η / κ)

theorem sqrt_pi_double {κ : ℝ} (hκ : 0 < κ) : √(2 * π / κ) = 2 * √(π / (2 * κ)) := by
  rw [show 2 * π / κ = 2 ^ 2 * (π / (2 * κ)) by field_simp, sqrt_mul (by norm_num), sqrt_sq (by norm_num)]

theorem efjcZ_eq {κ η : ℝ} (hκ : 0 < κ) (hη : η ≠ 0) : efjcZ κ η = √(π / (2 * κ)) * exp (η ^ 2 / (2 * κ)) / η *
    (exp η * (1 + η / κ) - exp (-η) * (1 - η / κ)) := by
  have hs : sinh η ≠ 0 := by simpa using hη
  unfold efjcZ
  rw [sqrt_pi_double hκ, show ∀ A : ℝ, A * (sinh η / η) * (1 + η / tanh η / κ) = A / η * (sinh η + η / κ * cosh η) by
    intro A; rw [tanh_eq_sinh_div_cosh]; field_simp, sinh_eq, cosh_eq]
  ring

theorem sinh_div_nonneg {η s : ℝ} (hη : η ≠ 0) (hs : 0 < s) : 0 ≤ s * sinh (η * s) / η := by
  rcases lt_or_gt_of_ne hη with h | h
  · exact div_nonneg_of_nonpos (mul_nonpos_of_nonneg_of_nonpos hs.le (sinh_nonpos_iff.2 (by nlinarith))) h.le
  · exact div_nonneg (mul_nonneg hs.le (sinh_nonneg_iff.2 (by positivity))) h.le

/-- The asymptotic partition function counts negative lengths too; what they add is exponentially small. -/
theorem efjc_tail {κ η : ℝ} (hκ : 0 < κ) (hη : η ≠ 0) :
    linkPartition (fun s => exp (-harmonicEnergy κ s)) η ≤ efjcZ κ η ∧
    efjcZ κ η - exp (-κ / 2) * (√(π / (2 * κ)) * exp (η ^ 2 / (2 * κ)) / κ) ≤ linkPartition (fun s => exp (-harmonicEnergy κ s)) η := by
  obtain ⟨i1, e1⟩ := gauss_sinh hκ (-1) hη
  obtain ⟨i0, e0⟩ := gauss_sinh hκ 0 hη
  have hsum : linkPartition (fun s => exp (-harmonicEnergy κ s)) η +
      ∫ s in Ioi (0 : ℝ), exp (-(κ / 2 * (s - -1) ^ 2)) * (s * sinh (η * s) / η) = efjcZ κ η := by
    rw [harmonic_partition hκ hη, e1, efjcZ_eq hκ hη, show (-1 + η / κ) * √(κ / 2) = -((1 - η / κ) * √(κ / 2)) by ring,
      show (-1 - η / κ) * √(κ / 2) = -((1 + η / κ) * √(κ / 2)) by ring, errorFunction_neg, errorFunction_neg, neg_one_mul, neg_neg]
    ring
  have hR0 : 0 ≤ ∫ s in Ioi (0 : ℝ), exp (-(κ / 2 * (s - -1) ^ 2)) * (s * sinh (η * s) / η) :=
    setIntegral_nonneg measurableSet_Ioi fun s hs => mul_nonneg (exp_pos _).le (sinh_div_nonneg hη hs)
  have hR1 : ∫ s in Ioi (0 : ℝ), exp (-(κ / 2 * (s - -1) ^ 2)) * (s * sinh (η * s) / η) ≤
      ∫ s in Ioi (0 : ℝ), exp (-κ / 2) * (exp (-(κ / 2 * (s - 0) ^ 2)) * (s * sinh (η * s) / η)) := by
    refine setIntegral_mono_on i1 (i0.const_mul _) measurableSet_Ioi fun s hs => ?_
    have hs : 0 < s := hs
    rw [← mul_assoc, ← exp_add]
    refine mul_le_mul_of_nonneg_right (exp_le_exp.2 ?_) (sinh_div_nonneg hη hs)
    have : 0 < κ * s := by positivity
    nlinarith
  rw [integral_const_mul, e0] at hR1
  have e2 : √(π / (2 * κ)) * exp (η ^ 2 / (2 * κ)) / (2 * η) *
      (exp (0 * η) * (0 + η / κ) * (1 + errorFunction ((0 + η / κ) * √(κ / 2))) -
        exp (-(0 * η)) * (0 - η / κ) * (1 + errorFunction ((0 - η / κ) * √(κ / 2)))) =
      √(π / (2 * κ)) * exp (η ^ 2 / (2 * κ)) / κ := by
    rw [zero_mul, neg_zero, exp_zero, zero_add, zero_sub, neg_mul (η / κ) √(κ / 2), errorFunction_neg]
    field_simp
    ring
  rw [e2] at hR1
  constructor <;> linarith

theorem efjcZ_lower {κ η : ℝ} (hκ : 0 < κ) (hη : 0 < η) :
    2 * (√(π / (2 * κ)) * exp (η ^ 2 / (2 * κ))) * (1 + 1 / κ) ≤ efjcZ κ η := by
  have hs := sinh_pos_iff.2 hη
  have h1 : 1 ≤ sinh η / η := by rw [le_div_iff₀ hη, one_mul]; exact self_le_sinh_iff.2 hη.le
  have h2 : 1 ≤ cosh η := one_le_cosh η
  have e : efjcZ κ η = 2 * (√(π / (2 * κ)) * exp (η ^ 2 / (2 * κ))) * (sinh η / η + cosh η / κ) := by
    unfold efjcZ
    rw [sqrt_pi_double hκ, tanh_eq_sinh_div_cosh]
    field_simp
  rw [e]
  have h3 : 1 / κ ≤ cosh η / κ := div_le_div_of_nonneg_right h2 hκ.le
  exact mul_le_mul_of_nonneg_left (by linarith) (by positivity)

/-- The true partition function is the asymptotic one up to a relative error `exp(-κ/2) / (2 (κ + 1))`. -/
theorem efjc_ratio {κ η : ℝ} (hκ : 0 < κ) (hη : 0 < η) :
    0 < efjcZ κ η ∧ linkPartition (fun s => exp (-harmonicEnergy κ s)) η ≤ efjcZ κ η ∧
    efjcZ κ η * (1 - exp (-κ / 2) / (2 * (κ + 1))) ≤ linkPartition (fun s => exp (-harmonicEnergy κ s)) η := by
  obtain ⟨h1, h2⟩ := efjc_tail hκ hη.ne'
  have h3 := efjcZ_lower hκ hη
  have hp := pi_pos
  set Q := √(π / (2 * κ)) * exp (η ^ 2 / (2 * κ)) with hQ
  have hQ0 : 0 < Q := mul_pos (sqrt_pos.2 (by positivity)) (exp_pos _)
  refine ⟨lt_of_lt_of_le (by positivity) h3, h1, ?_⟩
  have h4 : Q / κ ≤ efjcZ κ η / (2 * (κ + 1)) := by
    rw [div_le_div_iff₀ hκ (by positivity)]
    have := mul_le_mul_of_nonneg_right h3 hκ.le
    have e : 2 * Q * (1 + 1 / κ) * κ = Q * (2 * (κ + 1)) := by field_simp
    linarith
  have h5 := mul_le_mul_of_nonneg_left h4 (exp_pos (-κ / 2)).le
  have e : efjcZ κ η * (1 - exp (-κ / 2) / (2 * (κ + 1))) = efjcZ κ η - exp (-κ / 2) * (efjcZ κ η / (2 * (κ + 1))) := by ring
  rw [e]
  linarith

theorem efjc_log {κ ℓ η X : ℝ} (hκ : 0 < κ) (hℓ : 0 < ℓ) (hη : 0 < η) (hX : 0 < X) :
    log (4 * π * ℓ ^ 3 * efjcZ κ η * X) = log (sinh η / η) + 1 / 2 * η ^ 2 / κ + log (1 + η / tanh η / κ) +
      1 / 2 * log (2 * π * ℓ ^ 2 / κ) + log (4 * π * ℓ ^ 2 * X) := by
  have hp := pi_pos
  have hs := sinh_pos_iff.2 hη
  have ht : 0 < tanh η := by rw [tanh_eq_sinh_div_cosh]; exact div_pos hs (cosh_pos η)
  have hq : 0 < √(2 * π / κ) := sqrt_pos.2 (by positivity)
  unfold efjcZ
  have e : 4 * π * ℓ ^ 3 * (√(2 * π / κ) * exp (η ^ 2 / (2 * κ)) * (sinh η / η) * (1 + η / tanh η / κ)) * X =
      √(2 * π * ℓ ^ 2 / κ) * (exp (η ^ 2 / (2 * κ)) * ((sinh η / η) * ((1 + η / tanh η / κ) * (4 * π * ℓ ^ 2 * X)))) := by
    rw [show 2 * π * ℓ ^ 2 / κ = 2 * π / κ * ℓ ^ 2 by ring, sqrt_mul (by positivity), sqrt_sq hℓ.le]
    ring
  have hr : 0 < √(2 * π * ℓ ^ 2 / κ) := sqrt_pos.2 (by positivity)
  rw [e, log_mul hr.ne' (by positivity), log_mul (by positivity) (by positivity), log_mul (by positivity) (by positivity),
    log_mul (by positivity) (by positivity), log_exp, log_sqrt (by positivity)]
  ring

/-- C69: the asymptotic Gibbs energy of the extensible chain is exponentially close to that of links with the harmonic potential, and
never above. -/
theorem C69_efjc_asymptotic_energy (N : ℕ) {ℓ m k η T : ℝ} (hℓ : 0 < ℓ) (hm : 0 < m) (hk : 0 < k) (hη : 0 < η) (hT : 0 < T) :
    let κ := ndStiffness k ℓ T
    let exact := -log (4 * π * ℓ ^ 3 * linkPartition (fun s => exp (-harmonicEnergy κ s)) η * hingeFactor m T)
    (efjc_isotensional_asymptotic_gibbs N ℓ m k).nd_energy_per_link η T ≤ exact ∧
      exact - exp (-κ / 2) / (κ + 1) ≤ (efjc_isotensional_asymptotic_gibbs N ℓ m k).nd_energy_per_link η T := by
  intro κ exact
  have hκ : 0 < κ := ndStiffness_pos hk hℓ hT
  obtain ⟨h0, h1⟩ := log_hinge (ℓ := ℓ) hm hT
  have hp := pi_pos
  obtain ⟨z0, z1, z2⟩ := efjc_ratio hκ hη
  have hG : (efjc_isotensional_asymptotic_gibbs N ℓ m k).nd_energy_per_link η T =
      -log (4 * π * ℓ ^ 3 * efjcZ κ η * hingeFactor m T) := by
    rw [efjc_log hκ hℓ hη h0, ← h1]
    simp only [api_core, efjc.thermodynamics.isotensional.asymptotic.nondimensional_gibbs_free_energy_per_link, model_real]
    ring
  set z := linkPartition (fun s => exp (-harmonicEnergy κ s)) η with hz
  set δ := exp (-κ / 2) / (2 * (κ + 1)) with hδ
  have hδ0 : 0 < δ := by positivity
  have hδ1 : δ ≤ 1 / 2 := by
    have : exp (-κ / 2) ≤ 1 := exp_le_one_iff.2 (by linarith)
    rw [hδ, div_le_div_iff₀ (by positivity) (by norm_num)]
    linarith
  have hzp : 0 < z := lt_of_lt_of_le (mul_pos z0 (by linarith)) z2
  have hfac : ∀ y, 0 < y → log (4 * π * ℓ ^ 3 * y * hingeFactor m T) = log (4 * π * ℓ ^ 3 * hingeFactor m T) + log y := by
    intro y hy
    rw [show 4 * π * ℓ ^ 3 * y * hingeFactor m T = 4 * π * ℓ ^ 3 * hingeFactor m T * y by ring, log_mul (by positivity) hy.ne']
  have h3 : log z ≤ log (efjcZ κ η) := log_le_log hzp z1
  have h4 : log (efjcZ κ η) + log (1 - δ) ≤ log z := by
    rw [← log_mul z0.ne' (by linarith)]
    exact log_le_log (mul_pos z0 (by linarith)) z2
  have h5 : -(2 * δ) ≤ log (1 - δ) := by
    have := one_sub_inv_le_log_of_pos (show 0 < 1 - δ by linarith)
    have h6 : (1 - δ)⁻¹ ≤ 1 + 2 * δ := by
      rw [inv_le_iff_one_le_mul₀ (by linarith)]
      nlinarith
    linarith
  have h7 : 2 * δ = exp (-κ / 2) / (κ + 1) := by rw [hδ]; field_simp
  rw [hG]
  simp only [exact]
  rw [hfac _ z0, hfac _ hzp]
  constructor <;> linarith

/-- `efjcNum` with the true error function. -/
noncomputable def efjcNumTrue (κ η : ℝ) : ℝ :=
  (η / κ + 1) * exp η * errorFunction ((η + κ) / √(2 * κ)) - (η / κ - 1) / exp η * errorFunction ((η - κ) / √(2 * κ))

theorem efjc_true_partition {κ η : ℝ} (hκ : 0 < κ) (hη : 0 < η) :
    linkPartition (fun s => exp (-harmonicEnergy κ s)) η = efjcZ κ η * (1 / 2 + efjcNumTrue κ η / efjcDen κ η) := by
  have hD : efjcDen κ η = 2 * (exp η * (1 + η / κ) - exp (-η) * (1 - η / κ)) := by
    rw [efjcDen_eq, sinh_eq, cosh_eq]
    field_simp
    ring
  have hD0 : 0 < efjcDen κ η := by
    rw [efjcDen_eq]
    have := sinh_pos_iff.2 hη
    have := cosh_pos η
    positivity
  have hs := half_sqrt hκ
  have hs0 : 0 < √(2 * κ) := sqrt_pos.2 (by positivity)
  have a1 : (η + κ) / √(2 * κ) = (1 + η / κ) * √(κ / 2) := by rw [← hs]; field_simp; ring
  have a2 : (η - κ) / √(2 * κ) = -((1 - η / κ) * √(κ / 2)) := by rw [← hs]; field_simp; ring
  rw [harmonic_partition hκ hη.ne', efjcZ_eq hκ hη.ne', efjcNumTrue, a1, a2, errorFunction_neg]
  have hD1 : exp η * (1 + η / κ) - exp (-η) * (1 - η / κ) ≠ 0 := by
    intro h
    rw [hD, h] at hD0
    simp at hD0
  rw [hD]
  rw [show ∀ A B : ℝ, B / exp η * A = exp (-η) * B * A by intro A B; rw [exp_neg]; field_simp]
  generalize errorFunction ((1 + η / κ) * √(κ / 2)) = E1
  generalize errorFunction ((1 - η / κ) * √(κ / 2)) = E2
  generalize √(π / (2 * κ)) * exp (η ^ 2 / (2 * κ)) = Q
  generalize exp η = A at *
  generalize exp (-η) = B at *
  generalize η / κ = r at *
  field_simp
  ring

theorem log_close {A B d : ℝ} (hA : 1 / 2 ≤ A) (hd : |B - A| ≤ d) (hd1 : d ≤ 1 / 8) : 0 < B ∧ |log B - log A| ≤ 8 / 3 * d := by
  have h := abs_le.1 hd
  have hd0 : 0 ≤ d := (abs_nonneg _).trans hd
  have hAp : 0 < A := by linarith
  have hB : 3 / 8 ≤ B := by linarith
  have hBp : 0 < B := by linarith
  have l1 := one_sub_inv_le_log_of_pos (show 0 < B / A by positivity)
  have l2 := log_le_sub_one_of_pos (show 0 < B / A by positivity)
  rw [log_div hBp.ne' hAp.ne'] at l1 l2
  have r1 : B / A - 1 ≤ 8 / 3 * d := by
    rw [div_sub_one hAp.ne', div_le_iff₀ hAp]
    nlinarith
  have r2 : -(8 / 3 * d) ≤ 1 - (B / A)⁻¹ := by
    rw [inv_div, one_sub_div hBp.ne', le_div_iff₀ hBp]
    nlinarith
  exact ⟨hBp, abs_le.2 ⟨by linarith, by linarith⟩⟩

theorem tanh_small {η : ℝ} (hη : 1e-6 ≤ η) : 1e-6 / 2 ≤ tanh η := by
  have hη0 : 0 < η := lt_of_lt_of_le (by norm_num) hη
  have hc := cosh_pos η
  rw [tanh_eq_sinh_div_cosh, le_div_iff₀ hc]
  rcases le_or_gt η 1 with h1' | h1'
  · have h9 : cosh η ≤ cosh 1 := cosh_le_cosh.2 (by rw [abs_of_pos hη0, abs_one]; exact h1')
    have h10 : cosh 1 ≤ 2 := by
      rw [cosh_eq]
      have := exp_one_lt_d9
      have h11 : exp (-1 : ℝ) ≤ 1 := exp_le_one_iff.2 (by norm_num)
      linarith
    have := self_le_sinh_iff.2 hη0.le
    nlinarith
  · have h9 : cosh η = exp (-η) + sinh η := by rw [sinh_eq, cosh_eq]; ring
    have h10 : exp (-η) ≤ 1 := exp_le_one_iff.2 (by linarith)
    have := self_le_sinh_iff.2 hη0.le
    nlinarith

/-- C69: the Gibbs energy of the extensible chain, with the error functions as the code computes them, is that of links with the
harmonic potential to within `4e-12 / tanh η`, up to the stiffness where the error function fails. -/
theorem C69_efjc_energy (N : ℕ) {ℓ m k η T : ℝ} (hℓ : 0 < ℓ) (hm : 0 < m) (hk : 0 < k) (hη : 1e-6 ≤ η) (hT : 0 < T)
    (hstiff : ndStiffness k ℓ T ≤ 1425.78) :
    |(efjc_isotensional_gibbs N ℓ m k).nd_energy_per_link η T -
      -log (4 * π * ℓ ^ 3 * linkPartition (fun s => exp (-harmonicEnergy (ndStiffness k ℓ T) s)) η * hingeFactor m T)| ≤
      4e-12 / tanh η := by
  have hη0 : 0 < η := lt_of_lt_of_le (by norm_num) hη
  have hκ : 0 < ndStiffness k ℓ T := ndStiffness_pos hk hℓ hT
  obtain ⟨h0, h1⟩ := log_hinge (ℓ := ℓ) hm hT
  have hp := pi_pos
  have hG : (efjc_isotensional_gibbs N ℓ m k).nd_energy_per_link η T =
      -log (4 * π * ℓ ^ 3 * efjcZ (ndStiffness k ℓ T) η * hingeFactor m T) -
        log (1 / 2 + efjcNum (ndStiffness k ℓ T) η / efjcDen (ndStiffness k ℓ T) η) := by
    rw [efjc_log hκ hℓ hη0 h0, ← h1]
    have := efjc_exact_gibbs ℓ m (ndStiffness k ℓ T) η T
    simp only [api_core, model_real]
    rw [this]
    ring
  rw [hG]
  generalize ndStiffness k ℓ T = κ at *
  obtain ⟨z0, z1, z2⟩ := efjc_ratio hκ hη0
  rw [efjc_true_partition hκ hη0] at z2 ⊢
  have hs := sinh_pos_iff.2 hη0
  have hc := cosh_pos η
  have ht : 0 < tanh η := by rw [tanh_eq_sinh_div_cosh]; exact div_pos hs hc
  have hD0 : 0 < efjcDen κ η := by rw [efjcDen_eq]; positivity
  -- the relative error of the partition function
  have harg : -26.7 ≤ (η - κ) / √(2 * κ) := by
    have hs0 : 0 < √(2 * κ) := sqrt_pos.2 (by positivity)
    have h26 : κ / √(2 * κ) ≤ 26.7 := by
      rw [half_sqrt hκ, sqrt_le_left (by norm_num)]
      norm_num at hstiff ⊢
      linarith
    have : 0 ≤ η / √(2 * κ) := by positivity
    rw [sub_div]
    linarith
  have harg' : -26.7 ≤ (η + κ) / √(2 * κ) := le_trans (by norm_num) (show (0 : ℝ) ≤ (η + κ) / √(2 * κ) by positivity)
  have a1 := C10_erf_accuracy harg
  have a2 := C10_erf_accuracy harg'
  have hnum : |efjcNum κ η - efjcNumTrue κ η| ≤ 3e-12 * (1 + η / κ) * (2 * cosh η) := by
    have e : efjcNum κ η - efjcNumTrue κ η = (η / κ + 1) * exp η * (math.erf ((η + κ) / √(2 * κ)) - errorFunction ((η + κ) / √(2 * κ))) -
        (η / κ - 1) * exp (-η) * (math.erf ((η - κ) / √(2 * κ)) - errorFunction ((η - κ) / √(2 * κ))) := by
      unfold efjcNum efjcNumTrue
      rw [exp_neg]
      field_simp
      ring
    have hr : 0 < η / κ := by positivity
    have h3 : |η / κ - 1| ≤ η / κ + 1 := abs_le.2 ⟨by linarith, by linarith⟩
    rw [e, cosh_eq]
    refine (abs_sub _ _).trans ?_
    rw [abs_mul, abs_mul, abs_mul, abs_mul, abs_of_pos (show 0 < η / κ + 1 by linarith), abs_of_pos (exp_pos _), abs_of_pos (exp_pos _)]
    have h4 : (η / κ + 1) * exp η * |math.erf ((η + κ) / √(2 * κ)) - errorFunction ((η + κ) / √(2 * κ))| ≤
        (η / κ + 1) * exp η * 3e-12 := mul_le_mul_of_nonneg_left a2 (by positivity)
    have h5 : |η / κ - 1| * exp (-η) * |math.erf ((η - κ) / √(2 * κ)) - errorFunction ((η - κ) / √(2 * κ))| ≤
        (η / κ + 1) * exp (-η) * 3e-12 := mul_le_mul (mul_le_mul_of_nonneg_right h3 (exp_pos _).le) a1 (abs_nonneg _) (by positivity)
    calc _ ≤ (η / κ + 1) * exp η * 3e-12 + (η / κ + 1) * exp (-η) * 3e-12 := add_le_add h4 h5
      _ = _ := by ring
  have hden : 4 * sinh η * (1 + η / κ) ≤ efjcDen κ η := by
    rw [efjcDen_eq]
    have h6 : η * sinh η ≤ η * cosh η := mul_le_mul_of_nonneg_left (sinh_lt_cosh η).le hη0.le
    have := div_le_div_of_nonneg_right h6 hκ.le
    have e : 4 * sinh η * (1 + η / κ) = 4 * sinh η + 4 * (η * sinh η / κ) := by ring
    rw [e, mul_div_assoc 4 (η * cosh η)]
    linarith
  set A := 1 / 2 + efjcNumTrue κ η / efjcDen κ η with hA
  set B := 1 / 2 + efjcNum κ η / efjcDen κ η with hB
  have hA0 : 1 / 2 ≤ A := by
    have h7 : 1 - exp (-κ / 2) / (2 * (κ + 1)) ≤ A := le_of_mul_le_mul_left z2 z0
    have h8 : exp (-κ / 2) / (2 * (κ + 1)) ≤ 1 / 2 := by
      have : exp (-κ / 2) ≤ 1 := exp_le_one_iff.2 (by linarith)
      rw [div_le_div_iff₀ (by positivity) (by norm_num)]
      linarith
    linarith
  have hAB : |B - A| ≤ 1.5e-12 / tanh η := by
    have e : B - A = (efjcNum κ η - efjcNumTrue κ η) / efjcDen κ η := by rw [hA, hB]; ring
    rw [e, abs_div, abs_of_pos hD0, tanh_eq_sinh_div_cosh, div_le_iff₀ hD0]
    refine hnum.trans ?_
    have := mul_le_mul_of_nonneg_left hden (show 0 ≤ 1.5e-12 / (sinh η / cosh η) by positivity)
    refine le_trans (le_of_eq ?_) this
    field_simp
    norm_num
  have hsmall : 1.5e-12 / tanh η ≤ 3e-6 := by
    rw [div_le_iff₀ ht]
    linarith [tanh_small hη]
  have hAp : 0 < A := by linarith
  have hlog := (log_close hA0 hAB (hsmall.trans (by norm_num))).2
  rw [show 8 / 3 * (1.5e-12 / tanh η) = 4e-12 / tanh η by ring, abs_le] at hlog
  have hfac : ∀ y, 0 < y → log (4 * π * ℓ ^ 3 * y * hingeFactor m T) = log (4 * π * ℓ ^ 3 * hingeFactor m T) + log y := by
    intro y hy
    rw [show 4 * π * ℓ ^ 3 * y * hingeFactor m T = 4 * π * ℓ ^ 3 * hingeFactor m T * y by ring, log_mul (by positivity) hy.ne']
  rw [hfac _ z0, hfac _ (by positivity), log_mul z0.ne' hAp.ne', abs_le]
  constructor <;> linarith [hlog.1, hlog.2]

/-! Cases that meet the hypotheses: the rest stiffness is `100` at a temperature where `kT = 8.314462618`. -/

example : (fjc_isotensional_gibbs 8 1 1).nd_energy_per_link 2 300 = -log (4 * π * 1 ^ 2 * directionAverage 2 * hingeFactor 1 300) :=
  C69_fjc_energy 8 one_pos one_pos two_ne_zero (by norm_num)

example : (swfjc_isotensional_lengths 8 1 1 (1 / 2)).nd_length_per_link 2 300 = linkExtension (squareWell (1 + 1 / 2 / 1)) 2 :=
  C69_swfjc_length 8 1 300 one_pos (by norm_num) two_pos

example : |(efjc_isotensional_gibbs 8 1 1 831.4462618).nd_energy_per_link 2 1 -
    -log (4 * π * 1 ^ 3 * linkPartition (fun s => exp (-harmonicEnergy (ndStiffness 831.4462618 1 1) s)) 2 * hingeFactor 1 1)| ≤
    4e-12 / tanh 2 :=
  C69_efjc_energy 8 one_pos one_pos (by norm_num) (by norm_num) one_pos (by unfold ndStiffness kT; norm_num)

end Polymers.Props
