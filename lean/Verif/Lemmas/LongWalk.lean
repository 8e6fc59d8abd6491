import Verif.Props.MonteCarloMean
import Verif.Props.Ideal
import Mathlib.Probability.CentralLimitTheorem
import Mathlib.MeasureTheory.Measure.LevyConvergence
import Mathlib.MeasureTheory.Measure.Portmanteau
import Mathlib.MeasureTheory.Constructions.HaarToSphere
import Mathlib.MeasureTheory.Measure.Lebesgue.VolumeOfBalls

/-!
The length of a long walk of independent isotropic steps follows the distribution of the ideal chain: the central limit theorem
in three dimensions, and from distribution functions to uniform convergence.
-/

namespace Polymers.Lemmas

open Polymers.Spec Polymers.Api Polymers.Props Set Filter Topology MeasureTheory ProbabilityTheory

/-- Monotone functions which converge to a continuous distribution function converge uniformly. -/
theorem uniform_of_pointwise {F : ℕ → ℝ → ℝ} {G : ℝ → ℝ} (hF : ∀ n, Monotone (F n)) (hF0 : ∀ n x, 0 ≤ F n x) (hF1 : ∀ n x, F n x ≤ 1)
    (hG : Continuous G) (hGm : Monotone G) (hG0 : ∀ x, 0 ≤ G x) (hG1 : ∀ x, G x ≤ 1) (hbot : Tendsto G atBot (𝓝 0))
    (htop : Tendsto G atTop (𝓝 1)) (h : ∀ x, Tendsto (fun n => F n x) atTop (𝓝 (G x))) {ε : ℝ} (hε : 0 < ε) :
    ∀ᶠ n in atTop, ∀ x, |F n x - G x| ≤ ε := by
  obtain ⟨K, hK⟩ := exists_nat_gt (4 / ε)
  have hK0 : (0 : ℝ) < K := lt_trans (by positivity) hK
  have hKε : 4 / (K : ℝ) ≤ ε := by
    rw [div_le_iff₀ hK0]
    rw [div_lt_iff₀ hε] at hK
    linarith
  have hx : ∀ k : ℕ, 0 < k → k < K → ∃ x, G x = k / K := fun k h0 h1 => by
    have h0' : (0 : ℝ) < k := Nat.cast_pos.2 h0
    have h1' : (k : ℝ) < K := Nat.cast_lt.2 h1
    obtain ⟨a, ha⟩ := (hbot.eventually (gt_mem_nhds (show (0 : ℝ) < k / K by positivity))).exists
    obtain ⟨b, hb⟩ := (htop.eventually (lt_mem_nhds (show (k : ℝ) / K < 1 by rw [div_lt_one hK0]; exact h1'))).exists
    exact mem_range_of_exists_le_of_exists_ge hG ⟨a, ha.le⟩ ⟨b, hb.le⟩
  choose! x hx using hx
  have hev : ∀ᶠ n in atTop, ∀ k ∈ Finset.range K, |F n (x k) - G (x k)| ≤ 1 / K := by
    rw [Finset.eventually_all]
    intro k _
    have := (h (x k)).sub_const (G (x k))
    rw [sub_self] at this
    have := this.abs
    rw [abs_zero] at this
    exact this.eventually_le_const (by positivity)
  refine hev.mono fun n hn y => ?_
  have hfl := Nat.floor_le (mul_nonneg hK0.le (hG0 y))
  have hfl2 := Nat.lt_floor_add_one (K * G y)
  set k := ⌊(K : ℝ) * G y⌋₊ with hk
  have hlow : (k : ℝ) / K ≤ G y := by rw [div_le_iff₀ hK0]; linarith
  have hup : G y < (k + 1) / K := by rw [lt_div_iff₀ hK0]; linarith
  have e1 : ∀ a : ℝ, a / K = a * (1 / K) := fun a => by ring
  rw [e1] at hlow hup hKε
  have hd : 0 < 1 / (K : ℝ) := by positivity
  generalize 1 / (K : ℝ) = δ at *
  have hKδ : G y ≤ 1 := hG1 y
  rw [abs_le]
  constructor
  · by_cases h2 : 2 ≤ k
    · have hk1 : k - 1 < K := by
        by_contra hc
        have : (K : ℝ) ≤ (k : ℝ) - 1 := by
          have : K + 1 ≤ k := by omega
          have := (Nat.cast_le (α := ℝ)).2 this
          push_cast at this
          linarith
        nlinarith
      have hxk := hx (k - 1) (by omega) hk1
      rw [e1, Nat.cast_sub (by omega), Nat.cast_one] at hxk
      have hlt : x (k - 1) ≤ y := by
        by_contra hc
        have := hGm (not_le.1 hc).le
        rw [hxk] at this
        nlinarith
      have h3 := hF n hlt
      have h4 := abs_le.1 (hn (k - 1) (Finset.mem_range.2 hk1))
      rw [hxk] at h4
      nlinarith [h4.1]
    · have : (k : ℝ) ≤ 1 := by exact_mod_cast (by omega : k ≤ 1)
      nlinarith [hF0 n y]
  · by_cases h2 : k + 1 < K
    · have hxk := hx (k + 1) (by omega) h2
      rw [e1] at hxk
      push_cast at hxk
      have hlt : y ≤ x (k + 1) := by
        by_contra hc
        have := hGm (not_le.1 hc).le
        rw [hxk] at this
        linarith
      have h3 := hF n hlt
      have h4 := abs_le.1 (hn (k + 1) (Finset.mem_range.2 h2))
      rw [hxk] at h4
      nlinarith [h4.2]
    · have h3 : (K : ℝ) ≤ k + 1 := by exact_mod_cast not_lt.1 h2
      have h4 : 1 ≤ ((k : ℝ) + 1) * δ := by
        have := hx
        have hKd : (K : ℝ) * δ = 1 := by
          have := e1 K
          rw [div_self hK0.ne'] at this
          exact this.symm
        nlinarith
      nlinarith [hF1 n y]

/-- Vectors of the code as points of space. -/
noncomputable def toPoint (v : V3 ℝ) : EuclideanSpace ℝ (Fin 3) := !₂[v.x, v.y, v.z]

/-- A point as a vector of the code. -/
noncomputable def ofPoint (t : EuclideanSpace ℝ (Fin 3)) : V3 ℝ := ⟨t 0, t 1, t 2⟩

theorem inner_toPoint (v : V3 ℝ) (t : EuclideanSpace ℝ (Fin 3)) : inner ℝ (toPoint v) t = dot (ofPoint t) v := by
  simp [toPoint, ofPoint, dot, PiLp.inner_apply, Fin.sum_univ_three]

theorem dot_ofPoint (t : EuclideanSpace ℝ (Fin 3)) : dot (ofPoint t) (ofPoint t) = ‖t‖ ^ 2 := by
  rw [EuclideanSpace.norm_sq_eq]
  simp only [ofPoint, dot, Fin.sum_univ_three, Real.norm_eq_abs, sq_abs]
  ring

theorem norm_toPoint (v : V3 ℝ) : ‖toPoint v‖ = v.norm := by
  rw [norm_eq, EuclideanSpace.norm_eq]
  congr 1
  simp only [toPoint, dot, Fin.sum_univ_three, Real.norm_eq_abs, sq_abs]
  simp
  ring

theorem measurable_toPoint : Measurable toPoint := by
  have : Measurable fun v : V3 ℝ => (![v.x, v.y, v.z] : Fin 3 → ℝ) := by
    refine measurable_pi_iff.2 fun i => ?_
    fin_cases i
    · exact measurable_x
    · exact measurable_y
    · exact measurable_z
  exact (MeasurableEquiv.toLp 2 (Fin 3 → ℝ)).measurable.comp this

/-- The ideal chain of one link, as a probability in space. -/
noncomputable def idealMeasure (ℓ : ℝ) : Measure (EuclideanSpace ℝ (Fin 3)) :=
  volume.withDensity fun x => ENNReal.ofReal ((ideal_isometric_distribution 1 ℓ 1).density ‖x‖)

theorem continuous_ideal_density {ℓ : ℝ} (hℓ : 0 < ℓ) : Continuous fun r => (ideal_isometric_distribution 1 ℓ 1).density r := by
  simp only [ideal_density_eq one_pos hℓ]
  fun_prop

theorem integrable_ideal {ℓ : ℝ} (hℓ : 0 < ℓ) :
    Integrable fun x : EuclideanSpace ℝ (Fin 3) => (ideal_isometric_distribution 1 ℓ 1).density ‖x‖ := by
  by_contra h
  have := C12_ideal_density_integral 1 ℓ 1 one_pos hℓ
  rw [integral_undef h] at this
  norm_num at this

theorem idealMeasure_probability {ℓ : ℝ} (hℓ : 0 < ℓ) : IsProbabilityMeasure (idealMeasure ℓ) := by
  constructor
  unfold idealMeasure
  rw [withDensity_apply _ MeasurableSet.univ, Measure.restrict_univ,
    ← ofReal_integral_eq_lintegral_ofReal (integrable_ideal hℓ) (ae_of_all _ fun x => (C12_ideal_density_pos 1 ℓ 1 _ one_pos hℓ).le),
    C12_ideal_density_integral 1 ℓ 1 one_pos hℓ, ENNReal.ofReal_one]

theorem charFun_idealMeasure {ℓ : ℝ} (hℓ : 0 < ℓ) (t : EuclideanSpace ℝ (Fin 3)) :
    charFun (idealMeasure ℓ) t = Complex.exp (-(ℓ ^ 2 / 3 * ‖t‖ ^ 2 / 2 : ℝ)) := by
  have hpi := Real.pi_pos
  have hb : (0 : ℝ) < 3 / (2 * (1 : ℕ) * ℓ ^ 2) := by positivity
  rw [charFun_apply]
  unfold idealMeasure
  rw [integral_withDensity_eq_integral_toReal_smul]
  · have e : ∀ x : EuclideanSpace ℝ (Fin 3), (ENNReal.ofReal ((ideal_isometric_distribution 1 ℓ 1).density ‖x‖)).toReal •
        Complex.exp (inner ℝ x t * Complex.I) = ((Real.pi / (3 / (2 * (1 : ℕ) * ℓ ^ 2)) : ℝ) ^ (-(3 / 2 : ℝ)) : ℝ) *
          Complex.exp (-((3 / (2 * (1 : ℕ) * ℓ ^ 2) : ℝ) : ℂ) * ‖x‖ ^ 2 + Complex.I * inner ℝ t x) := fun x => by
      rw [ENNReal.toReal_ofReal (C12_ideal_density_pos 1 ℓ 1 _ one_pos hℓ).le, ideal_density_eq one_pos hℓ, Complex.real_smul,
        Complex.ofReal_mul, Complex.ofReal_exp, mul_assoc, ← Complex.exp_add, real_inner_comm]
      congr 2
      push_cast
      ring
    simp only [e]
    rw [integral_const_mul, GaussianFourier.integral_cexp_neg_mul_sq_norm_add (by rw [Complex.ofReal_re]; exact hb)]
    rw [← mul_assoc, finrank_euclideanSpace, Fintype.card_fin]
    have h1 : (((Real.pi / (3 / (2 * (1 : ℕ) * ℓ ^ 2)) : ℝ) ^ (-(3 / 2 : ℝ)) : ℝ) : ℂ) *
        ((Real.pi : ℂ) / ((3 / (2 * (1 : ℕ) * ℓ ^ 2) : ℝ) : ℂ)) ^ ((3 : ℕ) / 2 : ℂ) = 1 := by
      rw [← Complex.ofReal_div, show ((3 : ℕ) / 2 : ℂ) = ((3 / 2 : ℝ) : ℂ) by push_cast; ring,
        ← Complex.ofReal_cpow (by positivity), ← Complex.ofReal_mul, ← Real.rpow_add (by positivity)]
      norm_num
    rw [h1, one_mul]
    congr 1
    rw [Complex.I_sq]
    push_cast
    have : (ℓ : ℂ) ≠ 0 := by exact_mod_cast hℓ.ne'
    field_simp
    ring
  · exact ((continuous_ideal_density hℓ).comp continuous_norm).measurable.ennreal_ofReal
  · exact ae_of_all _ fun x => ENNReal.ofReal_lt_top

theorem idealMeasure_sphere {ℓ : ℝ} (a : ℝ) : idealMeasure ℓ {x | ‖x‖ = a} = 0 := by
  refine withDensity_absolutelyContinuous _ _ ?_
  have : {x : EuclideanSpace ℝ (Fin 3) | ‖x‖ = a} = Metric.sphere 0 a := by ext x; simp
  rw [this]
  exact Measure.addHaar_sphere _ _ _

section walk
variable {Ω : Type*} [MeasurableSpace Ω] {P : Measure Ω} {X : ℕ → Ω → V3 ℝ}

omit [MeasurableSpace Ω] in
theorem dot_walkEnd_sum (N : ℕ) (ω : Ω) (h : V3 ℝ) :
    dot h (walkEnd V3.zero ((List.range N).map fun i => X i ω)) = ∑ i ∈ Finset.range N, dot h (X i ω) := by
  rw [dot_walkEnd, List.map_map, Finset.sum_range, ← List.sum_ofFn]
  have : dot h V3.zero = 0 := by unfold dot V3.zero; norm_num
  rw [this, zero_add]
  congr 1
  rw [List.ofFn_eq_map, ← List.map_coe_finRange_eq_range, List.map_map]
  rfl

theorem measurable_walkEnd (hm : ∀ i, Measurable (X i)) (N : ℕ) :
    Measurable fun ω => walkEnd V3.zero ((List.range N).map fun i => X i ω) := by
  have h : ∀ a : V3 ℝ, Measurable fun ω => dot a (walkEnd V3.zero ((List.range N).map fun i => X i ω)) := fun a => by
    simp only [dot_walkEnd_sum]
    exact Finset.measurable_sum _ fun i _ => measurable_dot measurable_const (hm i)
  exact measurable_v3.2 ⟨by simpa [dot] using h ⟨1, 0, 0⟩, by simpa [dot] using h ⟨0, 1, 0⟩, by simpa [dot] using h ⟨0, 0, 1⟩⟩

theorem measurable_scaled (hm : ∀ i, Measurable (X i)) (N : ℕ) :
    Measurable fun ω => (√N)⁻¹ • toPoint (walkEnd V3.zero ((List.range N).map fun i => X i ω)) := by
  have h : Measurable fun ω => toPoint (walkEnd V3.zero ((List.range N).map fun i => X i ω)) :=
    measurable_toPoint.comp (measurable_walkEnd hm N)
  exact h.const_smul ((√N)⁻¹)

/-- The step distribution of a walk: independent steps of mean zero, with the same mean square in all directions. -/
structure IsotropicSteps (P : Measure Ω) (X : ℕ → Ω → V3 ℝ) (ℓ : ℝ) : Prop where
  measurable : ∀ i, Measurable (X i)
  independent : iIndepFun X P
  same : ∀ i, IdentDistrib (X i) (X 0) P P
  mean : ∀ h, ∫ ω, dot h (X 0 ω) ∂P = 0
  integrable : ∀ h, Integrable (fun ω => dot h (X 0 ω) ^ 2) P
  square : ∀ h, ∫ ω, dot h (X 0 ω) ^ 2 ∂P = ℓ ^ 2 / 3 * dot h h

/-- The central limit theorem in space. -/
theorem walk_charFun {ℓ : ℝ} (hX : IsotropicSteps P X ℓ) (t : EuclideanSpace ℝ (Fin 3)) :
    Tendsto (fun N : ℕ => charFun (P.map fun ω => (√N)⁻¹ • toPoint (walkEnd V3.zero ((List.range N).map fun i => X i ω))) t) atTop
      (𝓝 (Complex.exp (-(ℓ ^ 2 / 3 * ‖t‖ ^ 2 / 2 : ℝ)))) := by
  have : IsProbabilityMeasure P := hX.independent.isProbabilityMeasure
  set h := ofPoint t with hh
  have hm : Measurable fun v : V3 ℝ => dot h v := measurable_dot measurable_const measurable_id
  set Y : ℕ → Ω → ℝ := fun i ω => dot h (X i ω) with hY
  have hYm : ∀ i, Measurable (Y i) := fun i => hm.comp (hX.measurable i)
  have hmean : P[Y 0] = 0 := hX.mean h
  have hvar : Var[Y 0; P] = ℓ ^ 2 / 3 * ‖t‖ ^ 2 := by
    rw [variance_eq_sub, hmean]
    · simp only [hY, Pi.pow_apply]
      rw [hX.square h, hh, dot_ofPoint]
      ring
    · exact (memLp_two_iff_integrable_sq (hYm 0).aestronglyMeasurable).2 (hX.integrable h)
  have hclt := tendstoInDistribution_inv_sqrt_mul_sum_sub (P := P) (P' := gaussianReal 0 Var[Y 0; P].toNNReal) (Y := id) (X := Y)
    ⟨aemeasurable_id, Measure.map_id⟩
    ((memLp_two_iff_integrable_sq (hYm 0).aestronglyMeasurable).2 (hX.integrable h))
    (hX.independent.comp (fun _ v => dot h v) fun _ => hm) (fun i => (hX.same i).comp hm)
  have hcf := ProbabilityMeasure.tendsto_iff_tendsto_charFun.1 hclt.tendsto 1
  simp only [ProbabilityMeasure.coe_mk, Measure.map_id] at hcf
  rw [charFun_gaussianReal, hvar] at hcf
  have e1 : Complex.exp (-(ℓ ^ 2 / 3 * ‖t‖ ^ 2 / 2 : ℝ)) =
      Complex.exp ((1 : ℝ) * (0 : ℝ) * Complex.I - ((ℓ ^ 2 / 3 * ‖t‖ ^ 2).toNNReal : ℝ) * (1 : ℝ) ^ 2 / 2) := by
    rw [Real.coe_toNNReal _ (by positivity)]
    congr 1
    push_cast
    ring
  rw [e1]
  refine hcf.congr fun N => ?_
  rw [charFun_apply, charFun_apply, integral_map, integral_map]
  · refine integral_congr_ae (ae_of_all _ fun ω => ?_)
    simp only [inner_smul_left, inner_toPoint, ← hh, dot_walkEnd_sum, hmean]
    simp [hY]
  · exact (measurable_scaled hX.measurable N).aemeasurable
  · exact (Continuous.aestronglyMeasurable (by fun_prop))
  · exact (((Finset.measurable_sum _ fun i _ => hYm i).sub measurable_const).const_mul _).aemeasurable
  · exact (Continuous.aestronglyMeasurable (by fun_prop))

theorem walk_annulus {ℓ : ℝ} (hℓ : 0 < ℓ) (hX : IsotropicSteps P X ℓ) {S : Set ℝ} (hS : MeasurableSet S) {a : ℝ} (hf : frontier S ⊆ {a}) :
    Tendsto (fun N : ℕ => P.real {ω | (√N)⁻¹ * (walkEnd V3.zero ((List.range N).map fun i => X i ω)).norm ∈ S}) atTop
      (𝓝 ((idealMeasure ℓ).real {x | ‖x‖ ∈ S})) := by
  have : IsProbabilityMeasure P := hX.independent.isProbabilityMeasure
  have := idealMeasure_probability hℓ
  have hm : ∀ N : ℕ, Measurable fun ω => (√N)⁻¹ • toPoint (walkEnd V3.zero ((List.range N).map fun i => X i ω)) := fun N =>
    measurable_scaled hX.measurable N
  let M : ℕ → ProbabilityMeasure (EuclideanSpace ℝ (Fin 3)) := fun N =>
    ⟨P.map fun ω => (√N)⁻¹ • toPoint (walkEnd V3.zero ((List.range N).map fun i => X i ω)),
      Measure.isProbabilityMeasure_map (hm N).aemeasurable⟩
  let M₀ : ProbabilityMeasure (EuclideanSpace ℝ (Fin 3)) := ⟨idealMeasure ℓ, this⟩
  have hlim : Tendsto M atTop (𝓝 M₀) := by
    refine ProbabilityMeasure.tendsto_iff_tendsto_charFun.2 fun t => ?_
    simp only [M, M₀, ProbabilityMeasure.coe_mk]
    rw [charFun_idealMeasure hℓ]
    exact walk_charFun hX t
  have hSm : MeasurableSet {x : EuclideanSpace ℝ (Fin 3) | ‖x‖ ∈ S} := measurable_norm hS
  have h := ProbabilityMeasure.tendsto_measure_of_null_frontier_of_tendsto' hlim (E := {x | ‖x‖ ∈ S}) (by
    refine measure_mono_null ((continuous_norm.frontier_preimage_subset S).trans ?_) (idealMeasure_sphere (ℓ := ℓ) a)
    exact fun x hx => hf hx)
  have h' := (ENNReal.tendsto_toReal (measure_ne_top (idealMeasure ℓ) {x | ‖x‖ ∈ S})).comp h
  refine h'.congr fun N => ?_
  simp only [Function.comp, M, ProbabilityMeasure.coe_mk]
  rw [Measure.map_apply (hm N) hSm, measureReal_def]
  congr 2
  ext ω
  simp only [mem_preimage, mem_ofPred_eq, norm_smul, norm_toPoint, norm_inv, Real.norm_eq_abs, abs_of_nonneg (Real.sqrt_nonneg _)]

theorem ideal_radial_eq {N : ℕ} (hN : 0 < N) {ℓ : ℝ} (hℓ : 0 < ℓ) (m r : ℝ) : (ideal_isometric_distribution N ℓ m).radial r =
    4 * Real.pi * r ^ 2 * ((Real.pi / (3 / (2 * N * ℓ ^ 2))) ^ (-(3 / 2 : ℝ)) * Real.exp (-(3 / (2 * N * ℓ ^ 2)) * r ^ 2)) := by
  rw [(C12_ideal_distribution_scales N ℓ m hN hℓ).radial r, ideal_density_eq hN hℓ]

/-- The ideal chain of many links is that of one link, scaled. -/
theorem ideal_radial_scale {N : ℕ} (hN : 0 < N) {ℓ : ℝ} (hℓ : 0 < ℓ) (m r : ℝ) :
    √N * (ideal_isometric_distribution N ℓ m).radial (√N * r) = (ideal_isometric_distribution 1 ℓ 1).radial r := by
  have hN' := (Nat.cast_pos (α := ℝ)).2 hN
  have hpi := Real.pi_pos
  have hs : √(N : ℝ) ^ 2 = N := Real.sq_sqrt hN'.le
  have hs0 : 0 < √(N : ℝ) := Real.sqrt_pos.2 hN'
  rw [ideal_radial_eq hN hℓ, ideal_radial_eq one_pos hℓ]
  have e1 : Real.pi / (3 / (2 * N * ℓ ^ 2)) = √N ^ (2 : ℝ) * (Real.pi / (3 / (2 * (1 : ℕ) * ℓ ^ 2))) := by
    rw [Real.rpow_two, hs]; push_cast; field_simp
  have e2 : -(3 / (2 * N * ℓ ^ 2)) * (√N * r) ^ 2 = -(3 / (2 * (1 : ℕ) * ℓ ^ 2)) * r ^ 2 := by
    rw [mul_pow, hs]; push_cast; field_simp
  rw [e1, e2, Real.mul_rpow (by positivity) (by positivity), ← Real.rpow_mul hs0.le]
  have e3 : √(N : ℝ) ^ ((2 : ℝ) * -(3 / 2)) = (√N ^ 3)⁻¹ := by
    rw [show (2 : ℝ) * -(3 / 2) = -((3 : ℕ) : ℝ) by norm_num, Real.rpow_neg hs0.le, Real.rpow_natCast]
  rw [e3]
  field_simp

/-- The radial distribution is the probability of a length. -/
theorem ideal_annulus {ℓ : ℝ} (hℓ : 0 < ℓ) {a b : ℝ} (ha : 0 ≤ a) (hab : a ≤ b) :
    (idealMeasure ℓ).real {x | ‖x‖ ∈ Icc a b} = ∫ r in a..b, (ideal_isometric_distribution 1 ℓ 1).radial r := by
  have hm : MeasurableSet {x : EuclideanSpace ℝ (Fin 3) | ‖x‖ ∈ Icc a b} := measurable_norm measurableSet_Icc
  rw [measureReal_def]
  unfold idealMeasure
  rw [withDensity_apply _ hm, ← ofReal_integral_eq_lintegral_ofReal (integrable_ideal hℓ).integrableOn
    (ae_of_all _ fun x => (C12_ideal_density_pos 1 ℓ 1 _ one_pos hℓ).le),
    ENNReal.toReal_ofReal (integral_nonneg fun x => (C12_ideal_density_pos 1 ℓ 1 _ one_pos hℓ).le), ← integral_indicator hm]
  have e : ∀ x : EuclideanSpace ℝ (Fin 3), indicator {x : EuclideanSpace ℝ (Fin 3) | ‖x‖ ∈ Icc a b}
      (fun x => (ideal_isometric_distribution 1 ℓ 1).density ‖x‖) x =
      (Icc a b).indicator (fun r => (ideal_isometric_distribution 1 ℓ 1).density r) ‖x‖ := fun x => by
    simp only [indicator, mem_ofPred_eq]
  simp only [e]
  rw [integral_fun_norm_addHaar volume (fun r => (Icc a b).indicator (fun r => (ideal_isometric_distribution 1 ℓ 1).density r) r),
    measureReal_def, EuclideanSpace.volume_ball_fin_three, finrank_euclideanSpace, Fintype.card_fin]
  have e2 : ∀ r : ℝ, r ^ (3 - 1) • (Icc a b).indicator (fun r => (ideal_isometric_distribution 1 ℓ 1).density r) r =
      (Icc a b).indicator (fun r => r ^ 2 * (ideal_isometric_distribution 1 ℓ 1).density r) r := fun r => by
    simp only [indicator]; split_ifs <;> simp
  simp only [e2]
  rw [setIntegral_indicator measurableSet_Icc, intervalIntegral.integral_of_le hab]
  have e3 : ∫ r in Ioi 0 ∩ Icc a b, r ^ 2 * (ideal_isometric_distribution 1 ℓ 1).density r =
      ∫ r in Ioc a b, r ^ 2 * (ideal_isometric_distribution 1 ℓ 1).density r := by
    refine setIntegral_congr_set ?_
    have h1 : (Ioi 0 ∩ Icc a b : Set ℝ) =ᵐ[volume] (Ioi 0 ∩ Ioc a b : Set ℝ) := (ae_eq_refl _).inter Ioc_ae_eq_Icc.symm
    refine h1.trans (Eventually.of_forall fun r => ?_)
    have : (Ioi 0 ∩ Ioc a b : Set ℝ) = Ioc a b := inter_eq_right.2 fun r hr => lt_of_le_of_lt ha hr.1
    rw [this]
  rw [e3]
  simp only [(C12_ideal_distribution_scales 1 ℓ 1 one_pos hℓ).radial]
  have e4 : ∀ r : ℝ, 4 * Real.pi * r ^ 2 * (ideal_isometric_distribution 1 ℓ 1).density r =
      4 * Real.pi * (r ^ 2 * (ideal_isometric_distribution 1 ℓ 1).density r) := fun r => by ring
  simp only [e4]
  rw [integral_const_mul]
  have hpi := Real.pi_pos
  rw [ENNReal.toReal_mul, ENNReal.toReal_pow, ENNReal.toReal_ofReal zero_le_one, ENNReal.toReal_ofReal (by positivity)]
  simp only [nsmul_eq_mul, smul_eq_mul]
  push_cast
  ring

theorem frontier_subset_Iic (a : ℝ) : frontier (Iic a) ⊆ {a} := by rw [frontier_Iic]

theorem frontier_subset_Iio (a : ℝ) : frontier (Iio a) ⊆ {a} := by rw [frontier_Iio]

/-- The length of a long walk is that of the ideal chain, up to an error that is small for all intervals at once. -/
theorem walk_uniform {ℓ : ℝ} (hℓ : 0 < ℓ) (hX : IsotropicSteps P X ℓ) (m : ℝ) {ε : ℝ} (hε : 0 < ε) :
    ∀ᶠ N : ℕ in atTop, ∀ x y, 0 ≤ x → x ≤ y →
      |P.real {ω | (walkEnd V3.zero ((List.range N).map fun i => X i ω)).norm ∈ Icc x y} -
        ∫ r in x..y, (ideal_isometric_distribution N ℓ m).radial r| ≤ ε := by
  have : IsProbabilityMeasure P := hX.independent.isProbabilityMeasure
  have := idealMeasure_probability hℓ
  set W : ℕ → Ω → ℝ := fun N ω => (walkEnd V3.zero ((List.range N).map fun i => X i ω)).norm with hW
  have hWm : ∀ N, Measurable (W N) := fun N => by
    have h : Measurable fun ω => ‖toPoint (walkEnd V3.zero ((List.range N).map fun i => X i ω))‖ :=
      (measurable_toPoint.comp (measurable_walkEnd hX.measurable N)).norm
    simp only [norm_toPoint] at h
    exact h
  set G : ℝ → ℝ := fun a => (idealMeasure ℓ).real {x | ‖x‖ ∈ Iic a} with hG
  have hGlt : ∀ a, (idealMeasure ℓ).real {x | ‖x‖ ∈ Iio a} = G a := fun a => by
    refine le_antisymm (measureReal_mono (fun x (hx : ‖x‖ < a) => (hx.le : ‖x‖ ≤ a)) (measure_ne_top _ _)) ?_
    have h1 : {x : EuclideanSpace ℝ (Fin 3) | ‖x‖ ∈ Iic a} ⊆ {x | ‖x‖ ∈ Iio a} ∪ {x | ‖x‖ = a} := fun x hx =>
      (lt_or_eq_of_le (show ‖x‖ ≤ a from hx))
    have h2 := (measureReal_mono h1 (measure_ne_top (idealMeasure ℓ) _)).trans (measureReal_union_le _ _)
    have h3 : (idealMeasure ℓ).real {x | ‖x‖ = a} = 0 := by rw [measureReal_def, idealMeasure_sphere, ENNReal.toReal_zero]
    rw [h3, add_zero] at h2
    exact h2
  have hcont : Continuous fun r => (ideal_isometric_distribution 1 ℓ 1).radial r := by
    simp only [ideal_radial_eq one_pos hℓ]
    fun_prop
  have hGH : ∀ a, 0 ≤ a → G a = ∫ r in (0 : ℝ)..a, (ideal_isometric_distribution 1 ℓ 1).radial r := fun a ha => by
    rw [← ideal_annulus hℓ le_rfl ha]
    simp only [hG]
    congr 1
    ext x
    simp
  have hGneg : ∀ a, a ≤ 0 → G a = 0 := fun a ha => by
    refine le_antisymm ?_ measureReal_nonneg
    have h1 : G a ≤ G 0 := measureReal_mono (fun x hx => le_trans hx ha) (measure_ne_top _ _)
    rw [hGH 0 le_rfl, intervalIntegral.integral_same] at h1
    exact h1
  have hGc : Continuous G := by
    have e : G = fun a => ∫ r in (0 : ℝ)..max a 0, (ideal_isometric_distribution 1 ℓ 1).radial r := funext fun a => by
      rcases le_total a 0 with ha | ha
      · rw [hGneg a ha, max_eq_right ha, intervalIntegral.integral_same]
      · rw [hGH a ha, max_eq_left ha]
    rw [e]
    exact (intervalIntegral.continuous_primitive (fun a b => hcont.intervalIntegrable a b) 0).comp (continuous_id.max continuous_const)
  have hGm : Monotone G := fun a b hab => measureReal_mono (fun x hx => le_trans hx hab) (measure_ne_top _ _)
  have hGbot : Tendsto G atBot (𝓝 0) :=
    tendsto_const_nhds.congr' ((eventually_le_atBot 0).mono fun a ha => (hGneg a ha).symm)
  have hint : IntegrableOn (fun r => (ideal_isometric_distribution 1 ℓ 1).radial r) (Ioi 0) := by
    by_contra h
    have := C12_ideal_radial_integral 1 ℓ 1 one_pos hℓ
    rw [integral_undef h] at this
    norm_num at this
  have hGtop : Tendsto G atTop (𝓝 1) := by
    have h := intervalIntegral_tendsto_integral_Ioi 0 hint tendsto_id
    rw [C12_ideal_radial_integral 1 ℓ 1 one_pos hℓ] at h
    exact h.congr' ((eventually_ge_atTop 0).mono fun a ha => (hGH a ha).symm)
  have hP : ∀ s : Set Ω, P.real s ≤ 1 := fun s => measureReal_le_one
  have u1 := uniform_of_pointwise (F := fun N a => P.real {ω | (√N)⁻¹ * W N ω ∈ Iic a}) (G := G)
    (fun N a b hab => measureReal_mono (fun x hx => le_trans hx hab) (measure_ne_top _ _)) (fun _ _ => measureReal_nonneg)
    (fun _ _ => hP _) hGc hGm (fun _ => measureReal_nonneg) (fun _ => measureReal_le_one) hGbot hGtop
    (fun a => walk_annulus hℓ hX measurableSet_Iic (frontier_subset_Iic a)) (half_pos hε)
  have u2 := uniform_of_pointwise (F := fun N a => P.real {ω | (√N)⁻¹ * W N ω ∈ Iio a}) (G := G)
    (fun N a b hab => measureReal_mono (fun x hx => lt_of_lt_of_le hx hab) (measure_ne_top _ _)) (fun _ _ => measureReal_nonneg)
    (fun _ _ => hP _) hGc hGm (fun _ => measureReal_nonneg) (fun _ => measureReal_le_one) hGbot hGtop
    (fun a => by rw [← hGlt a]; exact walk_annulus hℓ hX measurableSet_Iio (frontier_subset_Iio a)) (half_pos hε)
  filter_upwards [u1, u2, eventually_gt_atTop 0] with N h1 h2 hN x y hx hxy
  have hs0 : 0 < √(N : ℝ) := Real.sqrt_pos.2 (Nat.cast_pos.2 hN)
  have h1 := h1 ((√N)⁻¹ * y)
  have h2 := h2 ((√N)⁻¹ * x)
  have hi0 : 0 < (√(N : ℝ))⁻¹ := inv_pos.2 hs0
  simp only [mem_Iic, mem_Iio, mul_le_mul_iff_right₀ hi0, mul_lt_mul_iff_right₀ hi0] at h1 h2
  have e1 : P.real {ω | W N ω ∈ Icc x y} = P.real {ω | W N ω ≤ y} - P.real {ω | W N ω < x} := by
    have hsub : {ω | W N ω < x} ⊆ {ω | W N ω ≤ y} := fun ω (h : W N ω < x) => (h.le.trans hxy : W N ω ≤ y)
    rw [← measureReal_sdiff hsub (measurableSet_lt (hWm N) measurable_const)]
    congr 1
    ext ω
    simp only [mem_Icc, mem_ofPred_eq, Set.mem_sdiff, not_lt]
    tauto
  have e2 : ∫ r in x..y, (ideal_isometric_distribution N ℓ m).radial r = G ((√N)⁻¹ * y) - G ((√N)⁻¹ * x) := by
    have hy : 0 ≤ y := hx.trans hxy
    rw [hGH _ (by positivity), hGH _ (by positivity),
      intervalIntegral.integral_interval_sub_left (hcont.intervalIntegrable _ _) (hcont.intervalIntegrable _ _)]
    simp only [← ideal_radial_scale hN hℓ m]
    rw [intervalIntegral.integral_const_mul, intervalIntegral.mul_integral_comp_mul_left, mul_inv_cancel_left₀ hs0.ne',
      mul_inv_cancel_left₀ hs0.ne']
  rw [e1, e2]
  rw [abs_le] at h1 h2 ⊢
  constructor <;> linarith [h1.1, h1.2, h2.1, h2.2]

end walk

end Polymers.Lemmas
