import Verif.Spec.RandomDraws
import Verif.Lemmas.RadialUniqueness
import Verif.Lemmas.SphereAverage
import Verif.Props.EnsembleTransform
import Verif.Props.MonteCarlo
import Mathlib.Probability.Independence.InfinitePi
import Mathlib.Probability.StrongLaw

/-!
C88: with an ideal generator, the Monte Carlo sampling of the freely jointed chain follows the exact distribution.
-/

namespace Polymers.Props

open Polymers.Spec Polymers.Api Polymers.Lemmas Set Filter Topology MeasureTheory ProbabilityTheory
open fjc.thermodynamics.isometric.monte_carlo

instance : IsProbabilityMeasure uniformNumber := ⟨by simp [uniformNumber]⟩

instance : IsProbabilityMeasure uniformPair := by unfold uniformPair; infer_instance

theorem link_real (d : ℝ × ℝ) : link d = ⟨Real.sin (Real.arccos (1 - 2 * d.2)) * Real.cos (2 * Real.pi * d.1),
    Real.sin (Real.arccos (1 - 2 * d.2)) * Real.sin (2 * Real.pi * d.1), Real.cos (Real.arccos (1 - 2 * d.2))⟩ := by
  unfold link TWO_PI
  simp only [model_real]

theorem dot_link_self (d : ℝ × ℝ) : dot (link d) (link d) = 1 := by
  rw [link_real]
  unfold dot
  have h1 := Real.sin_sq_add_cos_sq (Real.arccos (1 - 2 * d.2))
  have h2 := Real.sin_sq_add_cos_sq (2 * Real.pi * d.1)
  simp only
  linear_combination h1 + Real.sin (Real.arccos (1 - 2 * d.2)) ^ 2 * h2

theorem continuous_dot_link (h : V3 ℝ) : Continuous fun d : ℝ × ℝ => dot h (link d) := by
  simp only [link_real, dot]
  fun_prop

theorem continuous_exp_dot_link (h : V3 ℝ) : Continuous fun d : ℝ × ℝ => Real.exp (dot h (link d)) :=
  Real.continuous_exp.comp (continuous_dot_link h)

theorem integral_uniformPair {f : ℝ × ℝ → ℝ} (hf : Continuous f) :
    ∫ d, f d ∂uniformPair = ∫ u in (0 : ℝ)..1, ∫ v in (0 : ℝ)..1, f (u, v) := by
  have hi : Integrable f uniformPair := by
    unfold uniformPair uniformNumber
    rw [Measure.prod_restrict]
    exact hf.continuousOn.integrableOn_compact (isCompact_Icc.prod isCompact_Icc)
  unfold uniformPair uniformNumber at hi ⊢
  rw [integral_prod _ hi, integral_Icc_eq_integral_Ioc, intervalIntegral.integral_of_le zero_le_one]
  refine integral_congr_ae (ae_of_all _ fun u => ?_)
  simp only
  rw [integral_Icc_eq_integral_Ioc, intervalIntegral.integral_of_le zero_le_one]

/-- One link is uniform on the sphere. -/
theorem link_average (h : V3 ℝ) : ∫ d, Real.exp (dot h (link d)) ∂uniformPair = directionAverage h.norm := by
  rw [integral_uniformPair (continuous_exp_dot_link h)]
  have := sphere_average h.x h.y h.z
  rw [norm_eq, dot]
  simp only [link_real, dot]
  rw [show h.x * h.x + h.y * h.y + h.z * h.z = h.x ^ 2 + h.y ^ 2 + h.z ^ 2 by ring, ← this]

/-- The end of a chain. -/
noncomputable def fjcEnd (N : ℕ) (draw : ℕ → ℝ × ℝ) : V3 ℝ := walkEnd V3.zero ((List.range N).map fun i => link (draw i))

theorem dot_walkEnd (h p : V3 ℝ) (rs : List (V3 ℝ)) : dot h (walkEnd p rs) = dot h p + (rs.map (dot h)).sum := by
  induction rs generalizing p with
  | nil => simp [walkEnd]
  | cons r rs ih =>
    rw [walkEnd, ih, List.map_cons, List.sum_cons, ← add_assoc]
    congr 1
    unfold dot V3.add
    simp only
    ring

theorem dot_fjcEnd (N : ℕ) (draw : ℕ → ℝ × ℝ) (h : V3 ℝ) : dot h (fjcEnd N draw) = ∑ i ∈ Finset.range N, dot h (link (draw i)) := by
  unfold fjcEnd
  rw [dot_walkEnd, List.map_map, Finset.sum_range, ← List.sum_ofFn]
  have : dot h V3.zero = 0 := by unfold dot V3.zero; norm_num
  rw [this, zero_add]
  congr 1
  rw [List.ofFn_eq_map, ← List.map_coe_finRange_eq_range, List.map_map]
  rfl

theorem fjcEnd_getLast {N : ℕ} (hN : 0 < N) (draw : ℕ → ℝ × ℝ) : (random_configuration N draw).getLast? = some (fjcEnd N draw) := by
  unfold random_configuration
  rw [fjc_configuration, walk_getLast _ _ (by simp; omega)]
  rfl

theorem fjcEnd_norm {N : ℕ} (hN : 0 < N) (draw : ℕ → ℝ × ℝ) :
    random_nondimensional_end_to_end_length N draw = (fjcEnd N draw).norm := by
  unfold random_nondimensional_end_to_end_length last_norm
  rw [fjcEnd_getLast hN]

theorem fjcEnd_norm_le (N : ℕ) (draw : ℕ → ℝ × ℝ) : (fjcEnd N draw).norm ≤ N := by
  unfold fjcEnd
  refine (walkEnd_norm_le _ _).trans ?_
  rw [zero_norm, zero_add, List.map_map]
  have : (List.range N).map (V3.norm ∘ fun i => link (draw i)) = (List.range N).map fun _ => (1 : ℝ) := by
    refine List.map_congr_left fun i _ => ?_
    simp only [Function.comp]
    rw [norm_eq, dot_link_self, Real.sqrt_one]
  rw [this]
  simp

section law
variable {Ω : Type*} [MeasurableSpace Ω] {P : Measure Ω} {draw : Ω → ℕ → ℝ × ℝ}

theorem measurable_dot_fjcEnd (hd : ∀ i, Measurable fun ω => draw ω i) (N : ℕ) (h : V3 ℝ) :
    Measurable fun ω => dot h (fjcEnd N (draw ω)) := by
  simp only [dot_fjcEnd]
  exact Finset.measurable_sum _ fun i _ => (continuous_dot_link h).measurable.comp (hd i)

theorem measurable_norm_fjcEnd (hd : ∀ i, Measurable fun ω => draw ω i) (N : ℕ) :
    Measurable fun ω => (fjcEnd N (draw ω)).norm := by
  have hX : ∀ h, Measurable fun ω => dot h (fjcEnd N (draw ω)) := measurable_dot_fjcEnd hd N
  have hx : Measurable fun ω => (fjcEnd N (draw ω)).x := by simpa [dot] using hX ⟨1, 0, 0⟩
  have hy : Measurable fun ω => (fjcEnd N (draw ω)).y := by simpa [dot] using hX ⟨0, 1, 0⟩
  have hz : Measurable fun ω => (fjcEnd N (draw ω)).z := by simpa [dot] using hX ⟨0, 0, 1⟩
  simp only [norm_eq, dot]
  exact (((hx.mul hx).add (hy.mul hy)).add (hz.mul hz)).sqrt

/-- The mean of `exp (h · R)` over the configurations. -/
theorem fjc_moment (hd : UniformDraws P draw) (N : ℕ) (h : V3 ℝ) :
    ∫ ω, Real.exp (dot h (fjcEnd N (draw ω))) ∂P = directionAverage h.norm ^ N := by
  have hi : iIndepFun (fun i ω => dot h (link (draw ω i))) P :=
    hd.independent.comp (fun _ d => dot h (link d)) fun _ => (continuous_dot_link h).measurable
  have hm := hi.mgf_sum (t := 1) (fun i => (continuous_dot_link h).measurable.comp (hd.measurable i)) (Finset.range N)
  have h1 : ∀ i, mgf (fun ω => dot h (link (draw ω i))) P 1 = directionAverage h.norm := fun i => by
    unfold mgf
    simp only [one_mul]
    rw [← link_average, ← hd.uniform i, integral_map (hd.measurable i).aemeasurable
      (continuous_exp_dot_link h).aestronglyMeasurable]
  simp only [h1, Finset.prod_const, Finset.card_range] at hm
  rw [← hm]
  unfold mgf
  simp only [dot_fjcEnd, Finset.sum_apply, one_mul]

/-- The mean over the directions of a vector of length `a`. -/
theorem fjc_radial_moment (hd : UniformDraws P draw) (N : ℕ) (a : ℝ) :
    ∫ ω, directionAverage (a * (fjcEnd N (draw ω)).norm) ∂P = directionAverage a ^ N := by
  have : IsProbabilityMeasure P := hd.independent.isProbabilityMeasure
  have hX : ∀ h, Measurable fun ω => dot h (fjcEnd N (draw ω)) := measurable_dot_fjcEnd hd.measurable N
  have hx : Measurable fun ω => (fjcEnd N (draw ω)).x := by simpa [dot] using hX ⟨1, 0, 0⟩
  have hy : Measurable fun ω => (fjcEnd N (draw ω)).y := by simpa [dot] using hX ⟨0, 1, 0⟩
  have hz : Measurable fun ω => (fjcEnd N (draw ω)).z := by simpa [dot] using hX ⟨0, 0, 1⟩
  have habs : ∀ h : V3 ℝ, directionAverage |h.norm| = directionAverage h.norm := fun h => by
    rw [abs_of_nonneg]; exact Real.sqrt_nonneg _
  have he : ∀ b : ℝ, directionAverage |b| = directionAverage b := fun b => by
    rcases eq_or_ne b 0 with rfl | hb
    · simp
    · rw [directionAverage_eq hb, directionAverage_eq (abs_ne_zero.2 hb)]
      rcases abs_choice b with h | h <;> rw [h]
      rw [Real.sinh_neg, neg_div_neg_eq]
  have hsc : ∀ (c : ℝ) (v : V3 ℝ), (⟨c * v.x, c * v.y, c * v.z⟩ : V3 ℝ).norm = |c| * v.norm := fun c v => by
    rw [norm_eq, norm_eq, ← Real.sqrt_sq_eq_abs, ← Real.sqrt_mul (sq_nonneg c)]
    unfold dot
    congr 1
    simp only
    ring
  have h1 : ∀ ω, directionAverage (a * (fjcEnd N (draw ω)).norm) =
      ∫ d, Real.exp (a * dot (fjcEnd N (draw ω)) (link d)) ∂uniformPair := fun ω => by
    have := link_average ⟨a * (fjcEnd N (draw ω)).x, a * (fjcEnd N (draw ω)).y, a * (fjcEnd N (draw ω)).z⟩
    rw [hsc] at this
    rw [← he, abs_mul, abs_of_nonneg (show 0 ≤ (fjcEnd N (draw ω)).norm from Real.sqrt_nonneg _), ← this]
    refine integral_congr_ae (ae_of_all _ fun d => ?_)
    simp only
    congr 1
    unfold dot
    simp only
    ring
  have h2 : ∀ d, ∫ ω, Real.exp (a * dot (fjcEnd N (draw ω)) (link d)) ∂P = directionAverage a ^ N := fun d => by
    have := fjc_moment hd N ⟨a * (link d).x, a * (link d).y, a * (link d).z⟩
    rw [hsc, norm_eq, dot_link_self, Real.sqrt_one, mul_one, he] at this
    rw [← this]
    refine integral_congr_ae (ae_of_all _ fun ω => ?_)
    simp only
    congr 1
    unfold dot
    simp only
    ring
  simp only [h1]
  rw [integral_integral_swap]
  · simp only [h2, integral_const, probReal_univ, one_smul]
  · refine Integrable.of_bound (Measurable.aestronglyMeasurable ?_) (Real.exp (|a| * N)) (ae_of_all _ fun p => ?_)
    · have hl : ∀ h, Measurable fun p : Ω × (ℝ × ℝ) => dot h (link p.2) := fun h => (continuous_dot_link h).measurable.comp measurable_snd
      have lx : Measurable fun p : Ω × (ℝ × ℝ) => (link p.2).x := by simpa [dot] using hl ⟨1, 0, 0⟩
      have ly : Measurable fun p : Ω × (ℝ × ℝ) => (link p.2).y := by simpa [dot] using hl ⟨0, 1, 0⟩
      have lz : Measurable fun p : Ω × (ℝ × ℝ) => (link p.2).z := by simpa [dot] using hl ⟨0, 0, 1⟩
      unfold Function.uncurry dot
      exact Real.measurable_exp.comp ((((hx.comp measurable_fst).mul lx).add ((hy.comp measurable_fst).mul ly)).add
        ((hz.comp measurable_fst).mul lz) |>.const_mul a)
    · unfold Function.uncurry
      rw [Real.norm_eq_abs, Real.abs_exp, Real.exp_le_exp]
      refine (le_abs_self _).trans ?_
      rw [abs_mul]
      refine mul_le_mul_of_nonneg_left ?_ (abs_nonneg a)
      have k1 := dot_le (fjcEnd N (draw p.1)) (link p.2)
      have k2 := dot_le ⟨-1 * (fjcEnd N (draw p.1)).x, -1 * (fjcEnd N (draw p.1)).y, -1 * (fjcEnd N (draw p.1)).z⟩ (link p.2)
      rw [hsc, norm_eq (link p.2), dot_link_self, Real.sqrt_one, mul_one, abs_neg, abs_one, one_mul] at k2
      rw [norm_eq (link p.2), dot_link_self, Real.sqrt_one, mul_one] at k1
      have k3 := fjcEnd_norm_le N (draw p.1)
      refine abs_le.2 ⟨?_, k1.trans k3⟩
      have : dot ⟨-1 * (fjcEnd N (draw p.1)).x, -1 * (fjcEnd N (draw p.1)).y, -1 * (fjcEnd N (draw p.1)).z⟩ (link p.2) =
          -dot (fjcEnd N (draw p.1)) (link p.2) := by unfold dot; simp only; ring
      linarith

/-- The exact radial distribution, as a measure. -/
noncomputable def fjcRadial (N : ℕ) (ℓ m : ℝ) : Measure ℝ :=
  (volume.restrict (Ioo (0 : ℝ) 1)).withDensity fun γ => ENNReal.ofReal ((fjc_isometric_distribution N ℓ m).nd_radial γ)

theorem fjcRadial_spec {N : ℕ} (ℓ m : ℝ) (hN2 : 2 ≤ N) (hN : N ≤ 26) :
    ∃ g : ℝ → ℝ, Continuous g ∧ EqOn (fjc_isometric_distribution N ℓ m).nd_radial g (Ioo 0 1) ∧ (∀ γ ∈ Ioo (0 : ℝ) 1, 0 < g γ) ∧
      fjcRadial N ℓ m = (volume.restrict (Ioo (0 : ℝ) 1)).withDensity fun γ => ENNReal.ofReal (g γ) := by
  obtain ⟨F, hF, hS, _⟩ := treloar_transform hN2 (by omega : N ≤ 34)
  have hC : 0 < 4 * Real.pi * treloarFactor N := by
    have := Real.pi_pos
    have : 0 < treloarFactor N := by unfold treloarFactor; positivity
    positivity
  have e : EqOn (fjc_isometric_distribution N ℓ m).nd_radial (fun γ => 4 * Real.pi * treloarFactor N * (γ * F γ)) (Ioo 0 1) := fun γ hγ => by
    simp only
    rw [fjc_nd_radial hN2 hN ℓ m hγ.1, hS γ hγ]
  refine ⟨fun γ => 4 * Real.pi * treloarFactor N * (γ * F γ), by fun_prop, e, fun γ hγ => ?_, ?_⟩
  · have : 0 < F γ := by rw [← hS γ hγ]; exact treloar_sum_pos hN2 (by omega) hγ.1 hγ.2
    have := hγ.1
    positivity
  · refine withDensity_congr_ae ((ae_restrict_mem measurableSet_Ioo).mono fun γ hγ => ?_)
    simp only
    rw [e hγ]

theorem fjcRadial_finite {N : ℕ} (ℓ m : ℝ) (hN2 : 2 ≤ N) (hN : N ≤ 26) : IsFiniteMeasure (fjcRadial N ℓ m) := by
  obtain ⟨g, hg, _, _, hν⟩ := fjcRadial_spec ℓ m hN2 hN
  rw [hν]
  refine isFiniteMeasure_withDensity_ofReal ?_
  exact ((hg.continuousOn.integrableOn_compact isCompact_Icc).mono_set Ioo_subset_Icc_self : IntegrableOn g (Ioo 0 1)).2

theorem fjcRadial_integral {N : ℕ} (ℓ m : ℝ) (hN2 : 2 ≤ N) (hN : N ≤ 26) {a : ℝ} (ha : a ≠ 0) :
    ∫ γ, directionAverage (a * γ) ∂fjcRadial N ℓ m = directionAverage (a / N) ^ N := by
  have hN0 : (N : ℝ) ≠ 0 := by positivity
  have hη : a / N ≠ 0 := div_ne_zero ha hN0
  rw [directionAverage_eq hη, ← C66_fjc_partition N ℓ m hN2 hN hη, forcePartition]
  obtain ⟨g, hg, hr, hp, hν⟩ := fjcRadial_spec ℓ m hN2 hN
  rw [hν, integral_withDensity_eq_integral_toReal_smul (by fun_prop) (ae_of_all _ fun x => ENNReal.ofReal_lt_top),
    intervalIntegral.integral_of_le zero_le_one, integral_Ioc_eq_integral_Ioo]
  refine setIntegral_congr_fun measurableSet_Ioo fun γ hγ => ?_
  simp only [smul_eq_mul, forceWeight]
  rw [hr hγ, ENNReal.toReal_ofReal (hp γ hγ).le, directionAverage_eq (mul_ne_zero ha hγ.1.ne')]
  congr 2 <;> field_simp

theorem _root_.Polymers.Spec.IdealDraws.shift {E : Type*} [MeasurableSpace E] {law : Measure E} {draw : Ω → ℕ → E}
    (hd : IdealDraws law P draw) (k : ℕ) : IdealDraws law P fun ω i => draw ω (k + i) where
  measurable i := hd.measurable (k + i)
  independent := hd.independent.precomp (g := fun i => k + i) fun i j h => by simpa using h
  uniform i := hd.uniform (k + i)

theorem sampled_gamma_eq {N : ℕ} (hN : 0 < N) (draw : ℕ → ℝ × ℝ) (k : ℕ) :
    sampled_gamma N draw k = (fjcEnd N (fun i => draw (k * N + i))).norm / N := by
  unfold sampled_gamma
  rw [fjcEnd_norm hN]

theorem _root_.Polymers.Spec.IdealDraws.measurable_sample (hd : UniformDraws P draw) {N : ℕ} (hN : 0 < N) (k : ℕ) :
    Measurable fun ω => sampled_gamma N (draw ω) k := by
  simp only [sampled_gamma_eq hN]
  exact (measurable_norm_fjcEnd (hd.shift (k * N)).measurable N).div_const _

/-- The law of a sample is the exact radial distribution. -/
theorem fjc_sample_law (hd : UniformDraws P draw) {N : ℕ} (ℓ m : ℝ) (hN2 : 2 ≤ N) (hN : N ≤ 26) (k : ℕ) :
    P.map (fun ω => sampled_gamma N (draw ω) k) = fjcRadial N ℓ m := by
  have : IsProbabilityMeasure P := hd.independent.isProbabilityMeasure
  have := fjcRadial_finite ℓ m hN2 hN
  have hN0 : (0 : ℝ) < N := by positivity
  have hd' := hd.shift (k * N)
  have e : ∀ ω, sampled_gamma N (draw ω) k = (fjcEnd N (fun i => draw ω (k * N + i))).norm / N := fun ω =>
    sampled_gamma_eq (by omega) (draw ω) k
  have hm := hd.measurable_sample (by omega : 0 < N) k
  refine ext_of_directionAverage (M := 1) ?_ ?_ fun a ha => ?_
  · refine (ae_map_iff hm.aemeasurable (show MeasurableSet {x | x ∈ Icc (0 : ℝ) 1} from measurableSet_Icc)).2 ?_
    refine ae_of_all _ fun ω => ?_
    rw [e]
    have h1 := fjcEnd_norm_le N (fun i => draw ω (k * N + i))
    exact ⟨div_nonneg (Real.sqrt_nonneg _) hN0.le, (div_le_one hN0).2 h1⟩
  · refine (withDensity_absolutelyContinuous _ _).ae_le ?_
    exact (ae_restrict_mem measurableSet_Ioo).mono fun x hx => ⟨hx.1.le, hx.2.le⟩
  · have hmeas : Measurable fun x => directionAverage (a * x) := by
      have := (measurable_mul_directionAverage a).const_mul a⁻¹
      have e' : (fun x => a⁻¹ * (a * directionAverage (a * x))) = fun x => directionAverage (a * x) := by
        funext x
        field_simp
      rwa [e'] at this
    rw [fjcRadial_integral ℓ m hN2 hN ha, integral_map hm.aemeasurable hmeas.aestronglyMeasurable, ← fjc_radial_moment hd' N]
    refine integral_congr_ae (ae_of_all _ fun ω => ?_)
    simp only [e]
    congr 1
    ring

/-- C88: with an ideal generator, minus the logarithm of the mean of `exp (h · R)` over the sampled end-to-end vectors `R` is the
free energy which the library gives for a force of the size of `h`. -/
theorem C88_fjc_gibbs (hd : UniformDraws P draw) {N : ℕ} (ℓ m T : ℝ) (R : Ω → V3 ℝ)
    (hR : ∀ ω, (random_configuration N (draw ω)).getLast? = some (R ω)) (h : V3 ℝ) (h0 : h.norm ≠ 0) :
    -Real.log (∫ ω, Real.exp (dot h (R ω)) ∂P) = (fjc_isotensional_gibbs N ℓ m).nd_relative h.norm T := by
  have : IsProbabilityMeasure P := hd.independent.isProbabilityMeasure
  have hN : 0 < N := by
    rcases Nat.eq_zero_or_pos N with rfl | hN
    · obtain ⟨ω⟩ : Nonempty Ω := nonempty_of_isProbabilityMeasure P
      simpa [random_configuration, configuration_from] using hR ω
    · exact hN
  have e : ∀ ω, R ω = fjcEnd N (draw ω) := fun ω => by
    have := hR ω
    rw [fjcEnd_getLast hN] at this
    exact (Option.some.inj this).symm
  have e3 : (fjc_isotensional_gibbs N ℓ m).nd_relative h.norm T = -(N : ℝ) * Real.log (Real.sinh h.norm / h.norm) := rfl
  simp only [e]
  rw [fjc_moment hd, directionAverage_eq h0, Real.log_pow, e3]
  ring

/-- C88: with an ideal generator, the probability that a sampled extension lies between `a` and `b` is the integral of the exact
radial distribution. -/
theorem C88_fjc_probability (hd : UniformDraws P draw) {N : ℕ} (ℓ m : ℝ) (hN2 : 2 ≤ N) (hN : N ≤ 26) (k : ℕ) {a b : ℝ} (ha : 0 ≤ a)
    (hab : a ≤ b) (hb : b ≤ 1) :
    P.real {ω | a ≤ sampled_gamma N (draw ω) k ∧ sampled_gamma N (draw ω) k < b} =
      ∫ γ in a..b, (fjc_isometric_distribution N ℓ m).nd_radial γ := by
  have hm := hd.measurable_sample (by omega : 0 < N) k
  have h1 : P.real {ω | a ≤ sampled_gamma N (draw ω) k ∧ sampled_gamma N (draw ω) k < b} = (fjcRadial N ℓ m).real (Ico a b) := by
    rw [← fjc_sample_law hd ℓ m hN2 hN k, map_measureReal_apply hm measurableSet_Ico]
    rfl
  obtain ⟨g, hg, hr, hp, hν⟩ := fjcRadial_spec ℓ m hN2 hN
  have h2 : fjcRadial N ℓ m (Ico a b) = ENNReal.ofReal (∫ γ in Ioo a b, g γ) := by
    rw [hν, withDensity_apply _ measurableSet_Ico, Measure.restrict_restrict measurableSet_Ico,
      ofReal_integral_eq_lintegral_ofReal]
    · refine setLIntegral_congr ?_
      have e := (Ioo_ae_eq_Ico (μ := volume) (a := a) (b := b)).symm.inter (ae_eq_refl (Ioo (0 : ℝ) 1))
      have e' : Ioo a b ∩ Ioo 0 1 = Ioo a b := inter_eq_left.2 (Ioo_subset_Ioo ha hb)
      rwa [e'] at e
    · exact (hg.continuousOn.integrableOn_compact isCompact_Icc).mono_set Ioo_subset_Icc_self
    · exact (ae_restrict_mem measurableSet_Ioo).mono fun γ hγ => (hp γ ⟨ha.trans_lt hγ.1, hγ.2.trans_le hb⟩).le
  have h3 : 0 ≤ ∫ γ in Ioo a b, g γ :=
    setIntegral_nonneg measurableSet_Ioo fun γ hγ => (hp γ ⟨ha.trans_lt hγ.1, hγ.2.trans_le hb⟩).le
  rw [h1, measureReal_def, h2, ENNReal.toReal_ofReal h3, intervalIntegral.integral_of_le hab, integral_Ioc_eq_integral_Ioo]
  exact setIntegral_congr_fun measurableSet_Ioo fun γ hγ => (hr ⟨ha.trans_lt hγ.1, hγ.2.trans_le hb⟩).symm

/-- One if the sample is between `a` and `b`. -/
noncomputable def hit (N : ℕ) (a b : ℝ) (draw : ℕ → ℝ × ℝ) (k : ℕ) : ℝ := (Ico a b).indicator 1 (sampled_gamma N draw k)

theorem measurable_hit (hd : UniformDraws P draw) {N : ℕ} (hN : 0 < N) (a b : ℝ) (k : ℕ) : Measurable fun ω => hit N a b (draw ω) k :=
  (measurable_one.indicator measurableSet_Ico).comp (hd.measurable_sample hN k)

theorem integral_hit (hd : UniformDraws P draw) {N : ℕ} (ℓ m : ℝ) (hN2 : 2 ≤ N) (hN : N ≤ 26) (k : ℕ) {a b : ℝ} (ha : 0 ≤ a)
    (hab : a ≤ b) (hb : b ≤ 1) :
    ∫ ω, hit N a b (draw ω) k ∂P = ∫ γ in a..b, (fjc_isometric_distribution N ℓ m).nd_radial γ := by
  have hm := hd.measurable_sample (by omega : 0 < N) k
  rw [← C88_fjc_probability hd ℓ m hN2 hN k ha hab hb, ← integral_indicator_one]
  · rfl
  · exact hm measurableSet_Ico

theorem integrable_hit (hd : UniformDraws P draw) {N : ℕ} (hN : 0 < N) (a b : ℝ) (k : ℕ) : Integrable (fun ω => hit N a b (draw ω) k) P := by
  have : IsProbabilityMeasure P := hd.independent.isProbabilityMeasure
  refine Integrable.of_bound (measurable_hit hd hN a b k).aestronglyMeasurable 1 (ae_of_all _ fun ω => ?_)
  unfold hit indicator
  split_ifs <;> simp

theorem samplesIn_eq (N S : ℕ) (draw : ℕ → ℝ × ℝ) (a b : ℝ) :
    (samplesIn (fjcSamples N S draw) a b : ℝ) = ∑ k ∈ Finset.range S, hit N a b draw k := by
  classical
  unfold samplesIn fjcSamples
  induction S with
  | zero => simp
  | succ S ih =>
    rw [List.range_succ, List.map_append, List.countP_append, Finset.sum_range_succ, ← ih]
    push_cast
    congr 1
    simp only [List.map_cons, List.map_nil, List.countP_cons, List.countP_nil, hit, indicator, mem_Ico, sampled_gamma]
    split_ifs <;> simp_all

theorem histogram_entry {B N S : ℕ} (draw : ℕ → ℝ × ℝ) {b : ℕ} (hb : b < B) :
    (nondimensional_equilibrium_radial_distribution B N S draw).2.getD b 0 =
      B * ((∑ k ∈ Finset.range S, hit N (b / B) ((b + 1) / B) draw k) / S) := by
  rw [(C42_fjc_histogram B N S draw).density b hb, ← samplesIn_eq, one_mul, one_mul]
  simp only [fjcSamples, List.length_map, List.length_range]
  rcases Nat.eq_zero_or_pos S with rfl | hS
  · simp
  · field_simp

/-- C88: with an ideal generator, the expected height of every bin of the histogram is the mean of the exact radial distribution
over the bin. -/
theorem C88_fjc_expected (hd : UniformDraws P draw) {B N S : ℕ} (ℓ m : ℝ) (hN2 : 2 ≤ N) (hN : N ≤ 26) (hS : 0 < S) {b : ℕ} (hb : b < B) :
    ∫ ω, (nondimensional_equilibrium_radial_distribution B N S (draw ω)).2.getD b 0 ∂P =
      B * ∫ γ in (b / B : ℝ)..((b + 1) / B : ℝ), (fjc_isometric_distribution N ℓ m).nd_radial γ := by
  have hB : (0 : ℝ) < B := by exact_mod_cast (by omega : 0 < B)
  have hb' : (b : ℝ) + 1 ≤ B := by exact_mod_cast hb
  simp only [histogram_entry _ hb]
  rw [integral_const_mul, integral_div, integral_finsetSum _ fun k _ => integrable_hit hd (by omega) _ _ k]
  simp only [integral_hit hd ℓ m hN2 hN _ (show (0 : ℝ) ≤ b / B by positivity) (show (b : ℝ) / B ≤ (b + 1) / B by gcongr; linarith)
    ((div_le_one hB).2 hb'), Finset.sum_const, Finset.card_range, nsmul_eq_mul]
  field_simp

theorem hit_indep (hd : UniformDraws P draw) {N : ℕ} (hN : 0 < N) (a b : ℝ) {k l : ℕ} (hkl : k ≠ l) :
    IndepFun (fun ω => hit N a b (draw ω) k) (fun ω => hit N a b (draw ω) l) P := by
  classical
  let blk : ℕ → Finset ℕ := fun k => Finset.Ico (k * N) (k * N + N)
  let Φ : (k : ℕ) → ((blk k) → ℝ × ℝ) → ℝ := fun k t =>
    (Ico a b).indicator 1 ((fjcEnd N fun i => if h : k * N + i ∈ blk k then t ⟨k * N + i, h⟩ else (0, 0)).norm / N)
  have hΦ : ∀ k, Measurable (Φ k) := fun k => by
    refine (measurable_one.indicator measurableSet_Ico).comp ((measurable_norm_fjcEnd (fun i => ?_) N).div_const _)
    by_cases h : k * N + i ∈ blk k
    · simp only [h, dite_true]; exact measurable_pi_apply _
    · simp only [h, dite_false]; exact measurable_const
  have e : ∀ k, (fun ω => hit N a b (draw ω) k) = Φ k ∘ fun ω (i : blk k) => draw ω i := fun k => by
    funext ω
    simp only [hit, Function.comp, Φ, sampled_gamma_eq hN]
    congr 3
    unfold fjcEnd
    congr 1
    refine List.map_congr_left fun i hi => ?_
    have : k * N + i ∈ blk k := by
      simp only [blk, Finset.mem_Ico]; have := List.mem_range.1 hi; omega
    simp only [this, dite_true]
  rw [e k, e l]
  refine (hd.independent.indepFun_finset (blk k) (blk l) ?_ hd.measurable).comp (hΦ k) (hΦ l)
  rw [Finset.disjoint_left]
  intro i hi hj
  simp only [blk, Finset.mem_Ico] at hi hj
  rcases lt_or_gt_of_ne hkl with h | h
  · have : (k + 1) * N ≤ l * N := Nat.mul_le_mul_right N h
    rw [Nat.add_mul, one_mul] at this
    omega
  · have : (l + 1) * N ≤ k * N := Nat.mul_le_mul_right N h
    rw [Nat.add_mul, one_mul] at this
    omega

/-- C88: with an ideal generator, the histogram converges to the exact radial distribution: with probability one, as the number of
samples grows, the height of every bin tends to the mean of the exact radial distribution over the bin. -/
theorem C88_fjc_converges (hd : UniformDraws P draw) {B N : ℕ} (ℓ m : ℝ) (hN2 : 2 ≤ N) (hN : N ≤ 26) :
    ∀ᵐ ω ∂P, ∀ b < B, Tendsto (fun S => (nondimensional_equilibrium_radial_distribution B N S (draw ω)).2.getD b 0) atTop
      (𝓝 (B * ∫ γ in (b / B : ℝ)..((b + 1) / B : ℝ), (fjc_isometric_distribution N ℓ m).nd_radial γ)) := by
  rw [ae_all_iff]
  intro b
  rw [eventually_imp_distrib_left]
  intro hb
  have hB : (0 : ℝ) < B := by exact_mod_cast (by omega : 0 < B)
  have hb' : (b : ℝ) + 1 ≤ B := by exact_mod_cast hb
  have hN0 : 0 < N := by omega
  have h := strong_law_ae_real (μ := P) (fun k ω => hit N (b / B) ((b + 1) / B) (draw ω) k) (integrable_hit hd hN0 _ _ 0)
    (fun k l hkl => hit_indep hd hN0 _ _ hkl) (fun k => ?_)
  · rw [integral_hit hd ℓ m hN2 hN _ (show (0 : ℝ) ≤ b / B by positivity) (show (b : ℝ) / B ≤ (b + 1) / B by gcongr; linarith)
      ((div_le_one hB).2 hb')] at h
    refine h.mono fun ω hω => ?_
    simp only [histogram_entry _ hb]
    exact hω.const_mul _
  · refine ⟨(measurable_hit hd hN0 _ _ k).aemeasurable, (measurable_hit hd hN0 _ _ 0).aemeasurable, ?_⟩
    have e : ∀ k, (fun ω => hit N (b / B) ((b + 1) / B) (draw ω) k) =
        (Ico ((b : ℝ) / B) ((b + 1) / B)).indicator 1 ∘ fun ω => sampled_gamma N (draw ω) k := fun k => rfl
    rw [e k, e 0, ← Measure.map_map (measurable_one.indicator measurableSet_Ico) (hd.measurable_sample hN0 k),
      ← Measure.map_map (measurable_one.indicator measurableSet_Ico) (hd.measurable_sample hN0 0),
      fjc_sample_law hd ℓ m hN2 hN, fjc_sample_law hd ℓ m hN2 hN]

end law

/-- C88, concrete case: an ideal generator exists. -/
theorem idealDraws_exists {E : Type*} [MeasurableSpace E] (law : Measure E) [IsProbabilityMeasure law] :
    IdealDraws law (Measure.infinitePi fun _ : ℕ => law) (fun ω => ω) where
  measurable i := measurable_pi_apply i
  independent := iIndepFun_infinitePi (X := fun _ d => d) fun _ => measurable_id
  uniform i := Measure.infinitePi_map_eval (μ := fun _ : ℕ => law) i

example : ∀ᵐ draw ∂(Measure.infinitePi fun _ : ℕ => uniformPair), ∀ b < 100,
    Tendsto (fun S => (nondimensional_equilibrium_radial_distribution 100 8 S draw).2.getD b 0) atTop
      (𝓝 ((100 : ℕ) * ∫ γ in (b / (100 : ℕ) : ℝ)..((b + 1) / (100 : ℕ) : ℝ), (fjc_isometric_distribution 8 1 1).nd_radial γ)) :=
  C88_fjc_converges (idealDraws_exists _) 1 1 (by norm_num) (by norm_num)

end Polymers.Props
