import Verif.Props.MonteCarloLaw
import Verif.Props.LinearResponse
import Mathlib.MeasureTheory.Measure.Haar.OfBasis
import Mathlib.MeasureTheory.Measure.Lebesgue.EqHaar
import Mathlib.Algebra.Field.GeomSum

/-!
C89: with an ideal generator, the mean square end-to-end length of the sampled chains.
-/

namespace Polymers.Props

open Polymers.Spec Polymers.Api Polymers.Lemmas Set Filter Topology MeasureTheory ProbabilityTheory

section draws
variable {Ω E : Type*} [MeasurableSpace Ω] [MeasurableSpace E] [Nonempty E] {law : Measure E} {P : Measure Ω} {draw : Ω → ℕ → E}

/-- The numbers for a link may be averaged before those of the links before it. -/
theorem integral_next (hd : IdealDraws law P draw) (n : ℕ) (F : (ℕ → E) → E → ℝ) (hF : Measurable (Function.uncurry F))
    (hi : Integrable (fun ω => F (draw ω) (draw ω n)) P)
    (hl : ∀ s s', (∀ i < n, s i = s' i) → F s = F s') :
    ∫ ω, F (draw ω) (draw ω n) ∂P = ∫ ω, ∫ d, F (draw ω) d ∂law ∂P := by
  classical
  have : IsProbabilityMeasure P := hd.independent.isProbabilityMeasure
  have : IsProbabilityMeasure law := by rw [← hd.uniform 0]; exact Measure.isProbabilityMeasure_map (hd.measurable 0).aemeasurable
  let e0 : E := Classical.arbitrary E
  let ext : ((Finset.range n) → E) → ℕ → E := fun t i => if h : i ∈ Finset.range n then t ⟨i, h⟩ else e0
  have hext : Measurable ext := measurable_pi_iff.2 fun i => by
    by_cases h : i ∈ Finset.range n
    · simp only [ext, h, dite_true]; exact measurable_pi_apply _
    · simp only [ext, h, dite_false]; exact measurable_const
  let A : Ω → (Finset.range n) → E := fun ω i => draw ω i
  have hA : Measurable A := measurable_pi_iff.2 fun i => hd.measurable i
  have hD := hd.measurable n
  have hind : IndepFun A (fun ω => draw ω n) P := by
    have h := hd.independent.indepFun_finset (Finset.range n) {n} (by simp) hd.measurable
    exact h.comp (φ := id) (ψ := fun t : (({n} : Finset ℕ) → E) => t ⟨n, by simp⟩) measurable_id (measurable_pi_apply _)
  have hprod := (indepFun_iff_map_prod_eq_prod_map_map hA.aemeasurable hD.aemeasurable).1 hind
  have eF : ∀ ω, F (draw ω) = F (ext (A ω)) := fun ω => hl _ _ fun i hi => by
    simp only [ext, A, Finset.mem_range, hi, dite_true]
  have hG : Measurable fun p : ((Finset.range n) → E) × E => F (ext p.1) p.2 :=
    hF.comp ((hext.comp measurable_fst).prodMk measurable_snd)
  have hpair : Measurable fun ω => (A ω, draw ω n) := hA.prodMk hD
  have h1 : ∫ ω, F (draw ω) (draw ω n) ∂P = ∫ p, F (ext p.1) p.2 ∂(P.map fun ω => (A ω, draw ω n)) := by
    rw [integral_map hpair.aemeasurable hG.aestronglyMeasurable]
    simp only [eF]
  have hi' : Integrable (fun p : ((Finset.range n) → E) × E => F (ext p.1) p.2) ((P.map A).prod law) := by
    rw [← hd.uniform n, ← hprod, integrable_map_measure hG.aestronglyMeasurable hpair.aemeasurable]
    refine hi.congr (ae_of_all _ fun ω => ?_)
    simp only [Function.comp, eF]
  rw [h1, hprod, hd.uniform n, integral_prod _ hi', integral_map hA.aemeasurable]
  · simp only [eF]
  · exact hi'.integral_prod_left.aestronglyMeasurable

/-- What has probability zero for the next numbers, whatever the numbers before, has probability zero. -/
theorem ae_next (hd : IdealDraws law P draw) (n : ℕ) (S : (ℕ → E) → Set E) (hS : MeasurableSet {p : (ℕ → E) × E | p.2 ∈ S p.1})
    (hl : ∀ s s', (∀ i < n, s i = s' i) → S s = S s') (h0 : ∀ᵐ ω ∂P, law (S (draw ω)) = 0) :
    ∀ᵐ ω ∂P, draw ω n ∉ S (draw ω) := by
  classical
  have : IsProbabilityMeasure P := hd.independent.isProbabilityMeasure
  have : IsProbabilityMeasure law := by rw [← hd.uniform 0]; exact Measure.isProbabilityMeasure_map (hd.measurable 0).aemeasurable
  let F : (ℕ → E) → E → ℝ := fun s d => {p : (ℕ → E) × E | p.2 ∈ S p.1}.indicator 1 (s, d)
  have hm : Measurable (Function.uncurry F) := measurable_one.indicator hS
  have hb : ∀ s d, 0 ≤ F s d ∧ F s d ≤ 1 := fun s d => by
    simp only [F, indicator]; split_ifs <;> simp
  have hfd : Measurable fun ω => F (draw ω) (draw ω n) :=
    hm.comp ((measurable_pi_iff.2 fun i => hd.measurable i).prodMk (hd.measurable n))
  have hi : Integrable (fun ω => F (draw ω) (draw ω n)) P :=
    Integrable.of_bound hfd.aestronglyMeasurable 1 (ae_of_all _ fun ω => by
      rw [Real.norm_eq_abs, abs_of_nonneg (hb _ _).1]; exact (hb _ _).2)
  have h := integral_next hd n F hm hi fun s s' hss => by
    funext d
    simp only [F, indicator, mem_ofPred_eq, hl s s' hss, Pi.one_apply]
  have hz : ∀ᵐ ω ∂P, ∫ d, F (draw ω) d ∂law = 0 := h0.mono fun ω hω => by
    refine integral_eq_zero_of_ae ?_
    have : ∀ᵐ d ∂law, d ∉ S (draw ω) := measure_eq_zero_iff_ae_notMem.1 hω
    refine this.mono fun d hd => ?_
    simp only [F, indicator, mem_ofPred_eq, hd, if_false, Pi.zero_apply]
  rw [integral_congr_ae hz, integral_zero, integral_eq_zero_iff_of_nonneg (fun ω => (hb _ _).1) hi] at h
  refine h.mono fun ω hω hc => ?_
  simp [F, indicator, hc] at hω

end draws

/-! ### Vectors -/

theorem measurable_v3 {Ω : Type*} [MeasurableSpace Ω] {f : Ω → V3 ℝ} :
    Measurable f ↔ (Measurable fun ω => (f ω).x) ∧ (Measurable fun ω => (f ω).y) ∧ Measurable fun ω => (f ω).z := by
  constructor
  · intro h
    have h1 : Measurable fun v : V3 ℝ => (v.x, v.y, v.z) := comap_measurable _
    have h2 := h1.comp h
    exact ⟨h2.fst, h2.snd.fst, h2.snd.snd⟩
  · rintro ⟨hx, hy, hz⟩
    exact measurable_comap_iff.2 (hx.prodMk (hy.prodMk hz))

theorem measurable_x : Measurable fun v : V3 ℝ => v.x := (measurable_v3.1 measurable_id).1
theorem measurable_y : Measurable fun v : V3 ℝ => v.y := (measurable_v3.1 measurable_id).2.1
theorem measurable_z : Measurable fun v : V3 ℝ => v.z := (measurable_v3.1 measurable_id).2.2

theorem measurable_dot {Ω : Type*} [MeasurableSpace Ω] {f g : Ω → V3 ℝ} (hf : Measurable f) (hg : Measurable g) :
    Measurable fun ω => dot (f ω) (g ω) := by
  obtain ⟨a, b, c⟩ := measurable_v3.1 hf
  obtain ⟨a', b', c'⟩ := measurable_v3.1 hg
  unfold dot
  exact ((a.mul a').add (b.mul b')).add (c.mul c')

theorem abs_dot_le {u v : V3 ℝ} (hu : dot u u ≤ 1) (hv : dot v v ≤ 1) : |dot u v| ≤ 1 := by
  have h := dot_cross_self u v
  have h2 := dot_self_nonneg (frc.thermodynamics.isometric.monte_carlo.cross u v)
  have h3 := dot_self_nonneg u
  have h4 := dot_self_nonneg v
  have h5 : dot u v ^ 2 ≤ 1 := by nlinarith
  exact (sq_le_one_iff_abs_le_one _).1 h5

/-- The mean square of a sum of vectors. -/
theorem integral_dot_sum {Ω : Type*} [MeasurableSpace Ω] {P : Measure Ω} (X : ℕ → Ω → V3 ℝ)
    (hX : ∀ i j, Integrable (fun ω => dot (X i ω) (X j ω)) P) (N : ℕ) :
    ∫ ω, dot (walkEnd V3.zero ((List.range N).map fun i => X i ω)) (walkEnd V3.zero ((List.range N).map fun i => X i ω)) ∂P =
      ∑ i ∈ Finset.range N, ∑ j ∈ Finset.range N, ∫ ω, dot (X i ω) (X j ω) ∂P := by
  have hs : ∀ ω h, dot h (walkEnd V3.zero ((List.range N).map fun i => X i ω)) = ∑ i ∈ Finset.range N, dot h (X i ω) := fun ω h => by
    rw [dot_walkEnd, List.map_map, Finset.sum_range, ← List.sum_ofFn]
    have : dot h V3.zero = 0 := by unfold dot V3.zero; norm_num
    rw [this, zero_add]
    congr 1
    rw [List.ofFn_eq_map, ← List.map_coe_finRange_eq_range, List.map_map]
    rfl
  have hc : ∀ u v : V3 ℝ, dot u v = dot v u := fun u v => by unfold dot; ring
  have e : ∀ ω, dot (walkEnd V3.zero ((List.range N).map fun i => X i ω)) (walkEnd V3.zero ((List.range N).map fun i => X i ω)) =
      ∑ i ∈ Finset.range N, ∑ j ∈ Finset.range N, dot (X i ω) (X j ω) := fun ω => by
    rw [hs]
    refine Finset.sum_congr rfl fun i _ => ?_
    rw [hc, hs]
  simp only [e]
  rw [integral_finsetSum _ fun i _ => integrable_finsetSum _ fun j _ => hX i j]
  exact Finset.sum_congr rfl fun i _ => integral_finsetSum _ fun j _ => hX i j

theorem sum_diagonal (N : ℕ) (a : ℝ) : ∑ i ∈ Finset.range N, ∑ j ∈ Finset.range N, (if i = j then a else 0) = N * a := by
  have : ∀ i ∈ Finset.range N, ∑ j ∈ Finset.range N, (if i = j then a else 0) = a := fun i hi => by
    rw [Finset.sum_ite_eq, if_pos hi]
  rw [Finset.sum_congr rfl this]
  simp

/-- A cosine and a sine of a uniform angle have mean zero. -/
theorem integral_angle (a b c : ℝ) : ∫ u, (a * Real.cos (2 * Real.pi * u) + b * Real.sin (2 * Real.pi * u) + c) ∂uniformNumber = c := by
  unfold uniformNumber
  rw [integral_Icc_eq_integral_Ioc, ← intervalIntegral.integral_of_le zero_le_one]
  have hp := Real.pi_pos
  have hd : ∀ u ∈ uIcc (0 : ℝ) 1, HasDerivAt (fun u => a * (Real.sin (2 * Real.pi * u) / (2 * Real.pi)) +
      b * (-Real.cos (2 * Real.pi * u) / (2 * Real.pi)) + c * u)
      (a * Real.cos (2 * Real.pi * u) + b * Real.sin (2 * Real.pi * u) + c) u := fun u _ => by
    have h0 : HasDerivAt (fun u : ℝ => 2 * Real.pi * u) (2 * Real.pi) u := by simpa using (hasDerivAt_id u).const_mul (2 * Real.pi)
    have h1 := ((h0.sin.div_const (2 * Real.pi)).const_mul a).fun_add ((h0.cos.fun_neg.div_const (2 * Real.pi)).const_mul b)
    refine (h1.fun_add ((hasDerivAt_id' u).const_mul c)).congr_deriv ?_
    field_simp
  rw [intervalIntegral.integral_eq_sub_of_hasDerivAt hd (Continuous.intervalIntegrable (by fun_prop) _ _)]
  simp

/-! ### FJC and EFJC -/

section fjc
open fjc.thermodynamics.isometric.monte_carlo

theorem measurable_link : Measurable (link : ℝ × ℝ → V3 ℝ) := by
  have h := fun v => (continuous_dot_link v).measurable
  refine measurable_v3.2 ⟨?_, ?_, ?_⟩
  · simpa [dot] using h ⟨1, 0, 0⟩
  · simpa [dot] using h ⟨0, 1, 0⟩
  · simpa [dot] using h ⟨0, 0, 1⟩

/-- The mean of a link is zero. -/
theorem integral_link (a : V3 ℝ) : ∫ d, dot a (link d) ∂uniformPair = 0 := by
  have hi : Integrable (fun d => dot a (link d)) (uniformNumber.prod uniformNumber) := by
    unfold uniformNumber
    rw [Measure.prod_restrict]
    exact (continuous_dot_link a).continuousOn.integrableOn_compact (isCompact_Icc.prod isCompact_Icc)
  unfold uniformPair
  rw [integral_prod_symm _ hi]
  have h1 : ∀ v : ℝ, ∫ u, dot a (link (u, v)) ∂uniformNumber = a.z * Real.cos (Real.arccos (1 - 2 * v)) := fun v => by
    rw [← integral_angle (a.x * Real.sin (Real.arccos (1 - 2 * v))) (a.y * Real.sin (Real.arccos (1 - 2 * v)))
      (a.z * Real.cos (Real.arccos (1 - 2 * v)))]
    refine integral_congr_ae (ae_of_all _ fun u => ?_)
    simp only [link_real, dot]
    ring
  simp only [h1]
  rw [integral_const_mul]
  unfold uniformNumber
  rw [integral_Icc_eq_integral_Ioc, ← intervalIntegral.integral_of_le zero_le_one, integral_acos (G := fun x _ => x) (by fun_prop)]
  have hd : ∀ θ ∈ uIcc (0 : ℝ) Real.pi, HasDerivAt (fun θ => Real.sin θ ^ 2 / 4) (Real.sin θ / 2 * Real.cos θ) θ := fun θ _ => by
    refine (((Real.hasDerivAt_sin θ).fun_pow 2).div_const 4).congr_deriv ?_
    norm_num
    ring
  rw [intervalIntegral.integral_eq_sub_of_hasDerivAt hd (Continuous.intervalIntegrable (by fun_prop) _ _)]
  simp

/-- C89: with an ideal generator, the mean square end-to-end length of the freely jointed chain is the number of links. -/
theorem C89_fjc {Ω : Type*} [MeasurableSpace Ω] {P : Measure Ω} {draw : Ω → ℕ → ℝ × ℝ} (hd : UniformDraws P draw) {N : ℕ} (hN : 0 < N) :
    ∫ ω, random_nondimensional_end_to_end_length N (draw ω) ^ 2 ∂P = N := by
  have : IsProbabilityMeasure P := hd.independent.isProbabilityMeasure
  have e : ∀ ω, random_nondimensional_end_to_end_length N (draw ω) ^ 2 =
      dot (walkEnd V3.zero ((List.range N).map fun i => link (draw ω i))) (walkEnd V3.zero ((List.range N).map fun i => link (draw ω i))) := fun ω => by
    rw [fjcEnd_norm hN, norm_eq, Real.sq_sqrt (dot_self_nonneg _)]
    rfl
  have hm : ∀ i, Measurable fun ω => link (draw ω i) := fun i => measurable_link.comp (hd.measurable i)
  have hi : ∀ i j, Integrable (fun ω => dot (link (draw ω i)) (link (draw ω j))) P := fun i j =>
    Integrable.of_bound (measurable_dot (hm i) (hm j)).aestronglyMeasurable 1 (ae_of_all _ fun ω => by
      rw [Real.norm_eq_abs]; exact abs_dot_le (dot_link_self _).le (dot_link_self _).le)
  have h0 : ∀ i j, i < j → ∫ ω, dot (link (draw ω i)) (link (draw ω j)) ∂P = 0 := fun i j hij => by
    rw [integral_next hd j (fun s d => dot (link (s i)) (link d))
      (measurable_dot (measurable_link.comp ((measurable_pi_apply i).comp measurable_fst)) (measurable_link.comp measurable_snd))
      (hi i j) fun s s' h => by rw [h i hij]]
    simp [integral_link]
  simp only [e]
  rw [integral_dot_sum _ hi]
  have h1 : ∀ i j, ∫ ω, dot (link (draw ω i)) (link (draw ω j)) ∂P = if i = j then 1 else 0 := fun i j => by
    split_ifs with h
    · subst h; simp [dot_link_self]
    · rcases lt_or_gt_of_ne h with h | h
      · exact h0 i j h
      · rw [← h0 j i h]
        refine integral_congr_ae (ae_of_all _ fun ω => ?_)
        simp only [dot]
        ring
  simp only [h1]
  rw [sum_diagonal, mul_one]

/-- C89: this is three times the number of links times the slope of the extension per link at small forces, as the fluctuations in
equilibrium require. -/
theorem C89_fjc_response {Ω : Type*} [MeasurableSpace Ω] {P : Measure Ω} {draw : Ω → ℕ → ℝ × ℝ} (hd : UniformDraws P draw) {N : ℕ}
    (hN : 0 < N) (ℓ m T : ℝ) {L : ℝ}
    (hL : Tendsto (fun η => (fjc_isotensional_lengths N ℓ m).nd_length_per_link η T / η) (𝓝[>] 0) (𝓝 L)) :
    ∫ ω, random_nondimensional_end_to_end_length N (draw ω) ^ 2 ∂P = 3 * N * L := by
  simp only [fjc_nd_length_per_link] at hL
  rw [C89_fjc hd hN, tendsto_nhds_unique hL tendsto_langevin_div]
  ring

end fjc

section efjc
open efjc.thermodynamics.isometric.monte_carlo

instance (κ : ℝ) : IsProbabilityMeasure (stretchAndPair κ) := by unfold stretchAndPair; infer_instance

theorem dot_efjc_link (a : V3 ℝ) (d : ℝ × ℝ × ℝ) : dot a (link d) = d.1 * dot a (fjc.thermodynamics.isometric.monte_carlo.link d.2) := by
  rw [efjc_link]; unfold dot; ring

theorem dot_efjc_links (d e : ℝ × ℝ × ℝ) : dot (link d) (link e) =
    d.1 * e.1 * dot (fjc.thermodynamics.isometric.monte_carlo.link d.2) (fjc.thermodynamics.isometric.monte_carlo.link e.2) := by
  rw [efjc_link, efjc_link]; unfold dot; ring

theorem measurable_efjc_link : Measurable (link : ℝ × ℝ × ℝ → V3 ℝ) := by
  have h : ∀ a, Measurable fun d : ℝ × ℝ × ℝ => dot a (link d) := fun a => by
    simp only [dot_efjc_link]
    exact measurable_fst.mul (measurable_dot measurable_const (measurable_link.comp measurable_snd))
  refine measurable_v3.2 ⟨?_, ?_, ?_⟩
  · simpa [dot] using h ⟨1, 0, 0⟩
  · simpa [dot] using h ⟨0, 1, 0⟩
  · simpa [dot] using h ⟨0, 0, 1⟩

/-- The second moment of the stretch. -/
theorem stretch_moment {κ : ℝ} (hκ : 0 < κ) : Integrable (fun x : ℝ => x ^ 2) (gaussianReal 1 (1 / κ).toNNReal) ∧
    ∫ x, x ^ 2 ∂gaussianReal 1 (1 / κ).toNNReal = 1 + 1 / κ := by
  have h2 : MemLp (id : ℝ → ℝ) 2 (gaussianReal 1 (1 / κ).toNNReal) := memLp_id_gaussianReal 2
  have hi : Integrable (fun x : ℝ => x ^ 2) (gaussianReal 1 (1 / κ).toNNReal) := h2.integrable_sq
  refine ⟨hi, ?_⟩
  have hv := variance_eq_sub h2
  have hv' : Var[id; gaussianReal 1 (1 / κ).toNNReal] = 1 / κ := by
    rw [variance_id_gaussianReal, Real.coe_toNNReal _ (by positivity)]
  have hm : ∫ x, x ∂gaussianReal 1 (1 / κ).toNNReal = 1 := integral_id_gaussianReal
  rw [hv'] at hv
  simp only [Pi.pow_apply, id] at hv
  rw [hm] at hv
  linarith

theorem integral_efjc_link (κ : ℝ) (a : V3 ℝ) : ∫ d, dot a (link d) ∂stretchAndPair κ = 0 := by
  unfold stretchAndPair
  simp only [dot_efjc_link]
  rw [integral_prod_mul (fun x : ℝ => x) (fun d => dot a (fjc.thermodynamics.isometric.monte_carlo.link d)), integral_link, mul_zero]

/-- C89: with an ideal generator, the mean square end-to-end length of the sampled extensible chain is `N (1 + 1/κ)`. -/
theorem C89_efjc {Ω : Type*} [MeasurableSpace Ω] {P : Measure Ω} {draw : Ω → ℕ → ℝ × ℝ × ℝ} {κ : ℝ} (hκ : 0 < κ)
    (hd : IdealDraws (stretchAndPair κ) P draw) {N : ℕ} (hN : 0 < N) :
    ∫ ω, random_nondimensional_end_to_end_length N (draw ω) ^ 2 ∂P = N * (1 + 1 / κ) := by
  have : IsProbabilityMeasure P := hd.independent.isProbabilityMeasure
  have e : ∀ ω, random_nondimensional_end_to_end_length N (draw ω) ^ 2 =
      dot (walkEnd V3.zero ((List.range N).map fun i => link (draw ω i))) (walkEnd V3.zero ((List.range N).map fun i => link (draw ω i))) := fun ω => by
    unfold random_nondimensional_end_to_end_length random_configuration
    rw [efjc_configuration, last_norm_walk _ _ (by simp; omega), norm_eq, Real.sq_sqrt (dot_self_nonneg _)]
  have hm : ∀ i, Measurable fun ω => link (draw ω i) := fun i => measurable_efjc_link.comp (hd.measurable i)
  obtain ⟨k1, k2⟩ := stretch_moment hκ
  have hfst : (stretchAndPair κ).map Prod.fst = gaussianReal 1 (1 / κ).toNNReal := by
    unfold stretchAndPair
    rw [Measure.map_fst_prod]; simp
  have hsm : ∀ i, Measurable fun ω => (draw ω i).1 := fun i => measurable_fst.comp (hd.measurable i)
  have hlaw : ∀ i, P.map (fun ω => (draw ω i).1) = gaussianReal 1 (1 / κ).toNNReal := fun i => by
    rw [← hfst, ← hd.uniform i, Measure.map_map measurable_fst (hd.measurable i)]
    rfl
  have hsq : ∀ i, Integrable (fun ω => (draw ω i).1 ^ 2) P := fun i => by
    rw [← hlaw i, integrable_map_measure (Continuous.aestronglyMeasurable (by fun_prop)) (hsm i).aemeasurable] at k1
    exact k1
  have hsq2 : ∀ i, ∫ ω, (draw ω i).1 ^ 2 ∂P = 1 + 1 / κ := fun i => by
    rw [← k2, ← hlaw i, integral_map (hsm i).aemeasurable (Continuous.aestronglyMeasurable (by fun_prop))]
  have hi : ∀ i j, Integrable (fun ω => dot (link (draw ω i)) (link (draw ω j))) P := fun i j => by
    refine Integrable.mono' (((hsq i).add (hsq j)).div_const 2) (measurable_dot (hm i) (hm j)).aestronglyMeasurable (ae_of_all _ fun ω => ?_)
    rw [dot_efjc_links, Real.norm_eq_abs, abs_mul]
    have h1 := abs_dot_le (dot_link_self (draw ω i).2).le (dot_link_self (draw ω j).2).le
    have h2 : |(draw ω i).1 * (draw ω j).1| ≤ ((draw ω i).1 ^ 2 + (draw ω j).1 ^ 2) / 2 := by
      rw [abs_le]; constructor <;> nlinarith [sq_nonneg ((draw ω i).1 - (draw ω j).1), sq_nonneg ((draw ω i).1 + (draw ω j).1)]
    exact (mul_le_of_le_one_right (abs_nonneg _) h1).trans h2
  have h0 : ∀ i j, i < j → ∫ ω, dot (link (draw ω i)) (link (draw ω j)) ∂P = 0 := fun i j hij => by
    rw [integral_next hd j (fun s d => dot (link (s i)) (link d))
      (measurable_dot (measurable_efjc_link.comp ((measurable_pi_apply i).comp measurable_fst)) (measurable_efjc_link.comp measurable_snd))
      (hi i j) fun s s' h => by rw [h i hij]]
    simp [integral_efjc_link]
  simp only [e]
  rw [integral_dot_sum _ hi]
  have h1 : ∀ i j, ∫ ω, dot (link (draw ω i)) (link (draw ω j)) ∂P = if i = j then 1 + 1 / κ else 0 := fun i j => by
    split_ifs with h
    · subst h
      rw [← hsq2 i]
      refine integral_congr_ae (ae_of_all _ fun ω => ?_)
      simp only [dot_efjc_links, dot_link_self]
      ring
    · rcases lt_or_gt_of_ne h with h | h
      · exact h0 i j h
      · rw [← h0 j i h]
        refine integral_congr_ae (ae_of_all _ fun ω => ?_)
        simp only [dot]
        ring
  simp only [h1]
  rw [sum_diagonal]

/-- C89: this is less than three times the number of links times the slope of the extension per link at small forces, under each of
the asymptotic approaches: the stretches are drawn without the factor `λ²` of the equilibrium distribution in space. -/
theorem C89_efjc_response {Ω : Type*} [MeasurableSpace Ω] {P : Measure Ω} {draw : Ω → ℕ → ℝ × ℝ × ℝ} {k ℓ T : ℝ} (hk : 0 < k)
    (hℓ : 0 < ℓ) (hT : 0 < T) (hd : IdealDraws (stretchAndPair (ndStiffness k ℓ T)) P draw) {N : ℕ} (hN : 0 < N) (m : ℝ) {L : ℝ}
    (hL : Tendsto (fun η => (efjc_isotensional_asymptotic_lengths N ℓ m k).nd_length_per_link η T / η) (𝓝[>] 0) (𝓝 L) ∨
      Tendsto (fun η => (efjc_isotensional_asymptotic_alternative_lengths N ℓ m k).nd_length_per_link η T / η) (𝓝[>] 0) (𝓝 L) ∨
      Tendsto (fun η => (efjc_isotensional_asymptotic_reduced_lengths N ℓ m k).nd_length_per_link η T / η) (𝓝[>] 0) (𝓝 L)) :
    ∫ ω, random_nondimensional_end_to_end_length N (draw ω) ^ 2 ∂P < 3 * N * L := by
  have hκ := ndStiffness_pos hk hℓ hT
  rw [C89_efjc hκ hd hN, mul_comm (3 : ℝ), mul_assoc]
  refine mul_lt_mul_of_pos_left ?_ (by exact_mod_cast hN)
  have h1 : 0 < 1 / ndStiffness k ℓ T := by positivity
  rcases hL with hL | hL | hL
  · rw [tendsto_nhds_unique hL (C63_efjc_asymptotic N ℓ m hℓ hk hT)]
    have : 0 < 2 / 3 / (1 + 1 / ndStiffness k ℓ T) := by positivity
    nlinarith
  · rw [tendsto_nhds_unique hL (C63_efjc_alternative N ℓ m hℓ hk hT)]
    have : 5 / 3 / ndStiffness k ℓ T = 5 / 3 * (1 / ndStiffness k ℓ T) := by ring
    rw [this]
    linarith
  · rw [tendsto_nhds_unique hL (C63_efjc_reduced N ℓ m hℓ hk hT)]
    linarith

end efjc

/-! ### FRC -/

section frc
open frc.thermodynamics.isometric.monte_carlo

theorem measurable_frameU : Measurable fun p : V3 ℝ × V3 ℝ => frameU p.1 p.2 := by
  have hr := measurable_v3.1 (measurable_fst (α := V3 ℝ) (β := V3 ℝ))
  have ht := measurable_v3.1 (measurable_snd (α := V3 ℝ) (β := V3 ℝ))
  have hc : Measurable fun p : V3 ℝ × V3 ℝ => cross p.1 p.2 := by
    refine measurable_v3.2 ⟨?_, ?_, ?_⟩ <;> unfold cross
    · exact (hr.2.1.mul ht.2.2).sub (hr.2.2.mul ht.2.1)
    · exact (hr.2.2.mul ht.1).sub (hr.1.mul ht.2.2)
    · exact (hr.1.mul ht.2.1).sub (hr.2.1.mul ht.1)
  have hn : Measurable fun p : V3 ℝ × V3 ℝ => (cross p.1 p.2).norm := by
    simp only [norm_eq]
    exact (measurable_dot hc hc).sqrt
  obtain ⟨h1, h2, h3⟩ := measurable_v3.1 hc
  exact measurable_v3.2 ⟨h1.div hn, h2.div hn, h3.div hn⟩

theorem measurable_cone (θ : ℝ) : Measurable fun p : V3 ℝ × (ℝ × V3 ℝ) => next_link θ p.1 p.2 := by
  have hr := measurable_v3.1 (measurable_fst (α := V3 ℝ) (β := ℝ × V3 ℝ))
  have hu0 : Measurable fun p : V3 ℝ × (ℝ × V3 ℝ) => frameU p.1 p.2.2 :=
    measurable_frameU.comp (measurable_fst.prodMk (measurable_snd.comp measurable_snd))
  obtain ⟨h1, h2, h3⟩ := measurable_v3.1 hu0
  have hφ : Measurable fun p : V3 ℝ × (ℝ × V3 ℝ) => 2 * Real.pi * p.2.1 := (measurable_fst.comp measurable_snd).const_mul _
  have hcos := hφ.cos
  have hsin := hφ.sin
  simp only [frc_next_link, cone_eq]
  refine measurable_v3.2 ⟨?_, ?_, ?_⟩ <;> simp only [cross]
  · exact (((h1.mul hcos).add (((hr.2.1.mul h3).sub (hr.2.2.mul h2)).mul hsin)).mul_const _).add (hr.1.mul_const _)
  · exact (((h2.mul hcos).add (((hr.2.2.mul h1).sub (hr.1.mul h3)).mul hsin)).mul_const _).add (hr.2.1.mul_const _)
  · exact (((h3.mul hcos).add (((hr.1.mul h2).sub (hr.2.1.mul h1)).mul hsin)).mul_const _).add (hr.2.2.mul_const _)

theorem measurable_comp₂ {Ω A B C : Type*} [MeasurableSpace Ω] [MeasurableSpace A] [MeasurableSpace B] [MeasurableSpace C] {F : A → B → C}
    (hF : Measurable fun p : A × B => F p.1 p.2) {f : Ω → A} {g : Ω → B} (hf : Measurable f) (hg : Measurable g) :
    Measurable fun ω => F (f ω) (g ω) := hF.comp (hf.prodMk hg)

theorem measurable_next {Ω : Type*} [MeasurableSpace Ω] (θ : ℝ) {f : Ω → V3 ℝ} {g : Ω → ℝ × V3 ℝ} (hf : Measurable f) (hg : Measurable g) :
    Measurable fun ω => next_link θ (f ω) (g ω) :=
  measurable_comp₂ (F := next_link θ) (measurable_cone θ) hf hg

theorem measurable_frcLink (θ : ℝ) (r : V3 ℝ) (i : ℕ) : Measurable fun s : ℕ → ℝ × V3 ℝ => frcLink θ r s i := by
  induction i with
  | zero =>
    simp only [frcLink]
    exact measurable_next θ measurable_const (measurable_pi_apply 0)
  | succ i ih =>
    simp only [frcLink]
    exact measurable_next θ ih (measurable_pi_apply (i + 1))

theorem frcLink_local (θ : ℝ) (r : V3 ℝ) {i : ℕ} {s s' : ℕ → ℝ × V3 ℝ} (h : ∀ j ≤ i, s j = s' j) : frcLink θ r s i = frcLink θ r s' i := by
  induction i with
  | zero => exact congrArg (next_link θ r) (h 0 le_rfl)
  | succ i ih =>
    simp only [frcLink]
    rw [ih fun j hj => h j (by omega), h (i + 1) le_rfl]

theorem dot_frameU_self (r t : V3 ℝ) : dot (frameU r t) (frameU r t) ≤ 1 := by
  by_cases h : Parallel r t
  · have h0 : dot (cross r t) (cross r t) = 0 := by
      unfold Parallel at h
      rw [dot_cross_self]; linarith
    have : (cross r t).norm = 0 := by rw [norm_eq, h0, Real.sqrt_zero]
    unfold frameU dot
    simp [this]
  · exact (frameU_unit h).le

/-- The length of the next link. -/
theorem dot_cone_self (θ φ : ℝ) (r t : V3 ℝ) : dot (cone θ φ r t) (cone θ φ r t) =
    dot (frameU r t) (frameU r t) * (Real.cos φ ^ 2 + dot r r * Real.sin φ ^ 2) * Real.sin θ ^ 2 + dot r r * Real.cos θ ^ 2 := by
  have h := frameU_perp r t
  rw [cone_eq]
  generalize frameU r t = u at *
  unfold dot cross at *
  simp only
  linear_combination (2 * Real.cos φ * Real.sin θ * Real.cos θ -
    (r.x * u.x + r.y * u.y + r.z * u.z) * Real.sin φ ^ 2 * Real.sin θ ^ 2) * h

theorem dot_next_link_le (θ : ℝ) {r : V3 ℝ} (d : ℝ × V3 ℝ) (hr : dot r r ≤ 1) : dot (next_link θ r d) (next_link θ r d) ≤ 1 := by
  rw [frc_next_link, dot_cone_self]
  have h1 := dot_frameU_self r d.2
  have h2 := dot_self_nonneg (frameU r d.2)
  have h3 := dot_self_nonneg r
  have h4 := Real.sin_sq_add_cos_sq θ
  have h5 := Real.sin_sq_add_cos_sq (2 * Real.pi * d.1)
  have h6 := sq_nonneg (Real.sin θ)
  have h7 := sq_nonneg (Real.sin (2 * Real.pi * d.1))
  have h8 := sq_nonneg (Real.cos (2 * Real.pi * d.1))
  have k1 : Real.cos (2 * Real.pi * d.1) ^ 2 + dot r r * Real.sin (2 * Real.pi * d.1) ^ 2 ≤ 1 := by nlinarith
  have k0 : 0 ≤ Real.cos (2 * Real.pi * d.1) ^ 2 + dot r r * Real.sin (2 * Real.pi * d.1) ^ 2 := by positivity
  have k2 : dot (frameU r d.2) (frameU r d.2) * (Real.cos (2 * Real.pi * d.1) ^ 2 + dot r r * Real.sin (2 * Real.pi * d.1) ^ 2) ≤ 1 :=
    mul_le_one₀ h1 k0 k1
  nlinarith [sq_nonneg (Real.cos θ)]

theorem dot_frcLink_le (θ : ℝ) {r : V3 ℝ} (hr : dot r r ≤ 1) (s : ℕ → ℝ × V3 ℝ) (i : ℕ) : dot (frcLink θ r s i) (frcLink θ r s i) ≤ 1 := by
  induction i with
  | zero => exact dot_next_link_le θ _ hr
  | succ i ih => exact dot_next_link_le θ _ ih

instance : IsProbabilityMeasure uniformVector := by
  unfold uniformVector
  exact Measure.isProbabilityMeasure_map (Measurable.aemeasurable (measurable_v3.2
    ⟨measurable_fst, measurable_fst.comp measurable_snd, measurable_snd.comp measurable_snd⟩))

instance : IsProbabilityMeasure numberAndVector := by unfold numberAndVector; infer_instance

/-- The mean of the next link. -/
theorem integral_cone (θ : ℝ) {a r : V3 ℝ} (ha : dot a a ≤ 1) (hr : dot r r ≤ 1) :
    ∫ d, dot a (next_link θ r d) ∂numberAndVector = Real.cos θ * dot a r := by
  have hm : Measurable fun d : ℝ × V3 ℝ => dot a (next_link θ r d) :=
    measurable_dot measurable_const (measurable_next θ measurable_const measurable_id)
  have hi : Integrable (fun d : ℝ × V3 ℝ => dot a (next_link θ r d)) (uniformNumber.prod uniformVector) :=
    Integrable.of_bound hm.aestronglyMeasurable 1 (ae_of_all _ fun d => by
      rw [Real.norm_eq_abs]; exact abs_dot_le ha (dot_next_link_le θ d hr))
  unfold numberAndVector
  rw [integral_prod_symm _ hi]
  have h1 : ∀ t : V3 ℝ, ∫ u, dot a (next_link θ r (u, t)) ∂uniformNumber = Real.cos θ * dot a r := fun t => by
    rw [← integral_angle (dot a (frameU r t) * Real.sin θ) (dot a (cross r (frameU r t)) * Real.sin θ) (Real.cos θ * dot a r)]
    refine integral_congr_ae (ae_of_all _ fun u => ?_)
    simp only [frc_next_link, cone_eq]
    unfold dot
    ring
  simp [h1]

/-- The random vector is parallel to a given one with probability zero. -/
theorem uniformVector_parallel {r : V3 ℝ} (hr : dot r r ≠ 0) : uniformVector {t | Parallel r t} = 0 := by
  have hmk : Measurable fun p : ℝ × ℝ × ℝ => (⟨p.1, p.2.1, p.2.2⟩ : V3 ℝ) := measurable_v3.2
    ⟨measurable_fst, measurable_fst.comp measurable_snd, measurable_snd.comp measurable_snd⟩
  have hS : MeasurableSet {t : V3 ℝ | Parallel r t} := by
    unfold Parallel
    exact measurableSet_eq_fun ((measurable_dot measurable_const measurable_id).pow_const 2)
      ((measurable_dot measurable_id measurable_id).const_mul _)
  unfold uniformVector
  rw [Measure.map_apply hmk hS]
  unfold uniformNumber
  rw [Measure.prod_restrict, Measure.prod_restrict]
  refine le_antisymm ((Measure.restrict_apply_le _ _).trans ?_) bot_le
  have hh : ((volume : Measure ℝ).prod ((volume : Measure ℝ).prod (volume : Measure ℝ))).IsAddHaarMeasure :=
    Measure.prod.instIsAddHaarMeasure _ _
  have key : ∀ f : ℝ × ℝ × ℝ →ₗ[ℝ] ℝ, f ≠ 0 → (∀ p : ℝ × ℝ × ℝ, Parallel r ⟨p.1, p.2.1, p.2.2⟩ → f p = 0) →
      ((volume : Measure ℝ).prod ((volume : Measure ℝ).prod (volume : Measure ℝ))) ((fun p : ℝ × ℝ × ℝ => (⟨p.1, p.2.1, p.2.2⟩ : V3 ℝ)) ⁻¹' {t | Parallel r t}) ≤ 0 := fun f hf hp => by
    have h := Measure.addHaar_submodule ((volume : Measure ℝ).prod ((volume : Measure ℝ).prod (volume : Measure ℝ))) (LinearMap.ker f) fun h => hf (LinearMap.ker_eq_top.1 h)
    rw [← h]
    exact measure_mono fun p hp' => LinearMap.mem_ker.2 (hp p hp')
  have hcr : ∀ p : ℝ × ℝ × ℝ, Parallel r ⟨p.1, p.2.1, p.2.2⟩ → r.x * p.2.1 - r.y * p.1 = 0 ∧ r.z * p.1 - r.x * p.2.2 = 0 := fun p hp => by
    unfold Parallel at hp
    have h0 := dot_cross_self r ⟨p.1, p.2.1, p.2.2⟩
    rw [hp, sub_self] at h0
    unfold dot cross at h0
    simp only at h0
    constructor <;>
    nlinarith [mul_self_nonneg (r.y * p.2.2 - r.z * p.2.1), mul_self_nonneg (r.z * p.1 - r.x * p.2.2), mul_self_nonneg (r.x * p.2.1 - r.y * p.1)]
  by_cases h1 : r.x = 0 ∧ r.y = 0
  · refine key (r.z • LinearMap.fst ℝ ℝ (ℝ × ℝ) - r.x • (LinearMap.snd ℝ ℝ ℝ).comp (LinearMap.snd ℝ ℝ (ℝ × ℝ))) (fun h => ?_) fun p hp => ?_
    · have := LinearMap.congr_fun h (1, 0, 0)
      simp at this
      exact hr (by unfold dot; rw [h1.1, h1.2, this]; ring)
    · simpa using (hcr p hp).2
  · refine key (r.x • (LinearMap.fst ℝ ℝ ℝ).comp (LinearMap.snd ℝ ℝ (ℝ × ℝ)) - r.y • LinearMap.fst ℝ ℝ (ℝ × ℝ)) (fun h => h1 ⟨?_, ?_⟩) fun p hp => ?_
    · simpa using LinearMap.congr_fun h (0, 1, 0)
    · simpa using LinearMap.congr_fun h (1, 0, 0)
    · simpa using (hcr p hp).1

variable {Ω : Type*} [MeasurableSpace Ω] {P : Measure Ω} {draw : Ω → ℕ → ℝ × V3 ℝ} {θ : ℝ} {r : V3 ℝ}

theorem measurableSet_parallel {A : Type*} [MeasurableSpace A] {f g : A → V3 ℝ} (hf : Measurable f) (hg : Measurable g) :
    MeasurableSet {a | Parallel (f a) (g a)} := by
  unfold Parallel
  exact measurableSet_eq_fun ((measurable_dot hf hg).pow_const 2) ((measurable_dot hf hf).mul (measurable_dot hg hg))

instance : Nonempty (ℝ × V3 ℝ) := ⟨(0, ⟨0, 0, 0⟩)⟩

/-- The link before link `i`. -/
noncomputable def frcBefore (θ : ℝ) (r : V3 ℝ) (s : ℕ → ℝ × V3 ℝ) : ℕ → V3 ℝ
  | 0 => r
  | i + 1 => frcLink θ r s i

/-- No random vector is parallel to the link before it, with probability one, and the links are unit vectors. -/
theorem frcLink_spec (hd : IdealDraws numberAndVector P draw) (hr : dot r r = 1) (i : ℕ) :
    ∀ᵐ ω ∂P, dot (frcLink θ r (draw ω) i) (frcLink θ r (draw ω) i) = 1 ∧
      ¬ Parallel (frcBefore θ r (draw ω) i) (draw ω i).2 := by
  have hzero : ∀ r : V3 ℝ, dot r r = 1 → numberAndVector {d | Parallel r d.2} = 0 := fun r hr => by
    have : {d : ℝ × V3 ℝ | Parallel r d.2} = univ ×ˢ {t | Parallel r t} := by ext; simp
    unfold numberAndVector
    rw [this, Measure.prod_prod, uniformVector_parallel (by rw [hr]; norm_num), mul_zero]
  have hone : ∀ (r : V3 ℝ) (d : ℝ × V3 ℝ), dot r r = 1 → ¬ Parallel r d.2 → dot (next_link θ r d) (next_link θ r d) = 1 := fun r d hr hp => by
    rw [frc_next_link, dot_cone_self, frameU_unit hp, hr]
    have h4 := Real.sin_sq_add_cos_sq θ
    have h5 := Real.sin_sq_add_cos_sq (2 * Real.pi * d.1)
    linear_combination h4 + Real.sin θ ^ 2 * h5
  have hsnd : ∀ A : Type, ∀ [MeasurableSpace A], Measurable fun p : A × (ℝ × V3 ℝ) => p.2.2 := fun A _ => measurable_snd.comp measurable_snd
  induction i with
  | zero =>
    have h := ae_next hd 0 (fun _ => {d | Parallel r d.2})
      (measurableSet_parallel (f := fun _ : (ℕ → ℝ × V3 ℝ) × (ℝ × V3 ℝ) => r) measurable_const (hsnd _))
      (fun _ _ _ => rfl) (ae_of_all _ fun _ => hzero r hr)
    exact h.mono fun ω hω => ⟨hone r _ hr hω, hω⟩
  | succ i ih =>
    have h := ae_next hd (i + 1) (fun s => {d | Parallel (frcLink θ r s i) d.2})
      (measurableSet_parallel (f := fun p : (ℕ → ℝ × V3 ℝ) × (ℝ × V3 ℝ) => frcLink θ r p.1 i)
        ((measurable_frcLink θ r i).comp measurable_fst) (hsnd _))
      (fun s s' h => by rw [frcLink_local θ r fun j hj => h j (by omega)]) (ih.mono fun ω hω => hzero _ hω.1)
    filter_upwards [ih, h] with ω h1 h2
    exact ⟨hone _ _ h1.1 h2, h2⟩

/-- The sampled links are unit vectors, with probability one. -/
theorem frcLink_unit (hd : IdealDraws numberAndVector P draw) (hr : dot r r = 1) (i : ℕ) :
    ∀ᵐ ω ∂P, dot (frcLink θ r (draw ω) i) (frcLink θ r (draw ω) i) = 1 := (frcLink_spec hd hr i).mono fun _ h => h.1

theorem frcLink_not_parallel (hd : IdealDraws numberAndVector P draw) (hr : dot r r = 1) (i : ℕ) :
    ∀ᵐ ω ∂P, ¬ Parallel (frcBefore θ r (draw ω) i) (draw ω i).2 :=
  (frcLink_spec hd hr i).mono fun _ h => h.2

theorem integrable_frcLink (hd : IdealDraws numberAndVector P draw) (hr : dot r r = 1) (i j : ℕ) :
    Integrable (fun ω => dot (frcLink θ r (draw ω) i) (frcLink θ r (draw ω) j)) P := by
  have : IsProbabilityMeasure P := hd.independent.isProbabilityMeasure
  have hdr : Measurable draw := measurable_pi_iff.2 hd.measurable
  refine Integrable.of_bound (measurable_dot ((measurable_frcLink θ r i).comp hdr) ((measurable_frcLink θ r j).comp hdr)).aestronglyMeasurable 1
    (ae_of_all _ fun ω => ?_)
  rw [Real.norm_eq_abs]
  exact abs_dot_le (dot_frcLink_le θ hr.le _ _) (dot_frcLink_le θ hr.le _ _)

/-- The mean cosine of the angle between two links. -/
theorem frcLink_correlation (hd : IdealDraws numberAndVector P draw) (hr : dot r r = 1) (i k : ℕ) :
    ∫ ω, dot (frcLink θ r (draw ω) i) (frcLink θ r (draw ω) (i + k)) ∂P = Real.cos θ ^ k := by
  have : IsProbabilityMeasure P := hd.independent.isProbabilityMeasure
  induction k with
  | zero =>
    rw [Nat.add_zero, integral_congr_ae (frcLink_unit hd hr i)]
    simp
  | succ k ih =>
    have h := integral_next hd (i + k + 1) (fun s d => dot (frcLink θ r s i) (next_link θ (frcLink θ r s (i + k)) d))
      (measurable_dot ((measurable_frcLink θ r i).comp measurable_fst)
        (measurable_next θ ((measurable_frcLink θ r (i + k)).comp measurable_fst) measurable_snd))
      (integrable_frcLink hd hr i (i + k + 1)) fun s s' h => by
        rw [frcLink_local θ r fun j hj => h j (by omega), frcLink_local θ r (i := i + k) fun j hj => h j (by omega)]
    have e : ∀ ω, ∫ d, dot (frcLink θ r (draw ω) i) (next_link θ (frcLink θ r (draw ω) (i + k)) d) ∂numberAndVector =
        Real.cos θ * dot (frcLink θ r (draw ω) i) (frcLink θ r (draw ω) (i + k)) := fun ω =>
      integral_cone θ (dot_frcLink_le θ hr.le _ _) (dot_frcLink_le θ hr.le _ _)
    simp only [e] at h
    rw [integral_const_mul, ih] at h
    rw [pow_succ', ← h]
    rfl

theorem sum_correlation (c : ℝ) (hc : c ≠ 1) (N : ℕ) :
    ∑ i ∈ Finset.range N, ∑ j ∈ Finset.range N, c ^ (i - j + (j - i)) =
      N * (1 + c) / (1 - c) - 2 * c * (1 - c ^ N) / (1 - c) ^ 2 := by
  have hc' : 1 - c ≠ 0 := sub_ne_zero.2 hc.symm
  have hg : ∀ N : ℕ, ∑ i ∈ Finset.range N, c ^ (N - i) = c * (1 - c ^ N) / (1 - c) := fun N => by
    induction N with
    | zero => simp
    | succ N ih =>
      rw [Finset.sum_range_succ]
      have : ∀ i ∈ Finset.range N, c ^ (N + 1 - i) = c * c ^ (N - i) := fun i hi => by
        have := Finset.mem_range.1 hi
        rw [← pow_succ']; congr 1; omega
      rw [Finset.sum_congr rfl this, ← Finset.mul_sum, ih, show N + 1 - N = 1 by omega, pow_succ]
      field_simp
      ring
  induction N with
  | zero => simp
  | succ N ih =>
    rw [Finset.sum_range_succ]
    have h1 : ∀ i ∈ Finset.range N, ∑ j ∈ Finset.range (N + 1), c ^ (i - j + (j - i)) =
        ∑ j ∈ Finset.range N, c ^ (i - j + (j - i)) + c ^ (N - i) := fun i hi => by
      have := Finset.mem_range.1 hi
      rw [Finset.sum_range_succ]; congr 2; omega
    have h2 : ∑ j ∈ Finset.range (N + 1), c ^ (N - j + (j - N)) = ∑ j ∈ Finset.range N, c ^ (N - j) + 1 := by
      rw [Finset.sum_range_succ]
      congr 1
      · refine Finset.sum_congr rfl fun j hj => ?_
        have := Finset.mem_range.1 hj
        congr 1; omega
      · simp
    rw [Finset.sum_congr rfl h1, Finset.sum_add_distrib, ih, hg, h2, hg]
    push_cast
    field_simp
    ring

/-- C89: with an ideal generator, the mean square end-to-end length of the freely rotating chain is the textbook value. -/
theorem C89_frc (hd : IdealDraws numberAndVector P draw) {N : ℕ} (hN : 0 < N) (hθ : Real.cos θ ≠ 1) :
    ∫ ω, random_nondimensional_end_to_end_length N θ (draw ω) ^ 2 ∂P =
      N * (1 + Real.cos θ) / (1 - Real.cos θ) - 2 * Real.cos θ * (1 - Real.cos θ ^ N) / (1 - Real.cos θ) ^ 2 := by
  have hr : dot (⟨1, 0, 0⟩ : V3 ℝ) ⟨1, 0, 0⟩ = 1 := by unfold dot; norm_num
  have e : ∀ ω, random_nondimensional_end_to_end_length N θ (draw ω) ^ 2 =
      dot (walkEnd V3.zero ((List.range N).map fun i => frcLink θ ⟨1, 0, 0⟩ (draw ω) i))
        (walkEnd V3.zero ((List.range N).map fun i => frcLink θ ⟨1, 0, 0⟩ (draw ω) i)) := fun ω => by
    unfold random_nondimensional_end_to_end_length
    rw [frc_random_configuration, last_norm_walk _ _ (by simp; omega), norm_eq, Real.sq_sqrt (dot_self_nonneg _)]
  simp only [e]
  rw [integral_dot_sum _ (integrable_frcLink hd hr), ← sum_correlation _ hθ]
  refine Finset.sum_congr rfl fun i _ => Finset.sum_congr rfl fun j _ => ?_
  rcases le_total i j with h | h
  · obtain ⟨k, rfl⟩ := Nat.exists_eq_add_of_le h
    rw [frcLink_correlation hd hr]
    congr 1; omega
  · obtain ⟨k, rfl⟩ := Nat.exists_eq_add_of_le h
    rw [show j + k - j + (j - (j + k)) = k by omega, ← frcLink_correlation hd hr j k]
    refine integral_congr_ae (ae_of_all _ fun ω => ?_)
    simp only [dot]
    ring

/-- C89: with an ideal generator, the mean cosine of the angle between two links of the freely rotating chain is the power of the
cosine of the angle between neighbours. -/
theorem C89_frc_correlation (hd : IdealDraws numberAndVector P draw) {N i j : ℕ} (hij : i ≤ j) (hj : j < N) :
    ∫ ω, dot (linkVector (random_configuration N θ (draw ω)) i) (linkVector (random_configuration N θ (draw ω)) j) ∂P =
      Real.cos θ ^ (j - i) := by
  have hr : dot (⟨1, 0, 0⟩ : V3 ℝ) ⟨1, 0, 0⟩ = 1 := by unfold dot; norm_num
  obtain ⟨k, rfl⟩ := Nat.exists_eq_add_of_le hij
  rw [show i + k - i = k by omega, ← frcLink_correlation hd hr i k]
  refine integral_congr_ae (ae_of_all _ fun ω => ?_)
  simp only
  rw [frc_linkVector θ (draw ω) (by omega), frc_linkVector θ (draw ω) hj]

end frc

/-- C89, concrete cases. -/
example : ∫ draw, fjc.thermodynamics.isometric.monte_carlo.random_nondimensional_end_to_end_length 8 draw ^ 2
    ∂(Measure.infinitePi fun _ : ℕ => uniformPair) = (8 : ℕ) := C89_fjc (idealDraws_exists _) (by norm_num)

example : ∫ draw, efjc.thermodynamics.isometric.monte_carlo.random_nondimensional_end_to_end_length 8 draw ^ 2
    ∂(Measure.infinitePi fun _ : ℕ => stretchAndPair 50) = (8 : ℕ) * (1 + 1 / 50) :=
  C89_efjc (by norm_num) (idealDraws_exists _) (by norm_num)

example : ∫ draw, frc.thermodynamics.isometric.monte_carlo.random_nondimensional_end_to_end_length 8 (Real.pi / 2) draw ^ 2
    ∂(Measure.infinitePi fun _ : ℕ => numberAndVector) = 8 := by
  rw [C89_frc (idealDraws_exists _) (by norm_num) (by simp)]
  simp

end Polymers.Props
