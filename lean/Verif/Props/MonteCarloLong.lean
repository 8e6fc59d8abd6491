import Verif.Lemmas.LongWalk
import Verif.Props.MonteCarloError

/-!
C93: with an ideal generator, the lengths of long sampled chains follow the distribution of the ideal chain.
-/

namespace Polymers.Props

open Polymers.Spec Polymers.Api Polymers.Lemmas Set Filter Topology MeasureTheory ProbabilityTheory

local notation "fjcLink" => fjc.thermodynamics.isometric.monte_carlo.link

theorem integral_polar_sin : ∫ v in (0 : ℝ)..1, Real.sin (Real.arccos (1 - 2 * v)) ^ 2 = 2 / 3 := by
  have h : EqOn (fun v => Real.sin (Real.arccos (1 - 2 * v)) ^ 2) (fun v => 4 * v - 4 * v ^ 2) (uIcc (0 : ℝ) 1) := fun v hv => by
    rw [uIcc_of_le zero_le_one] at hv
    simp only
    rw [Real.sin_arccos, Real.sq_sqrt (by nlinarith [hv.1, hv.2])]
    ring
  rw [intervalIntegral.integral_congr h, intervalIntegral.integral_sub (Continuous.intervalIntegrable (by fun_prop) _ _) (Continuous.intervalIntegrable (by fun_prop) _ _)]
  rw [intervalIntegral.integral_const_mul, intervalIntegral.integral_const_mul, integral_id, integral_pow]
  norm_num

theorem integral_polar_cos : ∫ v in (0 : ℝ)..1, Real.cos (Real.arccos (1 - 2 * v)) ^ 2 = 1 / 3 := by
  have h : ∀ v, Real.cos (Real.arccos (1 - 2 * v)) ^ 2 = 1 - Real.sin (Real.arccos (1 - 2 * v)) ^ 2 := fun v => by
    have := Real.sin_sq_add_cos_sq (Real.arccos (1 - 2 * v))
    linarith
  simp only [h]
  rw [intervalIntegral.integral_sub (Continuous.intervalIntegrable (by fun_prop) _ _) (Continuous.intervalIntegrable (by fun_prop) _ _), integral_polar_sin]
  norm_num

/-- A full turn: the means of the products of the sine and cosine of the azimuth. -/
theorem integral_turn (A B C D E : ℝ) : ∫ u in (0 : ℝ)..1, (A * Real.cos (2 * Real.pi * u) ^ 2 + B * Real.sin (2 * Real.pi * u) ^ 2 +
    C * (Real.cos (2 * Real.pi * u) * Real.sin (2 * Real.pi * u)) + D * Real.cos (2 * Real.pi * u) + E * Real.sin (2 * Real.pi * u)) =
      (A + B) / 2 := by
  have hpi : (2 * Real.pi) ≠ 0 := by positivity
  have h := intervalIntegral.integral_comp_mul_left (f := fun x => A * Real.cos x ^ 2 + B * Real.sin x ^ 2 +
    C * (Real.cos x * Real.sin x) + D * Real.cos x + E * Real.sin x) (a := 0) (b := 1) hpi
  rw [h, mul_zero, mul_one]
  have i : ∀ f : ℝ → ℝ, Continuous f → IntervalIntegrable f volume 0 (2 * Real.pi) := fun f hf => hf.intervalIntegrable _ _
  rw [intervalIntegral.integral_add (i _ (by fun_prop)) (i _ (by fun_prop)),
    intervalIntegral.integral_add (i _ (by fun_prop)) (i _ (by fun_prop)),
    intervalIntegral.integral_add (i _ (by fun_prop)) (i _ (by fun_prop)),
    intervalIntegral.integral_add (i _ (by fun_prop)) (i _ (by fun_prop))]
  have hcs : ∫ x in (0 : ℝ)..2 * Real.pi, Real.cos x * Real.sin x = 0 := by
    have : ∀ x, Real.cos x * Real.sin x = Real.sin x * Real.cos x := fun x => mul_comm _ _
    simp only [this]
    rw [integral_sin_mul_cos₁]
    simp
  simp only [intervalIntegral.integral_const_mul, hcs, integral_cos, integral_sin, integral_cos_sq, integral_sin_sq]
  simp
  field_simp

/-- The mean square of a component of a link. -/
theorem integral_link_sq (h : V3 ℝ) : ∫ d, dot h (fjcLink d) ^ 2 ∂uniformPair = 1 / 3 * dot h h := by
  have hc : Continuous fun d : ℝ × ℝ => dot h (fjcLink d) ^ 2 := (continuous_dot_link h).pow 2
  rw [integral_uniformPair hc]
  set K := ∫ v in (0 : ℝ)..1, Real.sin (Real.arccos (1 - 2 * v)) * Real.cos (Real.arccos (1 - 2 * v)) with hK
  have inner : ∀ u : ℝ, ∫ v in (0 : ℝ)..1, dot h (fjcLink (u, v)) ^ 2 =
      (2 / 3 * h.x ^ 2 * Real.cos (2 * Real.pi * u) ^ 2 + 2 / 3 * h.y ^ 2 * Real.sin (2 * Real.pi * u) ^ 2 +
        4 / 3 * h.x * h.y * (Real.cos (2 * Real.pi * u) * Real.sin (2 * Real.pi * u)) + 2 * K * h.z * h.x * Real.cos (2 * Real.pi * u) +
        2 * K * h.z * h.y * Real.sin (2 * Real.pi * u)) + 1 / 3 * h.z ^ 2 := fun u => by
    generalize hcu : Real.cos (2 * Real.pi * u) = c
    generalize hsu : Real.sin (2 * Real.pi * u) = s
    have e : ∀ v, dot h (fjcLink (u, v)) ^ 2 = (h.x * c + h.y * s) ^ 2 * Real.sin (Real.arccos (1 - 2 * v)) ^ 2 +
        2 * (h.x * c + h.y * s) * h.z * (Real.sin (Real.arccos (1 - 2 * v)) * Real.cos (Real.arccos (1 - 2 * v))) +
        h.z ^ 2 * Real.cos (Real.arccos (1 - 2 * v)) ^ 2 := fun v => by
      rw [link_real]
      simp only [dot, hcu, hsu]
      ring
    have i : ∀ f : ℝ → ℝ, Continuous f → IntervalIntegrable f volume 0 1 := fun f hf => hf.intervalIntegrable _ _
    simp only [e]
    rw [intervalIntegral.integral_add (i _ (by fun_prop)) (i _ (by fun_prop)),
      intervalIntegral.integral_add (i _ (by fun_prop)) (i _ (by fun_prop))]
    simp only [intervalIntegral.integral_const_mul, integral_polar_sin, integral_polar_cos, ← hK]
    ring
  simp only [inner]
  rw [intervalIntegral.integral_add (Continuous.intervalIntegrable (by fun_prop) _ _) (Continuous.intervalIntegrable (by fun_prop) _ _),
    integral_turn]
  simp only [intervalIntegral.integral_const, smul_eq_mul, dot]
  ring

section fjc
open fjc.thermodynamics.isometric.monte_carlo
variable {Ω : Type*} [MeasurableSpace Ω] {P : Measure Ω} {draw : Ω → ℕ → ℝ × ℝ}

theorem fjc_steps (hd : UniformDraws P draw) : IsotropicSteps P (fun i ω => link (draw ω i)) 1 where
  measurable i := measurable_link.comp (hd.measurable i)
  independent := hd.independent.comp (fun _ d => link d) fun _ => measurable_link
  same i := by
    have h : IdentDistrib (fun ω => draw ω i) (fun ω => draw ω 0) P P :=
      ⟨(hd.measurable i).aemeasurable, (hd.measurable 0).aemeasurable, by rw [hd.uniform i, hd.uniform 0]⟩
    exact h.comp measurable_link
  mean h := by
    rw [← integral_link h, ← hd.uniform 0, integral_map (hd.measurable 0).aemeasurable (continuous_dot_link h).aestronglyMeasurable]
  integrable h := by
    have hc : Continuous fun d => dot h (link d) ^ 2 := (continuous_dot_link h).pow 2
    have : Integrable (fun d => dot h (link d) ^ 2) uniformPair := by
      unfold uniformPair uniformNumber
      rw [Measure.prod_restrict]
      exact hc.continuousOn.integrableOn_compact (isCompact_Icc.prod isCompact_Icc)
    rw [← hd.uniform 0, integrable_map_measure hc.aestronglyMeasurable (hd.measurable 0).aemeasurable] at this
    exact this
  square h := by
    have hc : Continuous fun d => dot h (link d) ^ 2 := (continuous_dot_link h).pow 2
    have := integral_link_sq h
    rw [← hd.uniform 0, integral_map (hd.measurable 0).aemeasurable hc.aestronglyMeasurable] at this
    rw [this]
    norm_num

/-- C93: with an ideal generator and enough links, the probability that a sampled freely jointed chain has an end-to-end length in a
range is the one of the ideal chain, up to an error that is small for all ranges at once. -/
theorem C93_fjc (hd : UniformDraws P draw) (ℓ m : ℝ) {ε : ℝ} (hε : 0 < ε) :
    ∃ N₀, ∀ N ≥ N₀, ∀ α β, 0 ≤ α → α ≤ β →
      |P.real {ω | random_nondimensional_end_to_end_length N (draw ω) / N ∈ Icc α β} -
        ∫ γ in α..β, (ideal_isometric_distribution N ℓ m).nd_radial γ| ≤ ε := by
  obtain ⟨N₀, h⟩ := eventually_atTop.1 (walk_uniform one_pos (fjc_steps hd) m hε)
  refine ⟨N₀ + 1, fun N hN α β hα hαβ => ?_⟩
  have hN0 : 0 < N := by omega
  have hN' : (0 : ℝ) < N := Nat.cast_pos.2 hN0
  have h := h N (by omega) (α * N) (β * N) (by positivity) (by gcongr)
  have e1 : {ω | random_nondimensional_end_to_end_length N (draw ω) / N ∈ Icc α β} =
      {ω | (walkEnd V3.zero ((List.range N).map fun i => link (draw ω i))).norm ∈ Icc (α * N) (β * N)} := by
    ext ω
    simp only [mem_ofPred_eq, mem_Icc, fjcEnd_norm hN0, le_div_iff₀ hN', div_le_iff₀ hN', fjcEnd]
  have e2 : ∫ γ in α..β, (ideal_isometric_distribution N ℓ m).nd_radial γ =
      ∫ r in α * N..β * N, (ideal_isometric_distribution N 1 m).radial r := by
    have e : ∀ γ, (ideal_isometric_distribution N ℓ m).nd_radial γ = N * (ideal_isometric_distribution N 1 m).radial (N * γ) := fun γ => by
      have h1 := (C12_ideal_distribution_scales N 1 m hN0 one_pos).radial_scale (N * γ)
      rw [mul_one, mul_div_cancel_left₀ _ hN'.ne'] at h1
      rw [h1, mul_div_cancel₀ _ hN'.ne']
      rfl
    simp only [e]
    rw [intervalIntegral.integral_const_mul, intervalIntegral.mul_integral_comp_mul_left, mul_comm α, mul_comm β]
  rw [e1, e2]
  exact h

/-- C93, concrete case: the hypotheses hold for independent uniform numbers. -/
example : ∃ N₀, ∀ N ≥ N₀, ∀ α β, 0 ≤ α → α ≤ β →
    |(Measure.infinitePi fun _ : ℕ => uniformPair).real {draw | random_nondimensional_end_to_end_length N draw / N ∈ Icc α β} -
      ∫ γ in α..β, (ideal_isometric_distribution N 1 1).nd_radial γ| ≤ 1 / 1000 :=
  C93_fjc (idealDraws_exists _) 1 1 (by norm_num)

end fjc

section efjc
open efjc.thermodynamics.isometric.monte_carlo
variable {Ω : Type*} [MeasurableSpace Ω] {P : Measure Ω} {draw : Ω → ℕ → ℝ × ℝ × ℝ} {κ : ℝ}

theorem integrable_link_sq (h : V3 ℝ) : Integrable (fun d => dot h (fjcLink d) ^ 2) uniformPair := by
  have hc : Continuous fun d => dot h (fjcLink d) ^ 2 := (continuous_dot_link h).pow 2
  unfold uniformPair uniformNumber
  rw [Measure.prod_restrict]
  exact hc.continuousOn.integrableOn_compact (isCompact_Icc.prod isCompact_Icc)

theorem efjc_steps (hκ : 0 < κ) (hd : IdealDraws (stretchAndPair κ) P draw) :
    IsotropicSteps P (fun i ω => link (draw ω i)) √(1 + 1 / κ) := by
  have hm : ∀ h, Measurable fun d : ℝ × ℝ × ℝ => dot h (link d) := fun h => measurable_dot measurable_const measurable_efjc_link
  have hi : ∀ h, Integrable (fun d => dot h (link d) ^ 2) (stretchAndPair κ) := fun h => by
    unfold stretchAndPair
    simp only [dot_efjc_link, mul_pow]
    exact (stretch_moment hκ).1.mul_prod (integrable_link_sq h)
  have hs : ∀ h, ∫ d, dot h (link d) ^ 2 ∂stretchAndPair κ = (1 + 1 / κ) * (1 / 3 * dot h h) := fun h => by
    unfold stretchAndPair
    simp only [dot_efjc_link, mul_pow]
    rw [integral_prod_mul (fun x : ℝ => x ^ 2) (fun d => dot h (fjcLink d) ^ 2), (stretch_moment hκ).2, integral_link_sq]
  refine ⟨fun i => measurable_efjc_link.comp (hd.measurable i), hd.independent.comp (fun _ d => link d) fun _ => measurable_efjc_link,
    fun i => ?_, fun h => ?_, fun h => ?_, fun h => ?_⟩
  · have h : IdentDistrib (fun ω => draw ω i) (fun ω => draw ω 0) P P :=
      ⟨(hd.measurable i).aemeasurable, (hd.measurable 0).aemeasurable, by rw [hd.uniform i, hd.uniform 0]⟩
    exact h.comp measurable_efjc_link
  · rw [← integral_efjc_link κ h, ← hd.uniform 0, integral_map (hd.measurable 0).aemeasurable (hm h).aestronglyMeasurable]
  · have := hi h
    rw [← hd.uniform 0, integrable_map_measure ((hm h).pow_const 2).aestronglyMeasurable (hd.measurable 0).aemeasurable] at this
    exact this
  · have := hs h
    rw [← hd.uniform 0, integral_map (hd.measurable 0).aemeasurable ((hm h).pow_const 2).aestronglyMeasurable] at this
    rw [this, Real.sq_sqrt (by positivity)]
    ring

/-- C93: the same for the extensible chain, with the ideal chain whose links are longer by the factor `√(1 + 1/κ)`; lengths in units of
the link length. -/
theorem C93_efjc (hκ : 0 < κ) (hd : IdealDraws (stretchAndPair κ) P draw) (m : ℝ) {ε : ℝ} (hε : 0 < ε) :
    ∃ N₀, ∀ N ≥ N₀, ∀ x y, 0 ≤ x → x ≤ y →
      |P.real {ω | random_nondimensional_end_to_end_length N (draw ω) ∈ Icc x y} -
        ∫ r in x..y, (ideal_isometric_distribution N √(1 + 1 / κ) m).radial r| ≤ ε := by
  obtain ⟨N₀, h⟩ := eventually_atTop.1 (walk_uniform (Real.sqrt_pos.2 (by positivity)) (efjc_steps hκ hd) m hε)
  refine ⟨N₀ + 1, fun N hN x y hx hxy => ?_⟩
  have h := h N (by omega) x y hx hxy
  simp only [efjc_length_eq (show 0 < N by omega)]
  exact h

/-- C93, concrete case. -/
example : ∃ N₀, ∀ N ≥ N₀, ∀ x y, 0 ≤ x → x ≤ y →
    |(Measure.infinitePi fun _ : ℕ => stretchAndPair 50).real {draw | random_nondimensional_end_to_end_length N draw ∈ Icc x y} -
      ∫ r in x..y, (ideal_isometric_distribution N √(1 + 1 / 50) 1).radial r| ≤ 1 / 1000 :=
  C93_efjc (by norm_num) (idealDraws_exists _) 1 (by norm_num)

end efjc

end Polymers.Props
