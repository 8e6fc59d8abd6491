import Verif.Props.MonteCarloCutoff
import Mathlib.Probability.Moments.SubGaussian
import Mathlib.Probability.Moments.Variance

/-!
C92: the error of a Monte Carlo histogram with finitely many samples.
-/

namespace Polymers.Props

open Polymers.Spec Polymers.Api Polymers.Lemmas Set Filter Topology MeasureTheory ProbabilityTheory

section draws
variable {Ω E : Type*} [MeasurableSpace Ω] [MeasurableSpace E] {law : Measure E} {P : Measure Ω} {draw : Ω → ℕ → E}

/-- The numbers used by a sample and the numbers used by the samples before it. -/
theorem samples_indep (hd : IdealDraws law P draw) {N : ℕ} {F : (ℕ → E) → ℝ} (hF : Measurable F)
    (hl : ∀ s s' : ℕ → E, (∀ i < N, s i = s' i) → F s = F s') (c : ℝ) (n : ℕ) :
    IndepFun (fun ω => ∑ k ∈ Finset.range n, (F (fun i => draw ω (k * N + i)) - c)) (fun ω => F (fun i => draw ω (n * N + i)) - c) P := by
  classical
  have : IsProbabilityMeasure P := hd.independent.isProbabilityMeasure
  obtain ⟨ω₀⟩ : Nonempty Ω := nonempty_of_isProbabilityMeasure P
  let e₀ : E := draw ω₀ 0
  let ext : (A : Finset ℕ) → (A → E) → ℕ → E := fun A t i => if h : i ∈ A then t ⟨i, h⟩ else e₀
  have hext : ∀ A : Finset ℕ, ∀ j, Measurable fun t : A → E => fun i => ext A t (j + i) := fun A j => by
    refine measurable_pi_lambda _ fun i => ?_
    by_cases h : j + i ∈ A
    · simp only [ext, h, dite_true]; exact measurable_pi_apply _
    · simp only [ext, h, dite_false]; exact measurable_const
  have hext' : ∀ (A : Finset ℕ) (ω : Ω) (j : ℕ), (∀ i < N, j + i ∈ A) →
      F (fun i => draw ω (j + i)) = F (fun i => ext A (fun i => draw ω i) (j + i)) := fun A ω j h => by
    refine hl _ _ fun i hi => ?_
    simp only [ext, h i hi, dite_true]
  let A := Finset.range (n * N)
  let B := Finset.Ico (n * N) (n * N + N)
  have e1 : (fun ω => ∑ k ∈ Finset.range n, (F (fun i => draw ω (k * N + i)) - c)) =
      (fun t : A → E => ∑ k ∈ Finset.range n, (F (fun i => ext A t (k * N + i)) - c)) ∘ fun ω (i : A) => draw ω i := by
    funext ω
    refine Finset.sum_congr rfl fun k hk => ?_
    rw [hext' A ω (k * N) fun i hi => ?_]
    have : (k + 1) * N ≤ n * N := Nat.mul_le_mul_right N (Finset.mem_range.1 hk)
    rw [Nat.add_mul, one_mul] at this
    exact Finset.mem_range.2 (by omega)
  have e2 : (fun ω => F (fun i => draw ω (n * N + i)) - c) =
      (fun t : B → E => F (fun i => ext B t (n * N + i)) - c) ∘ fun ω (i : B) => draw ω i := by
    funext ω
    show F (fun i => draw ω (n * N + i)) - c = _
    rw [hext' B ω (n * N) fun i hi => Finset.mem_Ico.2 (by omega)]
    rfl
  rw [e1, e2]
  refine (hd.independent.indepFun_finset A B ?_ hd.measurable).comp ?_ ?_
  · rw [Finset.disjoint_left]
    intro i hi hj
    have h1 := Finset.mem_range.1 hi
    have h2 := Finset.mem_Ico.1 hj
    omega
  · exact Finset.measurable_sum _ fun k _ => (hF.comp (hext A _)).sub_const _
  · exact (hF.comp (hext B _)).sub_const _

/-- All samples have the same distribution. -/
theorem samples_law (hd : IdealDraws law P draw) (j : ℕ) : P.map (fun ω i => draw ω (j + i)) = P.map draw := by
  have : IsProbabilityMeasure P := hd.independent.isProbabilityMeasure
  have h1 := (hd.shift j).independent.map_fun_eq_infinitePi_map (hd.shift j).measurable
  have h2 := hd.independent.map_fun_eq_infinitePi_map hd.measurable
  simp only [(hd.shift j).uniform] at h1
  simp only [hd.uniform] at h2
  rw [h1]
  exact h2.symm

theorem measurable_draws (hd : IdealDraws law P draw) : Measurable draw := measurable_pi_lambda _ hd.measurable

theorem samples_integral (hd : IdealDraws law P draw) {F : (ℕ → E) → ℝ} (hF : Measurable F) (j : ℕ) :
    ∫ ω, F (fun i => draw ω (j + i)) ∂P = ∫ ω, F (draw ω) ∂P := by
  have h : ∫ s, F s ∂(P.map fun ω i => draw ω (j + i)) = ∫ s, F s ∂(P.map draw) := by rw [samples_law hd j]
  rwa [integral_map (measurable_draws (hd.shift j)).aemeasurable hF.aestronglyMeasurable,
    integral_map (measurable_draws hd).aemeasurable hF.aestronglyMeasurable] at h

/-- Hoeffding's inequality for the samples. -/
theorem samples_subgaussian (hd : IdealDraws law P draw) {N : ℕ} {F : (ℕ → E) → ℝ} (hF : Measurable F)
    (hl : ∀ s s' : ℕ → E, (∀ i < N, s i = s' i) → F s = F s') (h01 : ∀ s, F s ∈ Icc (0 : ℝ) 1) (n : ℕ) :
    HasSubgaussianMGF (fun ω => ∑ k ∈ Finset.range n, (F (fun i => draw ω (k * N + i)) - ∫ ω, F (draw ω) ∂P))
      (n * (1 / 2) ^ 2) P := by
  have : IsProbabilityMeasure P := hd.independent.isProbabilityMeasure
  have h1 : ∀ k, HasSubgaussianMGF (fun ω => F (fun i => draw ω (k * N + i)) - ∫ ω, F (draw ω) ∂P) ((1 / 2) ^ 2) P := fun k => by
    have hm : Measurable fun ω => F (fun i => draw ω (k * N + i)) :=
      hF.comp (measurable_pi_lambda _ fun i => hd.measurable _)
    have h := hasSubgaussianMGF_of_mem_Icc (μ := P) hm.aemeasurable (ae_of_all _ fun ω => h01 fun i => draw ω (k * N + i))
    rw [samples_integral hd hF] at h
    simpa using h
  induction n with
  | zero => simp
  | succ n ih =>
    simp only [Finset.sum_range_succ]
    have h := ih.add_of_indepFun (h1 n) (samples_indep hd hF hl _ n)
    have e : ((n + 1 : ℕ) : NNReal) * (1 / 2) ^ 2 = (n : NNReal) * (1 / 2) ^ 2 + (1 / 2) ^ 2 := by push_cast; ring
    rw [e]
    exact h

theorem samples_hoeffding (hd : IdealDraws law P draw) {N : ℕ} {F : (ℕ → E) → ℝ} (hF : Measurable F)
    (hl : ∀ s s' : ℕ → E, (∀ i < N, s i = s' i) → F s = F s') (h01 : ∀ s, F s ∈ Icc (0 : ℝ) 1) {n : ℕ} (hn : 0 < n)
    {ε : ℝ} (hε : 0 ≤ ε) :
    P.real {ω | ε ≤ |(∑ k ∈ Finset.range n, F (fun i => draw ω (k * N + i))) / n - ∫ ω, F (draw ω) ∂P|} ≤
      2 * Real.exp (-2 * n * ε ^ 2) := by
  have : IsProbabilityMeasure P := hd.independent.isProbabilityMeasure
  have hn' : (0 : ℝ) < n := by exact_mod_cast hn
  set X : Ω → ℝ := fun ω => ∑ k ∈ Finset.range n, (F (fun i => draw ω (k * N + i)) - ∫ ω, F (draw ω) ∂P) with hX
  have h := samples_subgaussian hd hF hl h01 n
  have h1 := h.measure_ge_le (ε := ε * n) (by positivity)
  have h2 := h.neg.measure_ge_le (ε := ε * n) (by positivity)
  have e : -(ε * n) ^ 2 / (2 * ((n * (1 / 2) ^ 2 : NNReal) : ℝ)) = -2 * n * ε ^ 2 := by
    push_cast
    field_simp
  rw [e] at h1 h2
  have hsub : {ω | ε ≤ |(∑ k ∈ Finset.range n, F (fun i => draw ω (k * N + i))) / n - ∫ ω, F (draw ω) ∂P|} ⊆
      {ω | ε * n ≤ X ω} ∪ {ω | ε * n ≤ (-X) ω} := by
    intro ω hω
    have e : X ω = ((∑ k ∈ Finset.range n, F (fun i => draw ω (k * N + i))) / n - ∫ ω, F (draw ω) ∂P) * n := by
      simp only [hX, Finset.sum_sub_distrib, Finset.sum_const, Finset.card_range, nsmul_eq_mul]
      field_simp
    have hω' : ε ≤ |_| := hω
    rcases le_abs.1 hω' with h | h
    · left
      show ε * n ≤ X ω
      rw [e]
      exact mul_le_mul_of_nonneg_right h hn'.le
    · right
      show ε * n ≤ -X ω
      rw [e, ← neg_mul]
      exact mul_le_mul_of_nonneg_right h hn'.le
  calc P.real _ ≤ P.real ({ω | ε * n ≤ X ω} ∪ {ω | ε * n ≤ (-X) ω}) := measureReal_mono hsub
    _ ≤ P.real {ω | ε * n ≤ X ω} + P.real {ω | ε * n ≤ (-X) ω} := measureReal_union_le _ _
    _ ≤ _ := by linarith

/-- The samples of a run: the lengths `G` of the chains with `N` links each. -/
noncomputable def lengths (G : (ℕ → E) → ℝ) (N S : ℕ) (s : ℕ → E) : List ℝ :=
  (List.range S).map fun k => G fun i => s (k * N + i)

omit [MeasurableSpace E] in
theorem samplesIn_lengths (G : (ℕ → E) → ℝ) (N S : ℕ) (s : ℕ → E) (a b : ℝ) :
    (samplesIn (lengths G N S s) a b : ℝ) = ∑ k ∈ Finset.range S, (Ico a b).indicator 1 (G fun i => s (k * N + i)) := by
  classical
  unfold samplesIn lengths
  induction S with
  | zero => simp
  | succ S ih =>
    rw [List.range_succ, List.map_append, List.countP_append, Finset.sum_range_succ, ← ih]
    push_cast
    congr 1
    simp only [List.map_cons, List.map_nil, List.countP_cons, List.countP_nil, indicator, mem_Ico]
    split_ifs <;> simp_all

/-- Histograms of independent samples: the probability of a run which returns a histogram with some bin off by `ε`. -/
theorem histogram_error (hd : IdealDraws law P draw) {N : ℕ} {G : (ℕ → E) → ℝ} (hG : Measurable G)
    (hl : ∀ s s' : ℕ → E, (∀ i < N, s i = s' i) → G s = G s') {g : ℝ} (hg : 0 < g) {B S : ℕ} (hB : 0 < B) (hS : 0 < S)
    {out : Ω → List ℝ × List ℝ → Prop} (hout : ∀ ω o, out ω o → IsHistogram g B (lengths G N S (draw ω)) o) {ε : ℝ} (hε : 0 ≤ ε) :
    P.real {ω | ∃ o, out ω o ∧ ∃ b < B, ε ≤ |o.2.getD b 0 - P.real {ω | G (draw ω) ∈ Ico (g * b / B) (g * (b + 1) / B)} / (g / B)|} ≤
      2 * B * Real.exp (-2 * S * (ε * (g / B)) ^ 2) := by
  have : IsProbabilityMeasure P := hd.independent.isProbabilityMeasure
  have hB' : (0 : ℝ) < B := by exact_mod_cast hB
  have hS' : (0 : ℝ) < S := by exact_mod_cast hS
  let F : ℕ → (ℕ → E) → ℝ := fun b s => (Ico (g * b / B) (g * (b + 1) / B)).indicator 1 (G s)
  have hF : ∀ b, Measurable (F b) := fun b => (measurable_one.indicator measurableSet_Ico).comp hG
  have hp : ∀ b, ∫ ω, F b (draw ω) ∂P = P.real {ω | G (draw ω) ∈ Ico (g * b / B) (g * (b + 1) / B)} := fun b => by
    rw [← integral_indicator_one]
    · rfl
    · exact (hG.comp (measurable_draws hd)) measurableSet_Ico
  let A : ℕ → Set Ω := fun b =>
    {ω | ε * (g / B) ≤ |(∑ k ∈ Finset.range S, F b (fun i => draw ω (k * N + i))) / S - ∫ ω, F b (draw ω) ∂P|}
  have hA : ∀ b, P.real (A b) ≤ 2 * Real.exp (-2 * S * (ε * (g / B)) ^ 2) := fun b =>
    samples_hoeffding hd (hF b) (fun s s' h => by simp only [F, hl s s' h]) (fun s => by
      simp only [F, indicator]; split_ifs <;> simp) hS (by positivity)
  refine le_trans (measureReal_mono (s₂ := ⋃ b ∈ Finset.range B, A b) ?_ (measure_ne_top _ _)) ?_
  · rintro ω ⟨o, ho, b, hb, h⟩
    refine mem_biUnion (Finset.mem_coe.2 (Finset.mem_range.2 hb)) ?_
    rw [(hout ω o ho).density b hb, samplesIn_lengths, ← hp b] at h
    have hlen : ((lengths G N S (draw ω)).length : ℝ) = S := by simp [lengths]
    rw [hlen] at h
    have e : (∑ k ∈ Finset.range S, F b (fun i => draw ω (k * N + i))) / S - ∫ ω, F b (draw ω) ∂P =
        ((∑ k ∈ Finset.range S, F b (fun i => draw ω (k * N + i))) / (S * (g / B)) - (∫ ω, F b (draw ω) ∂P) / (g / B)) * (g / B) := by
      field_simp
    show ε * (g / B) ≤ |_|
    rw [e, abs_mul, abs_of_pos (show 0 < g / B by positivity)]
    exact mul_le_mul_of_nonneg_right h (by positivity)
  · refine (measureReal_biUnion_finset_le _ _).trans ((Finset.sum_le_sum fun b _ => hA b).trans ?_)
    rw [Finset.sum_const, Finset.card_range, nsmul_eq_mul]
    exact le_of_eq (by ring)

end draws

/-! ### The lengths as functions of the random numbers -/

theorem measurable_walk_norm {X : Type*} [MeasurableSpace X] {f : ℕ → X → V3 ℝ} (hf : ∀ i, Measurable (f i)) (N : ℕ) :
    Measurable fun x => (walkEnd V3.zero ((List.range N).map fun i => f i x)).norm := by
  have h : ∀ a : V3 ℝ, Measurable fun x => dot a (walkEnd V3.zero ((List.range N).map fun i => f i x)) := fun a => by
    simp only [dot_walkEnd_range]
    exact Finset.measurable_sum _ fun i _ => measurable_dot measurable_const (hf i)
  have hx := h ⟨1, 0, 0⟩
  have hy := h ⟨0, 1, 0⟩
  have hz := h ⟨0, 0, 1⟩
  simp only [dot, one_mul, zero_mul, add_zero, zero_add] at hx hy hz
  simp only [norm_eq, dot]
  exact (((hx.mul hx).add (hy.mul hy)).add (hz.mul hz)).sqrt

section fjc
open fjc.thermodynamics.isometric.monte_carlo

theorem measurable_fjc_gamma {N : ℕ} (hN : 0 < N) :
    Measurable fun s : ℕ → ℝ × ℝ => random_nondimensional_end_to_end_length N s / N := by
  simp only [fjcEnd_norm hN]
  exact (measurable_norm_fjcEnd (fun i => measurable_pi_apply i) N).div_const _

theorem fjc_gamma_local {N : ℕ} (hN : 0 < N) (s s' : ℕ → ℝ × ℝ) (h : ∀ i < N, s i = s' i) :
    random_nondimensional_end_to_end_length N s / (N : ℝ) = random_nondimensional_end_to_end_length N s' / N := by
  simp only [fjcEnd_norm hN, fjcEnd]
  congr 3
  exact List.map_congr_left fun i hi => by rw [h i (List.mem_range.1 hi)]

variable {Ω : Type*} [MeasurableSpace Ω] {P : Measure Ω} {draw : Ω → ℕ → ℝ × ℝ}

/-- C92: with an ideal generator, the probability that some bin of the histogram is off by `ε` or more from the mean of the exact
radial distribution over the bin is at most `2 B exp(- 2 S (ε / B)²)`. -/
theorem C92_fjc (hd : UniformDraws P draw) {B N S : ℕ} (ℓ m : ℝ) (hN2 : 2 ≤ N) (hN : N ≤ 26) (hB : 0 < B) (hS : 0 < S)
    {ε : ℝ} (hε : 0 ≤ ε) :
    P.real {ω | ∃ b < B, ε ≤ |(nondimensional_equilibrium_radial_distribution B N S (draw ω)).2.getD b 0 -
        B * ∫ γ in (b / B : ℝ)..((b + 1) / B : ℝ), (fjc_isometric_distribution N ℓ m).nd_radial γ|} ≤
      2 * B * Real.exp (-2 * S * (ε / B) ^ 2) := by
  have hB' : (0 : ℝ) < B := by exact_mod_cast hB
  have h := histogram_error hd (measurable_fjc_gamma (by omega : 0 < N)) (fjc_gamma_local (by omega)) one_pos hB hS
    (out := fun ω o => nondimensional_equilibrium_radial_distribution B N S (draw ω) = o)
    (fun ω o ho => ho ▸ C42_fjc_histogram B N S (draw ω)) hε
  have e : ∀ b < B, P.real {ω | random_nondimensional_end_to_end_length N (draw ω) / (N : ℝ) ∈ Ico (1 * (b : ℝ) / B) (1 * (b + 1) / B)} /
      (1 / B) = B * ∫ γ in (b / B : ℝ)..((b + 1) / B : ℝ), (fjc_isometric_distribution N ℓ m).nd_radial γ := fun b hb => by
    have hb' : (b : ℝ) + 1 ≤ B := by exact_mod_cast hb
    rw [← C88_fjc_probability hd ℓ m hN2 hN 0 (show (0 : ℝ) ≤ b / B by positivity)
      (show (b : ℝ) / B ≤ (b + 1) / B by gcongr; linarith) ((div_le_one hB').2 hb')]
    simp only [sampled_gamma, zero_mul, zero_add, one_mul, mem_Ico]
    rw [div_div_eq_mul_div, div_one, mul_comm]
  rw [show ε * (1 / (B : ℝ)) = ε / B by ring] at h
  refine le_trans (le_of_eq ?_) h
  congr 1
  ext ω
  simp only [mem_ofPred_eq, exists_eq_left']
  refine exists_congr fun b => and_congr_right fun hb => ?_
  rw [e b hb]

/-- C92: the mean square error of the height of a bin is `B² p (1 - p) / S`, where `p` is the exact probability of the bin. -/
theorem C92_fjc_mean_square (hd : UniformDraws P draw) {B N S : ℕ} (ℓ m : ℝ) (hN2 : 2 ≤ N) (hN : N ≤ 26) (hS : 0 < S) {b : ℕ} (hb : b < B)
    {p : ℝ} (hp : p = ∫ γ in (b / B : ℝ)..((b + 1) / B : ℝ), (fjc_isometric_distribution N ℓ m).nd_radial γ) :
    ∫ ω, ((nondimensional_equilibrium_radial_distribution B N S (draw ω)).2.getD b 0 - B * p) ^ 2 ∂P = B ^ 2 * (p * (1 - p)) / S := by
  have : IsProbabilityMeasure P := hd.independent.isProbabilityMeasure
  have hN0 : 0 < N := by omega
  have hB : (0 : ℝ) < B := by exact_mod_cast (by omega : 0 < B)
  have hS' : (0 : ℝ) < S := by exact_mod_cast hS
  have hb' : (b : ℝ) + 1 ≤ B := by exact_mod_cast hb
  let X : ℕ → Ω → ℝ := fun k ω => hit N (b / B) ((b + 1) / B) (draw ω) k
  have hm : ∀ k, Measurable (X k) := fun k => measurable_hit hd hN0 _ _ k
  have hX2 : ∀ k ω, X k ω ^ 2 = X k ω := fun k ω => by
    show hit _ _ _ _ _ ^ 2 = hit _ _ _ _ _
    unfold hit indicator
    split_ifs <;> simp
  have hL : ∀ k, MemLp (X k) 2 P := fun k => MemLp.of_bound (hm k).aestronglyMeasurable 1 (ae_of_all _ fun ω => by
    show ‖hit _ _ _ _ _‖ ≤ 1
    unfold hit indicator
    split_ifs <;> simp)
  have hE : ∀ k, ∫ ω, X k ω ∂P = p := fun k => by
    rw [hp]
    exact integral_hit hd ℓ m hN2 hN k (show (0 : ℝ) ≤ b / B by positivity) (show (b : ℝ) / B ≤ (b + 1) / B by gcongr; linarith)
      ((div_le_one hB).2 hb')
  have hV : ∀ k, variance (X k) P = p * (1 - p) := fun k => by
    rw [variance_eq_sub (hL k)]
    have : ∫ ω, (X k ^ 2) ω ∂P = p := by
      simp only [Pi.pow_apply, hX2]
      exact hE k
    rw [this, hE k]
    ring
  have hsum := IndepFun.variance_sum (μ := P) (s := Finset.range S) (X := X) (fun k _ => hL k)
    (fun k _ l _ hkl => hit_indep hd hN0 _ _ hkl)
  simp only [hV, Finset.sum_const, Finset.card_range, nsmul_eq_mul] at hsum
  have hEs : ∫ ω, (∑ k ∈ Finset.range S, X k) ω ∂P = S * p := by
    have : (∑ k ∈ Finset.range S, X k) = fun ω => ∑ k ∈ Finset.range S, X k ω := funext fun ω => Finset.sum_apply _ _ _
    rw [this, integral_finsetSum _ fun k _ => integrable_hit hd hN0 _ _ k, Finset.sum_congr rfl fun k _ => hE k,
      Finset.sum_const, Finset.card_range, nsmul_eq_mul]
  rw [variance_eq_integral (Finset.aemeasurable_sum _ fun k _ => (hm k).aemeasurable), hEs] at hsum
  have e : ∀ ω, ((nondimensional_equilibrium_radial_distribution B N S (draw ω)).2.getD b 0 - B * p) ^ 2 =
      (B / S) ^ 2 * ((∑ k ∈ Finset.range S, X k) ω - S * p) ^ 2 := fun ω => by
    rw [histogram_entry _ hb, Finset.sum_apply]
    field_simp
    rfl
  simp only [e]
  rw [integral_const_mul, hsum]
  field_simp

/-- C92, concrete case: chains of 8 links, 100 bins, ten million samples; the probability that some bin is off by `1 / 10`
is below `1 / 1000`. -/
example : (Measure.infinitePi fun _ : ℕ => uniformPair).real {draw | ∃ b < 100, 1 / 10 ≤
      |(nondimensional_equilibrium_radial_distribution 100 8 10000000 draw).2.getD b 0 -
        ((100 : ℕ) : ℝ) * ∫ γ in (b / (100 : ℕ) : ℝ)..((b + 1) / (100 : ℕ) : ℝ), (fjc_isometric_distribution 8 1 1).nd_radial γ|} ≤
    1 / 1000 := by
  refine (C92_fjc (idealDraws_exists _) 1 1 (by norm_num) (by norm_num) (by norm_num) (by norm_num) (by norm_num)).trans ?_
  rw [show (-2 * ((10000000 : ℕ) : ℝ) * (1 / 10 / ((100 : ℕ) : ℝ)) ^ 2) = -20 by norm_num, Real.exp_neg]
  have h : (2 : ℝ) ^ 20 ≤ Real.exp 20 := by
    rw [show (20 : ℝ) = ((20 : ℕ) : ℝ) * 1 by norm_num, Real.exp_nat_mul]
    gcongr
    linarith [Real.add_one_le_exp (1 : ℝ)]
  calc _ ≤ 2 * ((100 : ℕ) : ℝ) * ((2 : ℝ) ^ 20)⁻¹ := by gcongr
    _ ≤ _ := by norm_num

end fjc

section efjc
open efjc.thermodynamics.isometric.monte_carlo

theorem efjc_length_eq {N : ℕ} (hN : 0 < N) (draw : ℕ → ℝ × ℝ × ℝ) : random_nondimensional_end_to_end_length N draw =
    (walkEnd V3.zero ((List.range N).map fun i => link (draw i))).norm := by
  unfold random_nondimensional_end_to_end_length random_configuration
  rw [efjc_configuration, last_norm_walk _ _ (by simp; omega)]

theorem measurable_efjc_gamma {N : ℕ} (hN : 0 < N) :
    Measurable fun s : ℕ → ℝ × ℝ × ℝ => random_nondimensional_end_to_end_length N s / (N : ℝ) := by
  have hf : ∀ i, Measurable fun s : ℕ → ℝ × ℝ × ℝ => link (s i) := fun i => measurable_efjc_link.comp (measurable_pi_apply i)
  have h : Measurable fun s : ℕ → ℝ × ℝ × ℝ => random_nondimensional_end_to_end_length N s := by
    simp only [efjc_length_eq hN]
    exact measurable_walk_norm hf N
  exact h.div_const _

theorem efjc_gamma_local {N : ℕ} (hN : 0 < N) (s s' : ℕ → ℝ × ℝ × ℝ) (h : ∀ i < N, s i = s' i) :
    random_nondimensional_end_to_end_length N s / (N : ℝ) = random_nondimensional_end_to_end_length N s' / N := by
  have e : ((List.range N).map fun i => link (s i)) = (List.range N).map fun i => link (s' i) :=
    List.map_congr_left fun i hi => by rw [h i (List.mem_range.1 hi)]
  rw [efjc_length_eq hN, efjc_length_eq hN, e]

variable {Ω : Type*} [MeasurableSpace Ω] {P : Measure Ω} {draw : Ω → ℕ → ℝ × ℝ × ℝ}

/-- C92: extensible freely jointed chain. The probability of a run which returns a histogram with some bin off by `ε` or more from the
probability density of the bin. -/
theorem C92_efjc {κ : ℝ} (hκ : 0 < κ) (hd : IdealDraws (stretchAndPair κ) P draw) {B N S : ℕ} (hN : 0 < N) (hB : 0 < B) (hS : 0 < S)
    {γmax : ℝ} (hγ : 0 < γmax) {ε : ℝ} (hε : 0 ≤ ε) :
    P.real {ω | ∃ o, nondimensional_equilibrium_radial_distribution B N γmax κ S (draw ω) = some o ∧ ∃ b < B, ε ≤ |o.2.getD b 0 -
        P.real {ω | random_nondimensional_end_to_end_length N (draw ω) / (N : ℝ) ∈ Ico (γmax * b / B) (γmax * (b + 1) / B)} /
          (γmax / B)|} ≤
      2 * B * Real.exp (-2 * S * (ε * (γmax / B)) ^ 2) :=
  histogram_error hd (G := fun s => random_nondimensional_end_to_end_length N s / N)
    (measurable_efjc_gamma hN) (efjc_gamma_local hN)
    hγ hB hS (fun ω o ho => (C42_efjc_histogram hB N S hγ hκ (draw ω)).2 o ho) hε

/-- C92, concrete case. -/
example {ε : ℝ} (hε : 0 ≤ ε) := C92_efjc (κ := 1000) (B := 100) (N := 8) (S := 10000) (γmax := 3 / 2) (by norm_num) (idealDraws_exists _)
  (by norm_num) (by norm_num) (by norm_num) (by norm_num) hε

end efjc

section frc
open frc.thermodynamics.isometric.monte_carlo

theorem measurable_frc_gamma {N : ℕ} (hN : 0 < N) (θ : ℝ) :
    Measurable fun s : ℕ → ℝ × V3 ℝ => random_nondimensional_end_to_end_length N θ s / (N : ℝ) := by
  have h : Measurable fun s : ℕ → ℝ × V3 ℝ => random_nondimensional_end_to_end_length N θ s := by
    simp only [frc_length_eq hN]
    exact measurable_walk_norm (f := fun i s => frcLink θ ⟨1, 0, 0⟩ s i) (fun i => measurable_frcLink θ _ i) N
  exact h.div_const _

theorem frc_gamma_local {N : ℕ} (hN : 0 < N) (θ : ℝ) (s s' : ℕ → ℝ × V3 ℝ) (h : ∀ i < N, s i = s' i) :
    random_nondimensional_end_to_end_length N θ s / (N : ℝ) = random_nondimensional_end_to_end_length N θ s' / N := by
  have e : (List.range N).map (frcLink θ ⟨1, 0, 0⟩ s) = (List.range N).map (frcLink θ ⟨1, 0, 0⟩ s') :=
    List.map_congr_left fun i hi => frcLink_local θ _ fun j hj => h j (by have := List.mem_range.1 hi; omega)
  rw [frc_length_eq hN, frc_length_eq hN, e]

variable {Ω : Type*} [MeasurableSpace Ω] {P : Measure Ω} {draw : Ω → ℕ → ℝ × V3 ℝ}

/-- C92: freely rotating chain. -/
theorem C92_frc (hd : IdealDraws numberAndVector P draw) {B N S : ℕ} (hN : 0 < N) (hB : 0 < B) (hS : 0 < S)
    {θ : ℝ} (hθ : Real.cos (θ / 2) ≠ 0) {ε : ℝ} (hε : 0 ≤ ε) :
    P.real {ω | ∃ o, nondimensional_equilibrium_radial_distribution B N θ S (draw ω) = some o ∧ ∃ b < B, ε ≤ |o.2.getD b 0 -
        P.real {ω | random_nondimensional_end_to_end_length N θ (draw ω) / (N : ℝ) ∈
          Ico (|Real.cos (θ / 2)| * b / B) (|Real.cos (θ / 2)| * (b + 1) / B)} / (|Real.cos (θ / 2)| / B)|} ≤
      2 * B * Real.exp (-2 * S * (ε * (|Real.cos (θ / 2)| / B)) ^ 2) :=
  histogram_error hd (G := fun s => random_nondimensional_end_to_end_length N θ s / N)
    (measurable_frc_gamma hN θ) (frc_gamma_local hN θ)
    (abs_pos.2 hθ) hB hS (fun ω o ho => (C42_frc_histogram hB N S hθ (draw ω)).2 o ho) hε

/-- C92, concrete case. -/
example {ε : ℝ} (hε : 0 ≤ ε) := C92_frc (B := 100) (N := 8) (S := 10000) (θ := Real.pi / 2) (idealDraws_exists _)
  (by norm_num) (by norm_num) (by norm_num)
  (by rw [show Real.pi / 2 / 2 = Real.pi / 4 by ring, Real.cos_pi_div_four]; positivity) hε

end frc

section efrc
open efrc.thermodynamics.isometric.monte_carlo

theorem efrc_length_eq {N : ℕ} (hN : 0 < N) (θ : ℝ) (draw : ℕ → ℝ × ℝ × V3 ℝ) : random_nondimensional_end_to_end_length N θ draw =
    (walkEnd V3.zero ((List.range N).map (efrcLink θ ⟨1, 0, 0⟩ draw))).norm := by
  unfold random_nondimensional_end_to_end_length
  rw [efrc_random_configuration, last_norm_walk _ _ (by simp; omega)]

theorem measurable_direction : Measurable fun r : V3 ℝ => direction r := by
  have hn : Measurable fun r : V3 ℝ => r.norm := by
    simp only [norm_eq]
    exact (measurable_dot measurable_id measurable_id).sqrt
  unfold direction
  exact measurable_v3.2 ⟨measurable_x.div hn, measurable_y.div hn, measurable_z.div hn⟩

theorem measurable_efrc_next (θ : ℝ) : Measurable fun p : V3 ℝ × (ℝ × ℝ × V3 ℝ) => next_link θ p.1 p.2 := by
  have hc : Measurable fun p : V3 ℝ × (ℝ × ℝ × V3 ℝ) => cone θ (2 * Real.pi * p.2.2.1) (direction p.1) p.2.2.2 := by
    have h := measurable_next θ (f := fun p : V3 ℝ × (ℝ × ℝ × V3 ℝ) => direction p.1) (g := fun p => p.2.2)
      (measurable_direction.comp measurable_fst) (measurable_snd.comp measurable_snd)
    simp only [frc_next_link] at h
    exact h
  have hs : Measurable fun p : V3 ℝ × (ℝ × ℝ × V3 ℝ) => p.2.1 := measurable_fst.comp measurable_snd
  obtain ⟨h1, h2, h3⟩ := measurable_v3.1 hc
  simp only [efrc_next_link]
  exact measurable_v3.2 ⟨hs.mul h1, hs.mul h2, hs.mul h3⟩

theorem measurable_efrcLink (θ : ℝ) (r : V3 ℝ) (i : ℕ) : Measurable fun s : ℕ → ℝ × ℝ × V3 ℝ => efrcLink θ r s i := by
  induction i with
  | zero =>
    simp only [efrcLink]
    exact measurable_comp₂ (F := next_link θ) (measurable_efrc_next θ) measurable_const (measurable_pi_apply 0)
  | succ i ih =>
    simp only [efrcLink]
    exact measurable_comp₂ (F := next_link θ) (measurable_efrc_next θ) ih (measurable_pi_apply (i + 1))

theorem efrcLink_local (θ : ℝ) (r : V3 ℝ) {i : ℕ} {s s' : ℕ → ℝ × ℝ × V3 ℝ} (h : ∀ j ≤ i, s j = s' j) :
    efrcLink θ r s i = efrcLink θ r s' i := by
  induction i with
  | zero => exact congrArg (next_link θ r) (h 0 le_rfl)
  | succ i ih =>
    simp only [efrcLink]
    rw [ih fun j hj => h j (by omega), h (i + 1) le_rfl]

theorem measurable_efrc_gamma {N : ℕ} (hN : 0 < N) (θ : ℝ) :
    Measurable fun s : ℕ → ℝ × ℝ × V3 ℝ => random_nondimensional_end_to_end_length N θ s / (N : ℝ) := by
  have h : Measurable fun s : ℕ → ℝ × ℝ × V3 ℝ => random_nondimensional_end_to_end_length N θ s := by
    simp only [efrc_length_eq hN]
    exact measurable_walk_norm (f := fun i s => efrcLink θ ⟨1, 0, 0⟩ s i) (fun i => measurable_efrcLink θ _ i) N
  exact h.div_const _

theorem efrc_gamma_local {N : ℕ} (hN : 0 < N) (θ : ℝ) (s s' : ℕ → ℝ × ℝ × V3 ℝ) (h : ∀ i < N, s i = s' i) :
    random_nondimensional_end_to_end_length N θ s / (N : ℝ) = random_nondimensional_end_to_end_length N θ s' / N := by
  have e : (List.range N).map (efrcLink θ ⟨1, 0, 0⟩ s) = (List.range N).map (efrcLink θ ⟨1, 0, 0⟩ s') :=
    List.map_congr_left fun i hi => efrcLink_local θ _ fun j hj => h j (by have := List.mem_range.1 hi; omega)
  rw [efrc_length_eq hN, efrc_length_eq hN, e]

variable {Ω : Type*} [MeasurableSpace Ω] {P : Measure Ω} {draw : Ω → ℕ → ℝ × ℝ × V3 ℝ}

/-- C92: extensible freely rotating chain. -/
theorem C92_efrc {κ : ℝ} (hκ : 0 < κ) (hd : IdealDraws (stretchNumberAndVector κ) P draw) {B N S : ℕ} (hN : 0 < N) (hB : 0 < B)
    (hS : 0 < S) {γmax : ℝ} (hγ : 0 < γmax) (θ : ℝ) {ε : ℝ} (hε : 0 ≤ ε) :
    P.real {ω | ∃ o, nondimensional_equilibrium_radial_distribution B N γmax κ θ S (draw ω) = some o ∧ ∃ b < B, ε ≤ |o.2.getD b 0 -
        P.real {ω | random_nondimensional_end_to_end_length N θ (draw ω) / (N : ℝ) ∈ Ico (γmax * b / B) (γmax * (b + 1) / B)} /
          (γmax / B)|} ≤
      2 * B * Real.exp (-2 * S * (ε * (γmax / B)) ^ 2) :=
  histogram_error hd (G := fun s => random_nondimensional_end_to_end_length N θ s / N)
    (measurable_efrc_gamma hN θ) (efrc_gamma_local hN θ)
    hγ hB hS (fun ω o ho => (C42_efrc_histogram hB N S hγ hκ θ (draw ω)).2 o ho) hε

/-- C92, concrete case. -/
example {ε : ℝ} (hε : 0 ≤ ε) := C92_efrc (κ := 1000) (B := 100) (N := 8) (S := 10000) (γmax := 3 / 2) (by norm_num) (idealDraws_exists _)
  (by norm_num) (by norm_num) (by norm_num) (by norm_num) (Real.pi / 3) hε

end efrc

end Polymers.Props
