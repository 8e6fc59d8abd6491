import Verif.Spec.Chains
import Verif.Model.SReal
import Verif.Lemmas.Lits
import Mathlib.Algebra.BigOperators.Intervals
import Mathlib.Data.List.GetD

/-! Property C42: the histograms of the Monte Carlo modules. -/

namespace Polymers.Props

open Polymers.Spec

theorem bin_sample_length (γ : ℝ) (E : List ℝ) (C : List ℕ) : (bin_sample γ E C).length = C.length := by
  induction E generalizing C with
  | nil => cases C <;> rfl
  | cons e E ih =>
    cases C with
    | nil => rfl
    | cons c C =>
      unfold bin_sample
      split
      · rfl
      · simp [ih]

/-- One sample increments exactly the first bin whose edge exceeds it. -/
theorem bin_sample_getD (γ : ℝ) (E : List ℝ) (C : List ℕ) (h : E.length = C.length) (b : ℕ) :
    (bin_sample γ E C).getD b 0 = C.getD b 0 +
      open Classical in if b < E.length ∧ γ < E.getD b 0 ∧ ∀ j < b, E.getD j 0 ≤ γ then 1 else 0 := by
  classical
  induction E generalizing C b with
  | nil =>
    cases C with
    | nil => simp [bin_sample]
    | cons c C => simp at h
  | cons e E ih =>
    cases C with
    | nil => simp at h
    | cons c C =>
      simp only [List.length_cons, Nat.add_right_cancel_iff] at h
      unfold bin_sample
      by_cases hγ : γ < e
      · rw [if_pos ((elem_lt _ _).2 hγ)]
        cases b with
        | zero => simp [hγ]
        | succ b =>
          have : ¬ (∀ j < b + 1, (e :: E).getD j 0 ≤ γ) := fun h => absurd (h 0 (by omega)) (by simpa using hγ)
          simp only [List.getD_cons_succ]
          rw [if_neg (fun h => this h.2.2), Nat.add_zero]
      · rw [if_neg (fun h => hγ ((elem_lt _ _).1 h))]
        cases b with
        | zero => simp [hγ]
        | succ b =>
          simp only [List.getD_cons_succ]
          rw [ih C h b]
          congr 1
          have : (∀ j < b + 1, (e :: E).getD j 0 ≤ γ) ↔ ∀ j < b, E.getD j 0 ≤ γ := by
            constructor
            · intro h j hj; simpa using h (j + 1) (by omega)
            · rintro h (_ | j) hj
              · simpa using hγ
              · simpa using h j (by omega)
          simp only [List.length_cons, this, Nat.add_lt_add_iff_right]

theorem bin_all_getD (E : List ℝ) (γs : List ℝ) (C : List ℕ) (h : E.length = C.length) (b : ℕ) :
    (bin_all E γs C).length = C.length ∧ (bin_all E γs C).getD b 0 = C.getD b 0 +
      open Classical in γs.countP fun γ => decide (b < E.length ∧ γ < E.getD b 0 ∧ ∀ j < b, E.getD j 0 ≤ γ) := by
  classical
  induction γs generalizing C with
  | nil => simp [bin_all]
  | cons γ γs ih =>
    have hl := bin_sample_length γ E C
    obtain ⟨h1, h2⟩ := ih (bin_sample γ E C) (by omega)
    refine ⟨by rw [bin_all, h1, hl], ?_⟩
    rw [bin_all, h2, bin_sample_getD γ E C h, List.countP_cons]
    simp only [decide_eq_true_eq]
    omega

theorem bin_sample_checked_eq (m γ : ℝ) (E : List ℝ) (C : List ℕ) (h : E.length = C.length) (h0 : 0 < E.length) :
    (bin_sample_checked m γ E C) = if m < γ then none else some (bin_sample γ E C) := by
  induction E generalizing C with
  | nil => simp at h0
  | cons e E ih =>
    cases C with
    | nil => simp at h
    | cons c C =>
      simp only [List.length_cons, Nat.add_right_cancel_iff] at h
      unfold bin_sample_checked bin_sample
      by_cases hm : m < γ
      · rw [if_pos ((elem_lt _ _).2 hm), if_pos hm]
      · rw [if_neg (fun h => hm ((elem_lt _ _).1 h)), if_neg hm]
        by_cases hγ : γ < e
        · rw [if_pos ((elem_lt _ _).2 hγ), if_pos ((elem_lt _ _).2 hγ)]
        · rw [if_neg (fun h => hγ ((elem_lt _ _).1 h)), if_neg (fun h => hγ ((elem_lt _ _).1 h))]
          cases E with
          | nil =>
            cases C with
            | nil => rfl
            | cons c C => simp at h
          | cons e' E =>
            rw [ih C h (by simp), if_neg hm]
            rfl

theorem bin_all_checked_eq (m : ℝ) (E : List ℝ) (γs : List ℝ) (C : List ℕ) (h : E.length = C.length)
    (h0 : 0 < E.length) :
    bin_all_checked m E γs C = open Classical in if ∃ γ ∈ γs, m < γ then none else some (bin_all E γs C) := by
  classical
  induction γs generalizing C with
  | nil => simp [bin_all_checked, bin_all]
  | cons γ γs ih =>
    rw [bin_all_checked, bin_sample_checked_eq m γ E C h h0]
    by_cases hm : m < γ
    · rw [if_pos hm, if_pos ⟨γ, by simp, hm⟩]; rfl
    · rw [if_neg hm, Option.bind_some, ih _ (by rw [bin_sample_length]; exact h)]
      have : (∃ γ' ∈ γ :: γs, m < γ') ↔ ∃ γ' ∈ γs, m < γ' := by simp [hm]
      simp only [this]
      rfl

theorem bin_edges_getD (s : ℝ) {B b : ℕ} (hb : b < B) : (bin_edges s B).getD b 0 = s * (b + 1) / B := by
  unfold bin_edges
  rw [List.getD_eq_getElem _ _ (by simpa using hb)]
  simp only [List.getElem_map, List.getElem_range]
  norm_num

theorem fjc_bin_edges (B : ℕ) : fjc.thermodynamics.isometric.monte_carlo.bin_edges B = bin_edges (1 : ℝ) B := by
  unfold fjc.thermodynamics.isometric.monte_carlo.bin_edges bin_edges
  simp

theorem fjc_bin_centers (B : ℕ) : fjc.thermodynamics.isometric.monte_carlo.bin_centers B = bin_centers (1 : ℝ) B := by
  unfold fjc.thermodynamics.isometric.monte_carlo.bin_centers bin_centers
  simp

/-- The counts of a histogram with equal bins on `[0, s)`. -/
theorem bin_all_counts {s : ℝ} (hs : 0 < s) {B : ℕ} {γs : List ℝ} (h0 : ∀ γ ∈ γs, 0 ≤ γ) {b : ℕ} (hb : b < B) :
    (bin_all (bin_edges s B) γs (List.replicate B 0)).getD b 0 = samplesIn γs (s * b / B) (s * (b + 1) / B) := by
  classical
  have hB : (0 : ℝ) < B := by exact_mod_cast (by omega : 0 < B)
  have hl : (bin_edges s B).length = B := by simp [bin_edges]
  rw [(bin_all_getD (bin_edges s B) γs (List.replicate B 0) (by rw [hl, List.length_replicate]) b).2]
  have : (List.replicate B 0).getD b 0 = 0 := by
    rw [List.getD_eq_getElem _ _ (by simpa using hb)]; simp
  rw [this, Nat.zero_add]
  unfold samplesIn
  refine List.countP_congr fun γ hγ => ?_
  have hγ0 := h0 γ hγ
  simp only [decide_eq_true_eq, hl, hb, true_and, bin_edges_getD s hb]
  constructor
  · rintro ⟨h1, h2⟩
    refine ⟨?_, h1⟩
    rcases Nat.eq_zero_or_pos b with rfl | hb0
    · simpa using hγ0
    · have := h2 (b - 1) (by omega)
      rw [bin_edges_getD s (by omega)] at this
      have e : ((b - 1 : ℕ) : ℝ) + 1 = b := by exact_mod_cast Nat.sub_add_cancel hb0
      rwa [e] at this
  · rintro ⟨h1, h2⟩
    refine ⟨h2, fun j hj => ?_⟩
    rw [bin_edges_getD s (by omega)]
    refine le_trans ?_ h1
    have : (j : ℝ) + 1 ≤ b := by exact_mod_cast hj
    gcongr

theorem samplesIn_add (l : List ℝ) {a b c : ℝ} (hab : a ≤ b) (hbc : b ≤ c) :
    samplesIn l a b + samplesIn l b c = samplesIn l a c := by
  classical
  unfold samplesIn
  induction l with
  | nil => rfl
  | cons x l ih =>
    simp only [List.countP_cons, decide_eq_true_eq]
    have : (if a ≤ x ∧ x < b then 1 else 0) + (if b ≤ x ∧ x < c then 1 else 0) = if a ≤ x ∧ x < c then 1 else 0 := by
      by_cases h1 : a ≤ x <;> by_cases h2 : x < b <;> by_cases h3 : x < c <;> by_cases h4 : b ≤ x <;>
        simp [h1, h2, h3, h4] <;> linarith
    omega

theorem sum_samplesIn (l : List ℝ) {s : ℝ} (hs : 0 < s) (B n : ℕ) :
    ∑ b ∈ Finset.range n, samplesIn l (s * b / B) (s * (b + 1) / B) = samplesIn l 0 (s * n / B) := by
  induction n with
  | zero =>
    classical
    simp only [Finset.range_zero, Finset.sum_empty, Nat.cast_zero, mul_zero, zero_div]
    unfold samplesIn
    rw [eq_comm, List.countP_eq_zero]
    intro x _
    simp only [decide_eq_true_eq]
    intro h; linarith
  | succ n ih =>
    rw [Finset.sum_range_succ, ih]
    push_cast
    refine samplesIn_add l (by positivity) ?_
    gcongr
    linarith

theorem list_sum_getD (l : List ℝ) : l.sum = ∑ b ∈ Finset.range l.length, l.getD b 0 := by
  induction l with
  | nil => simp
  | cons x l ih =>
    rw [List.sum_cons, List.length_cons, Finset.sum_range_succ', ih]
    simp only [List.getD_cons_succ, List.getD_cons_zero]
    ring

theorem bin_probabilities_getD (n : ℝ) (C : List ℕ) (b : ℕ) :
    (bin_probabilities n C).getD b 0 = (C.getD b 0 : ℕ) / n := by
  unfold bin_probabilities
  by_cases hb : b < C.length
  · rw [List.getD_eq_getElem _ _ (by simpa using hb), List.getD_eq_getElem _ _ hb]
    simp
  · rw [List.getD_eq_default _ _ (by simpa using hb), List.getD_eq_default _ _ (by simpa using hb)]
    simp

/-- The total of a histogram is the fraction of samples below the last edge. -/
theorem _root_.Polymers.Spec.IsHistogram.total {s : ℝ} {B : ℕ} {samples : List ℝ} {out : List ℝ × List ℝ} (h : IsHistogram s B samples out)
    (hs : 0 < s) (hB : 0 < B) :
    out.2.sum * (s / B) = (samplesIn samples 0 s : ℝ) / samples.length := by
  have hB : (0 : ℝ) < B := by exact_mod_cast hB
  rw [list_sum_getD, h.density_length, Finset.sum_congr rfl (fun b hb => h.density b (Finset.mem_range.1 hb)),
    ← Finset.sum_div, ← Nat.cast_sum, sum_samplesIn samples hs, mul_div_cancel_right₀ _ hB.ne']
  rcases eq_or_ne samples.length 0 with hl | hl
  · rw [hl]; simp
  · have : (samples.length : ℝ) ≠ 0 := by exact_mod_cast hl
    field_simp

theorem samplesIn_all {samples : List ℝ} {s : ℝ} (h0 : ∀ γ ∈ samples, 0 ≤ γ) (h1 : ∀ γ ∈ samples, γ < s) :
    samplesIn samples 0 s = samples.length := by
  classical
  unfold samplesIn
  rw [List.countP_eq_length]
  intro γ hγ
  exact decide_eq_true ⟨h0 γ hγ, h1 γ hγ⟩

/-- If every sample is below the last edge, the density integrates to one. -/
theorem _root_.Polymers.Spec.IsHistogram.normalised {s : ℝ} {B : ℕ} {samples : List ℝ} {out : List ℝ × List ℝ} (h : IsHistogram s B samples out)
    (hs : 0 < s) (hB : 0 < B) (h0 : ∀ γ ∈ samples, 0 ≤ γ) (h1 : ∀ γ ∈ samples, γ < s) (hne : samples ≠ []) :
    out.2.sum * (s / B) = 1 := by
  rw [h.total hs hB, samplesIn_all h0 h1]
  have : (samples.length : ℝ) ≠ 0 := by exact_mod_cast (List.length_pos_iff.2 hne).ne'
  field_simp

theorem bin_centers_getD (s : ℝ) {B b : ℕ} (hb : b < B) : (bin_centers s B).getD b 0 = s * (b + 1 / 2) / B := by
  unfold bin_centers
  rw [List.getD_eq_getElem _ _ (by simpa using hb)]
  simp only [List.getElem_map, List.getElem_range]
  norm_num

theorem isHistogram_of_counts {s n : ℝ} (hs : 0 < s) {B : ℕ} {γs : List ℝ} (h0 : ∀ γ ∈ γs, 0 ≤ γ)
    (hn : n = γs.length * (s / B)) :
    IsHistogram s B γs (bin_centers s B,
      bin_probabilities n (bin_all (bin_edges s B) γs (List.replicate B 0))) where
  centers_length := by simp [bin_centers]
  density_length := by
    rw [bin_probabilities, List.length_map,
      (bin_all_getD (bin_edges s B) γs (List.replicate B 0) (by simp [bin_edges]) 0).1, List.length_replicate]
  centers b hb := bin_centers_getD s hb
  density b hb := by rw [bin_probabilities_getD, bin_all_counts hs h0 hb, hn]

theorem histogram_checked_eq (s : ℝ) {B : ℕ} (hB : 0 < B) (γs : List ℝ) :
    histogram_checked s B γs = open Classical in if ∃ γ ∈ γs, s < γ then none else
      some (bin_centers s B, bin_probabilities (s * γs.length / B) (bin_all (bin_edges s B) γs (List.replicate B 0))) := by
  classical
  unfold histogram_checked
  rw [bin_all_checked_eq s _ γs _ (by simp [bin_edges]) (by simpa [bin_edges] using hB)]
  split <;> rfl

theorem histogram_checked_spec {s : ℝ} (hs : 0 < s) {B : ℕ} (hB : 0 < B) {γs : List ℝ} (h0 : ∀ γ ∈ γs, 0 ≤ γ) :
    (histogram_checked s B γs = none ↔ ∃ γ ∈ γs, s < γ) ∧
      ∀ out, histogram_checked s B γs = some out → IsHistogram s B γs out := by
  classical
  rw [histogram_checked_eq s hB]
  refine ⟨?_, ?_⟩
  · split <;> simp_all
  · intro out ho
    split at ho
    · simp at ho
    · rw [Option.some.injEq] at ho
      subst ho
      exact isHistogram_of_counts hs h0 (by ring)

theorem last_norm_nonneg (c : List (V3 ℝ)) : 0 ≤ last_norm c := by
  unfold last_norm
  split
  · exact Real.sqrt_nonneg _
  · exact le_rfl

section fjc
open fjc.thermodynamics.isometric.monte_carlo

/-- The extensions per link of the sampled configurations. -/
noncomputable def fjcSamples (N S : ℕ) (draw : ℕ → ℝ × ℝ) : List ℝ :=
  (List.range S).map fun k => random_nondimensional_end_to_end_length N (fun i => draw (k * N + i)) / N

theorem fjcSamples_nonneg (N S : ℕ) (draw : ℕ → ℝ × ℝ) : ∀ γ ∈ fjcSamples N S draw, 0 ≤ γ := by
  intro γ hγ
  obtain ⟨k, -, rfl⟩ := List.mem_map.1 hγ
  exact div_nonneg (last_norm_nonneg _) (Nat.cast_nonneg N)

/-- C42: the FJC run returns the histogram of its samples with `B` equal bins on `[0, 1)`. -/
theorem C42_fjc_histogram (B N S : ℕ) (draw : ℕ → ℝ × ℝ) :
    IsHistogram 1 B (fjcSamples N S draw) (nondimensional_equilibrium_radial_distribution B N S draw) := by
  unfold nondimensional_equilibrium_radial_distribution
  simp only [fjc_bin_edges, fjc_bin_centers]
  refine isHistogram_of_counts one_pos (fjcSamples_nonneg N S draw) ?_
  simp [fjcSamples]
  ring

/-- C42: its integral is the fraction of samples below one: samples at or above one are dropped. -/
theorem C42_fjc_total {B : ℕ} (hB : 0 < B) (N S : ℕ) (draw : ℕ → ℝ × ℝ) :
    (nondimensional_equilibrium_radial_distribution B N S draw).2.sum * (1 / B) =
      (samplesIn (fjcSamples N S draw) 0 1 : ℝ) / S := by
  have := (C42_fjc_histogram B N S draw).total one_pos hB
  simpa [fjcSamples] using this

/-- C42: it integrates to one if every sample is below one. -/
theorem C42_fjc_normalised {B S : ℕ} (hB : 0 < B) (hS : 0 < S) (N : ℕ) (draw : ℕ → ℝ × ℝ)
    (h1 : ∀ γ ∈ fjcSamples N S draw, γ < 1) :
    (nondimensional_equilibrium_radial_distribution B N S draw).2.sum * (1 / B) = 1 :=
  (C42_fjc_histogram B N S draw).normalised one_pos hB (fjcSamples_nonneg N S draw) h1 (by
    intro h
    have := congrArg List.length h
    simp [fjcSamples] at this
    omega)

end fjc

section frc
open frc.thermodynamics.isometric.monte_carlo

/-- The extensions per link of the sampled configurations. -/
noncomputable def frcSamples (N : ℕ) (θ : ℝ) (S : ℕ) (draw : ℕ → ℝ × V3 ℝ) : List ℝ :=
  (List.range S).map fun k => random_nondimensional_end_to_end_length N θ (fun i => draw (k * N + i)) / N

theorem frcSamples_nonneg (N : ℕ) (θ : ℝ) (S : ℕ) (draw : ℕ → ℝ × V3 ℝ) : ∀ γ ∈ frcSamples N θ S draw, 0 ≤ γ := by
  intro γ hγ
  obtain ⟨k, -, rfl⟩ := List.mem_map.1 hγ
  exact div_nonneg (last_norm_nonneg _) (Nat.cast_nonneg N)

theorem frc_gamma_max (θ : ℝ) : gamma_max θ = |Real.cos (θ / 2)| := by
  unfold gamma_max
  simp only [model_real, Real.cos_pi_sub]
  have : 2 - 2 * -Real.cos θ = (2 * |Real.cos (θ / 2)|) ^ 2 := by
    rw [mul_pow, sq_abs, Real.cos_sq]
    ring_nf
  rw [this, Real.sqrt_sq (by positivity)]
  ring

/-- C42: the FRC run panics exactly when some sample exceeds `|cos(θ/2)|`; otherwise it returns the histogram of its
samples with `B` equal bins on `[0, |cos(θ/2)|)`. -/
theorem C42_frc_histogram {B : ℕ} (hB : 0 < B) (N S : ℕ) {θ : ℝ} (hθ : Real.cos (θ / 2) ≠ 0) (draw : ℕ → ℝ × V3 ℝ) :
    (nondimensional_equilibrium_radial_distribution B N θ S draw = none ↔
      ∃ γ ∈ frcSamples N θ S draw, |Real.cos (θ / 2)| < γ) ∧
    ∀ out, nondimensional_equilibrium_radial_distribution B N θ S draw = some out →
      IsHistogram |Real.cos (θ / 2)| B (frcSamples N θ S draw) out := by
  unfold nondimensional_equilibrium_radial_distribution
  rw [frc_gamma_max]
  exact histogram_checked_spec (abs_pos.2 hθ) hB (frcSamples_nonneg N θ S draw)

/-- C42: if it returns, its integral is the fraction of samples below the last edge: a sample exactly on it is dropped. -/
theorem C42_frc_total {B : ℕ} (hB : 0 < B) (N S : ℕ) {θ : ℝ} (hθ : Real.cos (θ / 2) ≠ 0) (draw : ℕ → ℝ × V3 ℝ)
    {out : List ℝ × List ℝ} (ho : nondimensional_equilibrium_radial_distribution B N θ S draw = some out) :
    out.2.sum * (|Real.cos (θ / 2)| / B) = (samplesIn (frcSamples N θ S draw) 0 |Real.cos (θ / 2)| : ℝ) / S := by
  have := ((C42_frc_histogram hB N S hθ draw).2 out ho).total (abs_pos.2 hθ) hB
  simpa [frcSamples] using this

end frc

section efjc
open efjc.thermodynamics.isometric.monte_carlo

/-- The extensions per link of the sampled configurations. -/
noncomputable def efjcSamples (N S : ℕ) (draw : ℕ → ℝ × ℝ × ℝ) : List ℝ :=
  (List.range S).map fun k => random_nondimensional_end_to_end_length N (fun i => draw (k * N + i)) / N

theorem efjcSamples_nonneg (N S : ℕ) (draw : ℕ → ℝ × ℝ × ℝ) : ∀ γ ∈ efjcSamples N S draw, 0 ≤ γ := by
  intro γ hγ
  obtain ⟨k, -, rfl⟩ := List.mem_map.1 hγ
  exact div_nonneg (last_norm_nonneg _) (Nat.cast_nonneg N)

/-- C42: the EFJC run (positive stiffness and cut-off) panics exactly when some sample exceeds the cut-off extension;
otherwise it returns the histogram of its samples with `B` equal bins up to the cut-off. -/
theorem C42_efjc_histogram {B : ℕ} (hB : 0 < B) (N S : ℕ) {γmax κ : ℝ} (hγ : 0 < γmax) (hκ : 0 < κ)
    (draw : ℕ → ℝ × ℝ × ℝ) :
    (nondimensional_equilibrium_radial_distribution B N γmax κ S draw = none ↔ ∃ γ ∈ efjcSamples N S draw, γmax < γ) ∧
    ∀ out, nondimensional_equilibrium_radial_distribution B N γmax κ S draw = some out →
      IsHistogram γmax B (efjcSamples N S draw) out := by
  unfold nondimensional_equilibrium_radial_distribution
  rw [if_pos ((elem_lt _ _).2 (by norm_num; exact hκ))]
  exact histogram_checked_spec hγ hB (efjcSamples_nonneg N S draw)

/-- C42: if it returns, its integral is the fraction of samples below the cut-off. -/
theorem C42_efjc_total {B : ℕ} (hB : 0 < B) (N S : ℕ) {γmax κ : ℝ} (hγ : 0 < γmax) (hκ : 0 < κ)
    (draw : ℕ → ℝ × ℝ × ℝ) {out : List ℝ × List ℝ}
    (ho : nondimensional_equilibrium_radial_distribution B N γmax κ S draw = some out) :
    out.2.sum * (γmax / B) = (samplesIn (efjcSamples N S draw) 0 γmax : ℝ) / S := by
  have := ((C42_efjc_histogram hB N S hγ hκ draw).2 out ho).total hγ hB
  simpa [efjcSamples] using this

end efjc

section efrc
open efrc.thermodynamics.isometric.monte_carlo

/-- The extensions per link of the sampled configurations. -/
noncomputable def efrcSamples (N : ℕ) (θ : ℝ) (S : ℕ) (draw : ℕ → ℝ × ℝ × V3 ℝ) : List ℝ :=
  (List.range S).map fun k => random_nondimensional_end_to_end_length N θ (fun i => draw (k * N + i)) / N

theorem efrcSamples_nonneg (N : ℕ) (θ : ℝ) (S : ℕ) (draw : ℕ → ℝ × ℝ × V3 ℝ) : ∀ γ ∈ efrcSamples N θ S draw, 0 ≤ γ := by
  intro γ hγ
  obtain ⟨k, -, rfl⟩ := List.mem_map.1 hγ
  exact div_nonneg (last_norm_nonneg _) (Nat.cast_nonneg N)

/-- C42: the EFRC run (positive stiffness and cut-off) panics exactly when some sample exceeds the cut-off extension;
otherwise it returns the histogram of its samples with `B` equal bins up to the cut-off. -/
theorem C42_efrc_histogram {B : ℕ} (hB : 0 < B) (N S : ℕ) {γmax κ : ℝ} (hγ : 0 < γmax) (hκ : 0 < κ) (θ : ℝ)
    (draw : ℕ → ℝ × ℝ × V3 ℝ) :
    (nondimensional_equilibrium_radial_distribution B N γmax κ θ S draw = none ↔
      ∃ γ ∈ efrcSamples N θ S draw, γmax < γ) ∧
    ∀ out, nondimensional_equilibrium_radial_distribution B N γmax κ θ S draw = some out →
      IsHistogram γmax B (efrcSamples N θ S draw) out := by
  unfold nondimensional_equilibrium_radial_distribution
  rw [if_pos ((elem_lt _ _).2 (by norm_num; exact hκ))]
  exact histogram_checked_spec hγ hB (efrcSamples_nonneg N θ S draw)

/-- C42: if it returns, its integral is the fraction of samples below the cut-off. -/
theorem C42_efrc_total {B : ℕ} (hB : 0 < B) (N S : ℕ) {γmax κ : ℝ} (hγ : 0 < γmax) (hκ : 0 < κ) (θ : ℝ)
    (draw : ℕ → ℝ × ℝ × V3 ℝ) {out : List ℝ × List ℝ}
    (ho : nondimensional_equilibrium_radial_distribution B N γmax κ θ S draw = some out) :
    out.2.sum * (γmax / B) = (samplesIn (efrcSamples N θ S draw) 0 γmax : ℝ) / S := by
  have := ((C42_efrc_histogram hB N S hγ hκ θ draw).2 out ho).total hγ hB
  simpa [efrcSamples] using this

end efrc

/-- C42: an undefined sample (a NaN of the program) changes no bin and does not make the run fail. -/
theorem C42_undefined_sample_dropped (γmax : ℝ) (E : List SReal) (C : List ℕ) :
    bin_sample SReal.undef E C = C ∧ bin_sample_checked (SReal.val γmax) SReal.undef E C = some C := by
  induction E generalizing C with
  | nil => cases C <;> exact ⟨rfl, rfl⟩
  | cons e E ih =>
    cases C with
    | nil => exact ⟨rfl, rfl⟩
    | cons c C =>
      have h1 : Elem.lt SReal.undef e = false := by cases e <;> rfl
      have h2 : Elem.lt (SReal.val γmax) SReal.undef = false := rfl
      unfold bin_sample bin_sample_checked
      simp only [h1, h2]
      obtain ⟨i1, i2⟩ := ih C
      rw [i1, i2]
      exact ⟨rfl, rfl⟩

end Polymers.Props
