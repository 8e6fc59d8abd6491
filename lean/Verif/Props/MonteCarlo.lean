import Verif.Props.Histogram
import Mathlib.Analysis.SpecialFunctions.Trigonometric.Inverse
import Mathlib.LinearAlgebra.Matrix.NonsingularInverse

/-! Properties C39, C40, C41 and C42: the configurations generated by the Monte Carlo modules. -/

namespace Polymers.Props

open Polymers.Spec

/-! ### Walks -/

theorem norm_eq (v : V3 ℝ) : v.norm = √(dot v v) := by
  unfold V3.norm dot
  simp only [model_real, List.sum_cons, List.sum_nil, add_zero, add_assoc]

theorem dot_self_nonneg (v : V3 ℝ) : 0 ≤ dot v v := by unfold dot; nlinarith [sq_nonneg v.x, sq_nonneg v.y, sq_nonneg v.z]

theorem dot_le (u v : V3 ℝ) : dot u v ≤ u.norm * v.norm := by
  rw [norm_eq, norm_eq, ← Real.sqrt_mul (dot_self_nonneg u)]
  refine Real.le_sqrt_of_sq_le ?_
  unfold dot
  nlinarith [sq_nonneg (u.x * v.y - u.y * v.x), sq_nonneg (u.x * v.z - u.z * v.x), sq_nonneg (u.y * v.z - u.z * v.y)]

theorem dot_add_self (u v : V3 ℝ) : dot (u.add v) (u.add v) = dot u u + 2 * dot u v + dot v v := by
  unfold dot V3.add; ring

theorem norm_add_le' (u v : V3 ℝ) : (u.add v).norm ≤ u.norm + v.norm := by
  have h := dot_le u v
  rw [norm_eq (u.add v)]
  refine Real.sqrt_le_iff.2 ⟨add_nonneg (by rw [norm_eq]; positivity) (by rw [norm_eq]; positivity), ?_⟩
  have hu : u.norm ^ 2 = dot u u := by rw [norm_eq, Real.sq_sqrt (dot_self_nonneg u)]
  have hv : v.norm ^ 2 = dot v v := by rw [norm_eq, Real.sq_sqrt (dot_self_nonneg v)]
  rw [dot_add_self]
  nlinarith

/-- The positions of a walk from `p` with the given steps. -/
noncomputable def walk (p : V3 ℝ) : List (V3 ℝ) → List (V3 ℝ)
  | [] => []
  | r :: rs => p.add r :: walk (p.add r) rs

/-- The end of the walk. -/
noncomputable def walkEnd (p : V3 ℝ) : List (V3 ℝ) → V3 ℝ
  | [] => p
  | r :: rs => walkEnd (p.add r) rs

theorem walk_length (p : V3 ℝ) (rs : List (V3 ℝ)) : (walk p rs).length = rs.length := by
  induction rs generalizing p with
  | nil => rfl
  | cons r rs ih => simp [walk, ih]

theorem walk_getLast (p : V3 ℝ) (rs : List (V3 ℝ)) (h : rs ≠ []) : (walk p rs).getLast? = some (walkEnd p rs) := by
  induction rs generalizing p with
  | nil => exact absurd rfl h
  | cons r rs ih =>
    cases rs with
    | nil => rfl
    | cons r' rs =>
      have := ih (p.add r) (by simp)
      rw [walk, walkEnd, ← this]
      rw [walk, List.getLast?_cons_cons]

theorem last_norm_walk (p : V3 ℝ) (rs : List (V3 ℝ)) (h : rs ≠ []) : last_norm (walk p rs) = (walkEnd p rs).norm := by
  unfold last_norm; rw [walk_getLast p rs h]

theorem zero_add' (r : V3 ℝ) : V3.zero.add r = r := by
  unfold V3.zero V3.add; norm_num

theorem linkVector_walk (rs : List (V3 ℝ)) {i : ℕ} (hi : i < rs.length) :
    linkVector (walk V3.zero rs) i = rs[i] := by
  have key : ∀ (rs : List (V3 ℝ)) (p : V3 ℝ) (i : ℕ) (hi : i + 1 < rs.length),
      ∃ q, position (walk p rs) i = q ∧ position (walk p rs) (i + 1) = q.add rs[i + 1] := by
    intro rs
    induction rs with
    | nil => intro p i hi; simp at hi
    | cons r rs ih =>
      intro p i hi
      cases i with
      | zero =>
        cases rs with
        | nil => simp at hi
        | cons r' rs => exact ⟨p.add r, by simp [walk, position], by simp [walk, position]⟩
      | succ i =>
        obtain ⟨q, h1, h2⟩ := ih (p.add r) i (by simpa using hi)
        refine ⟨q, ?_, ?_⟩
        · rw [← h1]; simp [walk, position]
        · simp only [List.getElem_cons_succ]
          rw [← h2]; simp [walk, position]
  cases i with
  | zero =>
    cases rs with
    | nil => simp at hi
    | cons r rs => simp [linkVector, position, walk, zero_add']
  | succ i =>
    obtain ⟨q, h1, h2⟩ := key rs V3.zero i hi
    rw [linkVector, h1, h2]
    simp [V3.add]

theorem walkEnd_norm_le (p : V3 ℝ) (rs : List (V3 ℝ)) : (walkEnd p rs).norm ≤ p.norm + (rs.map V3.norm).sum := by
  induction rs generalizing p with
  | nil => simp [walkEnd]
  | cons r rs ih =>
    rw [walkEnd, List.map_cons, List.sum_cons]
    linarith [ih (p.add r), norm_add_le' p r]

theorem zero_norm : (V3.zero : V3 ℝ).norm = 0 := by
  rw [norm_eq]; unfold dot V3.zero; norm_num

/-! ### FJC -/

section fjc
open fjc.thermodynamics.isometric.monte_carlo

theorem fjc_configuration (n : ℕ) (p : V3 ℝ) (draw : ℕ → ℝ × ℝ) :
    configuration_from n p draw = walk p ((List.range n).map fun i => link (draw i)) := by
  induction n generalizing p draw with
  | zero => rfl
  | succ n ih =>
    rw [List.range_succ_eq_map, configuration_from]
    simp only [List.map_cons, List.map_map, walk]
    rw [ih]
    rfl

theorem fjc_link (draw : ℝ × ℝ) (h0 : 0 ≤ draw.2) (h1 : draw.2 ≤ 1) :
    link draw = ⟨√(1 - (1 - 2 * draw.2) ^ 2) * Real.cos (2 * Real.pi * draw.1),
      √(1 - (1 - 2 * draw.2) ^ 2) * Real.sin (2 * Real.pi * draw.1), 1 - 2 * draw.2⟩ := by
  unfold link TWO_PI
  simp only [model_real, Real.sin_arccos, Real.cos_arccos (by linarith : (-1 : ℝ) ≤ 1 - 2 * draw.2) (by linarith)]

theorem fjc_link_unit (draw : ℝ × ℝ) (h0 : 0 ≤ draw.2) (h1 : draw.2 ≤ 1) : dot (link draw) (link draw) = 1 := by
  rw [fjc_link draw h0 h1]
  unfold dot
  have hs := Real.sq_sqrt (show 0 ≤ 1 - (1 - 2 * draw.2) ^ 2 by nlinarith)
  have hc := Real.sin_sq_add_cos_sq (2 * Real.pi * draw.1)
  simp only
  linear_combination (Real.cos (2 * Real.pi * draw.1) ^ 2 + Real.sin (2 * Real.pi * draw.1) ^ 2) * hs +
    (1 - (1 - 2 * draw.2) ^ 2) * hc

/-- C39: whatever numbers are drawn, an FJC configuration has as many positions as links, every link is a unit vector, its
component along the third axis is `1 - 2u` and its direction about that axis has the angle `2πv`. -/
theorem C39_fjc_links (N : ℕ) (draw : ℕ → ℝ × ℝ) (hd : ∀ i < N, 0 ≤ (draw i).2 ∧ (draw i).2 ≤ 1) :
    (random_configuration N draw).length = N ∧ ∀ i < N,
      dot (linkVector (random_configuration N draw) i) (linkVector (random_configuration N draw) i) = 1 ∧
      linkVector (random_configuration N draw) i =
        ⟨√(1 - (1 - 2 * (draw i).2) ^ 2) * Real.cos (2 * Real.pi * (draw i).1),
         √(1 - (1 - 2 * (draw i).2) ^ 2) * Real.sin (2 * Real.pi * (draw i).1), 1 - 2 * (draw i).2⟩ := by
  unfold random_configuration
  rw [fjc_configuration]
  refine ⟨by rw [walk_length]; simp, fun i hi => ?_⟩
  rw [linkVector_walk _ (by simpa using hi)]
  simp only [List.getElem_map, List.getElem_range]
  exact ⟨fjc_link_unit _ (hd i hi).1 (hd i hi).2, fjc_link _ (hd i hi).1 (hd i hi).2⟩

/-- C39: the end-to-end length of a chain of `N ≥ 1` links lies between zero and `N`. -/
theorem C39_fjc_extension {N : ℕ} (hN : 0 < N) (draw : ℕ → ℝ × ℝ) (hd : ∀ i < N, 0 ≤ (draw i).2 ∧ (draw i).2 ≤ 1) :
    0 ≤ random_nondimensional_end_to_end_length N draw ∧ random_nondimensional_end_to_end_length N draw ≤ N := by
  refine ⟨last_norm_nonneg _, ?_⟩
  unfold random_nondimensional_end_to_end_length random_configuration
  rw [fjc_configuration, last_norm_walk _ _ (by simp; omega)]
  refine (walkEnd_norm_le _ _).trans ?_
  rw [zero_norm, zero_add, List.map_map]
  have : (List.range N).map (V3.norm ∘ fun i => link (draw i)) = (List.range N).map fun _ => (1 : ℝ) := by
    refine List.map_congr_left fun i hi => ?_
    have := hd i (List.mem_range.1 hi)
    simp only [Function.comp]
    rw [norm_eq, fjc_link_unit _ this.1 this.2, Real.sqrt_one]
  rw [this]
  simp

/-- C39: hence every sample of a run lies between zero and one. -/
theorem C39_fjc_samples {N : ℕ} (hN : 0 < N) (S : ℕ) (draw : ℕ → ℝ × ℝ) (hd : ∀ i, 0 ≤ (draw i).2 ∧ (draw i).2 ≤ 1) :
    ∀ γ ∈ fjcSamples N S draw, 0 ≤ γ ∧ γ ≤ 1 := by
  intro γ hγ
  obtain ⟨k, -, rfl⟩ := List.mem_map.1 hγ
  have hN' : (0 : ℝ) < N := by exact_mod_cast hN
  have h := C39_fjc_extension hN (fun i => draw (k * N + i)) fun i _ => hd _
  exact ⟨div_nonneg h.1 hN'.le, (div_le_one hN').2 h.2⟩

/-- C39, concrete case: with all draws one half a chain of two links is straight and attains the bound. -/
example : random_nondimensional_end_to_end_length 2 (fun _ => ((1 / 2 : ℝ), (1 / 2 : ℝ))) = 2 := by
  unfold random_nondimensional_end_to_end_length random_configuration
  rw [fjc_configuration, last_norm_walk _ _ (by simp)]
  have : link ((1 / 2 : ℝ), (1 / 2 : ℝ)) = ⟨-1, 0, 0⟩ := by
    rw [fjc_link _ (by norm_num) (by norm_num)]
    rw [show 2 * Real.pi * (1 / 2 : ℝ) = Real.pi by ring, Real.cos_pi, Real.sin_pi]
    norm_num
  simp only [List.range_succ, List.range_zero, List.nil_append, List.map_cons, List.map_nil, this,
    walkEnd, List.cons_append, norm_eq, zero_add']
  simp only [V3.add, dot]
  norm_num
  rw [show (4 : ℝ) = 2 ^ 2 by norm_num, Real.sqrt_sq (by norm_num)]

/-- C42: with a single link every sample is exactly one, so all samples are dropped: the returned density is zero. -/
theorem C42_fjc_single_link_dropped (B S : ℕ) (draw : ℕ → ℝ × ℝ) (hd : ∀ i, 0 ≤ (draw i).2 ∧ (draw i).2 ≤ 1) :
    ∀ b < B, (nondimensional_equilibrium_radial_distribution B 1 S draw).2.getD b 0 = 0 := by
  intro b hb
  rw [(C42_fjc_histogram B 1 S draw).density b hb]
  have h1 : ∀ γ ∈ fjcSamples 1 S draw, γ = 1 := by
    intro γ hγ
    obtain ⟨k, -, rfl⟩ := List.mem_map.1 hγ
    unfold random_nondimensional_end_to_end_length random_configuration
    rw [fjc_configuration, last_norm_walk _ _ (by simp)]
    simp only [List.range_succ, List.range_zero, List.nil_append, List.map_cons, List.map_nil, walkEnd, zero_add']
    rw [norm_eq, fjc_link_unit _ (hd _).1 (hd _).2]
    simp
  have h2 : samplesIn (fjcSamples 1 S draw) (1 * b / B) (1 * (b + 1) / B) = 0 := by
    classical
    unfold samplesIn
    rw [List.countP_eq_zero]
    intro γ hγ
    simp only [decide_eq_true_eq, h1 γ hγ]
    have hB : (0 : ℝ) < B := by exact_mod_cast (by omega : 0 < B)
    have : ((b : ℝ) + 1) ≤ B := by exact_mod_cast hb
    rintro ⟨-, h⟩
    rw [lt_div_iff₀ hB] at h
    linarith
  rw [h2]
  simp

end fjc

/-! ### EFJC -/

section efjc
open efjc.thermodynamics.isometric.monte_carlo

theorem efjc_configuration (n : ℕ) (p : V3 ℝ) (draw : ℕ → ℝ × ℝ × ℝ) :
    configuration_from n p draw = walk p ((List.range n).map fun i => link (draw i)) := by
  induction n generalizing p draw with
  | zero => rfl
  | succ n ih =>
    rw [List.range_succ_eq_map, configuration_from]
    simp only [List.map_cons, List.map_map, walk]
    rw [ih]
    rfl

theorem efjc_link (draw : ℝ × ℝ × ℝ) : link draw =
    ⟨draw.1 * (fjc.thermodynamics.isometric.monte_carlo.link draw.2).x,
     draw.1 * (fjc.thermodynamics.isometric.monte_carlo.link draw.2).y,
     draw.1 * (fjc.thermodynamics.isometric.monte_carlo.link draw.2).z⟩ := rfl

/-- C41: whatever numbers are drawn, an EFJC configuration has as many positions as links, and link `i` is the sampled
stretch times the unit vector that the FJC would use. -/
theorem C41_efjc_links (N : ℕ) (draw : ℕ → ℝ × ℝ × ℝ) (hd : ∀ i < N, 0 ≤ (draw i).2.2 ∧ (draw i).2.2 ≤ 1) :
    (random_configuration N draw).length = N ∧ ∀ i < N,
      √(dot (linkVector (random_configuration N draw) i) (linkVector (random_configuration N draw) i)) = |(draw i).1| ∧
      linkVector (random_configuration N draw) i =
        ⟨(draw i).1 * (√(1 - (1 - 2 * (draw i).2.2) ^ 2) * Real.cos (2 * Real.pi * (draw i).2.1)),
         (draw i).1 * (√(1 - (1 - 2 * (draw i).2.2) ^ 2) * Real.sin (2 * Real.pi * (draw i).2.1)),
         (draw i).1 * (1 - 2 * (draw i).2.2)⟩ := by
  unfold random_configuration
  rw [efjc_configuration]
  refine ⟨by rw [walk_length]; simp, fun i hi => ?_⟩
  rw [linkVector_walk _ (by simpa using hi)]
  simp only [List.getElem_map, List.getElem_range, efjc_link]
  have h1 := fjc_link_unit (draw i).2 (hd i hi).1 (hd i hi).2
  refine ⟨?_, by rw [fjc_link _ (hd i hi).1 (hd i hi).2]⟩
  rw [← Real.sqrt_sq_eq_abs]
  congr 1
  unfold dot at h1 ⊢
  linear_combination (draw i).1 ^ 2 * h1

/-- C41: the end-to-end length is at most the sum of the magnitudes of the sampled stretches. -/
theorem C41_efjc_extension {N : ℕ} (hN : 0 < N) (draw : ℕ → ℝ × ℝ × ℝ)
    (hd : ∀ i < N, 0 ≤ (draw i).2.2 ∧ (draw i).2.2 ≤ 1) :
    random_nondimensional_end_to_end_length N draw ≤ ((List.range N).map fun i => |(draw i).1|).sum := by
  unfold random_nondimensional_end_to_end_length random_configuration
  rw [efjc_configuration, last_norm_walk _ _ (by simp; omega)]
  refine (walkEnd_norm_le _ _).trans ?_
  rw [zero_norm, zero_add, List.map_map]
  refine le_of_eq ?_
  congr 1
  refine List.map_congr_left fun i hi => ?_
  have h := hd i (List.mem_range.1 hi)
  have h1 := fjc_link_unit (draw i).2 h.1 h.2
  simp only [Function.comp]
  rw [norm_eq, ← Real.sqrt_sq_eq_abs, efjc_link]
  congr 1
  unfold dot at h1 ⊢
  linear_combination (draw i).1 ^ 2 * h1

end efjc

/-! ### Fixed angles -/

section cone
open frc.thermodynamics.isometric.monte_carlo (cross)

/-- The vector at the angle `θ` from `r` whose azimuth, measured from `r × t`, is `φ`. -/
noncomputable def cone (θ φ : ℝ) (r t : V3 ℝ) : V3 ℝ :=
  let n := (cross r t).norm
  let u : V3 ℝ := ⟨(cross r t).x / n, (cross r t).y / n, (cross r t).z / n⟩
  let v := cross r u
  ⟨(u.x * Real.cos φ + v.x * Real.sin φ) * Real.sin θ + r.x * Real.cos θ,
   (u.y * Real.cos φ + v.y * Real.sin φ) * Real.sin θ + r.y * Real.cos θ,
   (u.z * Real.cos φ + v.z * Real.sin φ) * Real.sin θ + r.z * Real.cos θ⟩

theorem dot_cross_self (r t : V3 ℝ) : dot (cross r t) (cross r t) = dot r r * dot t t - dot r t ^ 2 := by
  unfold dot cross; ring

theorem cross_norm_pos {r t : V3 ℝ} (h : ¬ Parallel r t) : 0 < (cross r t).norm := by
  rw [norm_eq]
  refine Real.sqrt_pos.2 (lt_of_le_of_ne (dot_self_nonneg _) fun h0 => h ?_)
  unfold Parallel
  linarith [dot_cross_self r t]

/-- The first vector of the frame about `r`. -/
noncomputable def frameU (r t : V3 ℝ) : V3 ℝ :=
  ⟨(cross r t).x / (cross r t).norm, (cross r t).y / (cross r t).norm, (cross r t).z / (cross r t).norm⟩

theorem frameU_unit {r t : V3 ℝ} (h : ¬ Parallel r t) : dot (frameU r t) (frameU r t) = 1 := by
  have h0 := cross_norm_pos h
  have h1 : (cross r t).norm ^ 2 = dot (cross r t) (cross r t) := by rw [norm_eq, Real.sq_sqrt (dot_self_nonneg _)]
  unfold frameU
  simp only [dot] at h1 ⊢
  field_simp
  linarith

theorem frameU_perp (r t : V3 ℝ) : dot r (frameU r t) = 0 := by
  unfold frameU dot cross
  ring

theorem cone_eq (θ φ : ℝ) (r t : V3 ℝ) : cone θ φ r t =
  ⟨((frameU r t).x * Real.cos φ + (cross r (frameU r t)).x * Real.sin φ) * Real.sin θ + r.x * Real.cos θ,
   ((frameU r t).y * Real.cos φ + (cross r (frameU r t)).y * Real.sin φ) * Real.sin θ + r.y * Real.cos θ,
   ((frameU r t).z * Real.cos φ + (cross r (frameU r t)).z * Real.sin φ) * Real.sin θ + r.z * Real.cos θ⟩ := rfl

theorem cone_frame (θ φ : ℝ) {r u : V3 ℝ} (hr : dot r r = 1) (hu : dot u u = 1) (hru : dot r u = 0) (w : V3 ℝ)
    (hw : w = ⟨(u.x * Real.cos φ + (cross r u).x * Real.sin φ) * Real.sin θ + r.x * Real.cos θ,
      (u.y * Real.cos φ + (cross r u).y * Real.sin φ) * Real.sin θ + r.y * Real.cos θ,
      (u.z * Real.cos φ + (cross r u).z * Real.sin φ) * Real.sin θ + r.z * Real.cos θ⟩) :
    dot w w = 1 ∧ dot r w = Real.cos θ ∧ dot w u = Real.sin θ * Real.cos φ ∧
      dot w (cross r u) = Real.sin θ * Real.sin φ := by
  have hv : dot (cross r u) (cross r u) = 1 := by rw [dot_cross_self, hr, hu, hru]; norm_num
  have hrv : dot r (cross r u) = 0 := by unfold dot cross; ring
  have huv : dot u (cross r u) = 0 := by unfold dot cross; ring
  generalize cross r u = v at *
  have hθ := Real.sin_sq_add_cos_sq θ
  have hφ := Real.sin_sq_add_cos_sq φ
  subst hw
  generalize Real.sin θ = sθ at *
  generalize Real.cos θ = cθ at *
  generalize Real.sin φ = sφ at *
  generalize Real.cos φ = cφ at *
  unfold dot at *
  simp only
  refine ⟨?_, ?_, ?_, ?_⟩
  · linear_combination (sθ ^ 2 * cφ ^ 2) * hu + (sθ ^ 2 * sφ ^ 2) * hv + cθ ^ 2 * hr + 2 * sθ ^ 2 * cφ * sφ * huv +
      2 * sθ * cφ * cθ * hru + 2 * sθ * sφ * cθ * hrv + sθ ^ 2 * hφ + hθ
  · linear_combination sθ * cφ * hru + sθ * sφ * hrv + cθ * hr
  · linear_combination sθ * cφ * hu + sθ * sφ * huv + cθ * hru
  · linear_combination sθ * cφ * huv + sθ * sφ * hv + cθ * hrv

theorem cone_spec (θ φ : ℝ) {r t : V3 ℝ} (hr : dot r r = 1) (h : ¬ Parallel r t) :
    dot (cone θ φ r t) (cone θ φ r t) = 1 ∧ dot r (cone θ φ r t) = Real.cos θ :=
  have := cone_frame θ φ hr (frameU_unit h) (frameU_perp r t) (cone θ φ r t) (cone_eq θ φ r t)
  ⟨this.1, this.2.1⟩

theorem cone_azimuth (θ φ : ℝ) {r t : V3 ℝ} (hr : dot r r = 1) (h : ¬ Parallel r t) :
    dot (cone θ φ r t) (frameU r t) = Real.sin θ * Real.cos φ ∧
      dot (cone θ φ r t) (cross r (frameU r t)) = Real.sin θ * Real.sin φ :=
  have := cone_frame θ φ hr (frameU_unit h) (frameU_perp r t) (cone θ φ r t) (cone_eq θ φ r t)
  ⟨this.2.2.1, this.2.2.2⟩

/-- An orthonormal triple is a basis. -/
theorem orthonormal_complete {a b c : V3 ℝ} (haa : dot a a = 1) (hbb : dot b b = 1) (hcc : dot c c = 1)
    (hab : dot a b = 0) (hac : dot a c = 0) (hbc : dot b c = 0) :
    a.x * a.x + b.x * b.x + c.x * c.x = 1 ∧ a.y * a.y + b.y * b.y + c.y * c.y = 1 ∧
    a.z * a.z + b.z * b.z + c.z * c.z = 1 ∧ a.x * a.y + b.x * b.y + c.x * c.y = 0 ∧
    a.x * a.z + b.x * b.z + c.x * c.z = 0 ∧ a.y * a.z + b.y * b.z + c.y * c.z = 0 := by
  have h : (!![a.x, a.y, a.z; b.x, b.y, b.z; c.x, c.y, c.z] : Matrix (Fin 3) (Fin 3) ℝ) *
      !![a.x, b.x, c.x; a.y, b.y, c.y; a.z, b.z, c.z] = 1 := by
    unfold dot at *
    rw [← Matrix.ext_iff]
    intro i j
    fin_cases i <;> fin_cases j <;> simp [Matrix.mul_apply, Fin.sum_univ_succ] <;> linarith
  have h' := mul_eq_one_comm.1 h
  rw [← Matrix.ext_iff] at h'
  have h00 := h' 0 0
  have h11 := h' 1 1
  have h22 := h' 2 2
  have h01 := h' 0 1
  have h02 := h' 0 2
  have h12 := h' 1 2
  simp [Matrix.mul_apply, Fin.sum_univ_succ] at h00 h11 h22 h01 h02 h12
  exact ⟨by linarith, by linarith, by linarith, by linarith, by linarith, by linarith⟩

/-- Every point of the unit circle has an angle in `[0, 1)` turns. -/
theorem exists_turn {c s : ℝ} (h : c ^ 2 + s ^ 2 = 1) :
    ∃ a : ℝ, 0 ≤ a ∧ a < 1 ∧ Real.cos (2 * Real.pi * a) = c ∧ Real.sin (2 * Real.pi * a) = s := by
  have hc1 : -1 ≤ c := by nlinarith [sq_nonneg s]
  have hc2 : c ≤ 1 := by nlinarith [sq_nonneg s]
  have hpi := Real.pi_pos
  have h0 := Real.arccos_nonneg c
  have hle := Real.arccos_le_pi c
  rcases le_or_gt 0 s with hs | hs
  · refine ⟨Real.arccos c / (2 * Real.pi), by positivity, ?_, ?_, ?_⟩
    · rw [div_lt_one (by positivity)]; linarith
    · rw [mul_div_cancel₀ _ (by positivity), Real.cos_arccos hc1 hc2]
    · rw [mul_div_cancel₀ _ (by positivity), Real.sin_arccos, show 1 - c ^ 2 = s ^ 2 by linarith, Real.sqrt_sq hs]
  · have hlt : 0 < Real.arccos c := by
      rw [Real.arccos_pos]
      by_contra hge
      have : c = 1 := le_antisymm hc2 (not_lt.1 hge)
      subst this
      nlinarith
    have e : 2 * Real.pi * ((2 * Real.pi - Real.arccos c) / (2 * Real.pi)) = 2 * Real.pi - Real.arccos c :=
      mul_div_cancel₀ _ (by positivity)
    refine ⟨(2 * Real.pi - Real.arccos c) / (2 * Real.pi), div_nonneg (by linarith) (by positivity), ?_, ?_, ?_⟩
    · rw [div_lt_one (by positivity)]; linarith
    · rw [e, Real.cos_two_pi_sub, Real.cos_arccos hc1 hc2]
    · rw [e, Real.sin_two_pi_sub, Real.sin_arccos, show 1 - c ^ 2 = (-s) ^ 2 by linarith, Real.sqrt_sq (by linarith)]
      ring

/-- Every unit vector at the angle `θ` is reached by some azimuth in `[0, 1)` turns. -/
theorem cone_surjective (θ : ℝ) {r t w : V3 ℝ} (hr : dot r r = 1) (h : ¬ Parallel r t) (hw : dot w w = 1)
    (hrw : dot r w = Real.cos θ) : ∃ a : ℝ, 0 ≤ a ∧ a < 1 ∧ cone θ (2 * Real.pi * a) r t = w := by
  simp only [cone_eq]
  have hu := frameU_unit h
  have hru := frameU_perp r t
  generalize frameU r t = u at *
  have hv : dot (cross r u) (cross r u) = 1 := by rw [dot_cross_self, hr, hu, hru]; norm_num
  have hrv : dot r (cross r u) = 0 := by unfold dot cross; ring
  have huv : dot u (cross r u) = 0 := by unfold dot cross; ring
  generalize cross r u = v at *
  obtain ⟨hxx, hyy, hzz, hxy, hxz, hyz⟩ := orthonormal_complete hr hu hv hru hrv huv
  have hcx : w.x = dot w u * u.x + dot w v * v.x + dot r w * r.x := by
    unfold dot; linear_combination -w.x * hxx - w.y * hxy - w.z * hxz
  have hcy : w.y = dot w u * u.y + dot w v * v.y + dot r w * r.y := by
    unfold dot; linear_combination -w.y * hyy - w.x * hxy - w.z * hyz
  have hcz : w.z = dot w u * u.z + dot w v * v.z + dot r w * r.z := by
    unfold dot; linear_combination -w.z * hzz - w.x * hxz - w.y * hyz
  have hnorm : dot w u ^ 2 + dot w v ^ 2 = Real.sin θ ^ 2 := by
    have h1 : dot w u ^ 2 + dot w v ^ 2 + dot r w ^ 2 = dot w w := by
      unfold dot
      linear_combination w.x ^ 2 * hxx + w.y ^ 2 * hyy + w.z ^ 2 * hzz + 2 * w.x * w.y * hxy + 2 * w.x * w.z * hxz +
        2 * w.y * w.z * hyz
    have h2 := Real.sin_sq_add_cos_sq θ
    rw [hrw, hw] at h1
    linarith
  rw [hrw] at hcx hcy hcz
  by_cases hs : Real.sin θ = 0
  · rw [hs] at hnorm
    have e12 := (add_eq_zero_iff_of_nonneg (sq_nonneg (dot w u)) (sq_nonneg (dot w v))).1 (hnorm.trans (zero_pow two_ne_zero))
    have e1 : dot w u = 0 := (pow_eq_zero_iff two_ne_zero).1 e12.1
    have e2 : dot w v = 0 := (pow_eq_zero_iff two_ne_zero).1 e12.2
    refine ⟨0, le_refl _, one_pos, ?_⟩
    rw [e1, e2] at hcx hcy hcz
    rw [hs]
    cases w
    simp only [V3.mk.injEq] at hcx hcy hcz ⊢
    exact ⟨by rw [hcx]; ring, by rw [hcy]; ring, by rw [hcz]; ring⟩
  · obtain ⟨a, h0, h1, hc, hsin⟩ := exists_turn (c := dot w u / Real.sin θ) (s := dot w v / Real.sin θ) (by
      field_simp; exact hnorm)
    refine ⟨a, h0, h1, ?_⟩
    rw [hc, hsin]
    have key : ∀ p q n x y z : ℝ, n ≠ 0 → (x * (p / n) + y * (q / n)) * n + z = p * x + q * y + z := by
      intro p q n x y z hn; field_simp
    cases w
    simp only [V3.mk.injEq] at hcx hcy hcz ⊢
    refine ⟨?_, ?_, ?_⟩
    · rw [key _ _ _ _ _ _ hs, mul_comm r.x]; exact hcx.symm
    · rw [key _ _ _ _ _ _ hs, mul_comm r.y]; exact hcy.symm
    · rw [key _ _ _ _ _ _ hs, mul_comm r.z]; exact hcz.symm

theorem walkEnd_append (p : V3 ℝ) (rs qs : List (V3 ℝ)) : walkEnd p (rs ++ qs) = walkEnd (walkEnd p rs) qs := by
  induction rs generalizing p with
  | nil => rfl
  | cons r rs ih => simp [walkEnd, ih]

/-- Links taken two at a time: with unit links and a fixed scalar product `c` between neighbours. -/
theorem walkEnd_pairs (f : ℕ → V3 ℝ) (c : ℝ) (m : ℕ) (h1 : ∀ i < 2 * m, dot (f i) (f i) = 1)
    (h2 : ∀ i, i + 1 < 2 * m → dot (f i) (f (i + 1)) = c) :
    (walkEnd V3.zero ((List.range (2 * m)).map f)).norm ≤ m * √(2 + 2 * c) := by
  induction m with
  | zero => simp [walkEnd, zero_norm]
  | succ m ih =>
    have ih := ih (fun i hi => h1 i (by omega)) (fun i hi => h2 i (by omega))
    rw [show 2 * (m + 1) = 2 * m + 1 + 1 by ring, List.range_succ, List.range_succ, List.map_append, List.map_append,
      walkEnd_append, walkEnd_append]
    simp only [List.map_cons, List.map_nil, walkEnd]
    generalize walkEnd V3.zero ((List.range (2 * m)).map f) = p at *
    have e : (p.add (f (2 * m))).add (f (2 * m + 1)) = p.add ((f (2 * m)).add (f (2 * m + 1))) := by
      simp [V3.add, add_assoc]
    rw [e]
    refine (norm_add_le' _ _).trans ?_
    have : ((f (2 * m)).add (f (2 * m + 1))).norm = √(2 + 2 * c) := by
      rw [norm_eq, dot_add_self, h1 _ (by omega), h1 _ (by omega), h2 _ (by omega)]
      ring_nf
    rw [this]
    push_cast
    linarith

theorem sqrt_two_add_two_cos (θ : ℝ) : √(2 + 2 * Real.cos θ) = 2 * |Real.cos (θ / 2)| := by
  have : 2 + 2 * Real.cos θ = (2 * |Real.cos (θ / 2)|) ^ 2 := by
    rw [mul_pow, sq_abs, Real.cos_sq]
    ring_nf
  rw [this, Real.sqrt_sq (by positivity)]

theorem exists_not_parallel {r : V3 ℝ} (hr : dot r r = 1) :
    ∃ t : V3 ℝ, (0 ≤ t.x ∧ t.x < 1) ∧ (0 ≤ t.y ∧ t.y < 1) ∧ (0 ≤ t.z ∧ t.z < 1) ∧ ¬ Parallel r t := by
  by_cases h : r.x ^ 2 = 1
  · refine ⟨⟨0, 1 / 2, 0⟩, by norm_num, by norm_num, by norm_num, fun hp => ?_⟩
    unfold Parallel dot at hp
    unfold dot at hr
    simp only at hp
    nlinarith [sq_nonneg r.z, sq_nonneg r.y]
  · refine ⟨⟨1 / 2, 0, 0⟩, by norm_num, by norm_num, by norm_num, fun hp => h ?_⟩
    unfold Parallel at hp
    rw [hr] at hp
    unfold dot at hp
    simp only at hp
    nlinarith

end cone

/-! ### FRC -/

section frc
open frc.thermodynamics.isometric.monte_carlo

theorem frc_next_link (θ : ℝ) (r : V3 ℝ) (draw : ℝ × V3 ℝ) :
    next_link θ r draw = cone θ (2 * Real.pi * draw.1) r draw.2 := by
  unfold next_link cone TWO_PI
  simp only [model_real]

/-- Link `i` of the chain whose first direction is `r`. -/
noncomputable def frcLink (θ : ℝ) (r : V3 ℝ) (draw : ℕ → ℝ × V3 ℝ) : ℕ → V3 ℝ
  | 0 => next_link θ r (draw 0)
  | i + 1 => next_link θ (frcLink θ r draw i) (draw (i + 1))

theorem frcLink_succ (θ : ℝ) (r : V3 ℝ) (draw : ℕ → ℝ × V3 ℝ) (i : ℕ) :
    frcLink θ r draw (i + 1) = frcLink θ (next_link θ r (draw 0)) (fun j => draw (j + 1)) i := by
  induction i with
  | zero => rfl
  | succ i ih => rw [frcLink, ih, frcLink]

theorem frc_configuration (θ : ℝ) (n : ℕ) (r p : V3 ℝ) (draw : ℕ → ℝ × V3 ℝ) :
    configuration_from θ n r p draw = walk p ((List.range n).map (frcLink θ r draw)) := by
  induction n generalizing r p draw with
  | zero => rfl
  | succ n ih =>
    rw [List.range_succ_eq_map, configuration_from]
    simp only [List.map_cons, List.map_map, walk]
    rw [ih]
    simp only [Function.comp_def, Nat.succ_eq_add_one, frcLink_succ]
    rfl

theorem frc_random_configuration (N : ℕ) (θ : ℝ) (draw : ℕ → ℝ × V3 ℝ) :
    random_configuration N θ draw = walk V3.zero ((List.range N).map (frcLink θ ⟨1, 0, 0⟩ draw)) := by
  unfold random_configuration
  rw [frc_configuration]
  norm_num

theorem frc_linkVector {N : ℕ} (θ : ℝ) (draw : ℕ → ℝ × V3 ℝ) {i : ℕ} (hi : i < N) :
    linkVector (random_configuration N θ draw) i = frcLink θ ⟨1, 0, 0⟩ draw i := by
  rw [frc_random_configuration, linkVector_walk _ (by simpa using hi)]
  simp

theorem frc_link_eq {N : ℕ} (θ : ℝ) (draw : ℕ → ℝ × V3 ℝ) {i : ℕ} (hi : i < N) :
    linkVector (random_configuration N θ draw) i =
      cone θ (2 * Real.pi * (draw i).1) (previousLink (random_configuration N θ draw) i) (draw i).2 := by
  rw [frc_linkVector θ draw hi]
  cases i with
  | zero => rw [frcLink, frc_next_link]; rfl
  | succ i => rw [frcLink, frc_next_link, previousLink, frc_linkVector θ draw (by omega)]

/-- C40: whatever numbers are drawn, as long as no auxiliary vector is parallel to the link before it, an FRC
configuration has as many positions as links, every link is a unit vector, and it makes the angle `θ` with the link before
it (the first one with the first axis). -/
theorem C40_frc_links (N : ℕ) (θ : ℝ) (draw : ℕ → ℝ × V3 ℝ)
    (hd : ∀ i < N, ¬ Parallel (previousLink (random_configuration N θ draw) i) (draw i).2) :
    (random_configuration N θ draw).length = N ∧ ∀ i < N,
      dot (linkVector (random_configuration N θ draw) i) (linkVector (random_configuration N θ draw) i) = 1 ∧
      dot (previousLink (random_configuration N θ draw) i) (linkVector (random_configuration N θ draw) i) = Real.cos θ := by
  refine ⟨by rw [frc_random_configuration, walk_length]; simp, fun i => ?_⟩
  induction i with
  | zero =>
    intro hi
    rw [frc_link_eq θ draw hi]
    exact cone_spec θ _ (by simp [previousLink, dot]) (hd 0 hi)
  | succ i ih =>
    intro hi
    rw [frc_link_eq θ draw hi]
    exact cone_spec θ _ (ih (by omega)).1 (hd _ hi)

/-- C40: the azimuth of each link about the link before it, measured from the cross product with the auxiliary vector, is
`2π` times the number drawn. -/
theorem C40_frc_azimuth (N : ℕ) (θ : ℝ) (draw : ℕ → ℝ × V3 ℝ)
    (hd : ∀ i < N, ¬ Parallel (previousLink (random_configuration N θ draw) i) (draw i).2) :
    ∀ i < N, ∃ u v : V3 ℝ, dot u u = 1 ∧ dot v v = 1 ∧ dot u v = 0 ∧
      dot u (previousLink (random_configuration N θ draw) i) = 0 ∧
      dot v (previousLink (random_configuration N θ draw) i) = 0 ∧ dot u (draw i).2 = 0 ∧
      dot (linkVector (random_configuration N θ draw) i) u = Real.sin θ * Real.cos (2 * Real.pi * (draw i).1) ∧
      dot (linkVector (random_configuration N θ draw) i) v = Real.sin θ * Real.sin (2 * Real.pi * (draw i).1) := by
  intro i hi
  have hr : dot (previousLink (random_configuration N θ draw) i) (previousLink (random_configuration N θ draw) i) = 1 := by
    cases i with
    | zero => simp [previousLink, dot]
    | succ i => exact ((C40_frc_links N θ draw hd).2 i (by omega)).1
  have h := hd i hi
  rw [frc_link_eq θ draw hi]
  generalize previousLink (random_configuration N θ draw) i = r at *
  have hu := frameU_unit h
  have hru := frameU_perp r (draw i).2
  have ha := cone_azimuth θ (2 * Real.pi * (draw i).1) hr h
  refine ⟨frameU r (draw i).2, cross r (frameU r (draw i).2), hu, ?_, ?_, ?_, ?_, ?_, ha.1, ha.2⟩
  · rw [dot_cross_self, hr, hu, hru]; norm_num
  · unfold dot cross; ring
  · rw [← hru]; unfold dot; ring
  · unfold dot cross; ring
  · unfold frameU dot cross; ring

/-- C40: with an even number of links the end-to-end length is at most `N |cos(θ/2)|`: the extension used for the bins
bounds every sample. -/
theorem C40_frc_extension_even {N : ℕ} (hN : 0 < N) (he : Even N) (θ : ℝ) (draw : ℕ → ℝ × V3 ℝ)
    (hd : ∀ i < N, ¬ Parallel (previousLink (random_configuration N θ draw) i) (draw i).2) :
    random_nondimensional_end_to_end_length N θ draw ≤ N * |Real.cos (θ / 2)| := by
  have h := (C40_frc_links N θ draw hd).2
  unfold random_nondimensional_end_to_end_length
  rw [frc_random_configuration, last_norm_walk _ _ (by simp; omega)]
  obtain ⟨m, rfl⟩ := he
  rw [← two_mul] at *
  refine (walkEnd_pairs _ (Real.cos θ) m (fun i hi => ?_) fun i hi => ?_).trans (le_of_eq ?_)
  · rw [← frc_linkVector θ draw hi]; exact (h i hi).1
  · have := (h (i + 1) hi).2
    rw [previousLink, frc_linkVector θ draw hi, frc_linkVector θ draw (by omega)] at this
    exact this
  · rw [sqrt_two_add_two_cos]; push_cast; ring

/-- C40: with an odd number of links it is at most `(N - 1) |cos(θ/2)| + 1`. -/
theorem C40_frc_extension_odd {N : ℕ} (ho : Odd N) (θ : ℝ) (draw : ℕ → ℝ × V3 ℝ)
    (hd : ∀ i < N, ¬ Parallel (previousLink (random_configuration N θ draw) i) (draw i).2) :
    random_nondimensional_end_to_end_length N θ draw ≤ (N - 1) * |Real.cos (θ / 2)| + 1 := by
  have h := (C40_frc_links N θ draw hd).2
  unfold random_nondimensional_end_to_end_length
  obtain ⟨m, rfl⟩ := ho
  rw [frc_random_configuration, last_norm_walk _ _ (by simp)]
  rw [show List.range (2 * m + 1) = List.range (2 * m) ++ [2 * m] from List.range_succ, List.map_append, walkEnd_append]
  simp only [List.map_cons, List.map_nil, walkEnd]
  refine (norm_add_le' _ _).trans (add_le_add ?_ ?_)
  · refine (walkEnd_pairs _ (Real.cos θ) m (fun i hi => ?_) fun i hi => ?_).trans (le_of_eq ?_)
    · rw [← frc_linkVector θ draw (show i < 2 * m + 1 by omega)]; exact (h i (by omega)).1
    · have := (h (i + 1) (by omega)).2
      rw [previousLink, frc_linkVector θ draw (by omega), frc_linkVector θ draw (by omega)] at this
      exact this
    · rw [sqrt_two_add_two_cos]; push_cast; ring
  · rw [norm_eq, ← frc_linkVector θ draw (show 2 * m < 2 * m + 1 by omega), (h _ (by omega)).1, Real.sqrt_one]

/-- C40: for even `N` no run panics, for any bond angle except a fully folded one, as long as no auxiliary vector is
parallel to the link before it. -/
theorem C40_frc_even_no_panic {B N : ℕ} (hB : 0 < B) (hN : 0 < N) (he : Even N) (S : ℕ) {θ : ℝ}
    (hθ : Real.cos (θ / 2) ≠ 0) (draw : ℕ → ℝ × V3 ℝ)
    (hd : ∀ k < S, ∀ i < N, ¬ Parallel (previousLink (random_configuration N θ fun i => draw (k * N + i)) i)
      (draw (k * N + i)).2) :
    nondimensional_equilibrium_radial_distribution B N θ S draw ≠ none := by
  rw [Ne, (C42_frc_histogram hB N S hθ draw).1]
  rintro ⟨γ, hγ, hlt⟩
  obtain ⟨k, hk, rfl⟩ := List.mem_map.1 hγ
  have := C40_frc_extension_even hN he θ (fun i => draw (k * N + i)) (hd k (List.mem_range.1 hk))
  have hN' : (0 : ℝ) < N := by exact_mod_cast hN
  rw [lt_div_iff₀ hN'] at hlt
  linarith

/-- C40: every chain of unit links at the angle `θ` (the first one to the first axis) is generated by some numbers in
`[0, 1)`. -/
theorem C40_frc_reachable (N : ℕ) (θ : ℝ) (f : ℕ → V3 ℝ) (h1 : ∀ i, dot (f i) (f i) = 1)
    (h0 : (f 0).x = Real.cos θ) (h2 : ∀ i, dot (f i) (f (i + 1)) = Real.cos θ) :
    ∃ draw : ℕ → ℝ × V3 ℝ,
      (∀ i, (0 ≤ (draw i).1 ∧ (draw i).1 < 1) ∧ (0 ≤ (draw i).2.x ∧ (draw i).2.x < 1) ∧
        (0 ≤ (draw i).2.y ∧ (draw i).2.y < 1) ∧ (0 ≤ (draw i).2.z ∧ (draw i).2.z < 1)) ∧
      (∀ i < N, linkVector (random_configuration N θ draw) i = f i) ∧
      ∀ i < N, ¬ Parallel (previousLink (random_configuration N θ draw) i) (draw i).2 := by
  have key : ∀ i, ∃ d : ℝ × V3 ℝ, ((0 ≤ d.1 ∧ d.1 < 1) ∧ (0 ≤ d.2.x ∧ d.2.x < 1) ∧ (0 ≤ d.2.y ∧ d.2.y < 1) ∧
      (0 ≤ d.2.z ∧ d.2.z < 1)) ∧ cone θ (2 * Real.pi * d.1) (if i = 0 then ⟨1, 0, 0⟩ else f (i - 1)) d.2 = f i ∧
      ¬ Parallel (if i = 0 then ⟨1, 0, 0⟩ else f (i - 1)) d.2 := by
    intro i
    have hr : dot (if i = 0 then ⟨1, 0, 0⟩ else f (i - 1)) (if i = 0 then ⟨1, 0, 0⟩ else f (i - 1)) = 1 := by
      split
      · simp [dot]
      · exact h1 _
    have hrw : dot (if i = 0 then ⟨1, 0, 0⟩ else f (i - 1)) (f i) = Real.cos θ := by
      cases i with
      | zero => simp [dot, h0]
      | succ i => simp [h2]
    obtain ⟨t, hx, hy, hz, ht⟩ := exists_not_parallel hr
    obtain ⟨a, ha0, ha1, ha⟩ := cone_surjective θ hr ht (h1 i) hrw
    exact ⟨(a, t), ⟨⟨ha0, ha1⟩, hx, hy, hz⟩, ha, ht⟩
  choose draw hd using key
  have hf : ∀ i, frcLink θ ⟨1, 0, 0⟩ draw i = f i := by
    intro i
    induction i with
    | zero => rw [frcLink, frc_next_link, ← (hd 0).2.1]; simp
    | succ i ih =>
      rw [frcLink, frc_next_link, ih]
      conv_rhs => rw [← (hd (i + 1)).2.1]
      simp
  refine ⟨draw, fun i => (hd i).1, fun i hi => by rw [frc_linkVector θ draw hi, hf], fun i hi => ?_⟩
  have := (hd i).2.2
  cases i with
  | zero => simpa [previousLink] using this
  | succ i =>
    rw [previousLink, frc_linkVector θ draw (by omega), hf]
    simpa using this

theorem zigzag_end (a b : V3 ℝ) (k : ℕ) :
    walkEnd V3.zero ((List.range (2 * k + 1)).map fun i => if i % 2 = 0 then a else b) =
      ⟨(k + 1) * a.x + k * b.x, (k + 1) * a.y + k * b.y, (k + 1) * a.z + k * b.z⟩ := by
  induction k with
  | zero => simp [walkEnd, zero_add']
  | succ k ih =>
    rw [show 2 * (k + 1) + 1 = 2 * k + 1 + 1 + 1 by ring, List.range_succ, List.range_succ, List.map_append, List.map_append,
      walkEnd_append, walkEnd_append, ih]
    have e1 : (2 * k + 1) % 2 ≠ 0 := by omega
    have e2 : (2 * k + 1 + 1) % 2 = 0 := by omega
    simp only [List.map_cons, List.map_nil, walkEnd, e1, e2, if_true, if_false, V3.add, V3.mk.injEq]
    push_cast
    exact ⟨by ring, by ring, by ring⟩

/-- C40: for odd `N` the extension used for the bins is not a bound: for every bond angle that is not zero (nor fully
folded) some numbers in `[0, 1)` make the run panic, although no auxiliary vector is parallel to a link. -/
theorem C40_frc_odd_panics {B N : ℕ} (hB : 0 < B) (ho : Odd N) {S : ℕ} (hS : 0 < S) {θ : ℝ} (hθ : Real.cos (θ / 2) ≠ 0)
    (hθ1 : Real.cos θ ≠ 1) :
    ∃ draw : ℕ → ℝ × V3 ℝ,
      (∀ i, (0 ≤ (draw i).1 ∧ (draw i).1 < 1) ∧ (0 ≤ (draw i).2.x ∧ (draw i).2.x < 1) ∧
        (0 ≤ (draw i).2.y ∧ (draw i).2.y < 1) ∧ (0 ≤ (draw i).2.z ∧ (draw i).2.z < 1)) ∧
      (∀ i < N, ¬ Parallel (previousLink (random_configuration N θ draw) i) (draw i).2) ∧
      nondimensional_equilibrium_radial_distribution B N θ S draw = none := by
  have hsc := Real.sin_sq_add_cos_sq θ
  obtain ⟨draw, hd, hf, hp⟩ := C40_frc_reachable N θ
    (fun i => if i % 2 = 0 then (⟨Real.cos θ, Real.sin θ, 0⟩ : V3 ℝ) else ⟨1, 0, 0⟩)
    (by intro i; split <;> simp only [dot] <;> linarith) (by simp)
    (by
      intro i
      rcases Nat.mod_two_eq_zero_or_one i with h | h
      · have : (i + 1) % 2 ≠ 0 := by omega
        simp [h, this, dot]
      · have : (i + 1) % 2 = 0 := by omega
        simp [h, this, dot])
  refine ⟨draw, hd, hp, ?_⟩
  rw [(C42_frc_histogram hB N S hθ draw).1]
  refine ⟨random_nondimensional_end_to_end_length N θ (fun i => draw (0 * N + i)) / N,
    List.mem_map.2 ⟨0, List.mem_range.2 hS, rfl⟩, ?_⟩
  have hN : (0 : ℝ) < N := by exact_mod_cast ho.pos
  have hlist : (List.range N).map (frcLink θ ⟨1, 0, 0⟩ draw) = (List.range N).map
      fun i => if i % 2 = 0 then (⟨Real.cos θ, Real.sin θ, 0⟩ : V3 ℝ) else ⟨1, 0, 0⟩ := by
    refine List.map_congr_left fun i hi => ?_
    rw [← frc_linkVector θ draw (List.mem_range.1 hi), hf i (List.mem_range.1 hi)]
  simp only [zero_mul, zero_add]
  unfold random_nondimensional_end_to_end_length
  rw [frc_random_configuration, hlist, last_norm_walk _ _ (by simp; rintro rfl; simp at ho), lt_div_iff₀ hN]
  obtain ⟨k, rfl⟩ := ho
  rw [zigzag_end, norm_eq]
  refine Real.lt_sqrt_of_sq_lt ?_
  rw [mul_pow, sq_abs, Real.cos_sq, mul_div_cancel₀ _ two_ne_zero]
  have hlt : Real.cos θ < 1 := lt_of_le_of_ne (Real.cos_le_one θ) hθ1
  unfold dot
  push_cast
  nlinarith

/-- C40, concrete case: a right angle and eight links meet the hypotheses for some numbers. -/
example : ∃ draw : ℕ → ℝ × V3 ℝ,
    ∀ i < 8, ¬ Parallel (previousLink (random_configuration 8 (Real.pi / 2) draw) i) (draw i).2 := by
  obtain ⟨draw, -, -, h⟩ := C40_frc_reachable 8 (Real.pi / 2)
    (fun i => if i % 2 = 0 then (⟨0, 1, 0⟩ : V3 ℝ) else ⟨1, 0, 0⟩)
    (by intro i; split <;> simp [dot]) (by simp)
    (by
      intro i
      rcases Nat.mod_two_eq_zero_or_one i with h | h
      · have : (i + 1) % 2 ≠ 0 := by omega
        simp [h, this, dot]
      · have : (i + 1) % 2 = 0 := by omega
        simp [h, this, dot])
  exact ⟨draw, h⟩

/-- C40, concrete case: the angle of the panic theorem. -/
example : Real.cos (Real.pi / 2 / 2) ≠ 0 ∧ Real.cos (Real.pi / 2) ≠ 1 := by
  rw [show Real.pi / 2 / 2 = Real.pi / 4 by ring, Real.cos_pi_div_four, Real.cos_pi_div_two]
  exact ⟨by positivity, by norm_num⟩

end frc

/-! ### EFRC -/

section efrc
open efrc.thermodynamics.isometric.monte_carlo

/-- The unit vector along `r`. -/
noncomputable def direction (r : V3 ℝ) : V3 ℝ := ⟨r.x / r.norm, r.y / r.norm, r.z / r.norm⟩

theorem direction_spec {r t : V3 ℝ} (h : ¬ Parallel r t) :
    dot (direction r) (direction r) = 1 ∧ ¬ Parallel (direction r) t ∧ ∀ w, dot r w = r.norm * dot (direction r) w := by
  have h0 : dot r r ≠ 0 := by
    intro h0
    refine h ?_
    have hx : r.x = 0 := by unfold dot at h0; nlinarith [sq_nonneg r.x, sq_nonneg r.y, sq_nonneg r.z]
    have hy : r.y = 0 := by unfold dot at h0; nlinarith [sq_nonneg r.x, sq_nonneg r.y, sq_nonneg r.z]
    have hz : r.z = 0 := by unfold dot at h0; nlinarith [sq_nonneg r.x, sq_nonneg r.y, sq_nonneg r.z]
    unfold Parallel dot
    rw [hx, hy, hz]; ring
  have hn : r.norm ^ 2 = dot r r := by rw [norm_eq, Real.sq_sqrt (dot_self_nonneg _)]
  have hn0 : r.norm ≠ 0 := by intro hc; rw [hc] at hn; exact h0 (by rw [← hn]; norm_num)
  have hdot : ∀ w, dot r w = r.norm * dot (direction r) w := by
    intro w; unfold direction dot; field_simp
  have h1 : dot (direction r) (direction r) = 1 := by
    have : dot (direction r) (direction r) = dot r r / r.norm ^ 2 := by unfold direction dot; field_simp
    rw [this, hn, div_self h0]
  refine ⟨h1, fun hp => h ?_, hdot⟩
  unfold Parallel at *
  rw [hdot t, mul_pow, hp, h1, hn]; ring

theorem efrc_next_link (θ : ℝ) (r : V3 ℝ) (draw : ℝ × ℝ × V3 ℝ) : next_link θ r draw =
    ⟨draw.1 * (cone θ (2 * Real.pi * draw.2.1) (direction r) draw.2.2).x,
     draw.1 * (cone θ (2 * Real.pi * draw.2.1) (direction r) draw.2.2).y,
     draw.1 * (cone θ (2 * Real.pi * draw.2.1) (direction r) draw.2.2).z⟩ := by
  unfold next_link cone TWO_PI direction
  simp only [model_real]

/-- Link `i` of the chain whose first direction is `r`. -/
noncomputable def efrcLink (θ : ℝ) (r : V3 ℝ) (draw : ℕ → ℝ × ℝ × V3 ℝ) : ℕ → V3 ℝ
  | 0 => next_link θ r (draw 0)
  | i + 1 => next_link θ (efrcLink θ r draw i) (draw (i + 1))

theorem efrcLink_succ (θ : ℝ) (r : V3 ℝ) (draw : ℕ → ℝ × ℝ × V3 ℝ) (i : ℕ) :
    efrcLink θ r draw (i + 1) = efrcLink θ (next_link θ r (draw 0)) (fun j => draw (j + 1)) i := by
  induction i with
  | zero => rfl
  | succ i ih => rw [efrcLink, ih, efrcLink]

theorem efrc_configuration (θ : ℝ) (n : ℕ) (r p : V3 ℝ) (draw : ℕ → ℝ × ℝ × V3 ℝ) :
    configuration_from θ n r p draw = walk p ((List.range n).map (efrcLink θ r draw)) := by
  induction n generalizing r p draw with
  | zero => rfl
  | succ n ih =>
    rw [List.range_succ_eq_map, configuration_from]
    simp only [List.map_cons, List.map_map, walk]
    rw [ih]
    simp only [Function.comp_def, Nat.succ_eq_add_one, efrcLink_succ]
    rfl

theorem efrc_random_configuration (N : ℕ) (θ : ℝ) (draw : ℕ → ℝ × ℝ × V3 ℝ) :
    random_configuration N θ draw = walk V3.zero ((List.range N).map (efrcLink θ ⟨1, 0, 0⟩ draw)) := by
  unfold random_configuration
  rw [efrc_configuration]
  norm_num

theorem efrc_linkVector {N : ℕ} (θ : ℝ) (draw : ℕ → ℝ × ℝ × V3 ℝ) {i : ℕ} (hi : i < N) :
    linkVector (random_configuration N θ draw) i = efrcLink θ ⟨1, 0, 0⟩ draw i := by
  rw [efrc_random_configuration, linkVector_walk _ (by simpa using hi)]
  simp

theorem efrc_link_eq {N : ℕ} (θ : ℝ) (draw : ℕ → ℝ × ℝ × V3 ℝ) {i : ℕ} (hi : i < N) :
    linkVector (random_configuration N θ draw) i =
      next_link θ (previousLink (random_configuration N θ draw) i) (draw i) := by
  rw [efrc_linkVector θ draw hi]
  cases i with
  | zero => rfl
  | succ i => rw [efrcLink, previousLink, efrc_linkVector θ draw (by omega)]

/-- C41: whatever numbers are drawn, as long as no auxiliary vector is parallel to the link before it (and so no stretch
before the last is zero), an EFRC configuration has as many positions as links, the length of each link is the magnitude
of its sampled stretch, and its angle to the link before it (for the first one, to the first axis) is `θ`: the scalar
product is the length of the previous link times the stretch times `cos θ`. -/
theorem C41_efrc_links (N : ℕ) (θ : ℝ) (draw : ℕ → ℝ × ℝ × V3 ℝ)
    (hd : ∀ i < N, ¬ Parallel (previousLink (random_configuration N θ draw) i) (draw i).2.2) :
    (random_configuration N θ draw).length = N ∧ ∀ i < N,
      √(dot (linkVector (random_configuration N θ draw) i) (linkVector (random_configuration N θ draw) i)) =
        |(draw i).1| ∧
      dot (previousLink (random_configuration N θ draw) i) (linkVector (random_configuration N θ draw) i) =
        √(dot (previousLink (random_configuration N θ draw) i) (previousLink (random_configuration N θ draw) i)) *
          (draw i).1 * Real.cos θ := by
  refine ⟨by rw [efrc_random_configuration, walk_length]; simp, fun i hi => ?_⟩
  rw [efrc_link_eq θ draw hi]
  have h := hd i hi
  generalize previousLink (random_configuration N θ draw) i = r at *
  obtain ⟨h1, h2, h3⟩ := direction_spec h
  have hc := cone_spec θ (2 * Real.pi * (draw i).2.1) h1 h2
  rw [efrc_next_link]
  generalize cone θ (2 * Real.pi * (draw i).2.1) (direction r) (draw i).2.2 = w at *
  refine ⟨?_, ?_⟩
  · rw [← Real.sqrt_sq_eq_abs]
    congr 1
    have := hc.1
    unfold dot at this ⊢
    linear_combination (draw i).1 ^ 2 * this
  · rw [h3, ← norm_eq]
    have := hc.2
    unfold dot at this ⊢
    linear_combination r.norm * (draw i).1 * this

/-- C41: its end-to-end length is at most the sum of the magnitudes of the sampled stretches. -/
theorem C41_efrc_extension {N : ℕ} (hN : 0 < N) (θ : ℝ) (draw : ℕ → ℝ × ℝ × V3 ℝ)
    (hd : ∀ i < N, ¬ Parallel (previousLink (random_configuration N θ draw) i) (draw i).2.2) :
    random_nondimensional_end_to_end_length N θ draw ≤ ((List.range N).map fun i => |(draw i).1|).sum := by
  have h := (C41_efrc_links N θ draw hd).2
  unfold random_nondimensional_end_to_end_length
  rw [efrc_random_configuration, last_norm_walk _ _ (by simp; omega)]
  refine (walkEnd_norm_le _ _).trans ?_
  rw [zero_norm, zero_add, List.map_map]
  refine le_of_eq ?_
  congr 1
  refine List.map_congr_left fun i hi => ?_
  have hi := List.mem_range.1 hi
  rw [← (h i hi).1, efrc_linkVector θ draw hi, Function.comp, norm_eq]

/-- C41: a run in which every sampled chain is shorter than the cut-off does not fail, and one with a longer chain does. -/
theorem C41_cut_off {B : ℕ} (hB : 0 < B) (N S : ℕ) {γmax κ : ℝ} (hγ : 0 < γmax) (hκ : 0 < κ) (θ : ℝ)
    (draw : ℕ → ℝ × ℝ × V3 ℝ) (draw' : ℕ → ℝ × ℝ × ℝ) :
    (nondimensional_equilibrium_radial_distribution B N γmax κ θ S draw = none ↔
      ∃ k < S, γmax < random_nondimensional_end_to_end_length N θ (fun i => draw (k * N + i)) / N) ∧
    (efjc.thermodynamics.isometric.monte_carlo.nondimensional_equilibrium_radial_distribution B N γmax κ S draw' = none ↔
      ∃ k < S, γmax < efjc.thermodynamics.isometric.monte_carlo.random_nondimensional_end_to_end_length N
        (fun i => draw' (k * N + i)) / N) := by
  constructor
  · rw [(C42_efrc_histogram hB N S hγ hκ θ draw).1]
    simp [efrcSamples]
  · rw [(C42_efjc_histogram hB N S hγ hκ draw').1]
    simp [efjcSamples]

/-- C41, concrete case: one link, bond angle and auxiliary vector for which the hypothesis holds. -/
example : ∀ i < 1, ¬ Parallel (previousLink (random_configuration 1 (Real.pi / 2) fun _ => (2, 0, ⟨0, 1 / 2, 0⟩)) i)
    ((fun _ => ((2 : ℝ), (0 : ℝ), (⟨0, 1 / 2, 0⟩ : V3 ℝ))) i : ℝ × ℝ × V3 ℝ).2.2 := by
  intro i hi
  obtain rfl : i = 0 := by omega
  unfold Parallel previousLink dot
  norm_num

end efrc

end Polymers.Props
