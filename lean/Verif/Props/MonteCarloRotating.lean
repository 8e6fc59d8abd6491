import Verif.Props.MonteCarloError

/-!
C89 for the extensible freely rotating chain: the mean square end-to-end length.
-/

namespace Polymers.Props

open Polymers.Spec Polymers.Api Polymers.Lemmas Set Filter Topology MeasureTheory ProbabilityTheory

section efrc
open efrc.thermodynamics.isometric.monte_carlo

local notation "frcNext" => frc.thermodynamics.isometric.monte_carlo.next_link

theorem dot_efrc_next (θ : ℝ) (a r : V3 ℝ) (d : ℝ × ℝ × V3 ℝ) :
    dot a (next_link θ r d) = d.1 * dot a (frcNext θ (direction r) d.2) := by
  rw [efrc_next_link, frc_next_link]
  unfold dot
  ring

theorem dot_efrc_next_self (θ : ℝ) (r : V3 ℝ) (d : ℝ × ℝ × V3 ℝ) :
    dot (next_link θ r d) (next_link θ r d) = d.1 ^ 2 * dot (frcNext θ (direction r) d.2) (frcNext θ (direction r) d.2) := by
  rw [efrc_next_link, frc_next_link]
  unfold dot
  ring

theorem dot_direction (a v : V3 ℝ) : dot a (direction v) = dot a v / v.norm := by
  unfold direction dot
  ring

theorem dot_direction_self {v : V3 ℝ} (hv : dot v v ≠ 0) : dot (direction v) (direction v) = 1 := by
  have hn : v.norm ^ 2 = dot v v := by rw [norm_eq, Real.sq_sqrt (dot_self_nonneg _)]
  have : dot (direction v) (direction v) = dot v v / v.norm ^ 2 := by
    unfold direction dot
    ring
  rw [this, hn, div_self hv]

theorem dot_direction_le (v : V3 ℝ) : dot (direction v) (direction v) ≤ 1 := by
  by_cases hv : dot v v = 0
  · have : v.norm = 0 := by rw [norm_eq, hv, Real.sqrt_zero]
    unfold direction dot
    rw [this]
    norm_num
  · exact (dot_direction_self hv).le

theorem dot_frcNext_self {θ : ℝ} {r : V3 ℝ} {d : ℝ × V3 ℝ} (hr : dot r r = 1) (hp : ¬ Parallel r d.2) :
    dot (frcNext θ r d) (frcNext θ r d) = 1 := by
  rw [frc_next_link]
  exact (cone_spec θ _ hr hp).1

theorem direction_self : direction ⟨1, 0, 0⟩ = ⟨1, 0, 0⟩ := by
  have : (⟨1, 0, 0⟩ : V3 ℝ).norm = 1 := by
    rw [norm_eq]; unfold dot; norm_num
  unfold direction
  rw [this]
  norm_num

/-- The component of a link along a direction. -/
theorem dot_direction_next {θ : ℝ} {a r : V3 ℝ} {d : ℝ × ℝ × V3 ℝ} (hr : dot r r ≠ 0) (hp : ¬ Parallel (direction r) d.2.2) :
    dot a (direction (next_link θ r d)) = d.1 / |d.1| * dot a (frcNext θ (direction r) d.2) := by
  have h1 := dot_frcNext_self (θ := θ) (dot_direction_self hr) hp
  have hn : (next_link θ r d).norm = |d.1| := by
    rw [norm_eq, dot_efrc_next_self, h1, mul_one, Real.sqrt_sq_eq_abs]
  rw [dot_direction, hn, dot_efrc_next]
  ring

/-- The mean of the next link of the freely rotating chain, against any vector. -/
theorem integral_frcNext (θ : ℝ) (a : V3 ℝ) {r : V3 ℝ} (hr : dot r r ≤ 1) :
    ∫ d, dot a (frcNext θ r d) ∂numberAndVector = Real.cos θ * dot a r := by
  by_cases ha : dot a a = 0
  · have h0 : a.x = 0 ∧ a.y = 0 ∧ a.z = 0 := by
      unfold dot at ha
      refine ⟨?_, ?_, ?_⟩ <;> nlinarith [sq_nonneg a.x, sq_nonneg a.y, sq_nonneg a.z]
    have : ∀ v, dot a v = 0 := fun v => by unfold dot; rw [h0.1, h0.2.1, h0.2.2]; ring
    simp [this]
  · have hn : a.norm ≠ 0 := by
      rw [norm_eq]
      exact Real.sqrt_ne_zero'.2 (lt_of_le_of_ne (dot_self_nonneg a) (Ne.symm ha))
    have e : ∀ v, dot a v = a.norm * dot (direction a) v := fun v => by
      unfold direction dot
      field_simp
    simp only [e]
    rw [integral_const_mul, integral_cone θ (dot_direction_self ha).le hr]
    ring

theorem stretch_zero {κ : ℝ} (hκ : 0 < κ) : gaussianReal 1 (1 / κ).toNNReal {0} = 0 := by
  have := nullSingletonClass_gaussianReal (μ := 1) (v := (1 / κ).toNNReal) (by simpa using hκ)
  exact measure_singleton 0

/-- The draws for which the next link of the chain degenerates have probability zero. -/
theorem efrc_null {κ : ℝ} (hκ : 0 < κ) {r : V3 ℝ} (hr : dot r r = 1) :
    stretchNumberAndVector κ {d | Parallel r d.2.2 ∨ d.1 = 0} = 0 := by
  have : {d : ℝ × ℝ × V3 ℝ | Parallel r d.2.2 ∨ d.1 = 0} = univ ×ˢ (univ ×ˢ {t | Parallel r t}) ∪ {0} ×ˢ univ := by
    ext d; simp
  rw [this]
  refine le_antisymm ((measure_union_le _ _).trans ?_) bot_le
  unfold stretchNumberAndVector numberAndVector
  rw [Measure.prod_prod, Measure.prod_prod, Measure.prod_prod, uniformVector_parallel (by rw [hr]; norm_num), stretch_zero hκ]
  simp

instance : Nonempty (ℝ × ℝ × V3 ℝ) := ⟨(0, 0, ⟨0, 0, 0⟩)⟩

variable {Ω : Type*} [MeasurableSpace Ω] {P : Measure Ω} {draw : Ω → ℕ → ℝ × ℝ × V3 ℝ} {θ κ : ℝ}

/-- The links have the length of their stretches, with probability one. -/
theorem efrcLink_spec (hκ : 0 < κ) (hd : IdealDraws (stretchNumberAndVector κ) P draw) (i : ℕ) :
    ∀ᵐ ω ∂P, dot (efrcLink θ ⟨1, 0, 0⟩ (draw ω) i) (efrcLink θ ⟨1, 0, 0⟩ (draw ω) i) = (draw ω i).1 ^ 2 ∧ (draw ω i).1 ≠ 0 := by
  have hsnd : ∀ A : Type, ∀ [MeasurableSpace A], Measurable fun p : A × (ℝ × ℝ × V3 ℝ) => p.2.2.2 := fun A _ =>
    measurable_snd.comp (measurable_snd.comp measurable_snd)
  have hfst : ∀ A : Type, ∀ [MeasurableSpace A], Measurable fun p : A × (ℝ × ℝ × V3 ℝ) => p.2.1 := fun A _ =>
    measurable_fst.comp measurable_snd
  have hr : dot (⟨1, 0, 0⟩ : V3 ℝ) ⟨1, 0, 0⟩ = 1 := by unfold dot; norm_num
  have hstep : ∀ (r : V3 ℝ) (d : ℝ × ℝ × V3 ℝ), dot (direction r) (direction r) = 1 → ¬ (Parallel (direction r) d.2.2 ∨ d.1 = 0) →
      dot (next_link θ r d) (next_link θ r d) = d.1 ^ 2 ∧ d.1 ≠ 0 := fun r d hr h => by
    rw [not_or] at h
    rw [dot_efrc_next_self, dot_frcNext_self hr h.1, mul_one]
    exact ⟨rfl, h.2⟩
  cases i with
  | zero =>
    have h := ae_next hd 0 (fun _ => {d | Parallel (direction ⟨1, 0, 0⟩) d.2.2 ∨ d.1 = 0})
      ((measurableSet_parallel (f := fun _ : (ℕ → ℝ × ℝ × V3 ℝ) × (ℝ × ℝ × V3 ℝ) => direction ⟨1, 0, 0⟩) measurable_const (hsnd _)).union
        (measurableSet_eq_fun (hfst _) measurable_const))
      (fun _ _ _ => rfl) (ae_of_all _ fun _ => efrc_null hκ (by rw [direction_self]; exact hr))
    exact h.mono fun ω hω => hstep _ _ (by rw [direction_self]; exact hr) hω
  | succ i =>
    have ih := efrcLink_spec hκ hd i
    have h := ae_next hd (i + 1) (fun s => {d | Parallel (direction (efrcLink θ ⟨1, 0, 0⟩ s i)) d.2.2 ∨ d.1 = 0})
      ((measurableSet_parallel (f := fun p : (ℕ → ℝ × ℝ × V3 ℝ) × (ℝ × ℝ × V3 ℝ) => direction (efrcLink θ ⟨1, 0, 0⟩ p.1 i))
        (measurable_direction.comp ((measurable_efrcLink θ _ i).comp measurable_fst)) (hsnd _)).union
        (measurableSet_eq_fun (hfst _) measurable_const))
      (fun s s' h => by rw [efrcLink_local θ _ fun j hj => h j (by omega)])
      (ih.mono fun ω hω => efrc_null hκ (dot_direction_self (by rw [hω.1]; exact pow_ne_zero 2 hω.2)))
    filter_upwards [ih, h] with ω h1 h2
    exact hstep _ _ (dot_direction_self (by rw [h1.1]; exact pow_ne_zero 2 h1.2)) h2

theorem efrc_dot_le (θ : ℝ) (r : V3 ℝ) (d : ℝ × ℝ × V3 ℝ) : dot (next_link θ r d) (next_link θ r d) ≤ d.1 ^ 2 := by
  rw [dot_efrc_next_self]
  exact mul_le_of_le_one_right (sq_nonneg _) (dot_next_link_le θ _ (dot_direction_le r))

theorem efrcLink_dot_le (θ : ℝ) (r : V3 ℝ) (s : ℕ → ℝ × ℝ × V3 ℝ) (i : ℕ) :
    dot (efrcLink θ r s i) (efrcLink θ r s i) ≤ (s i).1 ^ 2 := by
  cases i with
  | zero => exact efrc_dot_le θ _ _
  | succ i => exact efrc_dot_le θ _ _

theorem dot_sq_le (u v : V3 ℝ) : dot u v ^ 2 ≤ dot u u * dot v v := by
  have h := dot_cross_self u v
  have h2 := dot_self_nonneg (frc.thermodynamics.isometric.monte_carlo.cross u v)
  linarith

theorem abs_dot_half (u v : V3 ℝ) : |dot u v| ≤ (dot u u + dot v v) / 2 := by
  refine abs_le_of_sq_le_sq ((dot_sq_le u v).trans ?_) ?_
  · nlinarith [sq_nonneg (dot u u - dot v v)]
  · have := dot_self_nonneg u
    have := dot_self_nonneg v
    positivity

theorem measurable_draw_fst (hd : IdealDraws (stretchNumberAndVector κ) P draw) (i : ℕ) : Measurable fun ω => (draw ω i).1 :=
  measurable_fst.comp (hd.measurable i)

theorem efrc_stretch_law (hd : IdealDraws (stretchNumberAndVector κ) P draw) (i : ℕ) :
    P.map (fun ω => (draw ω i).1) = gaussianReal 1 (1 / κ).toNNReal := by
  have hfst : (stretchNumberAndVector κ).map Prod.fst = gaussianReal 1 (1 / κ).toNNReal := by
    unfold stretchNumberAndVector
    rw [Measure.map_fst_prod]; simp
  rw [← hfst, ← hd.uniform i, Measure.map_map measurable_fst (hd.measurable i)]
  rfl

theorem integrable_efrc_sq (hκ : 0 < κ) (hd : IdealDraws (stretchNumberAndVector κ) P draw) (i : ℕ) :
    Integrable (fun ω => (draw ω i).1 ^ 2) P := by
  have k1 := (stretch_moment hκ).1
  rw [← efrc_stretch_law hd i, integrable_map_measure (Continuous.aestronglyMeasurable (by fun_prop))
    (measurable_draw_fst hd i).aemeasurable] at k1
  exact k1

theorem measurable_draw (hd : IdealDraws (stretchNumberAndVector κ) P draw) : Measurable draw := measurable_pi_iff.2 hd.measurable

theorem integrable_efrcLink (hκ : 0 < κ) (hd : IdealDraws (stretchNumberAndVector κ) P draw) (i j : ℕ) :
    Integrable (fun ω => dot (efrcLink θ ⟨1, 0, 0⟩ (draw ω) i) (efrcLink θ ⟨1, 0, 0⟩ (draw ω) j)) P := by
  have hm := measurable_draw hd
  refine Integrable.mono' (((integrable_efrc_sq hκ hd i).add (integrable_efrc_sq hκ hd j)).div_const 2)
    (measurable_dot ((measurable_efrcLink θ _ i).comp hm) ((measurable_efrcLink θ _ j).comp hm)).aestronglyMeasurable (ae_of_all _ fun ω => ?_)
  rw [Real.norm_eq_abs]
  refine (abs_dot_half _ _).trans ?_
  have h1 := efrcLink_dot_le θ ⟨1, 0, 0⟩ (draw ω) i
  have h2 := efrcLink_dot_le θ ⟨1, 0, 0⟩ (draw ω) j
  simp only [Pi.add_apply]
  linarith

theorem integrable_efrc_direction (hκ : 0 < κ) (hd : IdealDraws (stretchNumberAndVector κ) P draw) (i j : ℕ) :
    Integrable (fun ω => dot (efrcLink θ ⟨1, 0, 0⟩ (draw ω) i) (direction (efrcLink θ ⟨1, 0, 0⟩ (draw ω) j))) P := by
  have : IsProbabilityMeasure P := hd.independent.isProbabilityMeasure
  have hm := measurable_draw hd
  refine Integrable.mono' (((integrable_efrc_sq hκ hd i).add (integrable_const 1)).div_const 2)
    (measurable_dot ((measurable_efrcLink θ _ i).comp hm)
      (measurable_direction.comp ((measurable_efrcLink θ _ j).comp hm))).aestronglyMeasurable (ae_of_all _ fun ω => ?_)
  rw [Real.norm_eq_abs]
  refine (abs_dot_half _ _).trans ?_
  have h1 := efrcLink_dot_le θ ⟨1, 0, 0⟩ (draw ω) i
  have h2 := dot_direction_le (efrcLink θ ⟨1, 0, 0⟩ (draw ω) j)
  simp only [Pi.add_apply]
  linarith

/-- The mean component of a link along the direction of a later one. -/
theorem efrc_direction_correlation (hκ : 0 < κ) (hd : IdealDraws (stretchNumberAndVector κ) P draw) (i k : ℕ) :
    ∫ ω, dot (efrcLink θ ⟨1, 0, 0⟩ (draw ω) i) (direction (efrcLink θ ⟨1, 0, 0⟩ (draw ω) (i + k))) ∂P =
      (∫ x, |x| ∂gaussianReal 1 (1 / κ).toNNReal) * ((∫ x, x / |x| ∂gaussianReal 1 (1 / κ).toNNReal) * Real.cos θ) ^ k := by
  have : IsProbabilityMeasure P := hd.independent.isProbabilityMeasure
  have hm := measurable_draw hd
  induction k with
  | zero =>
    have h : ∀ᵐ ω ∂P, dot (efrcLink θ ⟨1, 0, 0⟩ (draw ω) i) (direction (efrcLink θ ⟨1, 0, 0⟩ (draw ω) i)) = |(draw ω i).1| := by
      refine (efrcLink_spec (θ := θ) hκ hd i).mono fun ω hω => ?_
      rw [dot_direction, norm_eq, hω.1, Real.sqrt_sq_eq_abs, ← sq_abs, sq, mul_div_assoc, div_self (abs_ne_zero.2 hω.2), mul_one]
    rw [Nat.add_zero, integral_congr_ae h, pow_zero, mul_one, ← efrc_stretch_law hd i,
      integral_map (measurable_draw_fst hd i).aemeasurable (Continuous.aestronglyMeasurable (by fun_prop))]
  | succ k ih =>
    have h := integral_next hd (i + k + 1)
      (fun s d => dot (efrcLink θ ⟨1, 0, 0⟩ s i) (direction (next_link θ (efrcLink θ ⟨1, 0, 0⟩ s (i + k)) d)))
      (measurable_dot ((measurable_efrcLink θ _ i).comp measurable_fst)
        (measurable_direction.comp (measurable_comp₂ (F := next_link θ) (measurable_efrc_next θ)
          ((measurable_efrcLink θ _ (i + k)).comp measurable_fst) measurable_snd)))
      (integrable_efrc_direction hκ hd i (i + k + 1)) fun s s' h => by
        rw [efrcLink_local θ _ fun j hj => h j (by omega), efrcLink_local θ _ (i := i + k) fun j hj => h j (by omega)]
    have e : ∀ᵐ ω ∂P, ∫ d, dot (efrcLink θ ⟨1, 0, 0⟩ (draw ω) i) (direction (next_link θ (efrcLink θ ⟨1, 0, 0⟩ (draw ω) (i + k)) d))
          ∂stretchNumberAndVector κ =
        (∫ x, x / |x| ∂gaussianReal 1 (1 / κ).toNNReal) * Real.cos θ *
          dot (efrcLink θ ⟨1, 0, 0⟩ (draw ω) i) (direction (efrcLink θ ⟨1, 0, 0⟩ (draw ω) (i + k))) := by
      refine (efrcLink_spec (θ := θ) hκ hd (i + k)).mono fun ω hω => ?_
      have hr : dot (efrcLink θ ⟨1, 0, 0⟩ (draw ω) (i + k)) (efrcLink θ ⟨1, 0, 0⟩ (draw ω) (i + k)) ≠ 0 := by
        rw [hω.1]; exact pow_ne_zero 2 hω.2
      generalize efrcLink θ ⟨1, 0, 0⟩ (draw ω) (i + k) = r at *
      generalize efrcLink θ ⟨1, 0, 0⟩ (draw ω) i = a at *
      have h1 : ∀ᵐ d ∂stretchNumberAndVector κ, dot a (direction (next_link θ r d)) =
          d.1 / |d.1| * dot a (frcNext θ (direction r) d.2) := by
        refine measure_mono_null (fun d hd => ?_) (efrc_null hκ (dot_direction_self hr))
        by_contra hc
        simp only [mem_ofPred_eq, not_or] at hc
        exact hd (dot_direction_next hr hc.1)
      rw [integral_congr_ae h1]
      unfold stretchNumberAndVector
      rw [integral_prod_mul (fun x : ℝ => x / |x|) (fun d => dot a (frcNext θ (direction r) d)),
        integral_frcNext θ a (dot_direction_self hr).le]
      ring
    rw [integral_congr_ae e, integral_const_mul, ih] at h
    rw [pow_succ, show i + (k + 1) = i + k + 1 by omega]
    refine Eq.trans ?_ (h.trans (by ring))
    rfl

/-- The mean product of two links. -/
theorem efrc_correlation (hκ : 0 < κ) (hd : IdealDraws (stretchNumberAndVector κ) P draw) (i k : ℕ) :
    ∫ ω, dot (efrcLink θ ⟨1, 0, 0⟩ (draw ω) i) (efrcLink θ ⟨1, 0, 0⟩ (draw ω) (i + k + 1)) ∂P =
      Real.cos θ * (∫ x, |x| ∂gaussianReal 1 (1 / κ).toNNReal) *
        ((∫ x, x / |x| ∂gaussianReal 1 (1 / κ).toNNReal) * Real.cos θ) ^ k := by
  have h := integral_next hd (i + k + 1)
    (fun s d => dot (efrcLink θ ⟨1, 0, 0⟩ s i) (next_link θ (efrcLink θ ⟨1, 0, 0⟩ s (i + k)) d))
    (measurable_dot ((measurable_efrcLink θ _ i).comp measurable_fst)
      (measurable_comp₂ (F := next_link θ) (measurable_efrc_next θ)
        ((measurable_efrcLink θ _ (i + k)).comp measurable_fst) measurable_snd))
    (integrable_efrcLink hκ hd i (i + k + 1)) fun s s' h => by
      rw [efrcLink_local θ _ fun j hj => h j (by omega), efrcLink_local θ _ (i := i + k) fun j hj => h j (by omega)]
  have e : ∀ a r : V3 ℝ, ∫ d, dot a (next_link θ r d) ∂stretchNumberAndVector κ = Real.cos θ * dot a (direction r) := fun a r => by
    simp only [dot_efrc_next]
    unfold stretchNumberAndVector
    rw [integral_prod_mul (fun x : ℝ => x) (fun d => dot a (frcNext θ (direction r) d)),
      integral_frcNext θ a (dot_direction_le r), show ∫ x, x ∂gaussianReal 1 (1 / κ).toNNReal = 1 from integral_id_gaussianReal, one_mul]
  simp only [e] at h
  rw [integral_const_mul, efrc_direction_correlation hκ hd] at h
  refine Eq.trans ?_ (h.trans (by ring))
  rfl

theorem sum_efrc (f b q : ℝ) (hq : q ≠ 1) (N : ℕ) :
    ∑ i ∈ Finset.range N, ∑ j ∈ Finset.range N, (if i = j then f else b * q ^ (i - j + (j - i) - 1)) =
      N * f + 2 * b * (N / (1 - q) - (1 - q ^ N) / (1 - q) ^ 2) := by
  have hq' : 1 - q ≠ 0 := sub_ne_zero.2 hq.symm
  have hg : ∀ N : ℕ, ∑ i ∈ Finset.range N, q ^ (N - i - 1) = (1 - q ^ N) / (1 - q) := fun N => by
    induction N with
    | zero => simp
    | succ N ih =>
      rw [Finset.sum_range_succ]
      have : ∀ i ∈ Finset.range N, q ^ (N + 1 - i - 1) = q * q ^ (N - i - 1) := fun i hi => by
        have := Finset.mem_range.1 hi
        rw [← pow_succ']; congr 1; omega
      rw [Finset.sum_congr rfl this, ← Finset.mul_sum, ih, show N + 1 - N - 1 = 0 by omega, pow_succ]
      field_simp
      ring
  induction N with
  | zero => simp
  | succ N ih =>
    rw [Finset.sum_range_succ]
    have h1 : ∀ i ∈ Finset.range N, ∑ j ∈ Finset.range (N + 1), (if i = j then f else b * q ^ (i - j + (j - i) - 1)) =
        ∑ j ∈ Finset.range N, (if i = j then f else b * q ^ (i - j + (j - i) - 1)) + b * q ^ (N - i - 1) := fun i hi => by
      have hi' := Finset.mem_range.1 hi
      rw [Finset.sum_range_succ, if_neg (by omega : i ≠ N)]; congr 3; omega
    have h2 : ∑ j ∈ Finset.range (N + 1), (if N = j then f else b * q ^ (N - j + (j - N) - 1)) =
        b * ∑ j ∈ Finset.range N, q ^ (N - j - 1) + f := by
      rw [Finset.sum_range_succ, if_pos rfl, Finset.mul_sum]
      congr 1
      refine Finset.sum_congr rfl fun j hj => ?_
      have hj' := Finset.mem_range.1 hj
      rw [if_neg (by omega : N ≠ j)]; congr 2; omega
    rw [Finset.sum_congr rfl h1, Finset.sum_add_distrib, ih, ← Finset.mul_sum, hg, h2, hg]
    push_cast
    field_simp
    ring

/-- Some stretches are negative. -/
theorem stretch_sign {κ : ℝ} (hκ : 0 < κ) : |∫ x, x / |x| ∂gaussianReal 1 (1 / κ).toNNReal| < 1 := by
  have hm : Measurable fun x : ℝ => x / |x| := measurable_id.div measurable_id.abs
  have hb : ∀ x : ℝ, |x / (|x|)| ≤ 1 := fun x => by
    rw [abs_div, abs_abs]; exact div_self_le_one _
  have hi : Integrable (fun x : ℝ => x / |x|) (gaussianReal 1 (1 / κ).toNNReal) :=
    Integrable.of_bound hm.aestronglyMeasurable 1 (ae_of_all _ hb)
  have h0 : (1 / κ).toNNReal ≠ 0 := by simpa using hκ
  have key : ∀ σ : ℝ, ∀ S : Set ℝ, gaussianReal 1 (1 / κ).toNNReal S ≠ 0 → (∀ x ∈ S, σ * (x / |x|) ≠ 1) → |σ| = 1 →
      σ * ∫ x, x / |x| ∂gaussianReal 1 (1 / κ).toNNReal < 1 := fun σ S hS h hσ => by
    have hle : ∀ x : ℝ, 0 ≤ 1 - σ * (x / |x|) := fun x => by
      have := abs_le.1 (show |σ * (x / (|x|))| ≤ 1 by rw [abs_mul, hσ, one_mul]; exact hb x)
      linarith [this.2]
    have h1 : 0 < ∫ x, (1 - σ * (x / |x|)) ∂gaussianReal 1 (1 / κ).toNNReal := by
      rw [integral_pos_iff_support_of_nonneg hle ((integrable_const 1).sub (hi.const_mul σ))]
      refine lt_of_lt_of_le (pos_iff_ne_zero.2 hS) (measure_mono fun x hx => ?_)
      rw [Function.mem_support]
      exact fun h' => h x hx (by linarith)
    rw [integral_sub (integrable_const 1) (hi.const_mul σ), integral_const_mul] at h1
    simp only [integral_const, probReal_univ, smul_eq_mul, mul_one] at h1
    linarith
  have hneg : gaussianReal 1 (1 / κ).toNNReal (Iio 0) ≠ 0 := fun h => by
    have := gaussianReal_absolutelyContinuous' 1 h0 h
    simp at this
  refine abs_lt.2 ⟨?_, ?_⟩
  · have := key (-1) (Ioi 0) (stretch_Ioi hκ 0) (fun x hx => by
      rw [abs_of_pos hx, div_self (ne_of_gt hx)]; norm_num) (by norm_num)
    linarith
  · have := key 1 (Iio 0) hneg (fun x hx => by
      rw [abs_of_neg hx, div_neg, div_self (ne_of_lt hx)]; norm_num) (by norm_num)
    linarith

/-- C89: with an ideal generator, the mean square end-to-end length of the extensible freely rotating chain, from the mean absolute
stretch `a` and the mean sign `s` of the stretch: a negative stretch turns the rest of the chain around. -/
theorem C89_efrc (hκ : 0 < κ) (hd : IdealDraws (stretchNumberAndVector κ) P draw) {N : ℕ} (hN : 0 < N) (θ : ℝ) {a s : ℝ}
    (ha : a = ∫ x, |x| ∂gaussianReal 1 (1 / κ).toNNReal) (hs : s = ∫ x, x / |x| ∂gaussianReal 1 (1 / κ).toNNReal) :
    ∫ ω, random_nondimensional_end_to_end_length N θ (draw ω) ^ 2 ∂P =
      N * (1 + 1 / κ) + 2 * a * Real.cos θ * (N / (1 - s * Real.cos θ) - (1 - (s * Real.cos θ) ^ N) / (1 - s * Real.cos θ) ^ 2) := by
  have hq : s * Real.cos θ ≠ 1 := fun h => by
    have h1 := stretch_sign hκ
    rw [← hs] at h1
    have h2 := Real.abs_cos_le_one θ
    have h3 : |s * Real.cos θ| < 1 := by
      rw [abs_mul]
      exact lt_of_le_of_lt (mul_le_of_le_one_right (abs_nonneg _) h2) h1
    rw [h] at h3
    norm_num at h3
  have e : ∀ ω, random_nondimensional_end_to_end_length N θ (draw ω) ^ 2 =
      dot (walkEnd V3.zero ((List.range N).map fun i => efrcLink θ ⟨1, 0, 0⟩ (draw ω) i))
        (walkEnd V3.zero ((List.range N).map fun i => efrcLink θ ⟨1, 0, 0⟩ (draw ω) i)) := fun ω => by
    rw [efrc_length_eq hN, norm_eq, Real.sq_sqrt (dot_self_nonneg _)]
  have hdiag : ∀ i, ∫ ω, dot (efrcLink θ ⟨1, 0, 0⟩ (draw ω) i) (efrcLink θ ⟨1, 0, 0⟩ (draw ω) i) ∂P = 1 + 1 / κ := fun i => by
    rw [integral_congr_ae ((efrcLink_spec (θ := θ) hκ hd i).mono fun ω h => h.1), ← (stretch_moment hκ).2, ← efrc_stretch_law hd i,
      integral_map (measurable_draw_fst hd i).aemeasurable (Continuous.aestronglyMeasurable (by fun_prop))]
  have hoff : ∀ i j, i < j → ∫ ω, dot (efrcLink θ ⟨1, 0, 0⟩ (draw ω) i) (efrcLink θ ⟨1, 0, 0⟩ (draw ω) j) ∂P =
      a * Real.cos θ * (s * Real.cos θ) ^ (j - i - 1) := fun i j h => by
    obtain ⟨k, rfl⟩ := Nat.exists_eq_add_of_le (Nat.succ_le_of_lt h)
    rw [show i.succ + k = i + k + 1 by omega, efrc_correlation hκ hd, ← ha, ← hs, show i + k + 1 - i - 1 = k by omega]
    ring
  simp only [e]
  rw [integral_dot_sum _ (integrable_efrcLink hκ hd), show 2 * a * Real.cos θ = 2 * (a * Real.cos θ) by ring, ← sum_efrc _ _ _ hq]
  refine Finset.sum_congr rfl fun i _ => Finset.sum_congr rfl fun j _ => ?_
  split_ifs with h
  · subst h; exact hdiag i
  · rcases lt_or_gt_of_ne h with h | h
    · rw [hoff i j h]; congr 2; omega
    · rw [show i - j + (j - i) - 1 = i - j - 1 by omega, ← hoff j i h]
      refine integral_congr_ae (ae_of_all _ fun ω => ?_)
      simp only [dot]
      ring

/-- C89, concrete case: at a right angle the links are uncorrelated. -/
example : ∫ draw, random_nondimensional_end_to_end_length 8 (Real.pi / 2) draw ^ 2
    ∂(Measure.infinitePi fun _ : ℕ => stretchNumberAndVector 50) = (8 : ℕ) * (1 + 1 / 50) := by
  rw [C89_efrc (by norm_num) (idealDraws_exists _) (by norm_num) _ rfl rfl]
  simp

end efrc

end Polymers.Props
