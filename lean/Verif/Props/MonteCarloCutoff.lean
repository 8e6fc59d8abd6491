import Verif.Props.MonteCarloMean
import Mathlib.Probability.BorelCantelli

/-!
C90: with an ideal generator, a long enough Monte Carlo run of an extensible chain fails with probability one.
-/

namespace Polymers.Props

open Polymers.Spec Polymers.Api Polymers.Lemmas Set Filter Topology MeasureTheory ProbabilityTheory

section draws
variable {Ω E : Type*} [MeasurableSpace Ω] [MeasurableSpace E] {law : Measure E} {P : Measure Ω} {draw : Ω → ℕ → E}

/-- Whatever can happen to the links of a sample happens to some sample. -/
theorem exists_sample (hd : IdealDraws law P draw) (N : ℕ) {C : ℕ → Set E} (hC : ∀ i, MeasurableSet (C i))
    (h0 : ∀ i, law (C i) ≠ 0) : ∀ᵐ ω ∂P, ∃ k, ∀ i < N, draw ω (k * N + i) ∈ C i := by
  classical
  have : IsProbabilityMeasure P := hd.independent.isProbabilityMeasure
  let blk : ℕ → Finset ℕ := fun k => Finset.Ico (k * N) (k * N + N)
  let D : ℕ → Set Ω := fun j => (fun ω => draw ω j) ⁻¹' C (j % N)
  have hDm : ∀ j, MeasurableSet (D j) := fun j => hd.measurable j (hC _)
  have hDl : ∀ j, P (D j) = law (C (j % N)) := fun j => by
    rw [← hd.uniform j, Measure.map_apply (hd.measurable j) (hC _)]
  have hprod : ∀ s : Finset ℕ, P (⋂ j ∈ s, D j) = ∏ j ∈ s, P (D j) := fun s =>
    hd.independent.measure_inter_preimage_eq_mul s fun j _ => hC (j % N)
  let A : ℕ → Set Ω := fun k => ⋂ j ∈ blk k, D j
  have hAm : ∀ k, MeasurableSet (A k) := fun k => Finset.measurableSet_biInter _ fun j _ => hDm j
  have hdis : ∀ k l, k ≠ l → Disjoint (blk k) (blk l) := fun k l hkl => by
    rw [Finset.disjoint_left]
    intro i hi hj
    simp only [blk, Finset.mem_Ico] at hi hj
    rcases lt_or_gt_of_ne hkl with h | h
    · have : (k + 1) * N ≤ l * N := Nat.mul_le_mul_right N h
      rw [Nat.add_mul, one_mul] at this
      omega
    · have : (l + 1) * N ≤ k * N := Nat.mul_le_mul_right N h
      rw [Nat.add_mul, one_mul] at this
      omega
  have hAi : iIndepSet A P := (iIndepSet_iff_meas_biInter hAm).2 fun s => by
    have e : ⋂ k ∈ s, A k = ⋂ j ∈ s.biUnion blk, D j := by
      simp only [A, Finset.set_biInter_biUnion]
    rw [e, hprod, Finset.prod_biUnion fun k _ l _ hkl => hdis k l hkl]
    exact Finset.prod_congr rfl fun k _ => (hprod (blk k)).symm
  have hAp : ∀ k, P (A k) = ∏ i ∈ Finset.range N, law (C i) := fun k => by
    simp only [A]
    rw [hprod, Finset.prod_Ico_eq_prod_range]
    simp only [hDl, Nat.add_sub_cancel_left]
    refine Finset.prod_congr rfl fun i hi => ?_
    rw [Nat.mul_add_mod_self_right, Nat.mod_eq_of_lt (Finset.mem_range.1 hi)]
  have h1 := measure_limsup_eq_one hAm hAi (by
    simp only [hAp]
    exact ENNReal.tsum_const_eq_top_of_ne_zero (Finset.prod_ne_zero_iff.2 fun i _ => h0 i))
  have h2 : ∀ᵐ ω ∂P, ω ∈ limsup A atTop := (prob_compl_eq_zero_iff (MeasurableSet.measurableSet_limsup hAm)).2 h1
  refine h2.mono fun ω hω => ?_
  obtain ⟨k, hk⟩ := (mem_limsup_iff_frequently_mem.1 hω).exists
  refine ⟨k, fun i hi => ?_⟩
  have := mem_iInter₂.1 hk (k * N + i) (by simp only [blk, Finset.mem_Ico]; omega)
  simp only [D, mem_preimage, Nat.mul_add_mod_self_right, Nat.mod_eq_of_lt hi] at this
  exact this

end draws

theorem norm_sub_le_norm_add (u v : V3 ℝ) : u.norm - v.norm ≤ (u.add v).norm := by
  have h := norm_add_le' (u.add v) ⟨-v.x, -v.y, -v.z⟩
  have e1 : (u.add v).add ⟨-v.x, -v.y, -v.z⟩ = u := by
    cases u; simp [V3.add]
  have e2 : (⟨-v.x, -v.y, -v.z⟩ : V3 ℝ).norm = v.norm := by
    rw [norm_eq, norm_eq]; unfold dot; simp
  rw [e1, e2] at h
  linarith

theorem norm_sub_le_walkEnd (p : V3 ℝ) (rs : List (V3 ℝ)) : p.norm - (rs.map V3.norm).sum ≤ (walkEnd p rs).norm := by
  induction rs generalizing p with
  | nil => simp [walkEnd]
  | cons r rs ih =>
    have h1 := ih (p.add r)
    have h2 := norm_sub_le_norm_add p r
    rw [walkEnd, List.map_cons, List.sum_cons]
    linarith

/-- A chain with one link of more than `g N + 2 N` and others of at most two is longer than `g N`. -/
theorem long_walk {N : ℕ} (hN : 0 < N) (f : ℕ → V3 ℝ) {g : ℝ} (h0 : g * N + 2 * N < (f 0).norm)
    (h1 : ∀ i < N, 0 < i → (f i).norm ≤ 2) : g < (walkEnd V3.zero ((List.range N).map f)).norm / N := by
  obtain ⟨n, rfl⟩ : ∃ n, N = n + 1 := ⟨N - 1, by omega⟩
  rw [List.range_succ_eq_map, List.map_cons, walkEnd, zero_add', List.map_map]
  have h2 := norm_sub_le_walkEnd (f 0) ((List.range n).map (f ∘ Nat.succ))
  have h3 : (((List.range n).map (f ∘ Nat.succ)).map V3.norm).sum ≤ n * 2 := by
    rw [List.map_map]
    have := List.sum_le_card_nsmul ((List.range n).map (V3.norm ∘ f ∘ Nat.succ)) 2 fun x hx => by
      obtain ⟨i, hi, rfl⟩ := List.mem_map.1 hx
      exact h1 (i + 1) (by have := List.mem_range.1 hi; omega) (by omega)
    simpa using this
  push_cast at h0 ⊢
  rw [lt_div_iff₀ (by positivity)]
  linarith

theorem stretch_Ioi {κ : ℝ} (hκ : 0 < κ) (M : ℝ) : gaussianReal 1 (1 / κ).toNNReal (Ioi M) ≠ 0 := fun h => by
  have := gaussianReal_absolutelyContinuous' 1 (show (1 / κ).toNNReal ≠ 0 by simpa using hκ) h
  simp at this

theorem stretch_Icc {κ : ℝ} (hκ : 0 < κ) : gaussianReal 1 (1 / κ).toNNReal (Icc 0 2) ≠ 0 := fun h => by
  have := gaussianReal_absolutelyContinuous' 1 (show (1 / κ).toNNReal ≠ 0 by simpa using hκ) h
  simp at this

section efjc
open efjc.thermodynamics.isometric.monte_carlo

/-- C90: with an ideal generator and whatever cut-off, a Monte Carlo run of the extensible chain with enough samples fails, with
probability one. -/
theorem C90_efjc {Ω : Type*} [MeasurableSpace Ω] {P : Measure Ω} {draw : Ω → ℕ → ℝ × ℝ × ℝ} {κ : ℝ} (hκ : 0 < κ)
    (hd : IdealDraws (stretchAndPair κ) P draw) {B N : ℕ} (hB : 0 < B) (hN : 0 < N) {γmax : ℝ} (hγ : 0 < γmax) :
    ∀ᵐ ω ∂P, ∀ᶠ S in atTop, nondimensional_equilibrium_radial_distribution B N γmax κ S (draw ω) = none := by
  have h := exists_sample hd N (C := fun i => (if i = 0 then Ioi (γmax * N + 2 * N) else Icc (0 : ℝ) 2) ×ˢ univ)
    (fun i => MeasurableSet.prod (by split_ifs <;> measurability) MeasurableSet.univ) (fun i => by
      unfold stretchAndPair
      rw [Measure.prod_prod, measure_univ, mul_one]
      split_ifs
      · exact stretch_Ioi hκ _
      · exact stretch_Icc hκ)
  refine h.mono fun ω ⟨k, hk⟩ => ?_
  filter_upwards [eventually_gt_atTop k] with S hS
  refine (C41_cut_off hB N S hγ hκ 0 (fun _ => (0, 0, V3.zero)) (draw ω)).2.2 ⟨k, hS, ?_⟩
  have hn : ∀ d : ℝ × ℝ × ℝ, (link d).norm = |d.1| := fun d => by
    rw [norm_eq, dot_efjc_links, dot_link_self, mul_one, Real.sqrt_mul_self_eq_abs]
  unfold random_nondimensional_end_to_end_length random_configuration
  rw [efjc_configuration, last_norm_walk _ _ (by simp; omega)]
  refine long_walk hN _ ?_ fun i hi h0 => ?_
  · have := (hk 0 hN).1
    simp only [if_true, mem_Ioi] at this
    rw [hn]
    exact this.trans_le (le_abs_self _)
  · have := (hk i hi).1
    simp only [h0.ne', if_false, mem_Icc] at this
    rw [hn, abs_of_nonneg this.1]
    exact this.2

/-- C90, concrete case. -/
example : ∀ᵐ draw ∂(Measure.infinitePi fun _ : ℕ => stretchAndPair 1000), ∀ᶠ S in atTop,
    nondimensional_equilibrium_radial_distribution 100 8 10 1000 S draw = none :=
  C90_efjc (by norm_num) (idealDraws_exists _) (by norm_num) (by norm_num) (by norm_num)

end efjc

section efrc
open efrc.thermodynamics.isometric.monte_carlo

instance (κ : ℝ) : IsProbabilityMeasure (stretchNumberAndVector κ) := by unfold stretchNumberAndVector; infer_instance

theorem efrc_link_norm (θ : ℝ) (r : V3 ℝ) (d : ℝ × ℝ × V3 ℝ) : (next_link θ r d).norm =
    |d.1| * √(dot (cone θ (2 * Real.pi * d.2.1) (direction r) d.2.2) (cone θ (2 * Real.pi * d.2.1) (direction r) d.2.2)) := by
  rw [efrc_next_link, norm_eq, ← Real.sqrt_sq_eq_abs, ← Real.sqrt_mul (sq_nonneg _)]
  congr 1
  unfold dot
  simp only
  ring

theorem efrc_link_norm_le (θ : ℝ) (r : V3 ℝ) (d : ℝ × ℝ × V3 ℝ) : (next_link θ r d).norm ≤ |d.1| := by
  rw [efrc_link_norm]
  refine mul_le_of_le_one_right (abs_nonneg _) ?_
  refine Real.sqrt_le_one.2 ?_
  have hdir : dot (direction r) (direction r) = 0 ∨ dot (direction r) (direction r) = 1 := by
    have e : dot (direction r) (direction r) = dot r r / r.norm ^ 2 := by
      unfold direction dot
      rcases eq_or_ne r.norm 0 with h | h
      · simp [h]
      · field_simp
    rw [e, norm_eq, Real.sq_sqrt (dot_self_nonneg _)]
    rcases eq_or_ne (dot r r) 0 with h | h
    · left; simp [h]
    · right; exact div_self h
  by_cases hp : Parallel (direction r) d.2.2
  · have h0 : (frc.thermodynamics.isometric.monte_carlo.cross (direction r) d.2.2).norm = 0 := by
      rw [norm_eq, dot_cross_self]
      unfold Parallel at hp
      rw [hp]; simp
    have hu : frameU (direction r) d.2.2 = ⟨0, 0, 0⟩ := by
      unfold frameU
      simp [h0]
    rw [cone_eq, hu]
    have hc := Real.cos_sq_le_one θ
    have hs : dot (direction r) (direction r) ≤ 1 := by rcases hdir with h | h <;> linarith
    have hs0 := dot_self_nonneg (direction r)
    unfold dot frc.thermodynamics.isometric.monte_carlo.cross at *
    simp only at *
    nlinarith
  · rcases hdir with h | h
    · exfalso
      refine hp ?_
      have h' := h
      unfold dot at h'
      have hx : (direction r).x = 0 := by nlinarith [sq_nonneg (direction r).x, sq_nonneg (direction r).y, sq_nonneg (direction r).z]
      have hy : (direction r).y = 0 := by nlinarith [sq_nonneg (direction r).x, sq_nonneg (direction r).y, sq_nonneg (direction r).z]
      have hz : (direction r).z = 0 := by nlinarith [sq_nonneg (direction r).x, sq_nonneg (direction r).y, sq_nonneg (direction r).z]
      unfold Parallel
      rw [h]
      unfold dot
      rw [hx, hy, hz]
      ring
    · exact (cone_spec θ _ h hp).1.le

theorem uniformVector_y : uniformVector {t | 0 < t.y} ≠ 0 := by
  unfold uniformVector
  rw [Measure.map_apply (measurable_v3.2 ⟨measurable_fst, measurable_fst.comp measurable_snd, measurable_snd.comp measurable_snd⟩)
    (measurableSet_lt measurable_const measurable_y)]
  have : ((fun p : ℝ × ℝ × ℝ => (⟨p.1, p.2.1, p.2.2⟩ : V3 ℝ)) ⁻¹' {t | 0 < t.y}) = univ ×ˢ (Ioi 0 ×ˢ univ) := by
    ext p; simp
  rw [this, Measure.prod_prod, Measure.prod_prod, measure_univ, mul_one, one_mul]
  unfold uniformNumber
  rw [Measure.restrict_apply measurableSet_Ioi]
  have : Ioi (0 : ℝ) ∩ Icc 0 1 = Ioc 0 1 := by
    ext x; simp only [mem_inter_iff, mem_Ioi, mem_Icc, mem_Ioc]; constructor
    · rintro ⟨h, _, h'⟩; exact ⟨h, h'⟩
    · rintro ⟨h, h'⟩; exact ⟨h, h.le, h'⟩
  rw [this]
  simp

/-- C90: the same for the extensible freely rotating chain, for every angle. -/
theorem C90_efrc {Ω : Type*} [MeasurableSpace Ω] {P : Measure Ω} {draw : Ω → ℕ → ℝ × ℝ × V3 ℝ} {κ : ℝ} (hκ : 0 < κ)
    (hd : IdealDraws (stretchNumberAndVector κ) P draw) {B N : ℕ} (hB : 0 < B) (hN : 0 < N) {γmax : ℝ} (hγ : 0 < γmax) (θ : ℝ) :
    ∀ᵐ ω ∂P, ∀ᶠ S in atTop, nondimensional_equilibrium_radial_distribution B N γmax κ θ S (draw ω) = none := by
  have hym : MeasurableSet {t : V3 ℝ | 0 < t.y} := measurableSet_lt measurable_const measurable_y
  have h := exists_sample hd N (C := fun i => (if i = 0 then Ioi (γmax * N + 2 * N) else Icc (0 : ℝ) 2) ×ˢ
      (univ ×ˢ {t : V3 ℝ | 0 < t.y}))
    (fun i => MeasurableSet.prod (by split_ifs <;> measurability) (MeasurableSet.univ.prod hym)) (fun i => by
      unfold stretchNumberAndVector numberAndVector
      rw [Measure.prod_prod, Measure.prod_prod, measure_univ, one_mul]
      refine mul_ne_zero ?_ uniformVector_y
      split_ifs
      · exact stretch_Ioi hκ _
      · exact stretch_Icc hκ)
  refine h.mono fun ω ⟨k, hk⟩ => ?_
  filter_upwards [eventually_gt_atTop k] with S hS
  refine (C41_cut_off hB N S hγ hκ θ (draw ω) (fun _ => (0, 0, 0))).1.2 ⟨k, hS, ?_⟩
  unfold random_nondimensional_end_to_end_length
  rw [efrc_random_configuration, last_norm_walk _ _ (by simp; omega)]
  refine long_walk hN _ ?_ fun i hi h0 => ?_
  · obtain ⟨h1, -, h2⟩ := hk 0 hN
    simp only [if_true, mem_Ioi] at h1
    have hp : ¬ Parallel ⟨1, 0, 0⟩ (draw ω (k * N + 0)).2.2 := by
      have h2 : 0 < (draw ω (k * N + 0)).2.2.y := h2
      unfold Parallel dot
      simp only
      nlinarith [sq_nonneg (draw ω (k * N + 0)).2.2.z]
    rw [efrcLink, efrc_link_norm, (cone_spec θ _ (direction_spec hp).1 (direction_spec hp).2.1).1, Real.sqrt_one, mul_one]
    exact h1.trans_le (le_abs_self _)
  · obtain ⟨h1, -⟩ := hk i hi
    simp only [h0.ne', if_false, mem_Icc] at h1
    obtain ⟨n, rfl⟩ : ∃ n, i = n + 1 := ⟨i - 1, by omega⟩
    rw [efrcLink]
    refine (efrc_link_norm_le _ _ _).trans ?_
    rw [abs_of_nonneg h1.1]
    exact h1.2

/-- C90, concrete case. -/
example : ∀ᵐ draw ∂(Measure.infinitePi fun _ : ℕ => stretchNumberAndVector 1000), ∀ᶠ S in atTop,
    nondimensional_equilibrium_radial_distribution 100 8 10 1000 (Real.pi / 3) S draw = none :=
  C90_efrc (by norm_num) (idealDraws_exists _) (by norm_num) (by norm_num) (by norm_num) _

end efrc

section frc
open frc.thermodynamics.isometric.monte_carlo

/-- The entries are continuous. -/
def ContV {X : Type*} [TopologicalSpace X] (f : X → V3 ℝ) (w : X) : Prop :=
  ContinuousAt (fun s => (f s).x) w ∧ ContinuousAt (fun s => (f s).y) w ∧ ContinuousAt (fun s => (f s).z) w

theorem contV_cross {X : Type*} [TopologicalSpace X] {f g : X → V3 ℝ} {w : X} (hf : ContV f w) (hg : ContV g w) :
    ContV (fun s => cross (f s) (g s)) w := by
  obtain ⟨a, b, c⟩ := hf
  obtain ⟨a', b', c'⟩ := hg
  refine ⟨?_, ?_, ?_⟩ <;> simp only [cross] <;> fun_prop

theorem contV_norm {X : Type*} [TopologicalSpace X] {f : X → V3 ℝ} {w : X} (hf : ContV f w) : ContinuousAt (fun s => (f s).norm) w := by
  obtain ⟨a, b, c⟩ := hf
  simp only [norm_eq, dot]
  exact ContinuousAt.sqrt (by fun_prop)

theorem contV_cone {X : Type*} [TopologicalSpace X] (θ : ℝ) {f g : X → V3 ℝ} {φ : X → ℝ} {w : X} (hf : ContV f w) (hg : ContV g w)
    (hφ : ContinuousAt φ w) (hp : ¬ Parallel (f w) (g w)) : ContV (fun s => cone θ (φ s) (f s) (g s)) w := by
  have hc := contV_cross hf hg
  have hn := contV_norm hc
  have h0 : (cross (f w) (g w)).norm ≠ 0 := (cross_norm_pos hp).ne'
  have hu : ContV (fun s => frameU (f s) (g s)) w := ⟨hc.1.div hn h0, hc.2.1.div hn h0, hc.2.2.div hn h0⟩
  have hv := contV_cross hf hu
  have hcos : ContinuousAt (fun s => Real.cos (φ s)) w := Real.continuous_cos.continuousAt.comp hφ
  have hsin : ContinuousAt (fun s => Real.sin (φ s)) w := Real.continuous_sin.continuousAt.comp hφ
  obtain ⟨f1, f2, f3⟩ := hf
  obtain ⟨u1, u2, u3⟩ := hu
  obtain ⟨v1, v2, v3⟩ := hv
  simp only [cone_eq]
  exact ⟨(((u1.mul hcos).add (v1.mul hsin)).mul_const _).add (f1.mul_const _),
    (((u2.mul hcos).add (v2.mul hsin)).mul_const _).add (f2.mul_const _),
    (((u3.mul hcos).add (v3.mul hsin)).mul_const _).add (f3.mul_const _)⟩

/-- The four numbers of a link. -/
def fourNumbers (p : ℝ × ℝ × ℝ × ℝ) : ℝ × V3 ℝ := (p.1, ⟨p.2.1, p.2.2.1, p.2.2.2⟩)

theorem contV_frcLink (θ : ℝ) (w : ℕ → ℝ × ℝ × ℝ × ℝ) {N : ℕ}
    (hp : ∀ i < N, ¬ Parallel (previousLink (random_configuration N θ fun i => fourNumbers (w i)) i) (fourNumbers (w i)).2) {i : ℕ} (hi : i < N) :
    ContV (fun s : ℕ → ℝ × ℝ × ℝ × ℝ => frcLink θ ⟨1, 0, 0⟩ (fun i => fourNumbers (s i)) i) w := by
  have hg : ∀ i, ContV (fun s : ℕ → ℝ × ℝ × ℝ × ℝ => (fourNumbers (s i)).2) w := fun i => by
    have h := (continuous_apply (A := fun _ : ℕ => ℝ × ℝ × ℝ × ℝ) i).snd
    exact ⟨h.fst.continuousAt, h.snd.fst.continuousAt, h.snd.snd.continuousAt⟩
  have hφ : ∀ i, ContinuousAt (fun s : ℕ → ℝ × ℝ × ℝ × ℝ => 2 * Real.pi * (fourNumbers (s i)).1) w := fun i => by
    exact ((continuous_apply (A := fun _ : ℕ => ℝ × ℝ × ℝ × ℝ) i).fst.continuousAt).const_mul _
  induction i with
  | zero =>
    simp only [frcLink, frc_next_link]
    exact contV_cone θ ⟨continuousAt_const, continuousAt_const, continuousAt_const⟩ (hg 0) (hφ 0) (by simpa [previousLink] using hp 0 hi)
  | succ i ih =>
    simp only [frcLink, frc_next_link]
    refine contV_cone θ (ih (by omega)) (hg _) (hφ _) ?_
    have := hp (i + 1) hi
    rwa [previousLink, frc_linkVector _ _ (by omega)] at this

theorem frc_length_eq {N : ℕ} (hN : 0 < N) (θ : ℝ) (draw : ℕ → ℝ × V3 ℝ) : random_nondimensional_end_to_end_length N θ draw =
    (walkEnd V3.zero ((List.range N).map (frcLink θ ⟨1, 0, 0⟩ draw))).norm := by
  unfold random_nondimensional_end_to_end_length
  rw [frc_random_configuration, last_norm_walk _ _ (by simp; omega)]

theorem dot_walkEnd_range (h : V3 ℝ) (f : ℕ → V3 ℝ) (N : ℕ) :
    dot h (walkEnd V3.zero ((List.range N).map f)) = ∑ i ∈ Finset.range N, dot h (f i) := by
  rw [dot_walkEnd, List.map_map, Finset.sum_range, ← List.sum_ofFn]
  have : dot h V3.zero = 0 := by unfold dot V3.zero; norm_num
  rw [this, zero_add]
  congr 1
  rw [List.ofFn_eq_map, ← List.map_coe_finRange_eq_range, List.map_map]
  rfl

theorem continuousAt_frc_length (θ : ℝ) (w : ℕ → ℝ × ℝ × ℝ × ℝ) {N : ℕ} (hN : 0 < N)
    (hp : ∀ i < N, ¬ Parallel (previousLink (random_configuration N θ fun i => fourNumbers (w i)) i) (fourNumbers (w i)).2) :
    ContinuousAt (fun s : ℕ → ℝ × ℝ × ℝ × ℝ => random_nondimensional_end_to_end_length N θ fun i => fourNumbers (s i)) w := by
  simp only [frc_length_eq hN]
  refine contV_norm ?_
  have h : ∀ a : V3 ℝ, ContinuousAt (fun s : ℕ → ℝ × ℝ × ℝ × ℝ =>
      dot a (walkEnd V3.zero ((List.range N).map (frcLink θ ⟨1, 0, 0⟩ fun i => fourNumbers (s i))))) w := fun a => by
    simp only [dot_walkEnd_range]
    refine tendsto_finsetSum _ fun i hi => ?_
    obtain ⟨x, y, z⟩ := contV_frcLink θ w hp (Finset.mem_range.1 hi)
    exact ((x.const_mul a.x).add (y.const_mul a.y)).add (z.const_mul a.z)
  exact ⟨by simpa [dot] using h ⟨1, 0, 0⟩, by simpa [dot] using h ⟨0, 1, 0⟩, by simpa [dot] using h ⟨0, 0, 1⟩⟩

theorem uniformNumber_nhds {u : Set ℝ} {a : ℝ} (hu : u ∈ 𝓝 a) (ha : a ∈ Icc (0 : ℝ) 1) : uniformNumber (interior u) ≠ 0 := by
  unfold uniformNumber
  rw [Measure.restrict_apply isOpen_interior.measurableSet]
  have hne : (interior u ∩ Ioo (0 : ℝ) 1).Nonempty := by
    have : a ∈ closure (Ioo (0 : ℝ) 1) := by rwa [closure_Ioo zero_ne_one]
    exact mem_closure_iff.1 this _ isOpen_interior (mem_interior_iff_mem_nhds.2 hu)
  have hpos : 0 < volume (interior u ∩ Ioo (0 : ℝ) 1) := (isOpen_interior.inter isOpen_Ioo).measure_pos _ hne
  exact (hpos.trans_le (measure_mono (inter_subset_inter_right _ Ioo_subset_Icc_self))).ne'

/-- Numbers near given ones are drawn with positive probability. -/
theorem numberAndVector_nhds {t : Set (ℝ × ℝ × ℝ × ℝ)} {p : ℝ × ℝ × ℝ × ℝ} (ht : t ∈ 𝓝 p) (h1 : p.1 ∈ Icc (0 : ℝ) 1)
    (h2 : p.2.1 ∈ Icc (0 : ℝ) 1) (h3 : p.2.2.1 ∈ Icc (0 : ℝ) 1) (h4 : p.2.2.2 ∈ Icc (0 : ℝ) 1) :
    ∃ C : Set (ℝ × V3 ℝ), MeasurableSet C ∧ numberAndVector C ≠ 0 ∧ ∀ d ∈ C, ∃ q ∈ t, d = fourNumbers q := by
  obtain ⟨u1, hu1, v1, hv1, k1⟩ := mem_nhds_prod_iff.1 ht
  obtain ⟨u2, hu2, v2, hv2, k2⟩ := mem_nhds_prod_iff.1 hv1
  obtain ⟨u3, hu3, u4, hu4, k3⟩ := mem_nhds_prod_iff.1 hv2
  have hm : MeasurableSet {v : V3 ℝ | v.x ∈ interior u2 ∧ v.y ∈ interior u3 ∧ v.z ∈ interior u4} :=
    (measurable_x isOpen_interior.measurableSet).inter ((measurable_y isOpen_interior.measurableSet).inter
      (measurable_z isOpen_interior.measurableSet))
  refine ⟨interior u1 ×ˢ {v | v.x ∈ interior u2 ∧ v.y ∈ interior u3 ∧ v.z ∈ interior u4}, isOpen_interior.measurableSet.prod hm, ?_, ?_⟩
  · unfold numberAndVector uniformVector
    rw [Measure.prod_prod, Measure.map_apply (measurable_v3.2 ⟨measurable_fst, measurable_fst.comp measurable_snd,
      measurable_snd.comp measurable_snd⟩) hm]
    have : ((fun p : ℝ × ℝ × ℝ => (⟨p.1, p.2.1, p.2.2⟩ : V3 ℝ)) ⁻¹'
        {v | v.x ∈ interior u2 ∧ v.y ∈ interior u3 ∧ v.z ∈ interior u4}) = interior u2 ×ˢ (interior u3 ×ˢ interior u4) := by
      ext p; simp
    rw [this, Measure.prod_prod, Measure.prod_prod]
    exact mul_ne_zero (uniformNumber_nhds hu1 h1) (mul_ne_zero (uniformNumber_nhds hu2 h2)
      (mul_ne_zero (uniformNumber_nhds hu3 h3) (uniformNumber_nhds hu4 h4)))
  · rintro ⟨a, v⟩ ⟨ha, hx, hy, hz⟩
    refine ⟨(a, v.x, v.y, v.z), k1 ⟨interior_subset ha, k2 ⟨interior_subset hx, k3 ⟨interior_subset hy, interior_subset hz⟩⟩⟩, rfl⟩

/-- C90: with an ideal generator, an odd number of links and an angle that is neither zero nor fully folded, a Monte Carlo run of
the freely rotating chain with enough samples fails, with probability one. -/
theorem C90_frc_odd {Ω : Type*} [MeasurableSpace Ω] {P : Measure Ω} {draw : Ω → ℕ → ℝ × V3 ℝ}
    (hd : IdealDraws numberAndVector P draw) {B N : ℕ} (hB : 0 < B) (ho : Odd N) {θ : ℝ} (hθ : Real.cos (θ / 2) ≠ 0)
    (hθ1 : Real.cos θ ≠ 1) :
    ∀ᵐ ω ∂P, ∀ᶠ S in atTop, nondimensional_equilibrium_radial_distribution B N θ S (draw ω) = none := by
  classical
  have hN := ho.pos
  have hN' : (0 : ℝ) < N := by exact_mod_cast hN
  obtain ⟨d, hd01, hp, hnone⟩ := C40_frc_odd_panics hB ho (S := 1) one_pos hθ hθ1
  rw [(C42_frc_histogram hB N 1 hθ d).1] at hnone
  obtain ⟨γ, hγ, hlt⟩ := hnone
  simp only [frcSamples, List.range_one, List.map_cons, List.map_nil, List.mem_singleton, zero_mul, zero_add] at hγ
  subst hγ
  let w : ℕ → ℝ × ℝ × ℝ × ℝ := fun i => ((d i).1, (d i).2.x, (d i).2.y, (d i).2.z)
  have hw : (fun i => fourNumbers (w i)) = d := rfl
  have hcont := continuousAt_frc_length θ w hN (by rw [hw]; exact hp)
  have hnear : {s : ℕ → ℝ × ℝ × ℝ × ℝ | |Real.cos (θ / 2)| * N < random_nondimensional_end_to_end_length N θ fun i => fourNumbers (s i)} ∈ 𝓝 w :=
    hcont.eventually_const_lt ((lt_div_iff₀ hN').1 hlt)
  rw [nhds_pi, Filter.mem_pi] at hnear
  obtain ⟨I, -, t, ht, hsub⟩ := hnear
  have hC : ∀ i, ∃ C : Set (ℝ × V3 ℝ), MeasurableSet C ∧ numberAndVector C ≠ 0 ∧ ∀ d ∈ C, ∃ q ∈ t i, d = fourNumbers q := fun i => by
    obtain ⟨a, b, c, e⟩ := hd01 i
    exact numberAndVector_nhds (ht i) ⟨a.1, a.2.le⟩ ⟨b.1, b.2.le⟩ ⟨c.1, c.2.le⟩ ⟨e.1, e.2.le⟩
  choose C hCm hC0 hCt using hC
  refine (exists_sample hd N hCm hC0).mono fun ω ⟨k, hk⟩ => ?_
  filter_upwards [eventually_gt_atTop k] with S hS
  rw [(C42_frc_histogram hB N S hθ (draw ω)).1]
  refine ⟨_, List.mem_map.2 ⟨k, List.mem_range.2 hS, rfl⟩, ?_⟩
  rw [lt_div_iff₀ hN']
  have hq : ∀ i, ∃ q ∈ t i, i < N → draw ω (k * N + i) = fourNumbers q := fun i => by
    by_cases hi : i < N
    · obtain ⟨q, h1, h2⟩ := hCt i _ (hk i hi)
      exact ⟨q, h1, fun _ => h2⟩
    · exact ⟨w i, mem_of_mem_nhds (ht i), fun h => absurd h hi⟩
  choose q hqt hqd using hq
  have h := hsub (show q ∈ I.pi t from fun i _ => hqt i)
  have h : |Real.cos (θ / 2)| * N < random_nondimensional_end_to_end_length N θ fun i => fourNumbers (q i) := h
  rw [frc_length_eq hN] at h ⊢
  have e : (List.range N).map (frcLink θ ⟨1, 0, 0⟩ fun i => draw ω (k * N + i)) =
      (List.range N).map (frcLink θ ⟨1, 0, 0⟩ fun i => fourNumbers (q i)) :=
    List.map_congr_left fun i hi => frcLink_local θ _ fun j hj => hqd j (by have := List.mem_range.1 hi; omega)
  rwa [e]

/-- C90: with an even number of links, no run fails, with probability one. -/
theorem C90_frc_even {Ω : Type*} [MeasurableSpace Ω] {P : Measure Ω} {draw : Ω → ℕ → ℝ × V3 ℝ}
    (hd : IdealDraws numberAndVector P draw) {B N : ℕ} (hB : 0 < B) (hN : 0 < N) (he : Even N) {θ : ℝ} (hθ : Real.cos (θ / 2) ≠ 0) :
    ∀ᵐ ω ∂P, ∀ S, nondimensional_equilibrium_radial_distribution B N θ S (draw ω) ≠ none := by
  have hr : dot (⟨1, 0, 0⟩ : V3 ℝ) ⟨1, 0, 0⟩ = 1 := by unfold dot; norm_num
  have h : ∀ᵐ ω ∂P, ∀ k i, ¬ Parallel (frcBefore θ ⟨1, 0, 0⟩ (fun i => draw ω (k * N + i)) i)
      (draw ω (k * N + i)).2 := by
    refine ae_all_iff.2 fun k => ae_all_iff.2 fun i => ?_
    exact frcLink_not_parallel (hd.shift (k * N)) hr i
  refine h.mono fun ω hω S => C40_frc_even_no_panic hB hN he S hθ _ fun k _ i hi => ?_
  have := hω k i
  cases i with
  | zero => simpa [previousLink, frcBefore] using this
  | succ i =>
    rw [previousLink, frc_linkVector _ _ (by omega)]
    exact this

/-- C90, concrete cases. -/
example : ∀ᵐ draw ∂(Measure.infinitePi fun _ : ℕ => numberAndVector), ∀ᶠ S in atTop,
    nondimensional_equilibrium_radial_distribution 100 5 (Real.pi / 2) S draw = none :=
  C90_frc_odd (idealDraws_exists _) (by norm_num) (by decide)
    (by rw [show Real.pi / 2 / 2 = Real.pi / 4 by ring, Real.cos_pi_div_four]; positivity) (by simp)

example : ∀ᵐ draw ∂(Measure.infinitePi fun _ : ℕ => numberAndVector), ∀ S,
    nondimensional_equilibrium_radial_distribution 100 8 (Real.pi / 2) S draw ≠ none :=
  C90_frc_even (idealDraws_exists _) (by norm_num) (by norm_num) (by decide)
    (by rw [show Real.pi / 2 / 2 = Real.pi / 4 by ring, Real.cos_pi_div_four]; positivity)

end frc

end Polymers.Props
