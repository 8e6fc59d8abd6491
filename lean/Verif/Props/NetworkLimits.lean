import Verif.Props.EfjcLegendre
import Verif.Props.DefinedNetwork

/-!
C83: the hyperelastic model at small and at large deformation.
-/

namespace Polymers.Props

open Real Set Filter Topology Polymers.Spec Polymers.Lemmas
open Polymers.constitutive.hyperelastic.buche_silberstein

/-- The width of the Gaussian. -/
noncomputable def gaussWidth (κ : ℝ) (N : ℕ) : ℝ := 3 * N / (2 * meanSquareLink κ)

theorem gaussWidth_pos {κ : ℝ} {N : ℕ} (hκ : 0 < κ) (hN : 0 < N) : 0 < gaussWidth κ N := by
  have hv : 0 < meanSquareLink κ := by rw [meanSquareLink_eq hκ]; positivity
  have : (0:ℝ) < N := by exact_mod_cast hN
  unfold gaussWidth
  positivity

/-- What a chain of the grid contributes to the stress, up to its number. -/
noncomputable def chainPull (κ : ℝ) (N : ℕ) (z r : ℝ) : ℝ :=
  4 * π * r * (N * chainForce κ √(z ^ 2 + r ^ 2) / √(z ^ 2 + r ^ 2)) /
    (4 * π * tanhRule fun x => x ^ 2 * exp (-gaussianExponent N (meanSquareLink κ) x))

/-- The stress as a sum over the grid. -/
noncomputable def gridStress (κ : ℝ) (N : ℕ) (s : ℝ) : ℝ :=
  ∑ i ∈ Finset.range 256, ∑ j ∈ Finset.range 256,
    chainPull κ N (node (i + 1)) (node (j + 1)) * (node (i + 1) ^ 2 - node (j + 1) ^ 2 / 2) *
      (1 / 257 / (1 - ((i + 1) / 257) ^ 2) * (1 / 257 / (1 - ((j + 1) / 257) ^ 2))) *
      exp (-(gaussWidth κ N * ((node (i + 1) / s) ^ 2 + s * node (j + 1) ^ 2)))

theorem uniaxial_grid {κ : ℝ} {N : ℕ} {model : BucheSilberstein ℝ} (hκ : 0 < κ)
    (h : BucheSilberstein.init 3 κ N = some model) {s : ℝ} (hs : 0 < s) :
    model.uniaxial_tension s = some (gridStress κ N s) := by
  rw [C78_uniaxial hκ h hs]
  congr 1
  rw [networkStress, tanhRule, gridStress]
  refine Finset.sum_congr rfl fun i _ => ?_
  rw [tanhRule, Finset.sum_mul]
  refine Finset.sum_congr rfl fun j _ => ?_
  have e : ∀ i : ℕ, node (i + 1) = artanh (((i : ℝ) + 1) / 257) := fun i => by unfold node; push_cast; rfl
  rw [e, e]
  generalize artanh (((i : ℝ) + 1) / 257) = z
  generalize artanh (((j : ℝ) + 1) / 257) = r
  have ew : exponent 3 N κ = gaussianExponent N (meanSquareLink κ) := by
    funext x; rw [exponent, if_neg (by norm_num)]
  have er : gaussianExponent N (meanSquareLink κ) (restLength s z r) = gaussWidth κ N * ((z / s) ^ 2 + s * r ^ 2) := by
    rw [gaussianExponent, restLength, sq_sqrt (by positivity), gaussWidth]
  simp only [density, ew, er, chainPull]
  ring

theorem chainPull_pos {κ : ℝ} {N : ℕ} (hκ : 0 < κ) (hN : 0 < N) {n m : ℕ} (hn : n < 256) (hm : m < 256) :
    0 < chainPull κ N (node (n + 1)) (node (m + 1)) := by
  have hz := node_pos' (n := n + 1) (by omega) (by omega)
  have hr := node_pos' (n := m + 1) (by omega) (by omega)
  have h1 := nodes_ne_one (n := n + 1) (m := m + 1) (by omega) (by omega)
  have hNr : (0:ℝ) < N := by exact_mod_cast hN
  have hγ : 0 < √(node (n + 1) ^ 2 + node (m + 1) ^ 2) := sqrt_pos.2 (by positivity)
  have hγ1 : √(node (n + 1) ^ 2 + node (m + 1) ^ 2) ≠ 1 := fun h => h1 (by rwa [sqrt_eq_one] at h)
  have hf := (efjc_reduced_solver hκ hγ hγ1).1
  have hZ : 0 < tanhRule fun x => x ^ 2 * exp (-gaussianExponent N (meanSquareLink κ) x) := tanhRule_pos fun x hx => by positivity
  have := pi_pos
  unfold chainPull chainForce
  positivity

theorem gridStress_hasDerivAt {κ : ℝ} (N : ℕ) {s : ℝ} (hs : 0 < s) :
    HasDerivAt (gridStress κ N) (∑ i ∈ Finset.range 256, ∑ j ∈ Finset.range 256,
      chainPull κ N (node (i + 1)) (node (j + 1)) * (node (i + 1) ^ 2 - node (j + 1) ^ 2 / 2) *
        (1 / 257 / (1 - ((i + 1) / 257) ^ 2) * (1 / 257 / (1 - ((j + 1) / 257) ^ 2))) *
        (exp (-(gaussWidth κ N * ((node (i + 1) / s) ^ 2 + s * node (j + 1) ^ 2))) *
          (gaussWidth κ N * (2 * node (i + 1) ^ 2 / s ^ 3 - node (j + 1) ^ 2)))) s := by
  unfold gridStress
  refine HasDerivAt.fun_sum fun i _ => HasDerivAt.fun_sum fun j _ => HasDerivAt.const_mul _ ?_
  generalize node (i + 1) = z
  generalize node (j + 1) = r
  have h1 : HasDerivAt (fun s : ℝ => z / s) (-z / s ^ 2) s := by
    refine ((hasDerivAt_const s z).div (hasDerivAt_id s) hs.ne').congr_deriv ?_
    simp
  have h2 : HasDerivAt (fun s : ℝ => -(gaussWidth κ N * ((z / s) ^ 2 + s * r ^ 2)))
      (gaussWidth κ N * (2 * z ^ 2 / s ^ 3 - r ^ 2)) s := by
    refine ((((h1.fun_pow 2).fun_add ((hasDerivAt_id s).mul_const (r ^ 2))).const_mul (gaussWidth κ N)).fun_neg).congr_deriv ?_
    have hs' := hs.ne'
    simp only [Nat.cast_ofNat, show 2 - 1 = 1 from rfl, pow_one]
    field_simp
    ring
  exact h2.exp

/-- C83: at no deformation the stress grows with the stretch, in equibiaxial tension exactly twice as fast as in uniaxial
tension. -/
theorem C83_modulus {κ : ℝ} {N : ℕ} {model : BucheSilberstein ℝ} (hκ : 0 < κ) (hN : 0 < N)
    (h : BucheSilberstein.init 3 κ N = some model) :
    ∃ U B : ℝ → ℝ, (∀ s, 0 < s → model.uniaxial_tension s = some (U s) ∧ model.equibiaxial_tension s = some (B s)) ∧
      ∃ E, 0 < E ∧ HasDerivAt U E 1 ∧ HasDerivAt B (2 * E) 1 := by
  refine ⟨gridStress κ N, fun s => -gridStress κ N (1 / s ^ 2), fun s hs => ⟨uniaxial_grid hκ h hs, ?_⟩, ?_⟩
  · rw [C43_duality _ hs.ne', uniaxial_grid hκ h (by positivity)]; rfl
  obtain ⟨E, hE, hd⟩ : ∃ E, E = _ ∧ HasDerivAt (gridStress κ N) E 1 := ⟨_, rfl, gridStress_hasDerivAt N one_pos⟩
  refine ⟨E, ?_, hd, ?_⟩
  · rw [hE]
    have hF := gaussWidth_pos hκ hN
    have hw : ∀ i < 256, 0 < 1 / 257 / (1 - (((i : ℕ) + 1 : ℝ) / 257) ^ 2) := fun i hi => by
      have := one_sub_node_pos hi
      positivity
    have term : ∀ i j : ℕ, i < 256 → j < 256 → chainPull κ N (node (i + 1)) (node (j + 1)) * (node (i + 1) ^ 2 - node (j + 1) ^ 2 / 2) *
        (1 / 257 / (1 - (((i : ℕ) + 1 : ℝ) / 257) ^ 2) * (1 / 257 / (1 - (((j : ℕ) + 1 : ℝ) / 257) ^ 2))) *
        (exp (-(gaussWidth κ N * ((node (i + 1) / 1) ^ 2 + 1 * node (j + 1) ^ 2))) *
          (gaussWidth κ N * (2 * node (i + 1) ^ 2 / 1 ^ 3 - node (j + 1) ^ 2))) =
        2 * (chainPull κ N (node (i + 1)) (node (j + 1)) *
          (1 / 257 / (1 - (((i : ℕ) + 1 : ℝ) / 257) ^ 2) * (1 / 257 / (1 - (((j : ℕ) + 1 : ℝ) / 257) ^ 2))) *
          exp (-(gaussWidth κ N * ((node (i + 1) / 1) ^ 2 + 1 * node (j + 1) ^ 2))) * gaussWidth κ N) *
          (node (i + 1) ^ 2 - node (j + 1) ^ 2 / 2) ^ 2 := by
      intro i j _ _
      ring
    have factor : ∀ i j : ℕ, i < 256 → j < 256 → 0 < 2 * (chainPull κ N (node (i + 1)) (node (j + 1)) *
          (1 / 257 / (1 - (((i : ℕ) + 1 : ℝ) / 257) ^ 2) * (1 / 257 / (1 - (((j : ℕ) + 1 : ℝ) / 257) ^ 2))) *
          exp (-(gaussWidth κ N * ((node (i + 1) / 1) ^ 2 + 1 * node (j + 1) ^ 2))) * gaussWidth κ N) := fun i j hi hj =>
      mul_pos two_pos (mul_pos (mul_pos (mul_pos (chainPull_pos hκ hN hi hj) (mul_pos (hw i hi) (hw j hj))) (exp_pos _)) hF)
    have nonneg : ∀ i ∈ Finset.range 256, ∀ j ∈ Finset.range 256,
        0 ≤ chainPull κ N (node (i + 1)) (node (j + 1)) * (node (i + 1) ^ 2 - node (j + 1) ^ 2 / 2) *
        (1 / 257 / (1 - (((i : ℕ) + 1 : ℝ) / 257) ^ 2) * (1 / 257 / (1 - (((j : ℕ) + 1 : ℝ) / 257) ^ 2))) *
        (exp (-(gaussWidth κ N * ((node (i + 1) / 1) ^ 2 + 1 * node (j + 1) ^ 2))) *
          (gaussWidth κ N * (2 * node (i + 1) ^ 2 / 1 ^ 3 - node (j + 1) ^ 2))) := fun i hi j hj => by
      rw [term i j (Finset.mem_range.1 hi) (Finset.mem_range.1 hj)]
      exact mul_nonneg (factor i j (Finset.mem_range.1 hi) (Finset.mem_range.1 hj)).le (sq_nonneg _)
    refine Finset.sum_pos' (fun i hi => Finset.sum_nonneg (nonneg i hi)) ⟨0, Finset.mem_range.2 (by norm_num), ?_⟩
    refine Finset.sum_pos' (nonneg 0 (Finset.mem_range.2 (by norm_num))) ⟨0, Finset.mem_range.2 (by norm_num), ?_⟩
    rw [term 0 0 (by norm_num) (by norm_num)]
    refine mul_pos (factor 0 0 (by norm_num) (by norm_num)) (pow_pos ?_ 2)
    have := node_pos' (n := 0 + 1) (by omega) (by omega)
    nlinarith [pow_pos this 2]
  · have h1 : HasDerivAt (fun s : ℝ => 1 / s ^ 2) (-2) 1 := by
      refine ((hasDerivAt_const (1:ℝ) (1:ℝ)).fun_div ((hasDerivAt_id (1:ℝ)).fun_pow 2) (by simp)).congr_deriv ?_
      simp
    have h2 : HasDerivAt (gridStress κ N) E (1 / 1 ^ 2) := by simpa using hd
    refine ((h2.comp (1:ℝ) h1).fun_neg).congr_deriv ?_
    ring

/-- C83: the stress vanishes when the material is stretched far enough, in tension and in compression: the chains of the grid
nearest the axis, or nearest the plane across it, are not near enough. -/
theorem C83_far {κ : ℝ} {N : ℕ} {model : BucheSilberstein ℝ} (hκ : 0 < κ) (hN : 0 < N)
    (h : BucheSilberstein.init 3 κ N = some model) :
    ∃ U B : ℝ → ℝ, (∀ s, 0 < s → model.uniaxial_tension s = some (U s) ∧ model.equibiaxial_tension s = some (B s)) ∧
      Tendsto U atTop (𝓝 0) ∧ Tendsto U (𝓝[>] 0) (𝓝 0) ∧ Tendsto B atTop (𝓝 0) ∧ Tendsto B (𝓝[>] 0) (𝓝 0) := by
  have hF := gaussWidth_pos hκ hN
  have key : ∀ (c : ℝ) (f : ℝ → ℝ) (l : Filter ℝ), Tendsto f l atTop →
      Tendsto (fun s => c * exp (-(gaussWidth κ N * f s))) l (𝓝 0) := fun c f l hf => by
    have := (tendsto_exp_neg_atTop_nhds_zero.comp (hf.const_mul_atTop hF)).const_mul c
    rwa [mul_zero] at this
  have sum : ∀ l : Filter ℝ, (∀ i j : ℕ, i < 256 → j < 256 →
      Tendsto (fun s => (node (i + 1) / s) ^ 2 + s * node (j + 1) ^ 2) l atTop) → Tendsto (gridStress κ N) l (𝓝 0) := fun l hl => by
    have e : ∑ i ∈ Finset.range 256, ∑ j ∈ Finset.range 256, (0:ℝ) = 0 := by simp
    rw [← e]
    exact tendsto_finsetSum _ fun i hi => tendsto_finsetSum _ fun j hj =>
      key _ _ l (hl i j (Finset.mem_range.1 hi) (Finset.mem_range.1 hj))
  have t1 : Tendsto (gridStress κ N) atTop (𝓝 0) := by
    refine sum _ fun i j _ hj => ?_
    have hr := node_pos' (n := j + 1) (by omega) (by omega)
    refine tendsto_atTop_mono (fun s => ?_) (tendsto_id.atTop_mul_const (show 0 < node (j + 1) ^ 2 by positivity))
    have := sq_nonneg (node (i + 1) / s)
    simp only [id]
    linarith
  have t0 : Tendsto (gridStress κ N) (𝓝[>] 0) (𝓝 0) := by
    refine sum _ fun i j hi _ => ?_
    have hz := node_pos' (n := i + 1) (by omega) (by omega)
    have hz2 : Tendsto (fun s : ℝ => (node (i + 1) / s) ^ 2) (𝓝[>] 0) atTop := by
      have := (tendsto_pow_atTop two_ne_zero).comp ((tendsto_inv_nhdsGT_zero (𝕜 := ℝ)).const_mul_atTop hz)
      simpa only [div_eq_mul_inv, Function.comp_def] using this
    refine tendsto_atTop_mono' _ ?_ hz2
    filter_upwards [self_mem_nhdsWithin] with s hs
    have : 0 ≤ s * node (j + 1) ^ 2 := mul_nonneg (le_of_lt hs) (sq_nonneg _)
    linarith
  have p1 : Tendsto (fun s : ℝ => 1 / s ^ 2) atTop (𝓝[>] 0) := by
    simp only [one_div]
    exact tendsto_inv_atTop_nhdsGT_zero.comp (tendsto_pow_atTop two_ne_zero)
  have p0 : Tendsto (fun s : ℝ => 1 / s ^ 2) (𝓝[>] 0) atTop := by
    simp only [one_div, ← inv_pow]
    exact (tendsto_pow_atTop two_ne_zero).comp tendsto_inv_nhdsGT_zero
  refine ⟨gridStress κ N, fun s => -gridStress κ N (1 / s ^ 2), fun s hs => ⟨uniaxial_grid hκ h hs, ?_⟩, t1, t0, ?_, ?_⟩
  · rw [C43_duality _ hs.ne', uniaxial_grid hκ h (by positivity)]; rfl
  · have := (t0.comp p1).neg
    rwa [neg_zero] at this
  · have := (t1.comp p0).neg
    rwa [neg_zero] at this

/-- C83, concrete case: chains of 255 links. -/
example : ∃ model : BucheSilberstein ℝ, BucheSilberstein.init 3 50 255 = some model ∧
    ∃ U B : ℝ → ℝ, (∀ s, 0 < s → model.uniaxial_tension s = some (U s) ∧ model.equibiaxial_tension s = some (B s)) ∧
      Tendsto U atTop (𝓝 0) ∧ Tendsto U (𝓝[>] 0) (𝓝 0) ∧ Tendsto B atTop (𝓝 0) ∧ Tendsto B (𝓝[>] 0) (𝓝 0) := by
  obtain ⟨model, h⟩ := Option.isSome_iff_exists.1 ((C43_init_method 3 50 255).2 (Or.inr rfl))
  exact ⟨model, h, C83_far (by norm_num) (by norm_num) h⟩

end Polymers.Props
