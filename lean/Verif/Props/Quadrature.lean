import Verif.Lemmas.Quadrature
import Mathlib.MeasureTheory.Integral.DominatedConvergence
import Mathlib.Topology.UniformSpace.HeineCantor
import Mathlib.MeasureTheory.Integral.IntervalIntegral.Basic

/-! Properties C01, C02, C03: the quadrature rules of `src/math/mod.rs`.

The specification is Mathlib's interval integral `∫ x in a..b, f x`. -/

namespace Polymers.Props

open Polymers.math Set MeasureTheory Filter Topology

/-- C01: exact on affine integrands, for any limits (in any order) and any positive number of points. -/
theorem C01_integrate_1d_affine_exact (c₀ c₁ a b : ℝ) {n : ℕ} (hn : 1 ≤ n) :
    integrate_1d (fun x => c₀ + c₁ * x) a b n = ∫ x in a..b, (c₀ + c₁ * x) := by
  have hn' : (n : ℝ) ≠ 0 := by exact_mod_cast (by omega : n ≠ 0)
  have hsum : ∀ m : ℕ, ∑ i ∈ Finset.range m, (0.5 + (i : ℝ)) = (m : ℝ) ^ 2 / 2 := by
    intro m
    induction m with
    | zero => simp
    | succ m ih => rw [Finset.sum_range_succ, ih]; push_cast; ring
  have hI : ∫ x in a..b, (c₀ + c₁ * x) = c₀ * (b - a) + c₁ * (b ^ 2 - a ^ 2) / 2 := by
    rw [intervalIntegral.integral_add (by simp) (Continuous.intervalIntegrable (by fun_prop) _ _),
      intervalIntegral.integral_const, intervalIntegral.integral_const_mul, integral_id]
    simp; ring
  rw [integrate_1d_eq_sum, hI]
  have : ∑ i ∈ Finset.range n, (c₀ + c₁ * (a + (0.5 + (i : ℝ)) * ((b - a) / n)))
      = n * (c₀ + c₁ * a) + c₁ * ((b - a) / n) * ∑ i ∈ Finset.range n, (0.5 + (i : ℝ)) := by
    rw [Finset.mul_sum, ← nsmul_eq_mul, ← Finset.card_range n, ← Finset.sum_const, Finset.card_range,
      ← Finset.sum_add_distrib]
    exact Finset.sum_congr rfl fun i _ => by ring
  rw [this, hsum]
  field_simp
  ring

/-- C01: linear in the integrand. -/
theorem C01_integrate_1d_linear (f g : ℝ → ℝ) (s t a b : ℝ) (n : ℕ) :
    integrate_1d (fun x => s * f x + t * g x) a b n = s * integrate_1d f a b n + t * integrate_1d g a b n := by
  simp only [integrate_1d_eq_sum, Finset.sum_add_distrib, ← Finset.mul_sum]
  ring

/-- C01: monotone in the integrand when `a ≤ b`. -/
theorem C01_integrate_1d_monotone {f g : ℝ → ℝ} {a b : ℝ} (hab : a ≤ b) (n : ℕ)
    (h : ∀ x ∈ Icc a b, f x ≤ g x) : integrate_1d f a b n ≤ integrate_1d g a b n := by
  simp only [integrate_1d_eq_sum]
  apply mul_le_mul_of_nonneg_right
  · exact Finset.sum_le_sum fun i hi => h _ (midpoint_mem hab (Finset.mem_range.1 hi))
  · exact div_nonneg (by linarith) (Nat.cast_nonneg n)

/-- C01: a strictly larger integrand gives a strictly larger result (so the rule really samples the interval). -/
theorem C01_integrate_1d_strict_mono {f g : ℝ → ℝ} {a b : ℝ} (hab : a < b) {n : ℕ} (hn : 1 ≤ n)
    (h : ∀ x ∈ Ioo a b, f x < g x) : integrate_1d f a b n < integrate_1d g a b n := by
  simp only [integrate_1d_eq_sum]
  apply mul_lt_mul_of_pos_right
  · exact Finset.sum_lt_sum_of_nonempty (by simpa using (by omega : n ≠ 0))
      fun i hi => h _ (midpoint_mem_Ioo hab (Finset.mem_range.1 hi))
  · exact div_pos (by linarith) (by exact_mod_cast hn)

/-- C01, concrete case: the rule with 64 points integrates `2 + 3 x` over `[0, 1]` to `7/2`. -/
example : integrate_1d (fun x => 2 + 3 * x) (0 : ℝ) 1 64 = 7 / 2 := by
  rw [C01_integrate_1d_affine_exact 2 3 0 1 (by norm_num)]
  rw [intervalIntegral.integral_add (by simp) (Continuous.intervalIntegrable (by fun_prop) _ _),
    intervalIntegral.integral_const, intervalIntegral.integral_const_mul, integral_id]
  norm_num

/-- C02: the error bound of the midpoint rule. -/
theorem C02_integrate_1d_error_bound {f f' f'' : ℝ → ℝ} {a b M : ℝ} (hab : a ≤ b) {n : ℕ} (hn : 1 ≤ n)
    (hf : ∀ x ∈ Icc a b, HasDerivWithinAt f (f' x) (Icc a b) x)
    (hf' : ∀ x ∈ Icc a b, HasDerivWithinAt f' (f'' x) (Icc a b) x)
    (hM : ∀ x ∈ Icc a b, |f'' x| ≤ M) :
    |integrate_1d f a b n - ∫ x in a..b, f x| ≤ M * (b - a) ^ 3 / (24 * n ^ 2) := by
  have hn' : (0 : ℝ) < n := by exact_mod_cast hn
  have hcont : ContinuousOn f (Icc a b) := fun x hx => (hf x hx).continuousWithinAt
  have hint : IntervalIntegrable f volume a b := hcont.intervalIntegrable_of_Icc hab
  set h : ℝ := (b - a) / n with hh
  have hh0 : 0 ≤ h := div_nonneg (by linarith) hn'.le
  have hnh : n * h = b - a := mul_div_cancel₀ _ hn'.ne'
  rw [integrate_1d_eq_sum, ← sum_cells hab hint hn, Finset.sum_mul, ← Finset.sum_sub_distrib, ← hh]
  calc |∑ i ∈ Finset.range n, (f (a + (0.5 + (i : ℝ)) * h) * h
            - ∫ x in (a + i * h)..(a + (i + 1 : ℕ) * h), f x)|
      ≤ ∑ i ∈ Finset.range n, |f (a + (0.5 + (i : ℝ)) * h) * h
            - ∫ x in (a + i * h)..(a + (i + 1 : ℕ) * h), f x| := Finset.abs_sum_le_sum_abs _ _
    _ ≤ ∑ _i ∈ Finset.range n, M * h ^ 3 / 24 := by
        apply Finset.sum_le_sum
        intro i hi
        have hi' : (i : ℝ) + 1 ≤ n := by exact_mod_cast Finset.mem_range.1 hi
        have hi0 : (0 : ℝ) ≤ i := Nat.cast_nonneg i
        have e1 : a + i * h = (a + (0.5 + (i : ℝ)) * h) - h / 2 := by ring
        have e2 : a + (i + 1 : ℕ) * h = (a + (0.5 + (i : ℝ)) * h) + h / 2 := by push_cast; ring
        rw [e1, e2]
        apply midpoint_cell_bound hf hf' hM hh0
        · rw [← e1]; have := mul_nonneg hi0 hh0; linarith
        · rw [← e2]; push_cast
          have := mul_le_mul_of_nonneg_right hi' hh0
          linarith
    _ = M * (b - a) ^ 3 / (24 * n ^ 2) := by
        rw [Finset.sum_const, Finset.card_range, nsmul_eq_mul, ← hnh]
        field_simp

/-- C02: for every continuous integrand the result tends to the integral as the number of points grows. -/
theorem C02_integrate_1d_tendsto {f : ℝ → ℝ} {a b : ℝ} (hab : a ≤ b) (hf : ContinuousOn f (Icc a b)) :
    Tendsto (fun n : ℕ => integrate_1d f a b n) atTop (𝓝 (∫ x in a..b, f x)) := by
  have hint : IntervalIntegrable f volume a b := hf.intervalIntegrable_of_Icc hab
  have huc : UniformContinuousOn f (Icc a b) := isCompact_Icc.uniformContinuousOn_of_continuous hf
  rw [Metric.tendsto_atTop]
  intro ε hε
  set e : ℝ := ε / (2 * (b - a + 1)) with he
  have hba : 0 < b - a + 1 := by linarith
  have he0 : 0 < e := by positivity
  obtain ⟨δ, hδ, hδ'⟩ := Metric.uniformContinuousOn_iff_le.1 huc e he0
  obtain ⟨n₀, hn₀⟩ := exists_nat_gt ((b - a) / δ)
  refine ⟨n₀ + 1, fun n hn => ?_⟩
  have hn1 : 1 ≤ n := by omega
  have hn' : (0 : ℝ) < n := by exact_mod_cast hn1
  set h : ℝ := (b - a) / n with hh
  have hh0 : 0 ≤ h := div_nonneg (by linarith) hn'.le
  have hnh : n * h = b - a := mul_div_cancel₀ _ hn'.ne'
  have hhδ : h ≤ δ := by
    rw [hh, div_le_iff₀ hn']
    rw [div_lt_iff₀ hδ] at hn₀
    have : (n₀ : ℝ) ≤ n := by exact_mod_cast (by omega : n₀ ≤ n)
    nlinarith
  rw [Real.dist_eq, integrate_1d_eq_sum, ← sum_cells hab hint hn1, Finset.sum_mul, ← Finset.sum_sub_distrib, ← hh]
  calc |∑ i ∈ Finset.range n, (f (a + (0.5 + (i : ℝ)) * h) * h
            - ∫ x in (a + i * h)..(a + (i + 1 : ℕ) * h), f x)|
      ≤ ∑ i ∈ Finset.range n, |f (a + (0.5 + (i : ℝ)) * h) * h
            - ∫ x in (a + i * h)..(a + (i + 1 : ℕ) * h), f x| := Finset.abs_sum_le_sum_abs _ _
    _ ≤ ∑ _i ∈ Finset.range n, e * h := by
        apply Finset.sum_le_sum
        intro i hi
        have hi' : (i : ℝ) + 1 ≤ n := by exact_mod_cast Finset.mem_range.1 hi
        have hi0 : (0 : ℝ) ≤ i := Nat.cast_nonneg i
        have hl : a ≤ a + i * h := by have := mul_nonneg hi0 hh0; linarith
        have hr : a + (i + 1 : ℕ) * h ≤ b := by
          push_cast
          have := mul_le_mul_of_nonneg_right hi' hh0
          linarith
        have hlr : a + i * h ≤ a + (i + 1 : ℕ) * h := by push_cast; linarith
        have hmem := midpoint_mem hab (Finset.mem_range.1 hi)
        rw [← hh] at hmem
        have hint' : IntervalIntegrable f volume (a + i * h) (a + (i + 1 : ℕ) * h) := by
          apply hint.mono_set
          rw [uIcc_of_le hab]
          exact uIcc_subset_Icc ⟨hl, hlr.trans hr⟩ ⟨hl.trans hlr, hr⟩
        have hconst : f (a + (0.5 + (i : ℝ)) * h) * h
            = ∫ _x in (a + i * h)..(a + (i + 1 : ℕ) * h), f (a + (0.5 + (i : ℝ)) * h) := by
          rw [intervalIntegral.integral_const, smul_eq_mul]; push_cast; ring
        rw [hconst, ← intervalIntegral.integral_sub (by simp) hint']
        have := intervalIntegral.norm_integral_le_of_norm_le_const (a := a + i * h) (b := a + (i + 1 : ℕ) * h) (C := e)
          (f := fun x => f (a + (0.5 + (i : ℝ)) * h) - f x) (by
            intro x hx
            rw [uIoc_of_le hlr] at hx
            have hx' : x ∈ Icc a b := ⟨hl.trans hx.1.le, hx.2.trans hr⟩
            have hd : dist (a + (0.5 + (i : ℝ)) * h) x ≤ δ := by
              refine le_trans ?_ hhδ
              have h1 := hx.1
              have h2 := hx.2
              push_cast at h2
              rw [Real.dist_eq, abs_le]
              constructor <;> nlinarith
            have := hδ' _ hmem _ hx' hd
            rwa [Real.dist_eq] at this)
        rw [Real.norm_eq_abs] at this
        refine this.trans (le_of_eq ?_)
        congr 1
        push_cast
        rw [show a + (i + 1) * h - (a + i * h) = h by ring, abs_of_nonneg hh0]
    _ = e * (b - a) := by rw [Finset.sum_const, Finset.card_range, nsmul_eq_mul, ← hnh]; ring
    _ < ε := by
        rw [he, div_mul_eq_mul_div, div_lt_iff₀ (by positivity)]
        nlinarith

/-- C02, concrete case: `x²` over `[0, 1]` (`f'' = 2`); the 64-point error is at most `2/(24·64²)`. -/
example : |integrate_1d (fun x => x ^ 2) (0 : ℝ) 1 64 - 1 / 3| ≤ 2 / (24 * 64 ^ 2) := by
  have := C02_integrate_1d_error_bound (f := fun x => x ^ 2) (f' := fun x => 2 * x) (f'' := fun _ => 2) (a := 0) (b := 1)
    (M := 2) (by norm_num) (n := 64) (by norm_num)
    (fun x _ => by simpa using (hasDerivAt_pow 2 x).hasDerivWithinAt)
    (fun x _ => by simpa using ((hasDerivAt_id x).const_mul 2).hasDerivWithinAt) (fun x _ => by norm_num)
  rw [integral_pow] at this
  norm_num at this ⊢
  exact this

/-- C03: the two-dimensional rule is the iterated one-dimensional rule (inner variable `y`). -/
theorem C03_integrate_2d_iterated (f : ℝ → ℝ → ℝ) (a b c d : ℝ) (n : ℕ) :
    integrate_2d f a b c d n = integrate_1d (fun x => integrate_1d (fun y => f x y) c d n) a b n := by
  simp only [integrate_1d_eq_sum]
  unfold integrate_2d
  simp only [fsum_flatMap, List.map_map, Function.comp_def]
  simp only [list_sum_map_range, ← Finset.sum_mul]
  ring

/-- C03: the order of the variables does not matter. -/
theorem C03_integrate_2d_swap (f : ℝ → ℝ → ℝ) (a b c d : ℝ) (n : ℕ) :
    integrate_2d f a b c d n = integrate_1d (fun y => integrate_1d (fun x => f x y) a b n) c d n := by
  rw [C03_integrate_2d_iterated]
  simp only [integrate_1d_eq_sum, ← Finset.sum_mul]
  rw [Finset.sum_comm]
  ring

/-- C03: the symmetric variant is the rule over the square. -/
theorem C03_integrate_2d_symmetric_eq (f : ℝ → ℝ → ℝ) (a b : ℝ) (n : ℕ) :
    integrate_2d_symmetric f a b n = integrate_2d f a b a b n := by
  unfold integrate_2d integrate_2d_symmetric
  simp only [elem_powi]
  rw [mul_assoc]
  congr 1
  rw [show (2 : ℤ) = ((2 : ℕ) : ℤ) by rfl, zpow_natCast, pow_two]

/-- C03: a product integrand factorises. -/
theorem C03_integrate_2d_product (g h : ℝ → ℝ) (a b c d : ℝ) (n : ℕ) :
    integrate_2d (fun x y => g x * h y) a b c d n = integrate_1d g a b n * integrate_1d h c d n := by
  rw [C03_integrate_2d_iterated]
  have := C01_integrate_1d_linear
  simp only [integrate_1d_eq_sum]
  simp only [← Finset.mul_sum, mul_assoc, ← Finset.sum_mul]
  ring

/-- C03: the variants taking a ready-made grid agree with the ones building it, when given the midpoints and the cell
area. -/
theorem C03_integrate_grid_eq (f : ℝ → ℝ) (g : ℝ → ℝ → ℝ) (a b c d : ℝ) (n : ℕ) (grid_x grid_y : List ℝ)
    (hx : grid_x = (List.range n).map fun (i : ℕ) => a + ((i : ℝ) + 1 / 2) * ((b - a) / n))
    (hy : grid_y = (List.range n).map fun (i : ℕ) => c + ((i : ℝ) + 1 / 2) * ((d - c) / n)) :
    integrate_1d_grid f grid_x ((b - a) / n) = integrate_1d f a b n ∧
    integrate_2d_grid g grid_x grid_y ((b - a) / n * ((d - c) / n)) = integrate_2d g a b c d n ∧
    integrate_2d_symmetric_grid g grid_x (((b - a) / n) ^ 2) = integrate_2d_symmetric g a b n := by
  have e : ∀ i : ℕ, ((i : ℝ) + 1 / 2) = 0.5 + (i : ℝ) := fun i => by norm_num; ring
  simp only [e] at hx hy
  subst hx hy
  refine ⟨?_, ?_, ?_⟩
  · unfold integrate_1d_grid integrate_1d; simp only [List.map_map, Function.comp_def]
  · unfold integrate_2d_grid integrate_2d; simp only [mul_assoc]
  · unfold integrate_2d_symmetric_grid integrate_2d_symmetric; simp only [elem_powi]; norm_cast

/-- C03, concrete case: `x y` over `[0,1] × [0,2]` gives exactly `1`. -/
example : integrate_2d (fun x y => x * y) (0 : ℝ) 1 0 2 64 = 1 := by
  rw [C03_integrate_2d_product (fun x => x) (fun y => y)]
  have h1 := C01_integrate_1d_affine_exact 0 1 0 1 (n := 64) (by norm_num)
  have h2 := C01_integrate_1d_affine_exact 0 1 0 2 (n := 64) (by norm_num)
  simp only [zero_add, one_mul] at h1 h2
  rw [h1, h2, integral_id, integral_id]
  norm_num

end Polymers.Props
