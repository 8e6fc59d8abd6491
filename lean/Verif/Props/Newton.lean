import Verif.Spec.Newton
import Verif.Model.Math
import Verif.Model.SReal
import Mathlib.Analysis.Calculus.Deriv.Slope
import Mathlib.Analysis.SpecialFunctions.Sqrt
import Mathlib.Analysis.Convex.SpecificFunctions.Pow
import Mathlib.Analysis.Convex.Deriv
import Mathlib.Topology.Order.MonotoneConvergence

/-! Properties C04, C05, C06: `inverse_newton_raphson` and `inverse_newton_raphson_powered` of `src/math/mod.rs`. -/

namespace Polymers.Props

open Polymers.math Polymers.Spec Set Filter Topology

theorem newtonIterate_succ' (y : ℝ) (f f' : ℝ → ℝ) (p g : ℝ) (k : ℕ) :
    newtonIterate y f f' p (newtonStep y f f' p g) k = newtonIterate y f f' p g (k + 1) := by
  simp [newtonIterate, Function.iterate_succ]

theorem newtonIterate_succ (y : ℝ) (f f' : ℝ → ℝ) (p g : ℝ) (k : ℕ) :
    newtonIterate y f f' p g (k + 1) = newtonStep y f f' p (newtonIterate y f f' p g k) := by
  simp [newtonIterate, Function.iterate_succ_apply']

/-- The loop, from an arbitrary residual `r`. -/
theorem inverse_newton_raphson_loop_spec (y : ℝ) (f f' : ℝ → ℝ) (tol : ℝ) (n : ℕ) (g r : ℝ) :
    ∃ k ≤ n, inverse_newton_raphson_loop y f f' tol n g r = newtonIterate y f f' 1 g k ∧
      (k < n → (k = 0 ∧ r ≤ tol) ∨ ∃ j, k = j + 1 ∧ relResidual y f (newtonIterate y f f' 1 g j) ≤ tol) ∧
      (1 ≤ k → tol < r) ∧
      ∀ j, j + 1 < k → tol < relResidual y f (newtonIterate y f f' 1 g j) := by
  induction n generalizing g r with
  | zero => exact ⟨0, le_rfl, rfl, by simp, by simp, by simp⟩
  | succ n ih =>
    unfold inverse_newton_raphson_loop
    by_cases hr : tol < r
    · simp only [(elem_lt _ _).2 hr, if_true]
      have e1 : g + (y - f g) / f' g = newtonStep y f f' 1 g := by
        unfold newtonStep; rw [div_one, ← neg_sub y (f g), neg_div]; ring
      have e2 : (Elem.abs ((y - f g) / y) : ℝ) = relResidual y f g := by
        unfold relResidual; rw [elem_abs, ← neg_sub, neg_div, abs_neg]
      rw [e1, e2]
      obtain ⟨k, hk, h1, h2, h3, h4⟩ := ih (newtonStep y f f' 1 g) (relResidual y f g)
      refine ⟨k + 1, by omega, by rw [h1, newtonIterate_succ'], ?_, fun _ => hr, ?_⟩
      · intro hk'
        right
        rcases h2 (by omega) with ⟨rfl, h⟩ | ⟨j, rfl, h⟩
        · exact ⟨0, rfl, h⟩
        · exact ⟨j + 1, rfl, by rwa [newtonIterate_succ'] at h⟩
      · intro j hj
        cases j with
        | zero => exact h3 (by omega)
        | succ j =>
          have := h4 j (by omega)
          rwa [newtonIterate_succ'] at this
    · have : Elem.lt tol r = false := by
        rw [Bool.eq_false_iff]; intro h; exact hr ((elem_lt _ _).1 h)
      simp only [this]
      exact ⟨0, Nat.zero_le _, rfl, fun _ => Or.inl ⟨rfl, not_lt.1 hr⟩, by simp, by simp⟩

/-- The result from the initial residual `1`. -/
theorem inverse_newton_raphson_spec (y : ℝ) (f f' : ℝ → ℝ) (guess tol : ℝ) (maxIters : ℕ) :
    ∃ k ≤ maxIters, inverse_newton_raphson y f f' guess tol maxIters = newtonIterate y f f' 1 guess k ∧
      (k < maxIters → (k = 0 ∧ 1 ≤ tol) ∨ ∃ j, k = j + 1 ∧ relResidual y f (newtonIterate y f f' 1 guess j) ≤ tol) ∧
      (1 ≤ k → tol < 1) ∧
      ∀ j, j + 1 < k → tol < relResidual y f (newtonIterate y f f' 1 guess j) := by
  have := inverse_newton_raphson_loop_spec y f f' tol maxIters guess 1
  unfold inverse_newton_raphson
  norm_num at this ⊢
  exact this

/-- C04: the value returned is a Newton iterate from the guess (`y ≠ 0`, because the residual is relative to `y`).  If it is not the last one allowed, then either no step
was made because the tolerance is at least `1` (the initial residual), or the iterate before it meets the tolerance;
and no step is made beyond the first iterate which does so. -/
theorem C04_newton_result {y : ℝ} (_hy : y ≠ 0) (f f' : ℝ → ℝ) (guess tol : ℝ) (maxIters : ℕ) :
    ∃ k ≤ maxIters, inverse_newton_raphson y f f' guess tol maxIters = newtonIterate y f f' 1 guess k ∧
      (k < maxIters → (k = 0 ∧ 1 ≤ tol) ∨ ∃ j, k = j + 1 ∧ relResidual y f (newtonIterate y f f' 1 guess j) ≤ tol) ∧
      (1 ≤ k → tol < 1) ∧
      ∀ j, j + 1 < k → tol < relResidual y f (newtonIterate y f f' 1 guess j) := by
  exact inverse_newton_raphson_spec y f f' guess tol maxIters

/-- C04: with a tolerance below one at least one step is made. -/
theorem C04_newton_steps (y : ℝ) (f f' : ℝ → ℝ) (guess : ℝ) {tol : ℝ} {maxIters : ℕ} (ht : tol < 1) (hm : 1 ≤ maxIters) :
    ∃ k, 1 ≤ k ∧ k ≤ maxIters ∧
      inverse_newton_raphson y f f' guess tol maxIters = newtonIterate y f f' 1 guess k := by
  obtain ⟨k, hk, h1, h2, -⟩ := inverse_newton_raphson_spec y f f' guess tol maxIters
  refine ⟨k, ?_, hk, h1⟩
  by_contra h
  rcases h2 (by omega) with ⟨_, h⟩ | ⟨j, h, _⟩
  · linarith
  · omega

theorem inverse_newton_raphson_run (y : ℝ) (f f' : ℝ → ℝ) (guess : ℝ) :
    ∃ k, 1 ≤ k ∧ k ≤ 100 ∧ inverse_newton_raphson y f f' guess (1 / 1000000) 100 = newtonIterate y f f' 1 guess k ∧
      (k < 100 → relResidual y f (newtonIterate y f f' 1 guess (k - 1)) ≤ 1 / 1000000) := by
  obtain ⟨k, hk, h1, h2, h3, -⟩ := inverse_newton_raphson_spec y f f' guess (1 / 1000000) 100
  have hk1 : 1 ≤ k := by
    by_contra h
    rcases h2 (by omega) with ⟨_, h⟩ | ⟨j, h, _⟩
    · norm_num at h
    · omega
  refine ⟨k, hk1, hk, h1, fun h => ?_⟩
  rcases h2 h with ⟨_, h⟩ | ⟨j, rfl, h'⟩
  · norm_num at h
  · rw [Nat.add_sub_cancel]; exact h'

/-- C04: a guess which is an exact root is returned unchanged. -/
theorem C04_newton_exact_guess (y : ℝ) (f f' : ℝ → ℝ) {guess : ℝ} (h : f guess = y) (tol : ℝ) (maxIters : ℕ) :
    inverse_newton_raphson y f f' guess tol maxIters = guess := by
  obtain ⟨k, -, h1, -⟩ := inverse_newton_raphson_spec y f f' guess tol maxIters
  rw [h1]
  have hs : newtonStep y f f' 1 guess = guess := by simp [newtonStep, h]
  exact Function.iterate_fixed hs k

/-- C04: for an affine function with non-zero slope any allowed run returns the exact root. -/
theorem C04_newton_affine (y m c guess : ℝ) (hm : m ≠ 0) {tol : ℝ} (ht : tol < 1) {maxIters : ℕ} (hi : 1 ≤ maxIters) :
    m * inverse_newton_raphson y (fun x => m * x + c) (fun _ => m) guess tol maxIters + c = y := by
  obtain ⟨k, hk1, -, h⟩ := C04_newton_steps y (fun x => m * x + c) (fun _ => m) guess ht hi
  rw [h]
  obtain ⟨j, rfl⟩ : ∃ j, k = j + 1 := ⟨k - 1, by omega⟩
  rw [newtonIterate_succ]
  unfold newtonStep
  field_simp
  ring

/-- C04, concrete case. -/
example : inverse_newton_raphson (7 : ℝ) (fun x => 2 * x + 1) (fun _ => 2) 0 1e-6 100 = 3 := by
  have := C04_newton_affine 7 2 1 0 (by norm_num) (tol := 1e-6) (by norm_num) (maxIters := 100) (by norm_num)
  linarith

/-- A Newton step from below the solution of a concave increasing function stays below it and does not decrease. -/
theorem newtonStep_concave {y : ℝ} {f f' : ℝ → ℝ} {g s : ℝ} (hgs : g ≤ s) (hfs : f s = y)
    (hd : ∀ x ∈ Icc g s, HasDerivAt f (f' x) x) (hpos : ∀ x ∈ Icc g s, 0 < f' x) (hconc : ConcaveOn ℝ (Icc g s) f)
    {x : ℝ} (hx : x ∈ Icc g s) : newtonStep y f f' 1 x ∈ Icc x s := by
  have hfx : f x ≤ y := by
    have hmono : MonotoneOn f (Icc g s) := by
      apply monotoneOn_of_deriv_nonneg (convex_Icc g s)
      · exact fun z hz => (hd z hz).continuousAt.continuousWithinAt
      · rw [interior_Icc]
        exact fun z hz => (hd z (Ioo_subset_Icc_self hz)).differentiableAt.differentiableWithinAt
      · rw [interior_Icc]
        intro z hz
        rw [(hd z (Ioo_subset_Icc_self hz)).deriv]
        exact (hpos z (Ioo_subset_Icc_self hz)).le
    rw [← hfs]
    exact hmono hx (right_mem_Icc.2 hgs) hx.2
  have htan : y - f x ≤ f' x * (s - x) := by
    rcases eq_or_lt_of_le hx.2 with rfl | hlt
    · simp [hfs]
    · have := hconc.slope_le_of_hasDerivAt hx (right_mem_Icc.2 hgs) hlt (hd x hx)
      rw [slope_def_field, div_le_iff₀ (by linarith), hfs] at this
      exact this
  have hp := hpos x hx
  unfold newtonStep
  rw [div_one]
  constructor
  · have : (f x - y) / f' x ≤ 0 := div_nonpos_of_nonpos_of_nonneg (by linarith) hp.le
    linarith
  · have : -(s - x) ≤ (f x - y) / f' x := by
      rw [le_div_iff₀ hp]; linarith
    linarith

/-- Iterates from below the solution of a concave increasing function. -/
theorem newtonIterate_concave {y : ℝ} {f f' : ℝ → ℝ} {g s : ℝ} (hgs : g ≤ s) (hfs : f s = y)
    (hd : ∀ x ∈ Icc g s, HasDerivAt f (f' x) x) (hpos : ∀ x ∈ Icc g s, 0 < f' x) (hconc : ConcaveOn ℝ (Icc g s) f)
    (k : ℕ) : newtonIterate y f f' 1 g k ∈ Icc g s := by
  induction k with
  | zero => exact left_mem_Icc.2 hgs
  | succ k ih =>
    rw [newtonIterate_succ]
    have := newtonStep_concave hgs hfs hd hpos hconc ih
    exact ⟨ih.1.trans this.1, this.2⟩

/-- C05: for a concave increasing function and a guess not above the solution `s`, the iterates never decrease and
never pass `s`; they tend to `s`; and the returned value lies between the guess and `s`, whatever the tolerance and
the iteration limit. -/
theorem C05_newton_concave {y : ℝ} {f f' : ℝ → ℝ} {guess s : ℝ} (hgs : guess ≤ s) (hfs : f s = y)
    (hd : ∀ x ∈ Icc guess s, HasDerivAt f (f' x) x) (hpos : ∀ x ∈ Icc guess s, 0 < f' x)
    (hconc : ConcaveOn ℝ (Icc guess s) f) (tol : ℝ) (maxIters : ℕ) :
    Monotone (newtonIterate y f f' 1 guess) ∧
    (∀ k, newtonIterate y f f' 1 guess k ≤ s) ∧
    Tendsto (newtonIterate y f f' 1 guess) atTop (𝓝 s) ∧
    guess ≤ inverse_newton_raphson y f f' guess tol maxIters ∧
    inverse_newton_raphson y f f' guess tol maxIters ≤ s := by
  have hmem := newtonIterate_concave hgs hfs hd hpos hconc
  have hmono : Monotone (newtonIterate y f f' 1 guess) := by
    apply monotone_nat_of_le_succ
    intro k
    rw [newtonIterate_succ]
    exact (newtonStep_concave hgs hfs hd hpos hconc (hmem k)).1
  refine ⟨hmono, fun k => (hmem k).2, ?_, ?_, ?_⟩
  · -- the limit is a zero of `f - y`
    have hbdd : BddAbove (range (newtonIterate y f f' 1 guess)) := ⟨s, by rintro _ ⟨k, rfl⟩; exact (hmem k).2⟩
    have hlim := tendsto_atTop_ciSup hmono hbdd
    set L := ⨆ k, newtonIterate y f f' 1 guess k with hL
    have hLmem : L ∈ Icc guess s := isClosed_Icc.mem_of_tendsto hlim (Eventually.of_forall hmem)
    have hfL : Tendsto (fun k => f (newtonIterate y f f' 1 guess k)) atTop (𝓝 (f L)) :=
      ((hd L hLmem).continuousAt.tendsto).comp hlim
    -- steps tend to zero, and are at least `(y - f x)/f' guess`
    have hstep : Tendsto (fun k => newtonIterate y f f' 1 guess (k + 1) - newtonIterate y f f' 1 guess k) atTop (𝓝 0) := by
      have := (hlim.comp (tendsto_add_atTop_nat 1)).sub hlim
      simpa using this
    have hant : ∀ x ∈ Icc guess s, f' x ≤ f' guess := by
      intro x hx
      rcases eq_or_lt_of_le hx.1 with h | h
      · rw [h]
      · have h1 := hconc.slope_le_of_hasDerivAt (left_mem_Icc.2 hgs) hx h (hd _ (left_mem_Icc.2 hgs))
        have h2 := hconc.le_slope_of_hasDerivAt (left_mem_Icc.2 hgs) hx h (hd x hx)
        exact h2.trans h1
    have hmonof : MonotoneOn f (Icc guess s) := by
      apply monotoneOn_of_deriv_nonneg (convex_Icc guess s)
      · exact fun z hz => (hd z hz).continuousAt.continuousWithinAt
      · rw [interior_Icc]
        exact fun z hz => (hd z (Ioo_subset_Icc_self hz)).differentiableAt.differentiableWithinAt
      · rw [interior_Icc]
        intro z hz
        rw [(hd z (Ioo_subset_Icc_self hz)).deriv]
        exact (hpos z (Ioo_subset_Icc_self hz)).le
    have hfle : ∀ x ∈ Icc guess s, f x ≤ y := fun x hx => by
      rw [← hfs]; exact hmonof hx (right_mem_Icc.2 hgs) hx.2
    have hg0 := hpos guess (left_mem_Icc.2 hgs)
    have hge : ∀ k, (y - f (newtonIterate y f f' 1 guess k)) / f' guess
        ≤ newtonIterate y f f' 1 guess (k + 1) - newtonIterate y f f' 1 guess k := by
      intro k
      rw [newtonIterate_succ]
      unfold newtonStep
      have hp := hpos _ (hmem k)
      have h0 := hfle _ (hmem k)
      have : (y - f (newtonIterate y f f' 1 guess k)) / f' guess
          ≤ (y - f (newtonIterate y f f' 1 guess k)) / f' (newtonIterate y f f' 1 guess k) :=
        div_le_div_of_nonneg_left (by linarith) hp (hant _ (hmem k))
      rw [div_one]
      have e : (f (newtonIterate y f f' 1 guess k) - y) / f' (newtonIterate y f f' 1 guess k)
        = - ((y - f (newtonIterate y f f' 1 guess k)) / f' (newtonIterate y f f' 1 guess k)) := by
        rw [← neg_div]; ring
      rw [e]; linarith
    have hlim2 : Tendsto (fun k => (y - f (newtonIterate y f f' 1 guess k)) / f' guess) atTop
        (𝓝 ((y - f L) / f' guess)) := (hfL.const_sub y).div_const _
    have hle : (y - f L) / f' guess ≤ 0 := le_of_tendsto_of_tendsto' hlim2 hstep hge
    have hyL : y ≤ f L := by
      rw [div_le_iff₀ hg0] at hle; linarith
    have hLs : L = s := by
      by_contra hne
      have hlt : L < s := lt_of_le_of_ne hLmem.2 hne
      have h2 := hconc.le_slope_of_hasDerivAt hLmem (right_mem_Icc.2 hgs) hlt (hd s (right_mem_Icc.2 hgs))
      have hps := hpos s (right_mem_Icc.2 hgs)
      rw [slope_def_field, le_div_iff₀ (by linarith), hfs] at h2
      nlinarith [mul_pos hps (sub_pos.2 hlt)]
    rw [← hLs]; exact hlim
  · obtain ⟨k, -, h, -⟩ := inverse_newton_raphson_spec y f f' guess tol maxIters
    rw [h]; exact (hmem k).1
  · obtain ⟨k, -, h, -⟩ := inverse_newton_raphson_spec y f f' guess tol maxIters
    rw [h]; exact (hmem k).2

/-- C05: the residual shrinks below any tolerance, so with enough iterations allowed the loop stops by its tolerance
test and not by the iteration limit. -/
theorem C05_newton_concave_terminates_by_tolerance {y : ℝ} {f f' : ℝ → ℝ} {guess s : ℝ} (hgs : guess ≤ s)
    (hfs : f s = y) (hd : ∀ x ∈ Icc guess s, HasDerivAt f (f' x) x) (hpos : ∀ x ∈ Icc guess s, 0 < f' x)
    (hconc : ConcaveOn ℝ (Icc guess s) f) (_hy : y ≠ 0) {tol : ℝ} (ht : 0 < tol) :
    ∃ m, ∀ n ≥ m, inverse_newton_raphson y f f' guess tol n = inverse_newton_raphson y f f' guess tol m := by
  obtain ⟨-, -, hlim, -⟩ := C05_newton_concave hgs hfs hd hpos hconc tol 0
  have hres : Tendsto (fun k => relResidual y f (newtonIterate y f f' 1 guess k)) atTop (𝓝 0) := by
    have h1 : Tendsto (fun k => f (newtonIterate y f f' 1 guess k)) atTop (𝓝 y) := by
      have := ((hd s (right_mem_Icc.2 hgs)).continuousAt.tendsto).comp hlim
      rw [hfs] at this; exact this
    have := (((h1.sub_const y).div_const y)).abs
    simpa [relResidual] using this
  obtain ⟨j, hj⟩ := (hres.eventually_lt_const ht).exists
  refine ⟨j + 2, fun n hn => ?_⟩
  obtain ⟨k, hk, h1, h2, h3, h4⟩ := inverse_newton_raphson_spec y f f' guess tol n
  obtain ⟨k', hk', h1', h2', h3', h4'⟩ := inverse_newton_raphson_spec y f f' guess tol (j + 2)
  have hkj : k ≤ j + 1 := by
    by_contra h
    exact absurd (h4 j (by omega)) (not_lt.2 hj.le)
  have hkj' : k' ≤ j + 1 := by
    by_contra h
    exact absurd (h4' j (by omega)) (not_lt.2 hj.le)
  have a := h2 (by omega)
  have a' := h2' (by omega)
  have : k = k' := by
    rcases a with ⟨rfl, t⟩ | ⟨i, rfl, t⟩ <;> rcases a' with ⟨rfl, t'⟩ | ⟨i', rfl, t'⟩
    · rfl
    · exact absurd (h3' (by omega)) (not_lt.2 t)
    · exact absurd (h3 (by omega)) (not_lt.2 t')
    · rcases lt_trichotomy i i' with h | h | h
      · exact absurd (h4' i (by omega)) (not_lt.2 t)
      · rw [h]
      · exact absurd (h4 i' (by omega)) (not_lt.2 t')
  rw [h1, h1', this]

/-- C05, concrete case: `sqrt x = 2` from the guess `1` meets all the hypotheses. -/
example (n : ℕ) : inverse_newton_raphson (2 : ℝ) Real.sqrt (fun x => 1 / (2 * Real.sqrt x)) 1 1e-6 n ∈ Icc (1 : ℝ) 4 := by
  have hpos : ∀ x ∈ Icc (1 : ℝ) 4, 0 < x := fun x hx => lt_of_lt_of_le one_pos hx.1
  have := C05_newton_concave (y := 2) (f := Real.sqrt) (f' := fun x => 1 / (2 * Real.sqrt x)) (guess := 1) (s := 4)
    (by norm_num) (by rw [show (4 : ℝ) = 2 ^ 2 by norm_num]; exact Real.sqrt_sq (by norm_num))
    (fun x hx => Real.hasDerivAt_sqrt (hpos x hx).ne')
    (fun x hx => by have := Real.sqrt_pos.2 (hpos x hx); positivity)
    (Real.strictConcaveOn_sqrt.concaveOn.subset (fun x hx => (hpos x hx).le) (convex_Icc 1 4))
    1e-6 n
  exact ⟨this.2.2.2.1, this.2.2.2.2⟩

/-- One powered step away from a root is the damped Newton step. -/
theorem powered_step (y : ℝ) (f f' : ℝ → ℝ) (p : ℕ) {x : ℝ} (hx : f x ≠ y) :
    x + (-(Elem.powi (f x - y) (p : Int))) / Elem.powi (f x - y) ((p : Int) - 1) / f' x / (p : ℝ)
      = newtonStep y f f' p x := by
  have h : f x - y ≠ 0 := sub_ne_zero.2 hx
  simp only [elem_powi]
  have e : -((f x - y) ^ (p : ℤ)) / (f x - y) ^ ((p : ℤ) - 1) = -(f x - y) := by
    rw [zpow_sub_one₀ h]
    have := zpow_ne_zero (p : ℤ) h
    field_simp
  rw [e]
  unfold newtonStep
  rw [neg_div, neg_div]; ring

/-- The powered loop, from an arbitrary residual. -/
theorem powered_loop_spec (y : ℝ) (f f' : ℝ → ℝ) (tol : ℝ) (p n : ℕ) (g r : ℝ)
    (hroot : ∀ k < n, f (newtonIterate y f f' p g k) ≠ y) :
    ∃ k ≤ n, inverse_newton_raphson_powered_loop y f f' tol p n g r = newtonIterate y f f' p g k ∧
      (k < n → (k = 0 ∧ r ≤ tol) ∨ ∃ j, k = j + 1 ∧ relResidual y f (newtonIterate y f f' p g j) ≤ tol) ∧
      (1 ≤ k → tol < r) ∧
      ∀ j, j + 1 < k → tol < relResidual y f (newtonIterate y f f' p g j) := by
  induction n generalizing g r with
  | zero => exact ⟨0, le_rfl, rfl, by simp, by simp, by simp⟩
  | succ n ih =>
    unfold inverse_newton_raphson_powered_loop
    by_cases hr : tol < r
    · simp only [(elem_lt _ _).2 hr, if_true]
      rw [powered_step y f f' p (show f g ≠ y from hroot 0 (by omega)), elem_abs,
        show |(f g - y) / y| = relResidual y f g from rfl]
      obtain ⟨k, hk, h1, h2, h3, h4⟩ := ih (newtonStep y f f' p g) (relResidual y f g) (by
        intro k hk; rw [newtonIterate_succ']; exact hroot (k + 1) (by omega))
      refine ⟨k + 1, by omega, by rw [h1, newtonIterate_succ'], ?_, fun _ => hr, ?_⟩
      · intro hk'
        right
        rcases h2 (by omega) with ⟨rfl, h⟩ | ⟨j, rfl, h⟩
        · exact ⟨0, rfl, h⟩
        · exact ⟨j + 1, rfl, by rwa [newtonIterate_succ'] at h⟩
      · intro j hj
        cases j with
        | zero => exact h3 (by omega)
        | succ j =>
          have := h4 j (by omega)
          rwa [newtonIterate_succ'] at this
    · have : Elem.lt tol r = false := by
        rw [Bool.eq_false_iff]; intro h; exact hr ((elem_lt _ _).1 h)
      simp only [this]
      exact ⟨0, Nat.zero_le _, rfl, fun _ => Or.inl ⟨rfl, not_lt.1 hr⟩, by simp, by simp⟩

/-- C06: as long as no iterate hits a root exactly, the powered variant with power `p` returns an iterate of Newton's
method with the step divided by `p`, under the same stopping rule as the plain variant. -/
theorem C06_powered_newton_result (y : ℝ) (f f' : ℝ → ℝ) (guess tol : ℝ) (maxIters p : ℕ)
    (hroot : ∀ k < maxIters, f (newtonIterate y f f' p guess k) ≠ y) :
    ∃ k ≤ maxIters, inverse_newton_raphson_powered y f f' guess tol maxIters p = newtonIterate y f f' p guess k ∧
      (k < maxIters → (k = 0 ∧ 1 ≤ tol) ∨ ∃ j, k = j + 1 ∧ relResidual y f (newtonIterate y f f' p guess j) ≤ tol) ∧
      (1 ≤ k → tol < 1) ∧
      ∀ j, j + 1 < k → tol < relResidual y f (newtonIterate y f f' p guess j) := by
  have := powered_loop_spec y f f' tol p maxIters guess 1 hroot
  unfold inverse_newton_raphson_powered
  norm_num at this ⊢
  exact this

theorem inverse_newton_raphson_powered_run (y : ℝ) (f f' : ℝ → ℝ) (guess : ℝ) (p : ℕ)
    (hroot : ∀ k < 100, f (newtonIterate y f f' p guess k) ≠ y) :
    ∃ k, 1 ≤ k ∧ k ≤ 100 ∧
      inverse_newton_raphson_powered y f f' guess (1 / 1000000) 100 p = newtonIterate y f f' p guess k ∧
      (k < 100 → relResidual y f (newtonIterate y f f' p guess (k - 1)) ≤ 1 / 1000000) := by
  obtain ⟨k, hk, h1, h2, h3, -⟩ := C06_powered_newton_result y f f' guess (1 / 1000000) 100 p hroot
  have hk1 : 1 ≤ k := by
    by_contra h
    rcases h2 (by omega) with ⟨_, h⟩ | ⟨j, h, _⟩
    · norm_num at h
    · omega
  refine ⟨k, hk1, hk, h1, fun h => ?_⟩
  rcases h2 h with ⟨_, h⟩ | ⟨j, rfl, h'⟩
  · norm_num at h
  · rw [Nat.add_sub_cancel]; exact h'

theorem inverse_newton_raphson_powered_run_four (y : ℝ) (f f' : ℝ → ℝ) (guess : ℝ)
    (hroot : ∀ k < 100, f (newtonIterate y f f' 4 guess k) ≠ y) :
    ∃ k, 1 ≤ k ∧ k ≤ 100 ∧
      inverse_newton_raphson_powered y f f' guess (1 / 1000000) 100 4 = newtonIterate y f f' 4 guess k ∧
      (k < 100 → relResidual y f (newtonIterate y f f' 4 guess (k - 1)) ≤ 1 / 1000000) := by
  have := inverse_newton_raphson_powered_run y f f' guess 4
  norm_num at this hroot ⊢
  exact this hroot

theorem dampedNewtonRun_of_code (f f' guess : ℝ → ℝ) {G S : ℝ → Prop} (hS : ∀ y, G y → S (guess y)) :
    DampedNewtonRun 4 (fun y => inverse_newton_raphson_powered y f f' (guess y) (1 / 1000000) 100 4) f f' G S :=
  fun y hy => ⟨guess y, hS y hy, inverse_newton_raphson_powered_run_four y f f' (guess y)⟩

theorem dampedNewtonInverse_of_code {f f' guess : ℝ → ℝ} {G S D : ℝ → Prop}
    (hf : ∀ x, D x → HasDerivAt f (f' x) x) (hS : ∀ y, G y → S (guess y)) :
    DampedNewtonInverse 4 (fun y => inverse_newton_raphson_powered y f f' (guess y) (1 / 1000000) 100 4) f G S D :=
  ⟨f', hf, dampedNewtonRun_of_code f f' guess hS⟩

/-- C06: with power one it is the plain variant (no proviso is needed: `0^0 = 1`). -/
theorem C06_powered_one (y : ℝ) (f f' : ℝ → ℝ) (guess tol : ℝ) (maxIters : ℕ) :
    inverse_newton_raphson_powered y f f' guess tol maxIters 1 = inverse_newton_raphson y f f' guess tol maxIters := by
  unfold inverse_newton_raphson_powered inverse_newton_raphson
  generalize (1.0 : ℝ) = r
  induction maxIters generalizing guess r with
  | zero => rfl
  | succ n ih =>
    unfold inverse_newton_raphson_powered_loop inverse_newton_raphson_loop
    split
    · simp only [elem_powi, elem_abs]
      rw [ih]
      congr 1
      · simp
      · rw [← neg_sub, neg_div, abs_neg]
    · rfl

open SReal in
/-- C06: started exactly at a root with power `p ≥ 2` the result is undefined (`0/0`), for every derivative, every
admissible tolerance and every positive iteration limit. -/
theorem C06_powered_undefined_at_root (y g d tol : ℝ) (f f' : SReal → SReal) (hf : f (val g) = val y)
    (hf' : f' (val g) = val d) {p maxIters : ℕ} (hp : 2 ≤ p) (hm : 1 ≤ maxIters) (ht0 : 0 ≤ tol) (ht1 : tol < 1) :
    inverse_newton_raphson_powered (val y) f f' (val g) (val tol) maxIters p = undef := by
  obtain ⟨n, rfl⟩ : ∃ n, maxIters = n + 1 := ⟨maxIters - 1, by omega⟩
  unfold inverse_newton_raphson_powered inverse_newton_raphson_powered_loop
  have h1 : Elem.lt (val tol) (1.0 : SReal) = true := by
    rw [show (1.0 : SReal) = val (1.0) from rfl]; simp; norm_num; exact ht1
  simp only [h1, if_true, hf, hf', sub_val, sub_self]
  have hx : val g + -(Elem.powi (val 0) (p : Int)) / Elem.powi (val 0) ((p : Int) - 1) / val d / ((p : ℕ) : SReal)
      = undef := by
    rw [powi_val (Or.inr (by omega)), powi_val (Or.inr (by omega)), zero_zpow _ (by omega), zero_zpow _ (by omega)]
    have hp0 : (p : ℝ) ≠ 0 := by exact_mod_cast (by omega : p ≠ 0)
    simp
  rw [hx]
  cases n with
  | zero => rfl
  | succ n =>
    unfold inverse_newton_raphson_powered_loop
    have h2 : Elem.lt (val tol) (Elem.abs (val 0 / val y)) = false := by
      by_cases hy : y = 0
      · subst hy; simp
      · simp [hy, Elem.lt, ht0]
    simp only [h2]
    simp

/-- C06, concrete case for the hypothesis of `C06_powered_newton_result`: `x² = 0`, guess `1`, power `2`: the damped
step multiplies by `3/4`, no iterate is a root. -/
example (n : ℕ) : ∀ k < n, (fun x : ℝ => x ^ 2) (newtonIterate 0 (fun x => x ^ 2) (fun x => 2 * x) (2 : ℕ) 1 k) ≠ 0 := by
  have h : ∀ k, newtonIterate 0 (fun x => x ^ 2) (fun x => 2 * x) (2 : ℕ) 1 k = (3 / 4 : ℝ) ^ k := by
    intro k
    induction k with
    | zero => rfl
    | succ k ih =>
      rw [newtonIterate_succ, ih]
      unfold newtonStep
      have : (3 / 4 : ℝ) ^ k ≠ 0 := by positivity
      push_cast
      field_simp
      ring
  intro k _
  rw [h]
  positivity

end Polymers.Props
