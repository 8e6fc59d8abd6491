import Verif.Model.Math
import Verif.Lemmas.Lits
import Mathlib.Analysis.SpecialFunctions.Log.Base
import Mathlib.Analysis.SpecialFunctions.ExpDeriv
import Mathlib.Analysis.Calculus.Deriv.MeanValue
import Mathlib.Analysis.Calculus.Deriv.Inv
import Mathlib.Analysis.Calculus.Deriv.Mul
import Mathlib.Topology.Order.MonotoneConvergence
import Mathlib.Analysis.Complex.ExponentialBounds

/-! Property C08: the principal branch of the Lambert W function by Halley's method. -/

namespace Polymers.Props

open Polymers.math Set Filter Topology Real

/-- The updates are Halley's method for `w e^w = x`. -/
theorem lambert_w_update_real (x w : ℝ) :
    lambert_w_update x w = w - (w * exp w - x) / (exp w * (w + 1) - (w + 2) * (w * exp w - x) / (2 * w + 2)) := by
  simp only [lambert_w_update, model_real]

/-- The denominator of the update, times `2 w + 2`. -/
noncomputable def lwD (x w : ℝ) : ℝ := 2 * (w + 1) ^ 2 * exp w - (w + 2) * (w * exp w - x)

theorem lambert_w_update_eq {x w : ℝ} (hw : w ≠ -1) :
    lambert_w_update x w = w - 2 * (w + 1) * (w * exp w - x) / lwD x w := by
  have h1 : w + 1 ≠ 0 := fun h => hw (by linarith)
  have h2 : 2 * w + 2 = 2 * (w + 1) := by ring
  rw [lambert_w_update_real, lwD, h2]
  have h3 : exp w * (w + 1) - (w + 2) * (w * exp w - x) / (2 * (w + 1)) =
      (2 * (w + 1) ^ 2 * exp w - (w + 2) * (w * exp w - x)) / (2 * (w + 1)) := by
    field_simp
  rw [h3, div_div_eq_mul_div]
  ring

/-- C08: an exact solution is a fixed point of the update, and where the update is defined a fixed point is an exact
solution. -/
theorem C08_lambert_w_fixed_points {x w : ℝ} (_hw : w ≠ -1)
    (hD : exp w * (w + 1) - (w + 2) * (w * exp w - x) / (2 * w + 2) ≠ 0) :
    lambert_w_update x w = w ↔ w * exp w = x := by
  rw [lambert_w_update_real, sub_eq_self, div_eq_zero_iff]
  constructor
  · rintro (h | h)
    · linarith
    · exact absurd h hD
  · intro h; left; linarith

theorem C08_lambert_w_fixed_of_solution {x w : ℝ} (h : w * exp w = x) : lambert_w_update x w = w := by
  rw [lambert_w_update_real, sub_eq_zero.2 h]; simp

example : lambert_w_update (1 * exp 1) (1 : ℝ) = 1 := C08_lambert_w_fixed_of_solution rfl

theorem lambert_w_loop_of_fixed {x w : ℝ} (h : lambert_w_update x w = w) : ∀ n, lambert_w_loop x n w = w
  | 0 => rfl
  | n + 1 => by rw [lambert_w_loop, h]; exact lambert_w_loop_of_fixed h n

theorem lambert_w_real (x : ℝ) :
    lambert_w x = lambert_w_loop x (lambert_w_amount_of_iterations x) (3 / 4 * log (x + 1)) := by
  simp only [lambert_w, model_real]

/-- C08: `lambert_w(0) = 0`. -/
theorem C08_lambert_w_zero : lambert_w (0 : ℝ) = 0 := by
  rw [lambert_w_real]
  simp only [zero_add, log_one, mul_zero]
  exact lambert_w_loop_of_fixed (C08_lambert_w_fixed_of_solution (by simp)) _

/-- C08: at least four updates are made for every argument, and exactly four when `|x| ≤ 1e12`. -/
theorem C08_lambert_w_updates (x : ℝ) :
    4 ≤ lambert_w_amount_of_iterations x ∧ (|x| ≤ 1e12 → lambert_w_amount_of_iterations x = 4) := by
  refine ⟨le_max_right _ _, fun hx => ?_⟩
  refine max_eq_right ?_
  simp only [model_real]
  refine (min_le_right _ _).trans ?_
  have h12 : logb 10 x ≤ 12 := by
    rw [← logb_abs]
    rcases eq_or_ne x 0 with h | h
    · rw [h, abs_zero, logb_zero]; norm_num
    · rw [logb_le_iff_le_rpow (by norm_num) (abs_pos.2 h)]
      norm_num at hx ⊢
      exact hx
  refine Nat.floor_le_of_le ?_
  have : ⌈logb 10 x / 3⌉ ≤ 4 := Int.ceil_le.2 (by push_cast; linarith)
  exact_mod_cast this

theorem strictMonoOn_mul_exp : StrictMonoOn (fun w : ℝ => w * exp w) (Ici (-1)) := by
  have hd : ∀ w : ℝ, HasDerivAt (fun w => w * exp w) ((w + 1) * exp w) w := by
    intro w
    refine ((hasDerivAt_id w).mul (hasDerivAt_exp w)).congr_deriv ?_
    simp only [id]; ring
  refine strictMonoOn_of_deriv_pos (convex_Ici _) (fun w _ => (hd w).continuousAt.continuousWithinAt) ?_
  intro w hw
  rw [interior_Ici] at hw
  have hw : -1 < w := hw
  rw [(hd w).deriv]
  have : 0 < w + 1 := by linarith
  positivity

/-- The value of the principal branch: for `x > -1/e` there is exactly one `w > -1` with `w e^w = x`. -/
theorem exists_unique_lambert {x : ℝ} (hx : -exp (-1) < x) : ∃! w : ℝ, -1 < w ∧ w * exp w = x := by
  obtain ⟨w, hw, h⟩ : ∃ w ∈ Icc (-1) (max x 0 + 1), w * exp w = x := by
    have hc : ContinuousOn (fun w : ℝ => w * exp w) (Icc (-1) (max x 0 + 1)) :=
      (continuous_id.mul continuous_exp).continuousOn
    have hm : -1 ≤ max x 0 + 1 := by have := le_max_right x 0; linarith
    refine intermediate_value_Icc hm hc ⟨by simpa using hx.le, ?_⟩
    have h0 := le_max_right x 0
    have h1 := le_max_left x 0
    have h2 : 1 ≤ exp (max x 0 + 1) := one_le_exp (by linarith)
    show x ≤ (max x 0 + 1) * exp (max x 0 + 1)
    nlinarith
  have hw1 : -1 < w := by
    rcases eq_or_lt_of_le hw.1 with h' | h'
    · rw [← h'] at h; linarith
    · exact h'
  refine ⟨w, ⟨hw1, h⟩, ?_⟩
  rintro v ⟨hv, hv'⟩
  exact strictMonoOn_mul_exp.injOn (mem_Ici.2 hv.le) (mem_Ici.2 hw1.le) (hv'.trans h.symm)

theorem lwD_pos_of_nonpos {x u : ℝ} (hu : -1 < u) (hf : u * exp u ≤ x) : 0 < lwD x u := by
  unfold lwD
  have h1 : 0 < u + 1 := by linarith
  have : 0 < 2 * (u + 1) ^ 2 * exp u := by positivity
  nlinarith

/-- Right of the solution the denominator is positive as long as `u ≤ 0` or the solution is non-negative. -/
theorem lwD_pos_of_ge {w u : ℝ} (hw : -1 < w) (hu : w ≤ u) (h : u ≤ 0 ∨ 0 ≤ w) : 0 < lwD (w * exp w) u := by
  unfold lwD
  have h1 : 0 < u + 1 := by linarith
  have he := exp_pos u
  rcases h with h | h
  · -- by convexity `u e^u - w e^w ≤ (u + 1) e^u (u - w)`
    have hc : u * exp u - w * exp w ≤ (u + 1) * exp u * (u - w) := by
      have h2 : exp w = exp u * exp (w - u) := by rw [← exp_add]; ring_nf
      rw [h2]
      have h3 : exp (w - u) * (1 + (u - w)) ≤ 1 := by
        have h3 := add_one_le_exp (u - w)
        have h4 : exp (w - u) * exp (u - w) = 1 := by rw [← exp_add]; simp
        nlinarith [exp_pos (w - u)]
      have hE := exp_pos (w - u)
      have h5 : u - w * exp (w - u) ≤ (u + 1) * (u - w) := by
        have hd : 0 < 1 + (u - w) := by linarith
        have h6 : (u - w * exp (w - u)) * (1 + (u - w)) ≤ (u + 1) * (u - w) * (1 + (u - w)) := by
          have h7 : -w * (exp (w - u) * (1 + (u - w))) ≤ -w * 1 := mul_le_mul_of_nonneg_left h3 (by linarith)
          nlinarith [mul_nonneg h1.le (sq_nonneg (u - w))]
        exact le_of_mul_le_mul_right h6 hd
      nlinarith
    have h6 : (u + 1) * exp u * (u - w) < (u + 1) * exp u * (u + 1) := by
      refine mul_lt_mul_of_pos_left (by linarith) (by positivity)
    nlinarith [mul_pos (mul_pos h1 h1) he]
  · have hw0 : 0 ≤ w * exp w := by positivity
    have hu0 : 0 ≤ u := h.trans hu
    nlinarith [mul_nonneg hu0 he.le]

theorem hasDerivAt_lwUpdate {x u : ℝ} (hu : -1 < u) (hD : 0 < lwD x u) :
    HasDerivAt (lambert_w_update x) ((u * exp u - x) ^ 2 * (u ^ 2 + 4 * u + 6) / lwD x u ^ 2) u := by
  have hev : lambert_w_update x =ᶠ[𝓝 u] fun w => w - 2 * (w + 1) * (w * exp w - x) / lwD x w := by
    filter_upwards [lt_mem_nhds hu] with w hw
    exact lambert_w_update_eq hw.ne'
  refine HasDerivAt.congr_of_eventuallyEq ?_ hev
  have hf : HasDerivAt (fun w => w * exp w - x) ((u + 1) * exp u) u := by
    refine (((hasDerivAt_id u).mul (hasDerivAt_exp u)).sub_const x).congr_deriv ?_
    simp only [id]; ring
  have hlin : ∀ c : ℝ, HasDerivAt (fun w => w + c) 1 u := fun c => (hasDerivAt_id u).add_const c
  have hd : HasDerivAt (lwD x) (exp u * (u + 1) * (u + 4) - (u * exp u - x)) u := by
    unfold lwD
    refine ((((((hlin 1).pow 2).const_mul 2)).mul (hasDerivAt_exp u)).sub ((hlin 2).mul hf)).congr_deriv ?_
    simp only [Pi.pow_apply]
    push_cast
    ring
  refine ((hasDerivAt_id u).sub ((((hlin 1).const_mul 2).mul hf).div hd hD.ne')).congr_deriv ?_
  have h2 := hD.ne'
  simp only [Pi.mul_apply]
  field_simp
  unfold lwD
  ring

/-- One update moves towards the solution without passing it. -/
theorem lambert_w_update_between {w v : ℝ} (hw : -1 < w) (hv : -1 < v) (h : v ≤ 0 ∨ 0 ≤ w) :
    (w ≤ v → w ≤ lambert_w_update (w * exp w) v ∧ lambert_w_update (w * exp w) v ≤ v) ∧
      (v ≤ w → v ≤ lambert_w_update (w * exp w) v ∧ lambert_w_update (w * exp w) v ≤ w) := by
  have hmono : ∀ a b, -1 < a → a ≤ b → (∀ u ∈ Icc a b, 0 < lwD (w * exp w) u) →
      lambert_w_update (w * exp w) a ≤ lambert_w_update (w * exp w) b := by
    intro a b ha hab hD
    have := monotoneOn_of_deriv_nonneg (convex_Icc a b)
      (fun u hu => (hasDerivAt_lwUpdate (by linarith [hu.1]) (hD u hu)).continuousAt.continuousWithinAt)
      (fun u hu => by
        rw [interior_Icc] at hu
        exact (hasDerivAt_lwUpdate (by linarith [hu.1]) (hD u (Ioo_subset_Icc_self hu))).differentiableAt.differentiableWithinAt)
      (fun u hu => by
        rw [interior_Icc] at hu
        rw [(hasDerivAt_lwUpdate (by linarith [hu.1]) (hD u (Ioo_subset_Icc_self hu))).deriv]
        have : 0 < u ^ 2 + 4 * u + 6 := by nlinarith [sq_nonneg (u + 2)]
        positivity)
    exact this (left_mem_Icc.2 hab) (right_mem_Icc.2 hab) hab
  have hfix : lambert_w_update (w * exp w) w = w := C08_lambert_w_fixed_of_solution rfl
  constructor
  · intro hwv
    have hD : ∀ u ∈ Icc w v, 0 < lwD (w * exp w) u := by
      intro u hu
      refine lwD_pos_of_ge hw hu.1 ?_
      rcases h with h | h
      · exact .inl (hu.2.trans h)
      · exact .inr h
    refine ⟨by simpa [hfix] using hmono w v hw hwv hD, ?_⟩
    rw [lambert_w_update_eq hv.ne']
    have h1 := strictMonoOn_mul_exp.monotoneOn (mem_Ici.2 hw.le) (mem_Ici.2 hv.le) hwv
    have h2 : 0 ≤ 2 * (v + 1) * (v * exp v - w * exp w) / lwD (w * exp w) v :=
      div_nonneg (mul_nonneg (by linarith) (by linarith)) (hD v (right_mem_Icc.2 hwv)).le
    linarith
  · intro hvw
    have hle : ∀ u ∈ Icc v w, u * exp u ≤ w * exp w := fun u hu =>
      strictMonoOn_mul_exp.monotoneOn (mem_Ici.2 (by linarith [hu.1])) (mem_Ici.2 hw.le) hu.2
    have hD : ∀ u ∈ Icc v w, 0 < lwD (w * exp w) u := fun u hu =>
      lwD_pos_of_nonpos (by linarith [hu.1]) (hle u hu)
    refine ⟨?_, by simpa [hfix] using hmono v w hv hvw hD⟩
    rw [lambert_w_update_eq hv.ne']
    have h1 := hle v (left_mem_Icc.2 hvw)
    have h2 : 2 * (v + 1) * (v * exp v - w * exp w) / lwD (w * exp w) v ≤ 0 :=
      div_nonpos_of_nonpos_of_nonneg (mul_nonpos_of_nonneg_of_nonpos (by linarith) (by linarith))
        (hD v (left_mem_Icc.2 hvw)).le
    linarith

theorem lambert_w_loop_succ (x : ℝ) : ∀ n w, lambert_w_loop x (n + 1) w = lambert_w_update x (lambert_w_loop x n w)
  | 0, _ => rfl
  | n + 1, w => by rw [lambert_w_loop, lambert_w_loop_succ x n]; rfl

theorem lambert_w_loop_between {w v : ℝ} (hw : -1 < w) (hv : -1 < v) (h : v ≤ 0 ∨ 0 ≤ w) :
    (w ≤ v → Antitone (fun n => lambert_w_loop (w * exp w) n v) ∧ ∀ n, w ≤ lambert_w_loop (w * exp w) n v) ∧
      (v ≤ w → Monotone (fun n => lambert_w_loop (w * exp w) n v) ∧ ∀ n, lambert_w_loop (w * exp w) n v ≤ w) := by
  constructor
  · intro hwv
    have key : ∀ n, w ≤ lambert_w_loop (w * exp w) n v ∧ lambert_w_loop (w * exp w) n v ≤ v := by
      intro n
      induction n with
      | zero => exact ⟨hwv, le_rfl⟩
      | succ n ih =>
        rw [lambert_w_loop_succ]
        have h' : lambert_w_loop (w * exp w) n v ≤ 0 ∨ 0 ≤ w := h.imp_left fun h => ih.2.trans h
        have := (lambert_w_update_between hw (hw.trans_le ih.1) h').1 ih.1
        exact ⟨this.1, this.2.trans ih.2⟩
    refine ⟨antitone_nat_of_succ_le fun n => ?_, fun n => (key n).1⟩
    rw [lambert_w_loop_succ]
    exact ((lambert_w_update_between hw (hw.trans_le (key n).1) (h.imp_left fun h => (key n).2.trans h)).1 (key n).1).2
  · intro hvw
    have hn : ∀ u, u ≤ w → u ≤ 0 ∨ 0 ≤ w := by
      intro u hu
      rcases le_total 0 w with h | h
      · exact .inr h
      · exact .inl (hu.trans h)
    have key : ∀ n, v ≤ lambert_w_loop (w * exp w) n v ∧ lambert_w_loop (w * exp w) n v ≤ w := by
      intro n
      induction n with
      | zero => exact ⟨le_rfl, hvw⟩
      | succ n ih =>
        rw [lambert_w_loop_succ]
        have := (lambert_w_update_between hw (hv.trans_le ih.1) (hn _ ih.2)).2 ih.2
        exact ⟨ih.1.trans this.1, this.2⟩
    refine ⟨monotone_nat_of_le_succ fun n => ?_, fun n => (key n).2⟩
    rw [lambert_w_loop_succ]
    exact ((lambert_w_update_between hw (hv.trans_le (key n).1) (hn _ (key n).2)).2 (key n).2).1

/-- The starting value is above `-1`, and not positive when the solution is negative. -/
theorem lambert_w_start {x : ℝ} (hx : -exp (-1) < x) :
    -1 < 3 / 4 * log (x + 1) ∧ (x < 0 → 3 / 4 * log (x + 1) ≤ 0) := by
  have h0 : exp (-1) < 1 / 2 := by
    rw [exp_neg, one_div]
    refine inv_strictAnti₀ two_pos ?_
    have := exp_one_gt_d9
    linarith
  have h1 : 0 < x + 1 := by linarith
  constructor
  · have : -1 < log (x + 1) := by
      rw [lt_log_iff_exp_lt h1]
      linarith
    linarith
  · intro hx0
    have := log_nonpos h1.le (by linarith)
    linarith

/-- C08: for every `x > -1/e`, with `w` the solution of `w e^w = x` on the principal branch, the returned value lies
between the starting value `0.75 ln (x + 1)` and `w`; in particular it is at least as close to `w` as the start, and it
equals `w` if the start does. -/
theorem C08_lambert_w_between {x w : ℝ} (hw : -1 < w) (hx : w * exp w = x) :
    lambert_w x ∈ uIcc (3 / 4 * log (x + 1)) w ∧ |lambert_w x - w| ≤ |3 / 4 * log (x + 1) - w| := by
  have hx1 : -exp (-1) < x := by
    have := strictMonoOn_mul_exp (mem_Ici.2 le_rfl) (mem_Ici.2 hw.le) hw
    rw [← hx]; simpa using this
  obtain ⟨h1, h2⟩ := lambert_w_start hx1
  have h3 : 3 / 4 * log (x + 1) ≤ 0 ∨ 0 ≤ w := by
    rcases lt_or_ge w 0 with h | h
    · left; refine h2 ?_; rw [← hx]; exact mul_neg_of_neg_of_pos h (exp_pos w)
    · exact .inr h
  have hmem : lambert_w x ∈ uIcc (3 / 4 * log (x + 1)) w := by
    rw [lambert_w_real]
    subst hx
    obtain ⟨ha, hb⟩ := lambert_w_loop_between hw h1 h3
    rcases le_total w (3 / 4 * log (w * exp w + 1)) with h | h
    · rw [uIcc_of_ge h]
      exact ⟨(ha h).2 _, (ha h).1 (Nat.zero_le _)⟩
    · rw [uIcc_of_le h]
      exact ⟨(hb h).1 (Nat.zero_le _), (hb h).2 _⟩
  refine ⟨hmem, ?_⟩
  rw [abs_sub_comm, abs_sub_comm _ w]
  exact abs_sub_right_of_mem_uIcc hmem

/-- C08: more updates never move away from the solution, and the iteration converges to it. -/
theorem C08_lambert_w_converges {x w : ℝ} (hw : -1 < w) (hx : w * exp w = x) :
    (∀ n, |lambert_w_loop x (n + 1) (3 / 4 * log (x + 1)) - w| ≤ |lambert_w_loop x n (3 / 4 * log (x + 1)) - w|) ∧
      Tendsto (fun n => lambert_w_loop x n (3 / 4 * log (x + 1))) atTop (𝓝 w) := by
  have hx1 : -exp (-1) < x := by
    have := strictMonoOn_mul_exp (mem_Ici.2 le_rfl) (mem_Ici.2 hw.le) hw
    rw [← hx]; simpa using this
  obtain ⟨h1, h2⟩ := lambert_w_start hx1
  have h3 : 3 / 4 * log (x + 1) ≤ 0 ∨ 0 ≤ w := by
    rcases lt_or_ge w 0 with h | h
    · left; refine h2 ?_; rw [← hx]; exact mul_neg_of_neg_of_pos h (exp_pos w)
    · exact .inr h
  generalize 3 / 4 * log (x + 1) = v at *
  subst hx
  -- a limit of the iteration where the denominator is positive solves the equation
  have hlim : ∀ L, -1 < L → 0 < lwD (w * exp w) L →
      Tendsto (fun n => lambert_w_loop (w * exp w) n v) atTop (𝓝 L) → L = w := by
    intro L hL hD ht
    have hc := (hasDerivAt_lwUpdate hL hD).continuousAt.tendsto.comp ht
    have ht' := (tendsto_add_atTop_iff_nat 1).2 ht
    have e : (lambert_w_update (w * exp w) ∘ fun n => lambert_w_loop (w * exp w) n v) =
        fun n => lambert_w_loop (w * exp w) (n + 1) v := by
      funext n; simp only [Function.comp, lambert_w_loop_succ]
    rw [e] at hc
    have hfix := tendsto_nhds_unique hc ht'
    rw [lambert_w_update_eq hL.ne', sub_eq_self, div_eq_zero_iff] at hfix
    have hL1 : (0 : ℝ) < L + 1 := by linarith
    have hz : L * exp L = w * exp w := by
      rcases hfix with h | h
      · rcases mul_eq_zero.1 h with h | h <;> linarith
      · exact absurd h hD.ne'
    exact strictMonoOn_mul_exp.injOn (mem_Ici.2 hL.le) (mem_Ici.2 hw.le) hz
  obtain ⟨ha, hb⟩ := lambert_w_loop_between hw h1 h3
  rcases le_total w v with h | h
  · obtain ⟨hm, hl⟩ := ha h
    refine ⟨fun n => ?_, ?_⟩
    · rw [abs_of_nonneg (by linarith [hl (n + 1)]), abs_of_nonneg (by linarith [hl n])]
      have := hm (Nat.le_succ n)
      simp only at this
      linarith
    · have ht := tendsto_atTop_ciInf hm ⟨w, by rintro _ ⟨n, rfl⟩; exact hl n⟩
      have hwL : w ≤ ⨅ n, lambert_w_loop (w * exp w) n v := le_ciInf hl
      have hLv : (⨅ n, lambert_w_loop (w * exp w) n v) ≤ v :=
        ciInf_le (f := fun n => lambert_w_loop (w * exp w) n v) ⟨w, by rintro _ ⟨n, rfl⟩; exact hl n⟩ 0
      have := hlim _ (hw.trans_le hwL) (lwD_pos_of_ge hw hwL (h3.imp_left fun h => hLv.trans h)) ht
      rwa [this] at ht
  · obtain ⟨hm, hl⟩ := hb h
    refine ⟨fun n => ?_, ?_⟩
    · rw [abs_of_nonpos (by linarith [hl (n + 1)]), abs_of_nonpos (by linarith [hl n])]
      have := hm (Nat.le_succ n)
      simp only at this
      linarith
    · have ht := tendsto_atTop_ciSup hm ⟨w, by rintro _ ⟨n, rfl⟩; exact hl n⟩
      have hLw : (⨆ n, lambert_w_loop (w * exp w) n v) ≤ w := ciSup_le hl
      have hvL : v ≤ ⨆ n, lambert_w_loop (w * exp w) n v :=
        le_ciSup (f := fun n => lambert_w_loop (w * exp w) n v) ⟨w, by rintro _ ⟨n, rfl⟩; exact hl n⟩ 0
      have hL : -1 < ⨆ n, lambert_w_loop (w * exp w) n v := h1.trans_le hvL
      have := hlim _ hL (lwD_pos_of_nonpos hL
        (strictMonoOn_mul_exp.monotoneOn (mem_Ici.2 hL.le) (mem_Ici.2 hw.le) hLw)) ht
      rwa [this] at ht

theorem differentiableAt_lambert_w_update {v : ℝ → ℝ} {x : ℝ} (hv : DifferentiableAt ℝ v x) (h1 : -1 < v x)
    (hD : 0 < lwD x (v x)) : DifferentiableAt ℝ (fun x => lambert_w_update x (v x)) x := by
  have h2 : 2 * v x + 2 ≠ 0 := by linarith
  have h4 : v x + 1 ≠ 0 := by linarith
  have h3 : exp (v x) * (v x + 1) - (v x + 2) * (v x * exp (v x) - x) / (2 * v x + 2) ≠ 0 := by
    have e : exp (v x) * (v x + 1) - (v x + 2) * (v x * exp (v x) - x) / (2 * v x + 2) =
        lwD x (v x) / (2 * (v x + 1)) := by
      rw [lwD, show 2 * v x + 2 = 2 * (v x + 1) by ring]
      field_simp
    rw [e]
    exact div_ne_zero hD.ne' (by simpa using h4)
  simp only [lambert_w_update_real]
  fun_prop (disch := assumption)

/-- For `-1/e < x < 0` the returned value lies in `[w, 0)` and is differentiable in `x`. -/
theorem lambert_w_neg {w : ℝ} (hw : -1 < w) (hw0 : w < 0) :
    w ≤ lambert_w (w * exp w) ∧ lambert_w (w * exp w) ≤ 3 / 4 * log (w * exp w + 1) ∧
      DifferentiableAt ℝ (lambert_w : ℝ → ℝ) (w * exp w) := by
  have hx0 : w * exp w < 0 := mul_neg_of_neg_of_pos hw0 (exp_pos w)
  have hx1 : -exp (-1) < w * exp w := by
    have := strictMonoOn_mul_exp (mem_Ici.2 le_rfl) (mem_Ici.2 hw.le) hw
    simpa using this
  have he : exp (-1) < 1 / 2 := by
    rw [exp_neg, one_div]
    refine inv_strictAnti₀ two_pos ?_
    have := exp_one_gt_d9
    linarith
  obtain ⟨h1, h2⟩ := lambert_w_start hx1
  have h2 := h2 hx0
  -- the start is not below the solution
  have hge : w ≤ 3 / 4 * log (w * exp w + 1) := by
    have hle : w * exp w ≤ 3 / 4 * log (w * exp w + 1) * exp (3 / 4 * log (w * exp w + 1)) := by
      generalize hx : w * exp w = x at *
      have ht : 0 < x + 1 := by linarith
      have hlog : 1 - 1 / (x + 1) ≤ log (x + 1) := by
        have := one_sub_inv_le_log_of_pos ht
        simpa using this
      have hE : exp (3 / 4 * log (x + 1)) ≤ 4 / 3 * (x + 1) := by
        have e : exp (3 / 4 * log (x + 1)) = (x + 1) * exp (-(1 / 4) * log (x + 1)) := by
          nth_rw 2 [← exp_log ht]
          rw [← exp_add]; ring_nf
        rw [e]
        have h5 : -(1 / 4) * log (x + 1) ≤ log (4 / 3) := by
          have h6 : log (1 / 2) ≤ log (x + 1) := log_le_log (by norm_num) (by linarith)
          have h7 : log (1 / 2) = -log 2 := by rw [one_div, log_inv]
          have h8 : log 2 ≤ 4 * log (4 / 3) := by
            have : (4 : ℝ) * log (4 / 3) = log ((4 / 3) ^ 4) := by rw [log_pow]; norm_num
            rw [this]
            exact log_le_log (by norm_num) (by norm_num)
          linarith
        have h6 := exp_le_exp.2 h5
        rw [exp_log (by norm_num)] at h6
        nlinarith
      have hE0 := exp_pos (3 / 4 * log (x + 1))
      have hln : log (x + 1) ≤ 0 := log_nonpos ht.le (by linarith)
      have h9 : 3 / 4 * log (x + 1) * (4 / 3 * (x + 1)) ≤ 3 / 4 * log (x + 1) * exp (3 / 4 * log (x + 1)) :=
        mul_le_mul_of_nonpos_left hE (by linarith)
      have h10 : x ≤ log (x + 1) * (x + 1) := by
        have := mul_le_mul_of_nonneg_right hlog ht.le
        have e : (1 - 1 / (x + 1)) * (x + 1) = x := by field_simp; ring
        linarith
      linarith
    by_contra hlt
    exact absurd (strictMonoOn_mul_exp (mem_Ici.2 h1.le) (mem_Ici.2 hw.le) (not_le.1 hlt)) (not_lt.2 hle)
  have hmem := (C08_lambert_w_between hw rfl).1
  rw [uIcc_of_ge hge] at hmem
  refine ⟨hmem.1, hmem.2, ?_⟩
  -- four updates near this argument
  have hev : (lambert_w : ℝ → ℝ) =ᶠ[𝓝 (w * exp w)] fun x => lambert_w_loop x 4 (3 / 4 * log (x + 1)) := by
    filter_upwards [Ioo_mem_nhds hx1 hx0] with x hx
    have hx' : |x| ≤ 1e12 := by
      rw [abs_le]; constructor
      · norm_num; linarith [hx.1]
      · norm_num; linarith [hx.2]
    rw [lambert_w_real, (C08_lambert_w_updates x).2 hx']
  refine DifferentiableAt.congr_of_eventuallyEq ?_ hev
  have hbt := (lambert_w_loop_between hw h1 (.inl h2)).1 hge
  have key : ∀ n, DifferentiableAt ℝ (fun x => lambert_w_loop x n (3 / 4 * log (x + 1))) (w * exp w) := by
    intro n
    induction n with
    | zero =>
      simp only [lambert_w_loop]
      have : w * exp w + 1 ≠ 0 := by linarith
      fun_prop (disch := assumption)
    | succ n ih =>
      simp only [lambert_w_loop_succ]
      have hle0 : lambert_w_loop (w * exp w) n (3 / 4 * log (w * exp w + 1)) ≤ 0 := (hbt.1 (Nat.zero_le n)).trans h2
      exact differentiableAt_lambert_w_update ih (hw.trans_le (hbt.2 n)) (lwD_pos_of_ge hw (hbt.2 n) (.inl hle0))
  exact key 4

/-- C08: for `-1/e < x < 0` the returned value is never below the solution `w`, and is negative. -/
theorem C08_lambert_w_negative_side {x w : ℝ} (hw : -1 < w) (hw0 : w < 0) (hx : w * exp w = x) :
    w ≤ lambert_w x ∧ lambert_w x ≤ 3 / 4 * log (x + 1) ∧ lambert_w x < 0 := by
  subst hx
  obtain ⟨h1, h2, -⟩ := lambert_w_neg hw hw0
  refine ⟨h1, h2, h2.trans_lt ?_⟩
  have hx0 : w * exp w < 0 := mul_neg_of_neg_of_pos hw0 (exp_pos w)
  have hx1 : -exp (-1) < w * exp w := by
    have := strictMonoOn_mul_exp (mem_Ici.2 le_rfl) (mem_Ici.2 hw.le) hw
    simpa using this
  have : exp (-1) < 1 := by simp
  have := log_neg (by linarith) (show w * exp w + 1 < 1 by linarith)
  linarith

example : lambert_w (1 * exp 1) ∈ uIcc (3 / 4 * log (1 * exp 1 + 1)) 1 :=
  (C08_lambert_w_between (by norm_num) rfl).1

end Polymers.Props
