import Verif.Lemmas.InverseLangevin
import Verif.Props.Swfjc
import Mathlib.Analysis.SpecialFunctions.Exponential

/-! The Newton iteration of the square-well chain at the first point of its construction grid stays in a small interval to
the right of zero.  All estimates compare derivatives in the well parameter. -/

namespace Polymers

open Real Set Polymers.Props

theorem nonneg_of_deriv_nonneg_on {h h' : ℝ → ℝ} {a b : ℝ} (hab : a ≤ b) (h0 : 0 ≤ h a)
    (hd : ∀ s, HasDerivAt h (h' s) s) (hpos : ∀ s, a ≤ s → s ≤ b → 0 ≤ h' s) : 0 ≤ h b := by
  have hm : MonotoneOn h (Icc a b) := by
    apply monotoneOn_of_deriv_nonneg (convex_Icc a b)
    · exact fun y _ => (hd y).continuousAt.continuousWithinAt
    · exact fun y _ => (hd y).differentiableAt.differentiableWithinAt
    · intro y hy
      rw [interior_Icc] at hy
      rw [(hd y).deriv]; exact hpos y hy.1.le hy.2.le
  exact h0.trans (hm (left_mem_Icc.2 hab) (right_mem_Icc.2 hab) hab)

theorem cosh_le_quad {x : ℝ} (h0 : 0 ≤ x) (h1 : x ≤ 1 / 3) : cosh x ≤ 1 + 3 / 5 * x ^ 2 := by
  refine (Real.cosh_le_exp_half_sq x).trans ?_
  have hx2 : x ^ 2 / 2 ≤ 1 / 18 := by nlinarith
  have h := Real.abs_exp_sub_one_sub_id_le (x := x ^ 2 / 2) (by rw [abs_of_nonneg (by positivity)]; linarith)
  have := (abs_le.1 h).2
  nlinarith [sq_nonneg x]

theorem sinh_le_cubic {x : ℝ} (h0 : 0 ≤ x) (h1 : x ≤ 1 / 3) : sinh x ≤ x + x ^ 3 / 5 := by
  have := nonneg_of_deriv_nonneg_on (h := fun x => x + x ^ 3 / 5 - sinh x) (h' := fun x => 1 + 3 / 5 * x ^ 2 - cosh x) h0
    (by simp) (fun s => by
      refine (((hasDerivAt_id s).add ((hasDerivAt_pow 3 s).div_const 5)).sub (Real.hasDerivAt_sinh s)).congr_deriv ?_
      norm_num; ring) (fun s h2 h3 => by have := cosh_le_quad h2 (h3.trans h1); linarith)
  linarith

theorem swG_le {x : ℝ} (h0 : 0 ≤ x) (h1 : x ≤ 1 / 3) : swG x ≤ x ^ 3 / 3 + x ^ 5 / 15 := by
  have := nonneg_of_deriv_nonneg_on (h := fun x => x ^ 3 / 3 + x ^ 5 / 15 - swG x)
    (h' := fun x => x * (x + x ^ 3 / 3 - sinh x)) h0 (by simp [swG]) (fun s => by
      refine ((((hasDerivAt_pow 3 s).div_const 3).add ((hasDerivAt_pow 5 s).div_const 15)).sub
        (hasDerivAt_swG s)).congr_deriv ?_
      norm_num; ring) (fun s h2 h3 => by
        have := sinh_le_cubic h2 (h3.trans h1)
        have h4 : 0 ≤ s ^ 3 := by positivity
        refine mul_nonneg h2 (by linarith))
  linarith

theorem le_swG {x : ℝ} (h0 : 0 ≤ x) : x ^ 3 / 3 ≤ swG x := by
  have := nonneg_of_deriv_nonneg_on (h := fun x => swG x - x ^ 3 / 3)
    (h' := fun x => x * (sinh x - x)) h0 (by simp [swG]) (fun s => by
      refine ((hasDerivAt_swG s).sub ((hasDerivAt_pow 3 s).div_const 3)).congr_deriv ?_
      norm_num; ring) (fun s h2 h3 => mul_nonneg h2 (by have := self_le_sinh_iff.2 h2; linarith))
  linarith

/-- `x² sinh x - 2 x cosh x + 2 sinh x`. -/
noncomputable def swH (x : ℝ) : ℝ := x ^ 2 * sinh x - 2 * x * cosh x + 2 * sinh x

theorem hasDerivAt_swH (x : ℝ) : HasDerivAt swH (x ^ 2 * cosh x) x := by
  unfold swH
  refine ((((hasDerivAt_pow 2 x).mul (Real.hasDerivAt_sinh x)).sub
    (((hasDerivAt_id x).const_mul 2).mul (Real.hasDerivAt_cosh x))).add
    ((Real.hasDerivAt_sinh x).const_mul 2)).congr_deriv ?_
  simp only [id]; norm_num; ring

theorem le_swH {x : ℝ} (h0 : 0 ≤ x) : x ^ 3 / 3 ≤ swH x := by
  have := nonneg_of_deriv_nonneg_on (h := fun x => swH x - x ^ 3 / 3)
    (h' := fun x => x ^ 2 * (cosh x - 1)) h0 (by simp [swH]) (fun s => by
      refine ((hasDerivAt_swH s).sub ((hasDerivAt_pow 3 s).div_const 3)).congr_deriv ?_
      norm_num; ring) (fun s h2 h3 => mul_nonneg (sq_nonneg s) (by have := Real.one_le_cosh s; linarith))
  linarith

theorem swH_le {x : ℝ} (h0 : 0 ≤ x) (h1 : x ≤ 1 / 3) : swH x ≤ x ^ 3 / 3 + x ^ 5 / 6 := by
  have := nonneg_of_deriv_nonneg_on (h := fun x => x ^ 3 / 3 + x ^ 5 / 6 - swH x)
    (h' := fun x => x ^ 2 * (1 + 5 / 6 * x ^ 2 - cosh x)) h0 (by simp [swH]) (fun s => by
      refine ((((hasDerivAt_pow 3 s).div_const 3).add ((hasDerivAt_pow 5 s).div_const 6)).sub
        (hasDerivAt_swH s)).congr_deriv ?_
      norm_num; ring) (fun s h2 h3 => mul_nonneg (sq_nonneg s) (by
        have := cosh_le_quad h2 (h3.trans h1); nlinarith [sq_nonneg s]))
  linarith

/-- `η⁴` times the first derivative of the link partition function `swZ W η / η ^ 3` in the force. -/
noncomputable def swQ1 (W η : ℝ) : ℝ := η ^ 2 * (W ^ 2 * sinh (W * η) - sinh η) - 3 * swZ W η

/-- `η⁵` times the second derivative. -/
noncomputable def swQ2 (W η : ℝ) : ℝ :=
  η ^ 3 * (W ^ 3 * cosh (W * η) - cosh η) - 5 * η ^ 2 * (W ^ 2 * sinh (W * η) - sinh η) + 12 * swZ W η

theorem hasDerivAt_mul_right (η s : ℝ) : HasDerivAt (fun s => s * η) η s := by
  simpa using (hasDerivAt_id s).mul_const η

theorem hasDerivAt_swZ_well (η s : ℝ) : HasDerivAt (fun s => swZ s η) (s * η ^ 2 * sinh (s * η)) s := by
  unfold swZ
  refine (((hasDerivAt_swG (s * η)).comp s (hasDerivAt_mul_right η s)).sub_const (swG η)).congr_deriv ?_
  ring

theorem hasDerivAt_swQ1_well (η s : ℝ) : HasDerivAt (fun s => swQ1 s η) (s * η ^ 2 * swG (s * η)) s := by
  unfold swQ1
  refine ((((((hasDerivAt_pow 2 s).mul (hasDerivAt_mul_right η s).sinh).sub_const (sinh η)).const_mul (η ^ 2))).sub
    ((hasDerivAt_swZ_well η s).const_mul 3)).congr_deriv ?_
  unfold swG; norm_num; ring

theorem hasDerivAt_swQ2_well (η s : ℝ) : HasDerivAt (fun s => swQ2 s η) (s * η ^ 2 * swH (s * η)) s := by
  unfold swQ2
  refine (((((((hasDerivAt_pow 3 s).mul (hasDerivAt_mul_right η s).cosh).sub_const (cosh η)).const_mul (η ^ 3))).sub
    ((((hasDerivAt_pow 2 s).mul (hasDerivAt_mul_right η s).sinh).sub_const (sinh η)).const_mul (5 * η ^ 2))).add
    ((hasDerivAt_swZ_well η s).const_mul 12)).congr_deriv ?_
  unfold swH; norm_num; ring

theorem sw_at_one (η : ℝ) : swZ 1 η = 0 ∧ swQ1 1 η = 0 ∧ swQ2 1 η = 0 := by
  refine ⟨?_, ?_, ?_⟩ <;> simp [swQ1, swQ2, swZ]

theorem swZ_bounds {W η u : ℝ} (hW : 1 ≤ W) (hη : 0 < η) (hu : W * η ≤ u) (hu1 : u ≤ 1 / 3) :
    η ^ 3 * ((W ^ 3 - 1) / 3) ≤ swZ W η ∧ swZ W η ≤ η ^ 3 * ((W ^ 3 - 1) / 3) * (1 + u ^ 2 / 5) := by
  have hp : ∀ s : ℝ, HasDerivAt (fun s : ℝ => η ^ 3 * ((s ^ 3 - 1) / 3)) (η ^ 3 * s ^ 2) s := fun s => by
    refine (((((hasDerivAt_pow 3 s).sub_const 1).div_const 3)).const_mul (η ^ 3)).congr_deriv ?_
    norm_num
  constructor
  · have := nonneg_of_deriv_nonneg_on (h := fun s => swZ s η - η ^ 3 * ((s ^ 3 - 1) / 3))
      (h' := fun s => s * η ^ 2 * (sinh (s * η) - s * η)) hW (by simp [sw_at_one]) (fun s => by
        refine ((hasDerivAt_swZ_well η s).sub (hp s)).congr_deriv ?_; ring) (fun s h2 h3 => by
        have : 0 ≤ s * η := by positivity
        have := self_le_sinh_iff.2 this
        exact mul_nonneg (by positivity) (by linarith))
    linarith
  · have := nonneg_of_deriv_nonneg_on (h := fun s => η ^ 3 * ((s ^ 3 - 1) / 3) * (1 + u ^ 2 / 5) - swZ s η)
      (h' := fun s => s * η ^ 2 * (s * η * (1 + u ^ 2 / 5) - sinh (s * η))) hW (by simp [sw_at_one]) (fun s => by
        refine (((hp s).mul_const _).sub (hasDerivAt_swZ_well η s)).congr_deriv ?_; ring) (fun s h2 h3 => by
        have h4 : 0 ≤ s * η := by positivity
        have h5 : s * η ≤ u := (mul_le_mul_of_nonneg_right h3 hη.le).trans hu
        have := sinh_le_cubic h4 (h5.trans hu1)
        refine mul_nonneg (by positivity) ?_
        have h6 : (s * η) ^ 2 ≤ u ^ 2 := by gcongr
        nlinarith [mul_le_mul_of_nonneg_left h6 h4])
    linarith

theorem swQ1_bounds {W η u : ℝ} (hW : 1 ≤ W) (hη : 0 < η) (hu : W * η ≤ u) (hu1 : u ≤ 1 / 3) :
    η ^ 5 * ((W ^ 5 - 1) / 15) ≤ swQ1 W η ∧ swQ1 W η ≤ η ^ 5 * ((W ^ 5 - 1) / 15) * (1 + u ^ 2 / 5) := by
  have hp : ∀ s : ℝ, HasDerivAt (fun s : ℝ => η ^ 5 * ((s ^ 5 - 1) / 15)) (s * η ^ 2 * ((s * η) ^ 3 / 3)) s := fun s => by
    refine (((((hasDerivAt_pow 5 s).sub_const 1).div_const 15)).const_mul (η ^ 5)).congr_deriv ?_
    norm_num; ring
  constructor
  · have := nonneg_of_deriv_nonneg_on (h := fun s => swQ1 s η - η ^ 5 * ((s ^ 5 - 1) / 15))
      (h' := fun s => s * η ^ 2 * (swG (s * η) - (s * η) ^ 3 / 3)) hW (by simp [sw_at_one]) (fun s => by
        refine ((hasDerivAt_swQ1_well η s).sub (hp s)).congr_deriv ?_; ring) (fun s h2 h3 => by
        have : 0 ≤ s * η := by positivity
        have := le_swG this
        exact mul_nonneg (by positivity) (by linarith))
    linarith
  · have := nonneg_of_deriv_nonneg_on (h := fun s => η ^ 5 * ((s ^ 5 - 1) / 15) * (1 + u ^ 2 / 5) - swQ1 s η)
      (h' := fun s => s * η ^ 2 * ((s * η) ^ 3 / 3 * (1 + u ^ 2 / 5) - swG (s * η))) hW (by simp [sw_at_one]) (fun s => by
        refine (((hp s).mul_const _).sub (hasDerivAt_swQ1_well η s)).congr_deriv ?_; ring) (fun s h2 h3 => by
        have h4 : 0 ≤ s * η := by positivity
        have h5 : s * η ≤ u := (mul_le_mul_of_nonneg_right h3 hη.le).trans hu
        have := swG_le h4 (h5.trans hu1)
        refine mul_nonneg (by positivity) ?_
        have h6 : (s * η) ^ 2 ≤ u ^ 2 := by gcongr
        nlinarith [mul_le_mul_of_nonneg_left h6 (pow_nonneg h4 3)])
    linarith

theorem swQ2_bounds {W η u : ℝ} (hW : 1 ≤ W) (hη : 0 < η) (hu : W * η ≤ u) (hu1 : u ≤ 1 / 3) :
    η ^ 5 * ((W ^ 5 - 1) / 15) ≤ swQ2 W η ∧ swQ2 W η ≤ η ^ 5 * ((W ^ 5 - 1) / 15) * (1 + u ^ 2 / 2) := by
  have hp : ∀ s : ℝ, HasDerivAt (fun s : ℝ => η ^ 5 * ((s ^ 5 - 1) / 15)) (s * η ^ 2 * ((s * η) ^ 3 / 3)) s := fun s => by
    refine (((((hasDerivAt_pow 5 s).sub_const 1).div_const 15)).const_mul (η ^ 5)).congr_deriv ?_
    norm_num; ring
  constructor
  · have := nonneg_of_deriv_nonneg_on (h := fun s => swQ2 s η - η ^ 5 * ((s ^ 5 - 1) / 15))
      (h' := fun s => s * η ^ 2 * (swH (s * η) - (s * η) ^ 3 / 3)) hW (by simp [sw_at_one]) (fun s => by
        refine ((hasDerivAt_swQ2_well η s).sub (hp s)).congr_deriv ?_; ring) (fun s h2 h3 => by
        have : 0 ≤ s * η := by positivity
        have := le_swH this
        exact mul_nonneg (by positivity) (by linarith))
    linarith
  · have := nonneg_of_deriv_nonneg_on (h := fun s => η ^ 5 * ((s ^ 5 - 1) / 15) * (1 + u ^ 2 / 2) - swQ2 s η)
      (h' := fun s => s * η ^ 2 * ((s * η) ^ 3 / 3 * (1 + u ^ 2 / 2) - swH (s * η))) hW (by simp [sw_at_one]) (fun s => by
        refine (((hp s).mul_const _).sub (hasDerivAt_swQ2_well η s)).congr_deriv ?_; ring) (fun s h2 h3 => by
        have h4 : 0 ≤ s * η := by positivity
        have h5 : s * η ≤ u := (mul_le_mul_of_nonneg_right h3 hη.le).trans hu
        have := swH_le h4 (h5.trans hu1)
        refine mul_nonneg (by positivity) ?_
        have h6 : (s * η) ^ 2 ≤ u ^ 2 := by gcongr
        nlinarith [mul_le_mul_of_nonneg_left h6 (pow_nonneg h4 3)])
    linarith

/-- The slope of the extension at vanishing force. -/
noncomputable def swSlope (W : ℝ) : ℝ := ((W ^ 5 - 1) / 15) / ((W ^ 3 - 1) / 3)

theorem swSlope_bounds {W : ℝ} (hW : 1 < W) : W / 3 ≤ swSlope W ∧ swSlope W ≤ W ^ 2 / 3 := by
  have h3 : 0 < W ^ 3 - 1 := by nlinarith [sq_nonneg (W - 1), sq_nonneg W]
  have hW0 : 0 < W - 1 := by linarith
  unfold swSlope
  constructor
  · rw [le_div_iff₀ (by positivity)]
    have : 0 ≤ (W - 1) ^ 3 * (3 * W ^ 2 + 4 * W + 3) := by positivity
    nlinarith
  · rw [div_le_iff₀ (by positivity)]
    have : 0 ≤ (W - 1) ^ 2 * (2 * W ^ 3 + 4 * W ^ 2 + 6 * W + 3) := by positivity
    nlinarith

/-- The extension per link and its derivative in the form the code uses. -/
theorem sw_extension_eq {W η : ℝ} (hη : η ≠ 0) (hZ : swZ W η ≠ 0) :
    (W ^ 2 * η * sinh (W * η) - η * sinh η) / swZ W η - 3 / η = swQ1 W η / (η * swZ W η) ∧
    (sinh η + η * cosh η - W ^ 3 * η * cosh (W * η) - W ^ 2 * sinh (W * η)) / (-swZ W η) -
      (η ^ 2 * (sinh η - W ^ 2 * sinh (W * η)) ^ 2) / (-swZ W η) ^ 2 + 3 / η ^ 2 =
      swQ2 W η / (η ^ 2 * swZ W η) - (swQ1 W η / (η * swZ W η)) ^ 2 := by
  unfold swQ1 swQ2
  constructor
  · field_simp
  · field_simp
    ring

theorem sw_newton_bounds {W η u : ℝ} (hW : 1 < W) (hη : 0 < η) (hu : W * η ≤ u) (hu1 : u ≤ 1 / 3) :
    swSlope W * η * (1 - u ^ 2 / 5) ≤ swQ1 W η / (η * swZ W η) ∧
    swQ1 W η / (η * swZ W η) ≤ swSlope W * η * (1 + u ^ 2 / 5) ∧
    swSlope W * (1 - u ^ 2) ≤ swQ2 W η / (η ^ 2 * swZ W η) - (swQ1 W η / (η * swZ W η)) ^ 2 ∧
    swQ2 W η / (η ^ 2 * swZ W η) - (swQ1 W η / (η * swZ W η)) ^ 2 ≤ swSlope W * (1 + u ^ 2 / 2) := by
  have hZ := swZ_pos hW hη
  obtain ⟨z1, z2⟩ := swZ_bounds hW.le hη hu hu1
  obtain ⟨a1, a2⟩ := swQ1_bounds hW.le hη hu hu1
  obtain ⟨c1, c2⟩ := swQ2_bounds hW.le hη hu hu1
  have hs := swSlope_bounds hW
  have h3 : 0 < (W ^ 3 - 1) / 3 := by nlinarith [sq_nonneg (W - 1), sq_nonneg W]
  have hα : (W ^ 5 - 1) / 15 = swSlope W * ((W ^ 3 - 1) / 3) := by unfold swSlope; rw [div_mul_cancel₀ _ h3.ne']
  have hα0 : 0 < swSlope W := by linarith [hs.1]
  rw [hα] at a1 a2 c1 c2
  set D := (W ^ 3 - 1) / 3
  set α := swSlope W
  have hu0 : 0 < u := lt_of_lt_of_le (by positivity) hu
  have hu2 : u ^ 2 ≤ 1 / 9 := by nlinarith
  have f1 : α * η * (1 - u ^ 2 / 5) ≤ swQ1 W η / (η * swZ W η) := by
    rw [le_div_iff₀ (by positivity)]
    refine le_trans ?_ a1
    have h1 : (1 - u ^ 2 / 5) * swZ W η ≤ (1 - u ^ 2 / 5) * (η ^ 3 * D * (1 + u ^ 2 / 5)) :=
      mul_le_mul_of_nonneg_left z2 (by linarith)
    have h2 : (1 - u ^ 2 / 5) * (η ^ 3 * D * (1 + u ^ 2 / 5)) ≤ η ^ 3 * D := by
      have : 0 ≤ η ^ 3 * D * (u ^ 2 / 5) ^ 2 := by positivity
      nlinarith
    have h4 := mul_le_mul_of_nonneg_left (h1.trans h2) (show 0 ≤ α * η ^ 2 by positivity)
    nlinarith
  have f2 : swQ1 W η / (η * swZ W η) ≤ α * η * (1 + u ^ 2 / 5) := by
    rw [div_le_iff₀ (by positivity)]
    refine a2.trans ?_
    have h4 := mul_le_mul_of_nonneg_left z1 (show 0 ≤ α * η ^ 2 * (1 + u ^ 2 / 5) by positivity)
    nlinarith
  have g1 : α * (1 - u ^ 2 / 5) ≤ swQ2 W η / (η ^ 2 * swZ W η) := by
    rw [le_div_iff₀ (by positivity)]
    refine le_trans ?_ c1
    have h1 : (1 - u ^ 2 / 5) * swZ W η ≤ (1 - u ^ 2 / 5) * (η ^ 3 * D * (1 + u ^ 2 / 5)) :=
      mul_le_mul_of_nonneg_left z2 (by linarith)
    have h2 : (1 - u ^ 2 / 5) * (η ^ 3 * D * (1 + u ^ 2 / 5)) ≤ η ^ 3 * D := by
      have : 0 ≤ η ^ 3 * D * (u ^ 2 / 5) ^ 2 := by positivity
      nlinarith
    have h4 := mul_le_mul_of_nonneg_left (h1.trans h2) (show 0 ≤ α * η ^ 2 by positivity)
    nlinarith
  have g2 : swQ2 W η / (η ^ 2 * swZ W η) ≤ α * (1 + u ^ 2 / 2) := by
    rw [div_le_iff₀ (by positivity)]
    refine c2.trans ?_
    have h4 := mul_le_mul_of_nonneg_left z1 (show 0 ≤ α * η ^ 2 * (1 + u ^ 2 / 2) by positivity)
    nlinarith
  refine ⟨f1, f2, ?_, ?_⟩
  · have hf0 : 0 ≤ swQ1 W η / (η * swZ W η) := le_trans (by
      have : 0 ≤ 1 - u ^ 2 / 5 := by linarith
      positivity) f1
    have h1 : (swQ1 W η / (η * swZ W η)) ^ 2 ≤ (α * η * (1 + u ^ 2 / 5)) ^ 2 := by gcongr
    have h2 : α * η ^ 2 ≤ u ^ 2 / 3 := by
      have h5 : (W * η) ^ 2 ≤ u ^ 2 := by
        have : 0 ≤ W * η := by positivity
        gcongr
      have := mul_le_mul_of_nonneg_right hs.2 (sq_nonneg η)
      nlinarith
    have h3 : (α * η * (1 + u ^ 2 / 5)) ^ 2 ≤ α * (u ^ 2 / 3) * (1 + 1 / 45) ^ 2 := by
      have e : (α * η * (1 + u ^ 2 / 5)) ^ 2 = α * (α * η ^ 2) * (1 + u ^ 2 / 5) ^ 2 := by ring
      rw [e]
      have h6 : (1 + u ^ 2 / 5) ^ 2 ≤ (1 + 1 / 45) ^ 2 := by
        have : 1 + u ^ 2 / 5 ≤ 1 + 1 / 45 := by linarith
        gcongr
      gcongr
    have h4 : 0 ≤ α * u ^ 2 := by positivity
    nlinarith
  · have := sq_nonneg (swQ1 W η / (η * swZ W η))
    linarith

/-- One Newton step from anywhere in `(0, 9/320]` stays there. -/
theorem sw_newton_step {W η y : ℝ} (hW : 1 < W) (hW9 : W ≤ 9) (hη : 0 < η) (hb : η ≤ 9 / 320) (hy1 : W / 128 ≤ y)
    (hy2 : y ≤ W / 128 + 1e-6) :
    0 < η + (y - swQ1 W η / (η * swZ W η)) / (swQ2 W η / (η ^ 2 * swZ W η) - (swQ1 W η / (η * swZ W η)) ^ 2) ∧
    η + (y - swQ1 W η / (η * swZ W η)) / (swQ2 W η / (η ^ 2 * swZ W η) - (swQ1 W η / (η * swZ W η)) ^ 2) ≤ 9 / 320 := by
  have hu : W * η ≤ W * (9 / 320) := by gcongr
  have hu1 : W * (9 / 320) ≤ 81 / 320 := by linarith
  obtain ⟨f1, f2, g1, g2⟩ := sw_newton_bounds hW hη hu (by linarith)
  have hs := swSlope_bounds hW
  have hW0 : 0 < W := by linarith
  have hα0 : 0 < swSlope W := by linarith [hs.1]
  set u := W * (9 / 320) with hud
  set α := swSlope W
  set f := swQ1 W η / (η * swZ W η)
  set g := swQ2 W η / (η ^ 2 * swZ W η) - f ^ 2
  have hu0 : 0 < u := by positivity
  have hu2 : u ^ 2 ≤ 641 / 10000 := by nlinarith
  have hg : 0 < g := lt_of_lt_of_le (mul_pos hα0 (by linarith)) g1
  have e : η + (y - f) / g = (η * g - f + y) / g := by field_simp; ring
  rw [e]
  have hαη : 0 ≤ α * η := by positivity
  have hg1 : α * η * (1 - u ^ 2) ≤ η * g := by nlinarith [mul_le_mul_of_nonneg_left g1 hη.le]
  have hg2 : η * g ≤ α * η * (1 + u ^ 2 / 2) := by nlinarith [mul_le_mul_of_nonneg_left g2 hη.le]
  have hαb : α * η ≤ α * (9 / 320) := by gcongr
  constructor
  · refine div_pos ?_ hg
    have h1 : α * η * u ^ 2 ≤ W ^ 2 / 3 * (9 / 320) * u ^ 2 := by
      gcongr
      exact hs.2
    have h2 : W ^ 2 / 3 * (9 / 320) * u ^ 2 = W / 3 * (u * u ^ 2) := by rw [hud]; ring
    have h3 : u * u ^ 2 ≤ 81 / 320 * (641 / 10000) := by gcongr
    nlinarith
  · rw [div_le_iff₀ hg]
    have h1 : α * η * u ^ 2 ≤ α * (9 / 320) * (641 / 10000) := by gcongr
    have h2 : α * (1 - 641 / 10000) ≤ g := le_trans (mul_le_mul_of_nonneg_left (by linarith) hα0.le) g1
    have h3 : y ≤ W / 128 + W * 1e-6 := by norm_num at *; linarith
    norm_num at h3
    nlinarith [hs.1]

end Polymers
