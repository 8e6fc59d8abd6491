import Verif.Props.LambertW

/-!
The slope of the computed Lambert W function between `-1/e` and `0`, where the iterates are above the solution: after any
number of updates the slope is at most that of the exact solution at the computed value.
-/

namespace Polymers.Lemmas

open Real Set Filter Topology Polymers.Props Polymers.math

/-- The derivative of one update, both arguments moving. -/
theorem hasDerivAt_lambert_update {v : ℝ → ℝ} {x d : ℝ} (hv : HasDerivAt v d x) (h1 : -1 < v x) (hD : 0 < lwD x (v x)) :
    HasDerivAt (fun x => lambert_w_update x (v x))
      (4 * (v x + 1) ^ 3 * exp (v x) / lwD x (v x) ^ 2 +
        (v x * exp (v x) - x) ^ 2 * (v x ^ 2 + 4 * v x + 6) / lwD x (v x) ^ 2 * d) x := by
  have hev : (fun x => lambert_w_update x (v x)) =ᶠ[𝓝 x] fun x => v x - 2 * (v x + 1) * (v x * exp (v x) - x) / lwD x (v x) := by
    filter_upwards [hv.continuousAt.eventually (lt_mem_nhds h1)] with z hz
    exact lambert_w_update_eq hz.ne'
  refine HasDerivAt.congr_of_eventuallyEq ?_ hev
  have he : HasDerivAt (fun x => exp (v x)) (exp (v x) * d) x := hv.exp
  have hf : HasDerivAt (fun x => v x * exp (v x) - x) (d * exp (v x) + v x * (exp (v x) * d) - 1) x :=
    (hv.mul he).sub (hasDerivAt_id x)
  have hlin : ∀ c : ℝ, HasDerivAt (fun x => v x + c) d x := fun c => hv.add_const c
  have hd : HasDerivAt (fun x => lwD x (v x)) (2 * (2 * (v x + 1) * d) * exp (v x) + 2 * (v x + 1) ^ 2 * (exp (v x) * d) -
      (d * (v x * exp (v x) - x) + (v x + 2) * (d * exp (v x) + v x * (exp (v x) * d) - 1))) x := by
    unfold lwD
    refine (((((hlin 1).pow 2).const_mul 2).mul he).sub ((hlin 2).mul hf)).congr_deriv ?_
    simp only [Pi.pow_apply]
    push_cast
    ring
  refine (hv.sub ((((hlin 1).const_mul 2).mul hf).div hd hD.ne')).congr_deriv ?_
  have h2 := hD.ne'
  simp only [Pi.mul_apply]
  field_simp
  unfold lwD
  ring

/-- One update does not increase the slope over that of the exact solution. -/
theorem lambert_update_slope {v x d : ℝ} (h1 : -1 < v) (hF : x ≤ v * exp v) (hD : 0 < lwD x v) (hd : 0 ≤ d)
    (hslope : d * ((v + 1) * exp v) ≤ 1) (hn : -1 < lambert_w_update x v) :
    0 ≤ 4 * (v + 1) ^ 3 * exp v / lwD x v ^ 2 + (v * exp v - x) ^ 2 * (v ^ 2 + 4 * v + 6) / lwD x v ^ 2 * d ∧
    (4 * (v + 1) ^ 3 * exp v / lwD x v ^ 2 + (v * exp v - x) ^ 2 * (v ^ 2 + 4 * v + 6) / lwD x v ^ 2 * d) *
      ((lambert_w_update x v + 1) * exp (lambert_w_update x v)) ≤ 1 ∧
    1 / ((v + 1) * exp v) ≤ 4 * (v + 1) ^ 3 * exp v / lwD x v ^ 2 +
      (v * exp v - x) ^ 2 * (v ^ 2 + 4 * v + 6) / lwD x v ^ 2 * d := by
  rw [lambert_w_update_eq h1.ne'] at hn ⊢
  obtain ⟨a, rfl⟩ : ∃ a, v = a - 1 := ⟨v + 1, by ring⟩
  have ha : 0 < a := by linarith
  have eD : lwD x (a - 1) = 2 * a ^ 2 * exp (a - 1) - (a + 1) * ((a - 1) * exp (a - 1) - x) := by
    unfold lwD; ring
  have hE := exp_pos (a - 1)
  generalize hEe : exp (a - 1) = E at *
  have hF0 : 0 ≤ (a - 1) * E - x := by linarith
  generalize (a - 1) * E - x = F at *
  generalize lwD x (a - 1) = D at *
  obtain ⟨u, hu⟩ : ∃ u, u = 2 * F / D := ⟨_, rfl⟩
  have hu0 : 0 ≤ u := by rw [hu]; positivity
  have hFu : F = u * D / 2 := by rw [hu]; field_simp
  have hq : 0 < 2 + (a + 1) * u := by positivity
  have hDq : D * (2 + (a + 1) * u) = 4 * a ^ 2 * E := by
    rw [hFu] at eD; linear_combination 2 * eD
  have en : a - 1 - 2 * (a - 1 + 1) * F / D = a - 1 - a * u := by rw [hu]; ring
  rw [en] at hn ⊢
  have hu1 : u < 1 := by
    have : a * u < a * 1 := by linarith
    exact lt_of_mul_lt_mul_left this ha.le
  have e1 : 4 * (a - 1 + 1) ^ 3 * E / D ^ 2 = (2 + (a + 1) * u) ^ 2 / (4 * a * E) := by
    rw [div_eq_div_iff (by positivity) (by positivity)]
    linear_combination (-(2 + (a + 1) * u) * D - 4 * a ^ 2 * E) * hDq
  have e2 : F ^ 2 * ((a - 1) ^ 2 + 4 * (a - 1) + 6) / D ^ 2 = u ^ 2 * (a ^ 2 + 2 * a + 3) / 4 := by
    rw [hFu, div_eq_iff (by positivity)]; ring
  rw [e1, e2]
  have ep : 0 ≤ (2 + (a + 1) * u) ^ 2 / (4 * a * E) := by positivity
  have ep2 : 0 ≤ u ^ 2 * (a ^ 2 + 2 * a + 3) / 4 * d := by positivity
  refine ⟨by linarith, ?_, ?_⟩
  · have h2 : exp (a - 1 - a * u) = E / exp (a * u) := by rw [← hEe, ← exp_sub]
    have h3 := quadratic_le_exp_of_nonneg (show 0 ≤ a * u by positivity)
    have h4 : d ≤ 1 / (a * E) := by
      rw [le_div_iff₀ (by positivity)]
      have e : a - 1 + 1 = a := by ring
      rwa [e] at hslope
    have h5 : (2 + (a + 1) * u) ^ 2 / (4 * a * E) + u ^ 2 * (a ^ 2 + 2 * a + 3) / 4 * d ≤
        (1 + (a + 1) * u + u ^ 2 * (a ^ 2 + 2 * a + 2) / 2) / (a * E) := by
      have h6 := mul_le_mul_of_nonneg_left h4 (show 0 ≤ u ^ 2 * (a ^ 2 + 2 * a + 3) / 4 by positivity)
      have e : (1 + (a + 1) * u + u ^ 2 * (a ^ 2 + 2 * a + 2) / 2) / (a * E) =
          (2 + (a + 1) * u) ^ 2 / (4 * a * E) + u ^ 2 * (a ^ 2 + 2 * a + 3) / 4 * (1 / (a * E)) := by
        field_simp; ring
      rw [e]; linarith
    have h7 : 0 ≤ (a - 1 - a * u + 1) * exp (a - 1 - a * u) := mul_nonneg (by linarith) (exp_pos _).le
    refine (mul_le_mul_of_nonneg_right h5 h7).trans ?_
    rw [h2]
    have hX := exp_pos (a * u)
    have e : (1 + (a + 1) * u + u ^ 2 * (a ^ 2 + 2 * a + 2) / 2) / (a * E) * ((a - 1 - a * u + 1) * (E / exp (a * u))) =
        (1 - u) * (1 + (a + 1) * u + u ^ 2 * (a ^ 2 + 2 * a + 2) / 2) / exp (a * u) := by
      field_simp; ring
    rw [e, div_le_one hX]
    have h8 : 0 ≤ u ^ 3 * (a ^ 2 + 2 * a + 2) := by positivity
    nlinarith
  · have e : a - 1 + 1 = a := by ring
    have h3 : 1 / ((a - 1 + 1) * E) ≤ (2 + (a + 1) * u) ^ 2 / (4 * a * E) := by
      rw [e, div_le_div_iff₀ (by positivity) (by positivity)]
      have : 2 ^ 2 ≤ (2 + (a + 1) * u) ^ 2 := by
        apply pow_le_pow_left₀ (by norm_num); nlinarith
      have h9 := mul_le_mul_of_nonneg_right this (show 0 ≤ a * E by positivity)
      linarith
    linarith

/-- The iterates of `lambert_w` as functions of the argument. -/
noncomputable def lwIter (n : ℕ) (x : ℝ) : ℝ := lambert_w_loop x n (3 / 4 * log (x + 1))

theorem lambert_w_eq_iter {x : ℝ} (h1 : -exp (-1) < x) (h2 : x < 0) : lambert_w x = lwIter 4 x := by
  have he : exp (-1) < 1 := by rw [exp_lt_one_iff]; norm_num
  rw [lambert_w_real, (C08_lambert_w_updates x).2, lwIter]
  rw [abs_le]; constructor <;> norm_num <;> linarith

/-- The solution and where the iterates are. -/
theorem exists_lambert_neg {x : ℝ} (h1 : -exp (-1) < x) (h2 : x < 0) : ∃ w, -1 < w ∧ w < 0 ∧ w * exp w = x := by
  obtain ⟨w, ⟨hw, e⟩, -⟩ := exists_unique_lambert h1
  refine ⟨w, hw, ?_, e⟩
  by_contra h
  have : 0 ≤ w * exp w := mul_nonneg (not_lt.1 h) (exp_pos w).le
  linarith

theorem lwIter_between {w x : ℝ} (hw : -1 < w) (hw0 : w < 0) (e : w * exp w = x) :
    Antitone (fun n => lwIter n x) ∧ (∀ n, w ≤ lwIter n x) ∧ (∀ n, lwIter n x ≤ 3 / 4 * log (x + 1)) ∧
      3 / 4 * log (x + 1) ≤ 3 / 4 * x := by
  obtain ⟨h1, h2, -⟩ := lambert_w_neg hw hw0
  have hx0 : w * exp w < 0 := mul_neg_of_neg_of_pos hw0 (exp_pos w)
  have hx1 : -exp (-1) < w * exp w := by
    have := strictMonoOn_mul_exp (mem_Ici.2 le_rfl) (mem_Ici.2 hw.le) hw
    simpa using this
  obtain ⟨s1, s2⟩ := lambert_w_start hx1
  have hb := (lambert_w_loop_between hw s1 (.inl (s2 hx0))).1 (h1.trans h2)
  subst e
  have he : exp (-1) < 1 := by rw [exp_lt_one_iff]; norm_num
  refine ⟨hb.1, hb.2, fun n => hb.1 (Nat.zero_le n), ?_⟩
  have := log_le_sub_one_of_pos (show 0 < w * exp w + 1 by linarith)
  linarith

/-- The slope of the iterates. -/
theorem lwIter_slope {x : ℝ} (h1 : -exp (-1) < x) (h2 : x < 0) (n : ℕ) :
    ∃ d, HasDerivAt (lwIter n) d x ∧ 0 ≤ d ∧ d * ((lwIter n x + 1) * exp (lwIter n x)) ≤ 1 := by
  obtain ⟨w, hw, hw0, e⟩ := exists_lambert_neg h1 h2
  obtain ⟨-, b1, b2, b3⟩ := lwIter_between hw hw0 e
  have he : exp (-1) < 1 / 2 := by
    rw [exp_neg, one_div]
    refine inv_strictAnti₀ two_pos ?_
    have := exp_one_gt_d9
    linarith
  induction n with
  | zero =>
    have hx1 : 0 < x + 1 := by linarith
    refine ⟨3 / 4 * (1 / (x + 1)), ?_, by positivity, ?_⟩
    · have := ((hasDerivAt_id x).add_const 1).log hx1.ne'
      exact this.const_mul (3 / 4)
    · have e0 : lwIter 0 x = 3 / 4 * log (x + 1) := rfl
      rw [e0]
      have hE : exp (3 / 4 * log (x + 1)) ≤ 4 / 3 * (x + 1) := by
        have e : exp (3 / 4 * log (x + 1)) = (x + 1) * exp (-(1 / 4) * log (x + 1)) := by
          nth_rw 2 [← exp_log hx1]
          rw [← exp_add]; ring_nf
        rw [e]
        have h5 : -(1 / 4) * log (x + 1) ≤ log (4 / 3) := by
          have h6 : log (1 / 2) ≤ log (x + 1) := log_le_log (by norm_num) (by linarith)
          have h7 : log (1 / 2) = -log 2 := by rw [one_div, log_inv]
          have h8 : log 2 ≤ 4 * log (4 / 3) := by
            have : (4 : ℝ) * log (4 / 3) = log ((4 / 3) ^ 4) := by rw [log_pow]; norm_num
            rw [this]
            exact log_le_log (by norm_num) (by norm_num)
          linarith
        have h6 := exp_le_exp.2 h5
        rw [exp_log (by norm_num)] at h6
        nlinarith
      have hv : -1 < 3 / 4 * log (x + 1) := by have := b1 0; rw [e0] at this; linarith
      have hv0 : 3 / 4 * log (x + 1) ≤ 0 := by linarith
      have h3 : (3 / 4 * log (x + 1) + 1) * exp (3 / 4 * log (x + 1)) ≤ 1 * (4 / 3 * (x + 1)) :=
        mul_le_mul (by linarith) hE (exp_pos _).le (by norm_num)
      calc _ ≤ 3 / 4 * (1 / (x + 1)) * (1 * (4 / 3 * (x + 1))) := mul_le_mul_of_nonneg_left h3 (by positivity)
        _ = 1 := by field_simp
  | succ n ih =>
    obtain ⟨d, hd, hd0, hs⟩ := ih
    have es : lwIter (n + 1) = fun z => lambert_w_update z (lwIter n z) := by
      funext z; exact lambert_w_loop_succ _ _ _
    have hF : x ≤ lwIter n x * exp (lwIter n x) := by
      refine e.symm.le.trans ?_
      exact strictMonoOn_mul_exp.monotoneOn (mem_Ici.2 hw.le) (mem_Ici.2 (by linarith [b1 n])) (b1 n)
    have hD : 0 < lwD x (lwIter n x) := by
      rw [← e]; exact lwD_pos_of_ge hw (e ▸ b1 n) (.inl (by rw [e]; linarith [b2 n]))
    have hn : -1 < lambert_w_update x (lwIter n x) := by
      have := b1 (n + 1); rw [es] at this; exact hw.trans_le this
    obtain ⟨s1, s2, -⟩ := lambert_update_slope (by linarith [b1 n]) hF hD hd0 hs hn
    refine ⟨_, es ▸ hasDerivAt_lambert_update hd (by linarith [b1 n]) hD, s1, ?_⟩
    rw [es]; exact s2

/-- The slope of an iterate is at least what the iterate before says. -/
theorem lwIter_slope_ge {x : ℝ} (h1 : -exp (-1) < x) (h2 : x < 0) (n : ℕ) {d : ℝ} (hd : HasDerivAt (lwIter (n + 1)) d x) :
    1 / ((lwIter n x + 1) * exp (lwIter n x)) ≤ d := by
  obtain ⟨w, hw, hw0, e⟩ := exists_lambert_neg h1 h2
  obtain ⟨-, b1, b2, b3⟩ := lwIter_between hw hw0 e
  obtain ⟨d', hd', hd0, hs⟩ := lwIter_slope h1 h2 n
  have es : lwIter (n + 1) = fun z => lambert_w_update z (lwIter n z) := by
    funext z; exact lambert_w_loop_succ _ _ _
  have hF : x ≤ lwIter n x * exp (lwIter n x) := by
    refine e.symm.le.trans ?_
    exact strictMonoOn_mul_exp.monotoneOn (mem_Ici.2 hw.le) (mem_Ici.2 (by linarith [b1 n])) (b1 n)
  have hD : 0 < lwD x (lwIter n x) := by
    rw [← e]; exact lwD_pos_of_ge hw (e ▸ b1 n) (.inl (by rw [e]; linarith [b2 n]))
  have hn : -1 < lambert_w_update x (lwIter n x) := by
    have := b1 (n + 1); rw [es] at this; exact hw.trans_le this
  obtain ⟨-, -, s3⟩ := lambert_update_slope (by linarith [b1 n]) hF hD hd0 hs hn
  rw [es] at hd
  rw [hd.unique (hasDerivAt_lambert_update hd' (by linarith [b1 n]) hD)]
  exact s3

/-- The iterates increase with the argument, and what is left of the equation decreases. -/
theorem lwIter_mono (n : ℕ) : MonotoneOn (lwIter n) (Ioo (-exp (-1)) 0) ∧
    AntitoneOn (fun x => lwIter n x * exp (lwIter n x) - x) (Ioo (-exp (-1)) 0) := by
  have hD : ∀ x ∈ Ioo (-exp (-1)) 0, ∃ d, HasDerivAt (lwIter n) d x ∧ 0 ≤ d ∧ d * ((lwIter n x + 1) * exp (lwIter n x)) ≤ 1 :=
    fun x hx => lwIter_slope hx.1 hx.2 n
  constructor
  · refine monotoneOn_of_deriv_nonneg (convex_Ioo _ _) (fun x hx => ?_) (fun x hx => ?_) fun x hx => ?_
    · obtain ⟨d, h, -⟩ := hD x hx; exact h.continuousAt.continuousWithinAt
    · rw [interior_Ioo] at hx
      obtain ⟨d, h, -⟩ := hD x hx; exact h.differentiableAt.differentiableWithinAt
    · rw [interior_Ioo] at hx
      obtain ⟨d, h, h0, -⟩ := hD x hx; rw [h.deriv]; exact h0
  · have hd : ∀ x ∈ Ioo (-exp (-1)) 0, ∃ d, HasDerivAt (fun x => lwIter n x * exp (lwIter n x) - x) d x ∧ d ≤ 0 := by
      intro x hx
      obtain ⟨d, h, h0, h1⟩ := hD x hx
      exact ⟨_, (h.mul h.exp).sub (hasDerivAt_id x), by linarith⟩
    refine antitoneOn_of_deriv_nonpos (convex_Ioo _ _) (fun x hx => ?_) (fun x hx => ?_) fun x hx => ?_
    · obtain ⟨d, h, -⟩ := hd x hx; exact h.continuousAt.continuousWithinAt
    · rw [interior_Ioo] at hx
      obtain ⟨d, h, -⟩ := hd x hx; exact h.differentiableAt.differentiableWithinAt
    · rw [interior_Ioo] at hx
      obtain ⟨d, h, h0⟩ := hd x hx; rw [h.deriv]; exact h0

/-- After the first update the iterates are not above the argument. -/
theorem lwIter_le_arg {x : ℝ} (h1 : -exp (-1) < x) (h2 : x < 0) {n : ℕ} (hn : 1 ≤ n) : lwIter n x ≤ x := by
  obtain ⟨w, hw, hw0, e⟩ := exists_lambert_neg h1 h2
  obtain ⟨b0, b1, b2, b3⟩ := lwIter_between hw hw0 e
  refine (b0 hn).trans ?_
  have he : exp (-1) < 3 / 8 := by
    rw [exp_neg, inv_lt_comm₀ (exp_pos 1) (by norm_num)]
    have := exp_one_gt_d9
    norm_num at this ⊢
    linarith
  have es : lwIter 1 x = lambert_w_update x (3 / 4 * log (x + 1)) := rfl
  have e0 : lwIter 0 x = 3 / 4 * log (x + 1) := rfl
  show lwIter 1 x ≤ x
  have c1 := b1 0
  have c2 := b2 0
  rw [e0] at c1
  have hF : x ≤ 3 / 4 * log (x + 1) * exp (3 / 4 * log (x + 1)) := by
    refine e.symm.le.trans ?_
    exact strictMonoOn_mul_exp.monotoneOn (mem_Ici.2 hw.le) (mem_Ici.2 (by linarith)) c1
  have hD : 0 < lwD x (3 / 4 * log (x + 1)) := by
    rw [← e]; exact lwD_pos_of_ge hw (by rw [e]; exact c1) (.inl (by rw [e]; linarith))
  have hlow : 2 * x ≤ 3 / 4 * log (x + 1) := by
    have h := one_sub_inv_le_log_of_pos (show 0 < x + 1 by linarith)
    have : 8 / 5 * x ≤ 1 - (x + 1)⁻¹ := by
      have e : 1 - (x + 1)⁻¹ = x * (x + 1)⁻¹ := by
        have : x + 1 ≠ 0 := by linarith
        field_simp; ring
      rw [e, mul_comm]
      refine mul_le_mul_of_nonpos_left ?_ h2.le
      rw [inv_le_comm₀ (by linarith) (by norm_num)]
      linarith
    linarith
  rw [es, lambert_w_update_eq (by linarith)]
  generalize 3 / 4 * log (x + 1) = v at *
  have ha : 0 < v + 1 := by linarith
  have hE := exp_pos v
  have h3 : (v * exp v - x) / ((v + 1) * exp v) ≤ 2 * (v + 1) * (v * exp v - x) / lwD x v := by
    rw [div_le_div_iff₀ (by positivity) hD]
    have : lwD x v ≤ 2 * (v + 1) ^ 2 * exp v := by
      unfold lwD
      have := mul_nonneg (show 0 ≤ v + 2 by linarith) (sub_nonneg.2 hF)
      linarith
    have := mul_le_mul_of_nonneg_left this (sub_nonneg.2 hF)
    linarith
  have h4 : v - x ≤ (v * exp v - x) / ((v + 1) * exp v) := by
    rw [le_div_iff₀ (by positivity)]
    have h5 := add_one_le_exp (-v)
    have h6 : exp (-v) * exp v = 1 := by rw [← exp_add]; simp
    have h7 : (-x) * ((-v + 1) * exp v) ≤ -x * 1 := by
      refine mul_le_mul_of_nonneg_left ?_ (by linarith)
      exact (mul_le_mul_of_nonneg_right h5 hE.le).trans h6.le
    have h8 : 0 ≤ v * (2 * x - v) * exp v := mul_nonneg (mul_nonneg_of_nonpos_of_nonpos (by linarith) (by linarith)) hE.le
    linarith
  linarith

end Polymers.Lemmas
