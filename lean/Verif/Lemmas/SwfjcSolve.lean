import Verif.Lemmas.SwfjcMixture
import Verif.Lemmas.SwfjcDiverge
import Verif.Props.EfjcLegendre

/-! Newton's method for a concave relation whose slope times the square of the argument increases, and the square-well chain
with a narrow well as an instance. -/

namespace Polymers.Lemmas

open Real Set Filter Topology Polymers.Props

theorem nonneg_of_deriv_Icc {h h' : ℝ → ℝ} {a b : ℝ} (hab : a ≤ b) (h0 : 0 ≤ h a)
    (hd : ∀ s, a ≤ s → s ≤ b → HasDerivAt h (h' s) s) (hpos : ∀ s, a ≤ s → s ≤ b → 0 ≤ h' s) : 0 ≤ h b := by
  have hm : MonotoneOn h (Icc a b) := by
    apply monotoneOn_of_deriv_nonneg (convex_Icc a b)
    · exact fun y hy => (hd y hy.1 hy.2).continuousAt.continuousWithinAt
    · intro y hy
      rw [interior_Icc] at hy
      exact (hd y hy.1.le hy.2.le).differentiableAt.differentiableWithinAt
    · intro y hy
      rw [interior_Icc] at hy
      rw [(hd y hy.1.le hy.2.le).deriv]; exact hpos y hy.1.le hy.2.le
  exact h0.trans (hm (left_mem_Icc.2 hab) (right_mem_Icc.2 hab) hab)

/-- A relation `f` with slope `g` on the positive axis, concave, whose slope falls no faster than the inverse square. -/
structure TameConcave (f g : ℝ → ℝ) : Prop where
  deriv : ∀ x, 0 < x → HasDerivAt f (g x) x
  pos : ∀ x, 0 < x → 0 < g x
  anti : ∀ x z, 0 < x → x ≤ z → g z ≤ g x
  sq : ∀ x z, 0 < x → x ≤ z → x ^ 2 * g x ≤ z ^ 2 * g z

namespace TameConcave
variable {f g : ℝ → ℝ} (h : TameConcave f g)
include h

theorem mono {x z : ℝ} (hx : 0 < x) (hxz : x ≤ z) : f x ≤ f z := by
  have := nonneg_of_deriv_Icc (h := fun s => f s - f x) hxz (by simp)
    (fun s h1 _ => (h.deriv s (hx.trans_le h1)).sub_const _) fun s h1 _ => (h.pos s (hx.trans_le h1)).le
  linarith

theorem strict {x z : ℝ} (hz : 0 < z) (hf : f x < f z) : x < z := by
  by_contra hc
  have := h.mono hz (not_lt.1 hc)
  linarith

theorem tangent_right {x z : ℝ} (hx : 0 < x) (hxz : x ≤ z) : f z ≤ f x + g x * (z - x) := by
  have := nonneg_of_deriv_Icc (h := fun s => f x + g x * (s - x) - f s) (h' := fun s => g x - g s) hxz (by simp)
    (fun s h1 _ => by
      refine (((((hasDerivAt_id s).sub_const x).const_mul (g x)).const_add (f x)).sub (h.deriv s (hx.trans_le h1))).congr_deriv ?_
      ring) fun s h1 _ => by
      have := h.anti x s hx h1
      linarith
  linarith

theorem tangent_left {x z : ℝ} (hx : 0 < x) (hxz : x ≤ z) : f x + g z * (z - x) ≤ f z := by
  have := nonneg_of_deriv_Icc (h := fun s => f s - f x - g z * (s - x)) (h' := fun s => g s - g z) hxz (by simp)
    (fun s h1 _ => by
      refine (((h.deriv s (hx.trans_le h1)).sub_const (f x)).sub (((hasDerivAt_id s).sub_const x).const_mul (g z))).congr_deriv ?_
      ring) fun s h1 h2 => by
      have := h.anti s z (hx.trans_le h1) h2
      linarith
  linarith

theorem gain {x z : ℝ} (hx : 0 < x) (hxz : x ≤ z) : x * g x * (z - x) ≤ z * (f z - f x) := by
  have hz := hx.trans_le hxz
  have := nonneg_of_deriv_Icc (h := fun s => f s - f x - x ^ 2 * g x * (1 / x - s⁻¹)) (h' := fun s => g s - x ^ 2 * g x * (s ^ 2)⁻¹)
    hxz (by simp) (fun s h1 _ => by
      have hs := hx.trans_le h1
      refine (((h.deriv s hs).sub_const (f x)).sub (((hasDerivAt_inv hs.ne').const_sub (1 / x)).const_mul (x ^ 2 * g x))).congr_deriv ?_
      ring) fun s h1 _ => by
      have hs := hx.trans_le h1
      have := h.sq x s hx h1
      rw [sub_nonneg, ← div_eq_mul_inv, div_le_iff₀ (by positivity)]
      linarith
  have e : z * (x ^ 2 * g x * (1 / x - z⁻¹)) = x * g x * (z - x) := by field_simp
  have := mul_nonneg hz.le this
  linarith

theorem gain_le {x z : ℝ} (hx : 0 < x) (hxz : x ≤ z) : x * (f z - f x) ≤ z * g z * (z - x) := by
  have hz := hx.trans_le hxz
  have := nonneg_of_deriv_Icc (h := fun s => z ^ 2 * g z * (1 / x - s⁻¹) - (f s - f x)) (h' := fun s => z ^ 2 * g z * (s ^ 2)⁻¹ - g s)
    hxz (by simp) (fun s h1 _ => by
      have hs := hx.trans_le h1
      refine ((((hasDerivAt_inv hs.ne').const_sub (1 / x)).const_mul (z ^ 2 * g z)).sub ((h.deriv s hs).sub_const (f x))).congr_deriv ?_
      ring) fun s h1 h2 => by
      have hs := hx.trans_le h1
      have := h.sq s z hs h2
      rw [sub_nonneg, ← div_eq_mul_inv, le_div_iff₀ (by positivity)]
      linarith
  have e : x * (z ^ 2 * g z * (1 / x - z⁻¹)) = z * g z * (z - x) := by field_simp
  have := mul_nonneg hx.le this
  linarith

/-- A step from below the root: it stays below, and the residual shrinks. -/
theorem step_below {x y z r : ℝ} (hx : 0 < x) (hr : f r = y) (hxr : x ≤ r) (hz : z = x + (y - f x) / g x) :
    x ≤ z ∧ z ≤ r ∧ f z ≤ y ∧ z * (y - f z) ≤ (z - x) * (y - f x) := by
  have hg := h.pos x hx
  have hle : f x ≤ y := hr ▸ h.mono hx hxr
  have e : g x * (z - x) = y - f x := by rw [hz]; field_simp; ring
  have h1 : x ≤ z := by
    have : 0 ≤ (y - f x) / g x := div_nonneg (by linarith) hg.le
    linarith
  have h2 : z ≤ r := by
    have := h.tangent_right hx hxr
    rw [hr] at this
    have : g x * z ≤ g x * r := by linarith
    exact le_of_mul_le_mul_left this hg
  refine ⟨h1, h2, hr ▸ h.mono (hx.trans_le h1) h2, ?_⟩
  have h3 := h.gain hx h1
  have e2 : x * g x * (z - x) = x * (y - f x) := by rw [← e]; ring
  rw [e2] at h3
  linarith

/-- A step from above the root: it lands below the root but not by much. -/
theorem step_above {x y z r : ℝ} (hr0 : 0 < r) (hr : f r = y) (hxr : r ≤ x) (hz : z = x + (y - f x) / g x) :
    z ≤ r ∧ x * (2 * r - x) ≤ r * z := by
  have hx := hr0.trans_le hxr
  have hg := h.pos x hx
  have e : g x * (z - x) = y - f x := by rw [hz]; field_simp; ring
  constructor
  · have := h.tangent_left hr0 hxr
    rw [hr] at this
    have : g x * z ≤ g x * r := by linarith
    exact le_of_mul_le_mul_left this hg
  · have h1 := h.gain_le hr0 hxr
    rw [hr] at h1
    have e2 : r * (f x - y) = g x * (r * (x - z)) := by linear_combination r * e
    rw [e2, show x * g x * (x - r) = g x * (x * (x - r)) by ring] at h1
    have := le_of_mul_le_mul_left h1 hg
    linarith

end TameConcave

/-- The loop on a set which steps do not leave and on which they shrink the residual. -/
theorem newton_contract_loop {y q tol : ℝ} {f fp : ℝ → ℝ} {S : ℝ → Prop} (hy : 0 < y) (htol : 1e-6 ≤ tol) (hq0 : 0 ≤ q) (hq : q ≤ 1)
    (hS : ∀ x, S x → f x ≤ y)
    (hstep : ∀ x, S x → S (x + (y - f x) / fp x) ∧ y - f (x + (y - f x) / fp x) ≤ q * (y - f x)) (n : ℕ) :
    ∀ x res B : ℝ, S x → (res ≤ 1e-6 → y - f x ≤ tol * y) → y - f x ≤ B → q ^ n * B ≤ tol * y →
      S (math.inverse_newton_raphson_loop y f fp 1e-6 n x res) ∧
      y - f (math.inverse_newton_raphson_loop y f fp 1e-6 n x res) ≤ tol * y := by
  induction n with
  | zero =>
    intro x res B hx _ h2 h3
    rw [math.inverse_newton_raphson_loop]
    exact ⟨hx, by rw [pow_zero, one_mul] at h3; linarith⟩
  | succ n ih =>
    intro x res B hx h1 h2 h3
    rw [math.inverse_newton_raphson_loop]
    obtain ⟨s1, s2⟩ := hstep x hx
    have s3 := hS x hx
    split
    · refine ih _ _ (q * B) s1 (fun hres => ?_) (s2.trans (mul_le_mul_of_nonneg_left h2 hq0)) (by rw [pow_succ] at h3; linarith)
      simp only [elem_abs] at hres
      rw [abs_div, abs_of_pos hy, abs_of_nonneg (by linarith), div_le_iff₀ hy] at hres
      have : q * (y - f x) ≤ 1 * (y - f x) := mul_le_mul_of_nonneg_right hq (by linarith)
      have := mul_le_mul_of_nonneg_right htol hy.le
      linarith
    · rename_i hres
      refine ⟨hx, h1 ?_⟩
      simp only [model_real] at hres
      norm_num at hres ⊢
      exact hres

section
variable {W x : ℝ}

theorem swM_eq (W x : ℝ) : swM x (W * x) = swZ W x := rfl
theorem swA1_eq (W x : ℝ) : swA1 x (W * x) = swQ1 W x := by unfold swA1 swE1 swQ1 swZ; ring
theorem swA2_eq (W x : ℝ) : swA2 x (W * x) = swQ2 W x := by unfold swA2 swE2 swQ2 swZ; ring
noncomputable def swQ3 (W x : ℝ) : ℝ := swA3 x (W * x)

theorem lt_well (hW : 1 < W) (hx : 0 < x) : x < W * x := by nlinarith

theorem swF_eq (hW : 1 < W) (hx : 0 < x) : swF W x = swQ1 W x / (x * swZ W x) :=
  (sw_extension_eq hx.ne' (swZ_pos hW hx).ne').1

theorem swF'_eq (hW : 1 < W) (hx : 0 < x) : swF' W x = swS x (W * x) / (x ^ 2 * swZ W x) := by
  have hZ := (swZ_pos hW hx).ne'
  refine (sw_extension_eq hx.ne' hZ).2.trans ?_
  rw [swS, swA1_eq, swA2_eq, swM_eq]
  field_simp

theorem hasDerivAt_swZ' (hx : 0 < x) : HasDerivAt (swZ W) ((swQ1 W x + 3 * swZ W x) / x) x := by
  refine (hasDerivAt_swZ W x).congr_deriv ?_
  unfold swQ1; field_simp; ring

theorem hasDerivAt_well (W x : ℝ) : HasDerivAt (fun x => W * x) W x := by
  simpa using (hasDerivAt_id x).const_mul W

theorem hasDerivAt_swQ1 (hx : 0 < x) : HasDerivAt (swQ1 W) ((swQ2 W x + 4 * swQ1 W x) / x) x := by
  have h := ((hasDerivAt_swE1 (W * x)).comp (h₂ := swE1) (h := fun x => W * x) x (hasDerivAt_well W x)).sub (hasDerivAt_swE1 x)
  have e : swQ1 W = fun x => (swE1 ∘ fun x => W * x) x - swE1 x := by
    funext x; rw [← swA1_eq]; rfl
  rw [e]
  refine h.congr_deriv ?_
  rw [← swA2_eq, swA2, swE2, swE2]
  have : (fun x => (swE1 ∘ fun x => W * x) x - swE1 x) x = swE1 (W * x) - swE1 x := rfl
  rw [this]
  unfold swE1 swG
  field_simp
  ring

theorem hasDerivAt_swQ2 (hx : 0 < x) : HasDerivAt (swQ2 W) ((swQ3 W x + 5 * swQ2 W x) / x) x := by
  have h := ((hasDerivAt_swE2 (W * x)).comp (h₂ := swE2) (h := fun x => W * x) x (hasDerivAt_well W x)).sub (hasDerivAt_swE2 x)
  have e : swQ2 W = fun x => (swE2 ∘ fun x => W * x) x - swE2 x := by
    funext x; rw [← swA2_eq]; rfl
  rw [e]
  refine h.congr_deriv ?_
  rw [swQ3, swA3, swE3, swE3]
  have : (fun x => (swE2 ∘ fun x => W * x) x - swE2 x) x = swE2 (W * x) - swE2 x := rfl
  rw [this]
  unfold swE2 swH swG
  field_simp
  ring

theorem hasDerivAt_swF (hW : 1 < W) (hx : 0 < x) : HasDerivAt (swF W) (swF' W x) x := by
  have hZ := swZ_pos hW hx
  have h : HasDerivAt (fun x => swQ1 W x / (x * swZ W x)) (swF' W x) x := by
    refine ((hasDerivAt_swQ1 hx).div ((hasDerivAt_id x).mul (hasDerivAt_swZ' hx)) (mul_ne_zero hx.ne' hZ.ne')).congr_deriv ?_
    rw [swF'_eq hW hx, swS, swA1_eq, swA2_eq, swM_eq]
    simp only [id, Pi.mul_apply]
    field_simp
    ring
  refine h.congr_of_eventuallyEq ?_
  filter_upwards [Ioi_mem_nhds hx] with z hz
  exact swF_eq hW hz

theorem hasDerivAt_swF' (hW : 1 < W) (hx : 0 < x) : HasDerivAt (swF' W) (swT x (W * x) / (x ^ 3 * swZ W x)) x := by
  have hZ := swZ_pos hW hx
  have h : HasDerivAt (fun x => swQ2 W x / (x ^ 2 * swZ W x) - (swQ1 W x / (x * swZ W x)) ^ 2) (swT x (W * x) / (x ^ 3 * swZ W x)) x := by
    refine (((hasDerivAt_swQ2 hx).div ((hasDerivAt_pow 2 x).mul (hasDerivAt_swZ' hx)) (mul_ne_zero (pow_ne_zero 2 hx.ne') hZ.ne')).sub
      (((hasDerivAt_swQ1 hx).div ((hasDerivAt_id x).mul (hasDerivAt_swZ' hx)) (mul_ne_zero hx.ne' hZ.ne')).pow 2)).congr_deriv ?_
    rw [swT, swA1_eq, swA2_eq, swM_eq, ← swQ3]
    simp only [id, Pi.mul_apply, Pi.div_apply]
    norm_num
    field_simp
    ring
  refine h.congr_of_eventuallyEq ?_
  filter_upwards [Ioi_mem_nhds hx] with z hz
  exact (sw_extension_eq (ne_of_gt hz) (swZ_pos hW hz).ne').2

/-- The square of the force times the slope, from below. -/
theorem swF'_ge (hW : 1 < W) (hx : 0 < x) : 3 / 5 * swVar (W * x) ≤ x ^ 2 * swF' W x := by
  have hZ := swZ_pos hW hx
  have h := swS_ge hx (lt_well hW hx)
  have h2 : 0 ≤ swD x (W * x) ^ 2 / (3 * swM x (W * x)) := by
    rw [swM_eq]; positivity
  have e : x ^ 2 * swF' W x = swS x (W * x) / swZ W x := by
    rw [swF'_eq hW hx]; field_simp
  rw [e, le_div_iff₀ hZ, ← swM_eq]
  linarith

theorem tame_swF (hW : 1 < W) : TameConcave (swF W) (swF' W) where
  deriv x hx := hasDerivAt_swF hW hx
  pos x hx := by
    have := swF'_ge hW hx
    have h2 := swVar_pos (show 0 < W * x by positivity)
    exact pos_of_mul_pos_right (lt_of_lt_of_le (by positivity) this) (by positivity)
  anti x z hx hxz := by
    have := nonneg_of_deriv_Icc (h := fun s => swF' W x - swF' W s) hxz (by simp)
      (fun s h1 _ => (hasDerivAt_swF' hW (hx.trans_le h1)).const_sub _) fun s h1 _ => by
        have hs := hx.trans_le h1
        have hZ := swZ_pos hW hs
        have := swT_nonpos hs (lt_well hW hs)
        rw [neg_nonneg]
        exact div_nonpos_of_nonpos_of_nonneg this (by positivity)
    linarith
  sq x z hx hxz := by
    have := nonneg_of_deriv_Icc (h := fun s => s ^ 2 * swF' W s - x ^ 2 * swF' W x)
      (h' := fun s => (swT s (W * s) + 2 * swS s (W * s)) / (s * swZ W s)) hxz (by simp)
      (fun s h1 _ => by
        have hs := hx.trans_le h1
        have hZ := swZ_pos hW hs
        refine (((hasDerivAt_pow 2 s).mul (hasDerivAt_swF' hW hs)).sub_const _).congr_deriv ?_
        rw [swF'_eq hW hs]
        norm_num
        field_simp
        ring) fun s h1 _ => by
        have hs := hx.trans_le h1
        have hZ := swZ_pos hW hs
        exact div_nonneg (swT_ge hs (lt_well hW hs)) (by positivity)
    linarith

theorem swMean_eq (hx : 0 < x) : swMean x = x * langevin x := by
  have hs := sinh_pos_iff.2 hx
  rw [langevin_eq hx.ne', swMean, swG]; field_simp

theorem swF_eq_mean (hW : 1 < W) (hx : 0 < x) : swF W x = W * langevin (W * x) - swD x (W * x) / swZ W x / x := by
  have hZ := swZ_pos hW hx
  have e : swQ1 W x = W * x * langevin (W * x) * swZ W x - swD x (W * x) := by
    rw [← swA1_eq, swD, swM_eq, swMean_eq (by positivity)]; ring
  rw [swF_eq hW hx, e]
  field_simp

theorem swF_le (hW : 1 < W) (hx : 0 < x) : swF W x ≤ W * langevin (W * x) := by
  have hZ := swZ_pos hW hx
  have := swD_nonneg hx (lt_well hW hx).le
  rw [swF_eq_mean hW hx]
  have : 0 ≤ swD x (W * x) / swZ W x / x := by positivity
  linarith

theorem langevin_ge (hx : 0 < x) : 1 - 1 / x ≤ langevin x := by
  have hs := sinh_pos_iff.2 hx
  have : 1 ≤ cosh x / sinh x := by rw [one_le_div hs]; exact (sinh_lt_cosh x).le
  rw [langevin, one_div_tanh]; linarith

theorem swF_ge (hW : 1 < W) (hx : 0 < x) : W - 2 / x ≤ swF W x := by
  have hZ := swZ_pos hW hx
  have h1 := swD_le hx (lt_well hW hx).le
  have h2 := langevin_ge (show 0 < W * x by positivity)
  rw [swF_eq_mean hW hx]
  have h3 : swD x (W * x) / swZ W x / x ≤ 1 / x := by
    gcongr
    rw [div_le_one hZ]; exact h1
  have h4 := mul_le_mul_of_nonneg_left h2 (show 0 ≤ W by linarith)
  have e : W * (1 - 1 / (W * x)) = W - 1 / x := by field_simp
  have e2 : 2 / x = 1 / x + 1 / x := by ring
  linarith

theorem swF_ge' (hW : 1 < W) (hx : 0 < x) : 3 / 5 * (W * langevin (W * x)) ≤ swF W x := by
  have hZ := swZ_pos hW hx
  have h1 := swD_le_mean hx (lt_well hW hx).le
  rw [swMean_eq (by positivity), swM_eq] at h1
  rw [swF_eq_mean hW hx]
  have h3 : swD x (W * x) / swZ W x / x ≤ 2 / 5 * (W * langevin (W * x)) := by
    rw [div_le_iff₀ hx, div_le_iff₀ hZ]; linarith
  linarith

theorem swF_pos (hW : 1 < W) (hx : 0 < x) : 0 < swF W x := by
  have := langevin_pos (show 0 < W * x by positivity)
  exact lt_of_lt_of_le (by positivity) (swF_ge' hW hx)

theorem swF_root (hW : 1 < W) {y : ℝ} (h0 : 0 < y) (h1 : y < W) : ∃ r, 0 < r ∧ swF W r = y := by
  have hW0 : 0 < W := by linarith
  obtain ⟨a, ha⟩ : ∃ a, a = y / W ^ 2 := ⟨_, rfl⟩
  have ha0 : 0 < a := by rw [ha]; positivity
  have hfa : swF W a ≤ y := by
    have h2 := swF_le hW ha0
    have h3 := langevin_lt_third (show 0 < W * a by positivity)
    have e : W * (W * a / 3) = y / 3 := by rw [ha]; field_simp
    have := mul_lt_mul_of_pos_left h3 hW0
    linarith
  obtain ⟨b, hb⟩ : ∃ b, b = max a (2 / (W - y)) := ⟨_, rfl⟩
  have hab : a ≤ b := hb ▸ le_max_left _ _
  have hb0 := ha0.trans_le hab
  have hfb : y ≤ swF W b := by
    have h2 := swF_ge hW hb0
    have h3 : 2 / (W - y) ≤ b := hb ▸ le_max_right _ _
    have h4 : 2 / b ≤ W - y := by
      rw [div_le_iff₀ (by linarith)] at h3
      rw [div_le_iff₀ hb0]; linarith
    linarith
  have hc : ContinuousOn (swF W) (Icc a b) := fun z hz =>
    (hasDerivAt_swF hW (ha0.trans_le hz.1)).continuousAt.continuousWithinAt
  obtain ⟨r, hr, hfr⟩ := intermediate_value_Icc hab hc ⟨hfa, hfb⟩
  exact ⟨r, ha0.trans_le hr.1, hfr⟩

end

end Polymers.Lemmas
