import Verif.Lemmas.SwfjcSolve

/-! The force solver of the square-well chain converges when the well is at most nine tenths of a link length wide. -/

namespace Polymers.Lemmas

open Real Set Polymers.Props

section
variable {W x y r : ℝ}

theorem swVar_ge (hx : 0 < x) : x ^ 2 / 3 ≤ swVar x * (1 + x ^ 2 / 3) := by
  have hs := sinh_pos_iff.2 hx
  have h := sinh_ge_quintic hx.le
  have h2 : x * (1 + x ^ 2 / 6) ≤ sinh x := by
    have : 0 ≤ x ^ 5 / 120 := by positivity
    nlinarith
  have h3 : (x * (1 + x ^ 2 / 6)) ^ 2 ≤ sinh x ^ 2 := by
    have : 0 ≤ x * (1 + x ^ 2 / 6) := by positivity
    gcongr
  have h4 : x ^ 2 / sinh x ^ 2 * (1 + x ^ 2 / 3) ≤ 1 := by
    rw [div_mul_eq_mul_div, div_le_one (by positivity)]
    nlinarith [sq_nonneg (x ^ 3)]
  unfold swVar
  linarith

/-- Forces from which a step stays in the same set. -/
theorem sw_step_mem (hW : 1 < W) (hr0 : 0 < r) (hr : swF W r = y) (hx : 0 < x) (hxr : x ≤ 1.91 * r) :
    0 < x + (y - swF W x) / swF' W x ∧ x + (y - swF W x) / swF' W x ≤ 1.91 * r := by
  have ht := tame_swF hW
  norm_num at hxr
  rcases le_total x r with h | h
  · obtain ⟨h1, h2, -⟩ := ht.step_below hx hr h rfl
    refine ⟨hx.trans_le h1, h2.trans ?_⟩
    norm_num; linarith
  · obtain ⟨h1, h2⟩ := ht.step_above hr0 hr h rfl
    constructor
    · have : 0 < x * (2 * r - x) := mul_pos hx (by linarith)
      exact pos_of_mul_pos_right (this.trans_le h2) hr0.le
    · norm_num; linarith

/-- The guess lies in that set. -/
theorem sw_guess (hW : 1 < W) (hW9 : W ≤ 1.9) (hr0 : 0 < r) (hr : swF W r = y) (h0 : 0 < y) (hg : x = if y / W < 0.9 then math.inverse_langevin (y / W) else 10) :
    0 < x ∧ x ≤ 10 ∧ x ≤ 1.91 * r := by
  have ht := tame_swF hW
  have hW0 : 0 < W := by linarith
  have hyW : 0 < y / W := by positivity
  norm_num at hg hW9 ⊢
  split_ifs at hg with hc
  · obtain ⟨p1, p2⟩ := inverse_langevin_spec hyW (hc.trans (by norm_num))
    have p3 := inverse_langevin_below hyW (hc.trans (by norm_num))
    rw [← hg] at p1 p2 p3
    refine ⟨p1, ?_, ?_⟩
    · have h1 := langevin_ge p1
      have h2 : 1 / 10 < 1 / x := by linarith
      exact ((div_lt_div_iff_of_pos_left (by norm_num) (by norm_num) p1).1 h2).le
    · have hq : 0 < x / W := by positivity
      have h1 := swF_le hW hq
      rw [mul_div_cancel₀ _ hW0.ne'] at h1
      have h2 : W * langevin x ≤ y := by
        rw [le_div_iff₀ hW0] at p3; linarith
      have h3 : x / W ≤ r := by
        by_contra hlt
        rw [not_le] at hlt
        have h4 := ht.tangent_left hr0 hlt.le
        have h5 := mul_pos (ht.pos _ hq) (sub_pos.2 hlt)
        linarith
      rw [div_le_iff₀ hW0] at h3
      nlinarith
  · subst hg
    refine ⟨by norm_num, le_rfl, ?_⟩
    rw [not_lt, le_div_iff₀ hW0] at hc
    by_contra hlt
    rw [not_le] at hlt
    have hq : (0:ℝ) < 1000 / 191 := by norm_num
    have h1 := swF_le hW hq
    have h4 := ht.tangent_left hr0 (z := 1000 / 191) (by linarith)
    have h5 := mul_pos (ht.pos _ hq) (sub_pos.2 (show r < 1000 / 191 by linarith))
    have h6 : langevin (W * (1000 / 191)) ≤ langevin (1900 / 191) :=
      langevin_strictMonoOn.monotoneOn (mem_Ioi.2 (by positivity)) (mem_Ioi.2 (by norm_num)) (by linarith)
    have h7 : langevin (1900 / 191) < 9 / 10 := by
      have hb : (0:ℝ) < 1900 / 191 := by norm_num
      have hs := sinh_pos_iff.2 hb
      rw [langevin, one_div_tanh]
      have e : cosh (1900 / 191) / sinh (1900 / 191) = 1 + exp (-(1900 / 191)) / sinh (1900 / 191) := by
        rw [← cosh_sub_sinh]; field_simp; ring
      have h8 : exp (-(1900 / 191)) / sinh (1900 / 191 : ℝ) ≤ 1 / 5000 := by
        have h9 := sinh_ge_quintic hb.le
        have h10 : exp (-(1900 / 191 : ℝ)) ≤ 1 / 7 := by
          rw [exp_neg, inv_eq_one_div]
          have := add_one_le_exp (1900 / 191 : ℝ)
          exact one_div_le_one_div_of_le (by norm_num) (by norm_num at this ⊢; linarith)
        rw [div_le_div_iff₀ hs (by norm_num)]
        norm_num at h9
        linarith
      rw [e]
      norm_num at h8 ⊢
      linarith
    nlinarith

/-- The set on which the residual shrinks. -/
theorem sw_contract (hW : 1 < W) (hr0 : 0 < r) (hr : swF W r = y) (hx : 0.17 * r ≤ x ∧ x ≤ r) :
    (0.17 * r ≤ x + (y - swF W x) / swF' W x ∧ x + (y - swF W x) / swF' W x ≤ r) ∧
      y - swF W (x + (y - swF W x) / swF' W x) ≤ 0.83 * (y - swF W x) := by
  have ht := tame_swF hW
  norm_num at hx ⊢
  have hx0 : 0 < x := lt_of_lt_of_le (by positivity) hx.1
  obtain ⟨h1, h2, h3, h4⟩ := ht.step_below hx0 hr hx.2 rfl
  refine ⟨⟨by linarith, h2⟩, ?_⟩
  have h5 : swF W x ≤ y := hr ▸ ht.mono hx0 hx.2
  generalize x + (y - swF W x) / swF' W x = z at *
  have hz : 0 < z := by linarith
  have h6 : (z - x) * (y - swF W x) ≤ 83 / 100 * z * (y - swF W x) :=
    mul_le_mul_of_nonneg_right (by linarith) (by linarith)
  have h7 : z * (y - swF W z) ≤ z * (83 / 100 * (y - swF W x)) := by linarith
  have := le_of_mul_le_mul_left h7 hz
  linarith

/-- The set on which it shrinks near full extension. -/
theorem sw_contract_far (hW : 1 < W) (hr : swF W r = y) (hyW : y < W) (hx : 10 ≤ x ∧ x ≤ r) :
    (10 ≤ x + (y - swF W x) / swF' W x ∧ x + (y - swF W x) / swF' W x ≤ r) ∧
      y - swF W (x + (y - swF W x) / swF' W x) ≤ 0.83 * (y - swF W x) := by
  have ht := tame_swF hW
  norm_num at hx ⊢
  have hx0 : 0 < x := by linarith
  obtain ⟨h1, h2, h3, h4⟩ := ht.step_below hx0 hr hx.2 rfl
  refine ⟨⟨by linarith, h2⟩, ?_⟩
  have h5 : swF W x ≤ y := hr ▸ ht.mono hx0 hx.2
  have hg := ht.pos x hx0
  have h8 : x + (y - swF W x) / swF' W x ≤ 5 * x := by
    have hu : 0 < W * x := by positivity
    have hu10 : 10 ≤ W * x := by nlinarith
    have hv := swVar_ge hu
    have hv2 : 9 / 10 ≤ swVar (W * x) := by
      by_contra hlt
      rw [not_le] at hlt
      nlinarith
    have h9 := swF'_ge hW hx0
    have h10 := swF_ge hW hx0
    have h11 : x * (y - swF W x) ≤ 2 := by
      have : y - swF W x ≤ 2 / x := by linarith
      rw [le_div_iff₀ hx0] at this; linarith
    have h12 : (y - swF W x) / swF' W x ≤ 4 * x := by
      rw [div_le_iff₀ hg]
      have h13 : x * (y - swF W x) ≤ x * (4 * x * swF' W x) := by nlinarith
      exact le_of_mul_le_mul_left h13 hx0
    linarith
  generalize x + (y - swF W x) / swF' W x = z at *
  have hz : 0 < z := by linarith
  have h6 : (z - x) * (y - swF W x) ≤ 83 / 100 * z * (y - swF W x) :=
    mul_le_mul_of_nonneg_right (by linarith) (by linarith)
  have h7 : z * (y - swF W z) ≤ z * (83 / 100 * (y - swF W x)) := by linarith
  have := le_of_mul_le_mul_left h7 hz
  linarith

/-- A first step from above the root. -/
theorem sw_first (hW : 1 < W) (hW9 : W ≤ 1.9) (hr0 : 0 < r) (hr : swF W r = y) (h0 : 0 < y) (hx10 : x ≤ 10) (hxr : r ≤ x) (hxr' : x ≤ 1.91 * r) :
    (0.17 * r ≤ x + (y - swF W x) / swF' W x ∧ x + (y - swF W x) / swF' W x ≤ r) ∧
      (|(y - swF W x) / y| ≤ 1e-6 → y - swF W (x + (y - swF W x) / swF' W x) ≤ 1.1e-6 * y) := by
  have ht := tame_swF hW
  norm_num at hxr' hW9 ⊢
  have hx0 := hr0.trans_le hxr
  have hW0 : 0 < W := by linarith
  obtain ⟨h1, h2⟩ := ht.step_above hr0 hr hxr rfl
  have hg := ht.pos x hx0
  have e : swF' W x * (x + (y - swF W x) / swF' W x - x) = y - swF W x := by field_simp; ring
  generalize x + (y - swF W x) / swF' W x = z at *
  have h3 : 17 / 100 * r ≤ z := by
    have : r * (17 / 100 * r) ≤ r * z := by nlinarith [mul_nonneg (sub_nonneg.2 hxr) (sub_nonneg.2 hxr')]
    exact le_of_mul_le_mul_left this hr0
  refine ⟨⟨h3, h1⟩, fun hres => ?_⟩
  have hz : 0 < z := lt_of_lt_of_le (by positivity) h3
  have hle : y ≤ swF W x := hr ▸ ht.mono hr0 hxr
  rw [abs_div, abs_of_pos h0, div_le_iff₀ h0, abs_of_nonpos (by linarith)] at hres
  have h4 := ht.tangent_left hr0 hxr
  rw [hr] at h4
  have hgx : W ^ 2 / 610 ≤ swF' W x := by
    have hu : 0 < W * x := by positivity
    have hv := swVar_ge hu
    have h9 := swF'_ge hW hx0
    have hX : (W * x) ^ 2 / 3 ≤ 121 := by
      have : W * x ≤ 19 := by nlinarith
      nlinarith
    have hvp := swVar_pos hu
    have h10 : (W * x) ^ 2 / 3 ≤ swVar (W * x) * 122 := by nlinarith
    have h11 : x ^ 2 * (W ^ 2 / 610) ≤ x ^ 2 * swF' W x := by nlinarith
    exact le_of_mul_le_mul_left h11 (by positivity)
  have hyr : y ≤ W ^ 2 * r / 3 := by
    have h5 := swF_le hW hr0
    have h6 := langevin_lt_third (show 0 < W * r by positivity)
    rw [hr] at h5
    nlinarith
  have hclose : x ≤ 1001 / 1000 * r := by
    have h7 : W ^ 2 / 610 * (x - r) ≤ swF' W x * (x - r) := mul_le_mul_of_nonneg_right hgx (by linarith)
    have h8 : W ^ 2 * (x - r) ≤ W ^ 2 * (r / 1000) := by nlinarith
    have := le_of_mul_le_mul_left h8 (by positivity)
    linarith
  have hzx : 999 / 1000 * x ≤ z := by
    have : r * (999 / 1000 * x) ≤ r * z := by nlinarith
    exact le_of_mul_le_mul_left this hr0
  have k1 := ht.tangent_right hz h1
  rw [hr] at k1
  have k2 := ht.sq z x hz (h1.trans hxr)
  have k3 : z ^ 2 * (y - swF W z) ≤ x ^ 2 * (swF W x - y) := by
    calc z ^ 2 * (y - swF W z) ≤ z ^ 2 * (swF' W z * (r - z)) := by gcongr; linarith
      _ = z ^ 2 * swF' W z * (r - z) := by ring
      _ ≤ x ^ 2 * swF' W x * (r - z) := mul_le_mul_of_nonneg_right k2 (by linarith)
      _ ≤ x ^ 2 * swF' W x * (x - z) := mul_le_mul_of_nonneg_left (by linarith) (by positivity)
      _ = x ^ 2 * (swF W x - y) := by linear_combination (-x ^ 2) * e
  have k4 : x ^ 2 ≤ 11 / 10 * z ^ 2 := by nlinarith
  have k5 : x ^ 2 * (swF W x - y) ≤ 11 / 10 * z ^ 2 * (1 / 1000000 * y) := by
    apply mul_le_mul k4 (by linarith) (by linarith) (by positivity)
  have k6 : z ^ 2 * (y - swF W z) ≤ z ^ 2 * (11 / 10000000 * y) := by linarith
  have := le_of_mul_le_mul_left k6 (show 0 < z ^ 2 by positivity)
  linarith

/-- The guess is not far below the root. -/
theorem sw_guess_low (hW : 1 < W) (hW9 : W ≤ 1.9) (hr : swF W r = y) (h0 : 0 < y) (hc : y / W < 0.9) :
    0.17 * r ≤ math.inverse_langevin (y / W) := by
  have ht := tame_swF hW
  have hW0 : 0 < W := by linarith
  have hyW : 0 < y / W := by positivity
  norm_num at hc hW9 ⊢
  obtain ⟨p1, p2⟩ := inverse_langevin_spec hyW (hc.trans (by norm_num))
  have p3 := inverse_langevin_below hyW (hc.trans (by norm_num))
  generalize math.inverse_langevin (y / W) = x at *
  have hx10 : x ≤ 10 := by
    have h1 := langevin_ge p1
    have h2 : 1 / 10 < 1 / x := by linarith
    exact ((div_lt_div_iff_of_pos_left (by norm_num) (by norm_num) p1).1 h2).le
  have hy : y ≤ 100001 / 100000 * (W * langevin x) := by
    have h1 := (abs_le.1 p2).1
    norm_num at h1
    have h2 : y / W ≤ 100001 / 100000 * langevin x := by linarith
    rw [div_le_iff₀ hW0] at h2
    linarith
  have h5x : y < swF W (5 * x) := by
    have hx5 : 0 < 5 * x := by positivity
    rcases le_total x 1 with hx1 | hx1
    · have h1 := swF_ge' hW hx5
      have h2 : langevin (5 * x) ≤ langevin (W * (5 * x)) :=
        langevin_strictMonoOn.monotoneOn (mem_Ioi.2 hx5) (mem_Ioi.2 (by positivity)) (lt_well hW hx5).le
      have h3 : x * (4 / 5) ≤ langevin (5 * x) := by
        have h4 := langevin_concave.2 (x := 5) (y := 0) (by norm_num) (by norm_num) p1.le (sub_nonneg.2 hx1) (by ring)
        have h5 := langevin_ge (show (0:ℝ) < 5 by norm_num)
        simp only [smul_eq_mul, mul_zero, add_zero, langevin_zero] at h4
        rw [mul_comm 5 x]
        norm_num at h5
        nlinarith
      have h6 := langevin_lt_third p1
      nlinarith
    · have h1 := swF_ge hW hx5
      have h2 : langevin x ≤ 1 - 1 / (1 + x) := by
        have h3 := langevinU_le p1
        have h4 := langevin_eq_of_U p1.le
        have h5 := langevinU_pos p1.le
        have := one_div_le_one_div_of_le h5 h3
        linarith
      have h3 : 1 / 2 * (1 / x) ≤ 1 / (1 + x) := by
        rw [div_mul_div_comm, div_le_div_iff₀ (by positivity) (by positivity)]; linarith
      have h4 : 1 / 10 ≤ 1 / x := one_div_le_one_div_of_le p1 hx10
      have e : 2 / (5 * x) = 2 / 5 * (1 / x) := by field_simp
      rw [e] at h1
      generalize 1 / x = q at *
      have h5 : langevin x ≤ 1 - 1 / 2 * q := by linarith
      nlinarith
  have := ht.strict (by positivity) (hr ▸ h5x)
  linarith

/-- The solver returns a force at which the extension is right to about one part in a million. -/
theorem sw_solver (hW : 1 < W) (hW9 : W ≤ 1.9) (h0 : 0 < y) (h1 : y < W) {z : ℝ}
    (hz : z = math.inverse_newton_raphson_loop y (swF W) (swF' W) 1e-6 100
      (if y / W < 0.9 then math.inverse_langevin (y / W) else 10) 1.0) :
    0 < z ∧ swF W z ≤ y ∧ y - swF W z ≤ 1.1e-6 * y := by
  have ht := tame_swF hW
  obtain ⟨r, hr0, hr⟩ := swF_root hW h0 h1
  obtain ⟨x, hx⟩ : ∃ x, x = if y / W < 0.9 then math.inverse_langevin (y / W) else 10 := ⟨_, rfl⟩
  obtain ⟨g1, g2, g3⟩ := sw_guess hW hW9 hr0 hr h0 hx
  rw [← hx, math.inverse_newton_raphson_loop, if_pos (by simp only [model_real]; norm_num)] at hz
  simp only [elem_abs] at hz
  have hq : (0.83 : ℝ) ^ 99 * y ≤ 1.1e-6 * y := mul_le_mul_of_nonneg_right (by norm_num) h0.le
  have hres : ∀ x, swF W x ≤ y → 0 < x → y - swF W x ≤ y := fun x _ hx0 => by linarith [swF_pos hW hx0]
  have hres1 : ∀ x, swF W x ≤ y → ∀ z, y - swF W z ≤ 0.83 * (y - swF W x) → |(y - swF W x) / y| ≤ 1e-6 → y - swF W z ≤ 1.1e-6 * y := by
    intro x h2 z h3 h4
    rw [abs_div, abs_of_pos h0, div_le_iff₀ h0, abs_of_nonneg (by linarith)] at h4
    norm_num at h3 h4 ⊢
    linarith
  -- near the root
  have near : ∀ x1 res, (0.17 * r ≤ x1 ∧ x1 ≤ r) → (res ≤ 1e-6 → y - swF W x1 ≤ 1.1e-6 * y) →
      z = math.inverse_newton_raphson_loop y (swF W) (swF' W) 1e-6 99 x1 res → 0 < z ∧ swF W z ≤ y ∧ y - swF W z ≤ 1.1e-6 * y := by
    intro x1 res hx1 hr1 hz1
    have hp : ∀ x, 0.17 * r ≤ x → 0 < x := fun x h => lt_of_lt_of_le (by positivity) h
    have hle : ∀ x, (0.17 * r ≤ x ∧ x ≤ r) → swF W x ≤ y := fun x h => hr ▸ ht.mono (hp x h.1) h.2
    have := newton_contract_loop (S := fun x => 0.17 * r ≤ x ∧ x ≤ r) (q := 0.83) (tol := 1.1e-6) h0 (by norm_num) (by norm_num)
      (by norm_num) hle (fun x h => sw_contract hW hr0 hr h) 99 x1 res y hx1 hr1 (hres x1 (hle x1 hx1) (hp x1 hx1.1)) hq
    rw [← hz1] at this
    exact ⟨hp z this.1.1, hle z this.1, this.2⟩
  rcases le_total x r with hxr | hxr
  · have hle : swF W x ≤ y := hr ▸ ht.mono g1 hxr
    by_cases hc : y / W < 0.9
    · rw [if_pos hc] at hx
      have hlow := hx ▸ sw_guess_low hW hW9 hr h0 hc
      obtain ⟨s1, s2⟩ := sw_contract hW hr0 hr ⟨hlow, hxr⟩
      exact near _ _ s1 (hres1 x hle _ s2) hz
    · rw [if_neg hc] at hx
      have hx10 : 10 ≤ x := hx.ge
      obtain ⟨s1, s2⟩ := sw_contract_far hW hr h1 ⟨hx10, hxr⟩
      have hle' : ∀ x, (10 ≤ x ∧ x ≤ r) → swF W x ≤ y := fun x h => hr ▸ ht.mono (by linarith [h.1]) h.2
      have := newton_contract_loop (S := fun x => 10 ≤ x ∧ x ≤ r) (q := 0.83) (tol := 1.1e-6) h0 (by norm_num) (by norm_num)
        (by norm_num) hle' (fun x h => sw_contract_far hW hr h1 h) 99 _ _ y s1 (hres1 x hle _ s2)
        (hres _ (hle' _ s1) (by linarith [s1.1])) hq
      rw [← hz] at this
      exact ⟨by linarith [this.1.1], hle' z this.1, this.2⟩
  · obtain ⟨s1, s2⟩ := sw_first hW hW9 hr0 hr h0 g2 hxr g3
    exact near _ _ s1 s2 hz

end

end Polymers.Lemmas
