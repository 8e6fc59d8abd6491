import Verif.Lemmas.LennardJonesNewton

/-! How fast the search for the force of a Lennard-Jones link approaches it. -/

namespace Polymers.Lemmas

open Real Set Filter Topology Polymers.Props Polymers.Spec

theorem ljF''_bound {s : ℝ} (h1 : 1 ≤ s) : -126 ≤ ljF'' s := by
  have hs : 0 < s := by linarith
  have h6 : 1 ≤ s ^ 6 := one_le_pow₀ h1
  have h15 : s ^ 6 ≤ s ^ 15 := pow_le_pow_right₀ h1 (by norm_num)
  rw [ljF'', le_div_iff₀ (by positivity)]
  linarith

/-- Newton's step squares the error. -/
theorem ljNext_accurate {y s u : ℝ} (hs1 : 1 < s) (hs : s ≤ 1.03) (hfs : ljF s = y) (hu : u ∈ Icc 1 s)
    (hr : y - ljF u ≤ 1 / 1000000 * y) : y - ljF (ljNext y u) ≤ 1e-12 * y := by
  have hM : (1.03 : ℝ) < ljMax := (lt_ljMax_iff (by norm_num)).2 (by norm_num)
  have hsM : s < ljMax := by linarith
  obtain ⟨n1, n2⟩ := ljNext_mem hs1 hsM hfs hu
  have hp := ljF'_ge_three hu.1 (hu.2.trans hs)
  have h0 : 0 ≤ y - ljF u := by
    rw [sub_nonneg, ← hfs]
    exact ljF_strictMonoOn.monotoneOn ⟨hu.1, (hu.2.trans hsM.le)⟩ ⟨hs1.le, hsM.le⟩ hu.2
  have hy : y ≤ 27 / 200 := by
    rw [← hfs]
    have h1 : ljF s ≤ ljF 1.03 := ljF_strictMonoOn.monotoneOn ⟨hs1.le, hsM.le⟩ ⟨by norm_num, hM.le⟩ hs
    have h2 : ljF 1.03 ≤ 27 / 200 := by norm_num [ljF]
    linarith
  have hy0 : 0 < y := by rw [← hfs]; exact ljF_pos hs1 hsM
  have hd : ljF' u * (ljNext y u - u) = y - ljF u := by
    rw [ljNext]
    have : ljF' u ≠ 0 := by linarith
    field_simp
    ring
  have hdu : 0 ≤ ljNext y u - u := by linarith
  have h3 : ljNext y u - u ≤ 1 / 3000000 * y := by nlinarith
  generalize ljNext y u = v at *
  have hq : ljF u + ljF' u * (v - u) - 63 * (v - u) ^ 2 ≤ ljF v := by
    have g1 : ∀ t, u ≤ t → t ≤ v → ljF' u - 126 * (t - u) ≤ ljF' t := fun t ht _ => by
      have := nonneg_of_deriv_Icc (h := fun t => ljF' t - (ljF' u - 126 * (t - u))) (h' := fun t => ljF'' t + 126) ht
        (by simp) (fun r h1 _ => by
          have hr0 : r ≠ 0 := by linarith [hu.1]
          refine ((hasDerivAt_ljF' hr0).sub ((((hasDerivAt_id r).sub_const u).const_mul 126).const_sub (ljF' u))).congr_deriv ?_
          rw [ljF'']; ring) (fun r h1 _ => by linarith [ljF''_bound (hu.1.trans h1)])
      linarith
    have := nonneg_of_deriv_Icc (h := fun t => ljF t - (ljF u + ljF' u * (t - u) - 63 * (t - u) ^ 2))
      (h' := fun t => ljF' t - (ljF' u - 126 * (t - u))) n1 (by simp) (fun r h1 _ => by
        have hr0 : r ≠ 0 := by linarith [hu.1]
        refine ((hasDerivAt_ljF hr0).sub ((((((hasDerivAt_id r).sub_const u).const_mul (ljF' u)).const_add (ljF u))).sub
          ((((hasDerivAt_id r).sub_const u).pow 2).const_mul 63))).congr_deriv ?_
        simp; ring) (fun r h1 h2 => by linarith [g1 r h1 h2])
    linarith
  have h4 : (v - u) ^ 2 ≤ (1 / 3000000 * y) ^ 2 := pow_le_pow_left₀ hdu h3 2
  have h5 : y * y ≤ 27 / 200 * y := mul_le_mul_of_nonneg_right hy hy0.le
  have e : (1e-12 : ℝ) = 1 / 1000000000000 := by norm_num
  rw [e]
  nlinarith

/-- How accurate the computed stretch is. -/
theorem ljStretch_accurate {κ η s : ℝ} (hκ : 0 < κ) (hη : 0 < η) (hs1 : 1 < s) (hs : s ≤ 1.03) (hb : κ / 6 * ljF s = η) :
    η * (1 - 1e-12) ≤ κ / 6 * ljF (ljStretch κ η) := by
  have hM : (1.03 : ℝ) < ljMax := (lt_ljMax_iff (by norm_num)).2 (by norm_num)
  have hsM : s < ljMax := by linarith
  have hfs : ljF s = 6 * η / κ := by rw [← hb]; field_simp
  have h0 : ∀ x ∈ Icc 1 s, 0 < x := fun x hx => by linarith [hx.1]
  have hd : ∀ x ∈ Icc 1 s, HasDerivAt ljF (ljF' x) x := fun x hx => hasDerivAt_ljF (h0 x hx).ne'
  have hp : ∀ x ∈ Icc 1 s, 0 < ljF' x := fun x hx => ljF'_pos (h0 x hx) (hx.2.trans_lt hsM)
  obtain ⟨k, hk1, hk, hk2, hk3⟩ := inverse_newton_raphson_run (6 * η / κ) ljF ljF' 1
  have hy : 0 < 6 * η / κ := by positivity
  have hes : ljStretch κ η = newtonIterate (6 * η / κ) ljF ljF' 1 1 k := hk2
  have hmem := newtonIterate_concave hs1.le hfs hd hp (ljF_concave hsM.le)
  have key : 6 * η / κ * (1 - 1e-12) ≤ ljF (ljStretch κ η) := by
    rw [hes]
    rcases hk.eq_or_lt with rfl | hlt
    · have := lj_newton_residual hs1 hsM hfs 100
      have : ((3 / 4 : ℝ)) ^ 100 * (6 * η / κ) ≤ 1e-12 * (6 * η / κ) :=
        mul_le_mul_of_nonneg_right (by norm_num) hy.le
      linarith
    · have hi := hk3 hlt
      unfold relResidual at hi
      rw [abs_le, le_div_iff₀ hy] at hi
      obtain ⟨j, rfl⟩ : ∃ j, k = j + 1 := ⟨k - 1, by omega⟩
      rw [Nat.add_sub_cancel] at hi
      rw [newtonIterate_succ]
      have e : newtonStep (6 * η / κ) ljF ljF' 1 (newtonIterate (6 * η / κ) ljF ljF' 1 1 j) =
          ljNext (6 * η / κ) (newtonIterate (6 * η / κ) ljF ljF' 1 1 j) := by
        rw [newtonStep, ljNext]; norm_num; ring
      rw [e]
      have := ljNext_accurate hs1 hs hfs (hmem j) (by linarith [hi.1])
      linarith
  have := mul_le_mul_of_nonneg_left key (by positivity : 0 ≤ κ / 6)
  have e : κ / 6 * (6 * η / κ * (1 - 1e-12)) = η * (1 - 1e-12) := by field_simp
  linarith

theorem lj_root' {κ η : ℝ} (hκ : 0 < κ) (hη : 0 < η) (hX : η < 2 * κ / 91) :
    ∃ s, 1 < s ∧ s < ljMax ∧ s ≤ 1.03 ∧ κ / 6 * ljF s = η := by
  have h1 : (1.03 : ℝ) < ljMax := (lt_ljMax_iff (by norm_num)).2 (by norm_num)
  have h2 : ljF 1.03 < ljF ljMax := ljF_strictMonoOn ⟨by norm_num, h1.le⟩ (right_mem_Icc.2 one_lt_ljMax.le) h1
  have h3 : 0.132 < ljF 1.03 := by norm_num [ljF]
  obtain ⟨s, hs, hfs⟩ := exists_lj_root (y := 6 * η / κ) (by positivity) (by
    rw [div_lt_iff₀ hκ]; norm_num at h2 h3; nlinarith)
  refine ⟨s, hs.1, hs.2, ?_, by rw [hfs]; field_simp⟩
  rw [← ljF_strictMonoOn.le_iff_le ⟨hs.1.le, hs.2.le⟩ ⟨by norm_num, h1.le⟩, hfs]
  refine le_trans ?_ h3.le
  rw [div_le_iff₀ hκ]
  norm_num; linarith

/-- The computed stretch between two forces. -/
theorem ljStretch_sub {κ x z : ℝ} (hκ : 0 < κ) (hz : 0 < z) (hzx : z ≤ x) (hX : x < 2 * κ / 91) :
    (ljStretch κ x - ljStretch κ z) * κ ≤ 2 * (x - z) + 2e-12 * z := by
  obtain ⟨s, h1, h2, h3, h4⟩ := lj_root' hκ (hz.trans_le hzx) hX
  obtain ⟨t, k1, k2, k3, k4⟩ := lj_root' hκ hz (hzx.trans_lt hX)
  obtain ⟨b1, b2, b3, -⟩ := ljStretch_bounds hκ (hz.trans_le hzx) h1 h2 h4
  obtain ⟨d1, d2, d3, -⟩ := ljStretch_bounds hκ hz k1 k2 k4
  have d4 := ljStretch_accurate hκ hz k1 k3 k4
  have hts : t ≤ s := by
    rw [← ljF_strictMonoOn.le_iff_le ⟨k1.le, k2.le⟩ ⟨h1.le, h2.le⟩]
    have : κ / 6 * ljF t ≤ κ / 6 * ljF s := by rw [h4, k4]; exact hzx
    exact le_of_mul_le_mul_left this (by positivity)
  have t1 := ljF_tangent (a := s) (b := t) ⟨h1.le, h2⟩ ⟨k1.le, k2⟩
  have t2 := ljF_tangent (a := t) (b := ljStretch κ z) ⟨k1.le, k2⟩ ⟨d1.le, by linarith⟩
  have p1 := ljF'_ge_three h1.le h3
  have p2 := ljF'_ge_three k1.le k3
  have q1 : 3 * (s - t) ≤ ljF s - ljF t := by nlinarith
  have q2 : 3 * (t - ljStretch κ z) ≤ ljF t - ljF (ljStretch κ z) := by nlinarith
  have r1 := mul_le_mul_of_nonneg_left q1 (by positivity : 0 ≤ κ / 6)
  have r2 := mul_le_mul_of_nonneg_left q2 (by positivity : 0 ≤ κ / 6)
  have r3 : (ljStretch κ x - s) * κ ≤ 0 := mul_nonpos_of_nonpos_of_nonneg (by linarith) hκ.le
  norm_num at d4 ⊢
  linarith

theorem ljPsi'_le {κ x : ℝ} (hκ : 40 ≤ κ) (h6 : κ ≤ 1000000) (hx : 1 / 1000000 < x) (hX : x < κ / 46) :
    ljPsi' κ x ≤ 2.03 * (1 / κ) := by
  have hκ0 : 0 < κ := by linarith
  have := ljStretch_sub hκ0 (z := x - 1 / 1000000) (x := x + 1 / 1000000) (by linarith) (by linarith) (by linarith)
  rw [ljPsi', mul_one_div, div_le_div_iff₀ (by norm_num) hκ0]
  norm_num at this ⊢
  linarith

/-- How much of the residual a step leaves. -/
theorem lj_step_gain {C C' : ℝ → ℝ} {κ γ x z : ℝ} (hC : MildCorr C C' (κ / 46)) (hκ : 40 ≤ κ) (h6 : κ ≤ 1000000)
    (hx : 1 / 1000000 < x) (hX : x < κ / 46) (hz : 0 < z) (hzx : z < x)
    (hS : 4 * (1 / x ^ 2 - 1 / sinh x ^ 2 + C' x + ljPsi' κ x) * (x - z) = langevin x + C x + ljPsi κ x - γ) :
    langevin z + C z + ljPsi κ z - γ ≤ 351 / 400 * (langevin x + C x + ljPsi κ x - γ) := by
  have hκ0 : 0 < κ := by linarith
  have hx0 : 0 < x := by linarith
  have h5 := hC.concave x z hx0 hz
  have h7 := hC.slope x hx0 hX
  have hd := langevin_deriv_pos hx0.ne'
  have hi := ljStretch_increase hκ0 hz hzx.le (hX.trans (lj_force_max hκ0).1)
  have hp := ljPsi'_le hκ h6 hx hX
  norm_num at hp
  rw [ljPsi, ljPsi] at *
  have hA0 : 0 < 1 / x ^ 2 - 1 / sinh x ^ 2 + C' x := by linarith
  generalize 1 / x ^ 2 - 1 / sinh x ^ 2 + C' x = A at *
  have hδ : 0 < x - z := by linarith
  have e : (x - z) / κ = κ⁻¹ * (x - z) := by ring
  rw [e] at hi
  have hS' := mul_le_mul_of_nonneg_right hp hδ.le
  have hAδ := mul_pos hA0 hδ
  have hkδ : 0 < κ⁻¹ * (x - z) := by positivity
  linarith

/-- The residual at the start. -/
theorem lj_start {C C' : ℝ → ℝ} {κ γ x : ℝ} (hC : MildCorr C C' (κ / 46)) (hC6 : C x ≤ x / 6) (hκ : 40 ≤ κ) (hx : 0 < x)
    (hX : x < κ / 46) (hL : langevin x ≤ γ) : langevin x + C x + ljPsi κ x - γ ≤ 9 / 10 * γ := by
  have hκ0 : 0 < κ := by linarith
  obtain ⟨-, p1⟩ := ljPsi_bounds hκ0 hx hX
  obtain ⟨c1, -⟩ := hC.le x hx hX
  have p2 : 2 * x / κ ≤ x / 20 := by rw [div_le_iff₀ hκ0]; nlinarith
  have p3 : 2 * x / κ ≤ 1 / 23 := by rw [div_le_iff₀ hκ0]; linarith
  have hm : ∀ {y : ℝ}, 0 < y → y ≤ x → langevin y ≤ langevin x := fun hy h =>
    langevin_strictMonoOn.monotoneOn (mem_Ioi.2 hy) (mem_Ioi.2 hx) h
  suffices C x + ljPsi κ x ≤ 9 / 10 * langevin x by linarith
  rcases le_or_gt x 1 with h | h
  · have h1 := langevin_gt_cubic hx
    have h2 : x ^ 3 ≤ x := by
      have : x ^ 2 ≤ 1 := pow_le_one₀ hx.le h
      nlinarith
    linarith
  rcases le_or_gt x (129 / 100) with h' | h'
  · have h1 := langevin_gt_cubic (x := 1) (by norm_num)
    have := hm (y := 1) (by norm_num) h.le
    norm_num at h1
    linarith
  rcases le_or_gt x (158 / 100) with h'' | h''
  · have h1 := langevin_gt_cubic (x := 129 / 100) (by norm_num)
    have := hm (y := 129 / 100) (by norm_num) h'.le
    norm_num at h1
    linarith
  · have h1 := langevin_gt_cubic (x := 158 / 100) (by norm_num)
    have := hm (y := 158 / 100) (by norm_num) h''.le
    norm_num at h1
    linarith

end Polymers.Lemmas
