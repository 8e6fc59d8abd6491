import Verif.Lemmas.EfjcAsymptotic
import Verif.Props.Morse

/-!
Quarter-length Newton steps for `L x + C x + ψ x = y` where `ψ` is the stretch of a Morse link and `C` the correction of the
asymptotic approach (or zero).
-/

namespace Polymers.Lemmas

open Real Set Polymers.Props

/-- The stretch of a Morse link under a force. -/
noncomputable def morsePsi (a M x : ℝ) : ℝ := log (2 / (1 + √(1 - x / M))) / a
/-- Its derivative. -/
noncomputable def morsePsi' (a M x : ℝ) : ℝ := 1 / (2 * M * √(1 - x / M) * (1 + √(1 - x / M))) / a

theorem hasDerivAt_morsePsi {a M x : ℝ} (hM : 0 < M) (hx : x < M) : HasDerivAt (morsePsi a M) (morsePsi' a M x) x :=
  (hasDerivAt_morse_log hM hx).div_const a

/-- The square roots at two points. -/
theorem morse_roots {M x z : ℝ} (hM : 0 < M) (hz : z ≤ x) (hx : x < M) :
    ∃ s t : ℝ, √(1 - x / M) = s ∧ √(1 - z / M) = t ∧ 0 < s ∧ s ≤ t ∧ x = M * (1 - s ^ 2) ∧ z = M * (1 - t ^ 2) := by
  obtain ⟨h1, h2⟩ := morse_s hM hx
  obtain ⟨-, h4⟩ := morse_s hM (hz.trans_lt hx)
  refine ⟨_, _, rfl, rfl, h1, Real.sqrt_le_sqrt (by gcongr), ?_, ?_⟩
  · rw [h2]; field_simp; ring
  · rw [h4]; field_simp; ring

theorem morsePsi_sub {a M x z s t : ℝ} (hs : √(1 - x / M) = s) (ht : √(1 - z / M) = t) (h1 : 0 < s) (h2 : s ≤ t) :
    morsePsi a M x - morsePsi a M z = log ((1 + t) / (1 + s)) / a := by
  have h3 : 0 < t := by linarith
  rw [morsePsi, morsePsi, hs, ht, ← sub_div, ← log_div (by positivity) (by positivity)]
  congr 2
  field_simp

/-- The stretch is convex. -/
theorem morsePsi_sub_le {a M x z : ℝ} (ha : 0 < a) (hM : 0 < M) (hz : z ≤ x) (hx : x < M) :
    morsePsi a M x - morsePsi a M z ≤ morsePsi' a M x * (x - z) := by
  obtain ⟨s, t, es, et, hs, hst, ex, ez⟩ := morse_roots hM hz hx
  rw [morsePsi_sub es et hs hst, morsePsi', es]
  have ht : 0 < t := by linarith
  have h1 : log ((1 + t) / (1 + s)) ≤ (1 + t) / (1 + s) - 1 := log_le_sub_one_of_pos (by positivity)
  have e1 : (1 + t) / (1 + s) - 1 = (t - s) / (1 + s) := by field_simp; ring
  have e2 : 1 / (2 * M * s * (1 + s)) / a * (x - z) = (t - s) / (1 + s) / a * ((t + s) / (2 * s)) := by
    rw [ex, ez]; field_simp; ring
  rw [e2]
  have h3 : 1 ≤ (t + s) / (2 * s) := (one_le_div (by positivity)).2 (by linarith)
  have h4 : 0 ≤ (t - s) / (1 + s) / a := by
    have : 0 ≤ t - s := by linarith
    positivity
  calc log ((1 + t) / (1 + s)) / a ≤ (t - s) / (1 + s) / a := by rw [e1] at h1; gcongr
    _ ≤ _ := le_mul_of_one_le_right h4 h3

theorem morsePsi_zero (a M : ℝ) : morsePsi a M 0 = 0 := by
  norm_num [morsePsi]

theorem morsePsi_le {a M x : ℝ} (ha : 0 < a) (hM : 0 < M) (h0 : 0 ≤ x) (hx : x < M) :
    morsePsi a M x ≤ x * morsePsi' a M x := by
  have := morsePsi_sub_le ha hM h0 hx
  rw [morsePsi_zero, sub_zero, sub_zero] at this
  linarith

theorem morsePsi'_pos {a M x : ℝ} (ha : 0 < a) (hM : 0 < M) (hx : x < M) : 0 < morsePsi' a M x := by
  have := (morse_s hM hx).1
  unfold morsePsi'; positivity

/-- The stretch is at least that of a harmonic link of the same stiffness. -/
theorem le_morsePsi {a M x : ℝ} (ha : 0 < a) (hM : 0 < M) (h0 : 0 ≤ x) (hx : x < M) : x / (4 * a * M) ≤ morsePsi a M x := by
  obtain ⟨s, t, es, et, hs, hst, ex, ez⟩ := morse_roots hM h0 hx
  have ht : t = 1 := by rw [← et]; simp
  subst ht
  rw [morsePsi, es]
  have h1 := one_sub_inv_le_log_of_pos (show 0 < 2 / (1 + s) by positivity)
  have e1 : 1 - (2 / (1 + s))⁻¹ = (1 - s) / 2 := by field_simp; ring
  rw [e1] at h1
  have e2 : x / (4 * a * M) = (1 - s) / 2 / a * ((1 + s) / 2) := by rw [ex]; field_simp; ring
  rw [e2]
  have h2 : 0 ≤ (1 - s) / 2 / a := by
    have : 0 ≤ 1 - s := by linarith
    positivity
  calc _ ≤ (1 - s) / 2 / a * 1 := mul_le_mul_of_nonneg_left (by linarith) h2
    _ ≤ _ := by rw [mul_one]; gcongr

theorem le_root {M x : ℝ} (hM : 0 < M) (h : x ≤ 19 / 20 * M) : 559 / 2500 ≤ √(1 - x / M) := by
  refine Real.le_sqrt_of_sq_le ?_
  have : x / M ≤ 19 / 20 := by rw [div_le_iff₀ hM]; exact h
  linarith

/-- Up to 95% of the largest force, a decrease of the force by at most a quarter reduces the stretch by 52% at least of what
its slope says. -/
theorem morsePsi_gain {a M x z : ℝ} (ha : 0 < a) (hM : 0 < M) (h0 : 0 < x) (hx : x ≤ 19 / 20 * M) (hz : z ≤ x)
    (hz2 : 3 / 4 * x ≤ z) : 13 / 25 * (morsePsi' a M x * (x - z)) ≤ morsePsi a M x - morsePsi a M z := by
  obtain ⟨s, t, es, et, hs, hst, ex, ez⟩ := morse_roots hM hz (by linarith)
  have hs2 : 559 / 2500 ≤ s := by rw [← es]; exact le_root hM hx
  rw [morsePsi_sub es et hs hst, morsePsi', es]
  have hts : 0 ≤ t - s := by linarith
  have h1 := Real.le_log_one_add_of_nonneg (show 0 ≤ (t - s) / (1 + s) by positivity)
  have ht0 : 0 < t := by linarith
  have e1 : 1 + (t - s) / (1 + s) = (1 + t) / (1 + s) := by field_simp; ring
  have e3 : 2 * ((t - s) / (1 + s)) / ((t - s) / (1 + s) + 2) = 2 * (t - s) / (2 + t + s) := by
    field_simp; ring_nf
  rw [e1, e3] at h1
  have hs1 : s < 1 := by
    have : 0 < 1 - s ^ 2 := by
      rw [ex] at h0; exact pos_of_mul_pos_right h0 hM.le
    nlinarith
  have ht2 : t ^ 2 ≤ 1 / 4 + 3 / 4 * s ^ 2 := by
    rw [ex, ez] at hz2
    have : 3 / 4 * (1 - s ^ 2) ≤ 1 - t ^ 2 := le_of_mul_le_mul_left (by linarith) hM
    linarith
  have ht3 : t ≤ 4027 / 10000 + 5973 / 10000 * s := by
    refine abs_le_of_sq_le_sq' ?_ (by linarith) |>.2
    nlinarith
  have hkey : 13 / 25 * ((2 + t + s) * (t + s)) ≤ 4 * s * (1 + s) := by
    have h5 : (2 + t + s) * (t + s) ≤ (24027 / 10000 + 15973 / 10000 * s) * (4027 / 10000 + 15973 / 10000 * s) := by
      apply mul_le_mul <;> linarith
    nlinarith
  have e2 : 1 / (2 * M * s * (1 + s)) / a * (x - z) = (t - s) / a * ((t + s) / (2 * s * (1 + s))) := by
    rw [ex, ez]; field_simp; ring
  rw [e2]
  have h4 : 0 ≤ (t - s) / a := by positivity
  have h5 : 13 / 25 * ((t + s) / (2 * s * (1 + s))) ≤ 2 / (2 + t + s) := by
    rw [← mul_div_assoc, div_le_div_iff₀ (by positivity) (by positivity)]
    linarith
  calc 13 / 25 * ((t - s) / a * ((t + s) / (2 * s * (1 + s)))) = (t - s) / a * (13 / 25 * ((t + s) / (2 * s * (1 + s)))) := by
        ring
    _ ≤ (t - s) / a * (2 / (2 + t + s)) := mul_le_mul_of_nonneg_left h5 h4
    _ = 2 * (t - s) / (2 + t + s) / a := by ring
    _ ≤ _ := by gcongr

theorem morsePsi_upper {a M x : ℝ} (ha : 0 < a) (hM : 0 < M) (h0 : 0 ≤ x) (hx : x ≤ 19 / 20 * M) :
    morsePsi a M x ≤ 51 / 100 / a ∧ morsePsi a M x ≤ 67 / 100 * x / (a * M) := by
  obtain ⟨s, t, es, -, hs, -, ex, -⟩ := morse_roots hM h0 (by linarith)
  have hs2 : 559 / 2500 ≤ s := by rw [← es]; exact le_root hM hx
  rw [morsePsi, es]
  have h3 : 2 / (1 + s) ≤ 5000 / 3059 := by rw [div_le_div_iff₀ (by positivity) (by norm_num)]; linarith
  constructor
  · gcongr
    refine (log_le_log (by positivity) h3).trans ?_
    rw [log_le_iff_le_exp (by norm_num)]
    exact le_trans (by norm_num) (quadratic_le_exp_of_nonneg (by norm_num : (0:ℝ) ≤ 51 / 100))
  · have h2 : log (2 / (1 + s)) ≤ 2 / (1 + s) - 1 := log_le_sub_one_of_pos (by positivity)
    have hs1 : s ≤ 1 := by
      have : 0 ≤ 1 - s ^ 2 := by
        rw [ex] at h0; exact nonneg_of_mul_nonneg_right h0 hM
      nlinarith
    have h4 : 2 / (1 + s) - 1 ≤ 67 / 100 * (1 - s ^ 2) := by
      rw [sub_le_iff_le_add, div_le_iff₀ (by positivity)]
      have h5 : 1 ≤ 67 / 100 * (1 + s) ^ 2 := by nlinarith
      nlinarith
    have e : 67 / 100 * x / (a * M) = 67 / 100 * (1 - s ^ 2) / a := by rw [ex]; field_simp
    rw [e]
    gcongr
    linarith

/-- What the steps need of the correction, up to `X`. -/
structure GoodCorr (C C' : ℝ → ℝ) (X : ℝ) : Prop where
  nonneg : ∀ x, 0 < x → 0 ≤ C x
  le : ∀ x, 0 < x → x < X → C x ≤ 29 / 100 ∧ C x ≤ 2 / 3 * x
  ratio : ∀ x z, 0 < z → z ≤ x → z * C x ≤ x * C z
  key : ∀ x, 0 < x → x < X → C x ≤ x * (1 / x ^ 2 - 1 / sinh x ^ 2 + C' x)
  slope : ∀ x, 0 < x → x < X → 16 / 27 * (1 / x ^ 2 - 1 / sinh x ^ 2) < 1 / x ^ 2 - 1 / sinh x ^ 2 + C' x
  concave : ∀ x z, 0 < x → 0 < z → langevin z + C z ≤ langevin x + C x + (1 / x ^ 2 - 1 / sinh x ^ 2 + C' x) * (z - x)

theorem goodCorr_zero (X : ℝ) : GoodCorr (fun _ => 0) (fun _ => 0) X where
  nonneg _ _ := le_rfl
  le x hx _ := ⟨by norm_num, by positivity⟩
  ratio _ _ _ _ := by simp
  key x hx _ := by have := langevin_deriv_pos hx.ne'; positivity
  slope x hx _ := by have := langevin_deriv_pos hx.ne'; linarith
  concave x z hx hz := by
    have := concave_tangent langevin_concave (show x ∈ Ici 0 from hx.le) (show z ∈ Ici 0 from hz.le)
      (hasDerivAt_langevin hx.ne')
    simpa using this

theorem altH_ratio {x z : ℝ} (hz : 0 < z) (h : z ≤ x) : z * altH x ≤ x * altH z := by
  have hx := hz.trans_le h
  have h1 := concave_tangent altH_concave (show z ∈ Ioi 0 from hz) (show x ∈ Ioi 0 from hx) (hasDerivAt_altH hz)
  have h2 : z * altH' z ≤ altH z := by
    by_contra! hc
    have hd := altH'_pos hz
    set e := (z - altH z / altH' z) / 2 with he
    have h3 : altH z / altH' z < z := by rw [div_lt_iff₀ hd]; exact hc
    have he0 : 0 < e := by rw [he]; linarith
    have h4 := concave_tangent altH_concave (show z ∈ Ioi 0 from hz) (show e ∈ Ioi 0 from he0) (hasDerivAt_altH hz)
    have h5 := altH_nonneg he0
    have h6 : altH z = altH' z * (z - 2 * e) := by rw [he]; field_simp; ring
    nlinarith [mul_pos hd he0]
  nlinarith

theorem goodCorr_asy {β X : ℝ} (hX : 0 < X) (hβ : 13 / 10 * X ≤ β) : GoodCorr (asyC β) (asyC' β) X where
  nonneg x hx := asyC_nonneg (by linarith) hx
  le x hx h := by
    have h1 := altH_le hx
    have h3 := altH_nonneg hx
    have hw := one_le_div_tanh hx.ne'
    have hw2 := self_lt_div_tanh hx
    have hB : 0 < β + x / tanh x := by linarith
    constructor
    · unfold asyC
      rw [div_le_iff₀ hB]
      linarith
    · exact (div_le_self h3 (by linarith)).trans h1
  ratio x z hz h := by
    have hx := hz.trans_le h
    have h1 := altH_ratio hz h
    have h2 := altH_nonneg hz
    have hwz := div_tanh_pos hz
    have hm : z / tanh z ≤ x / tanh x := by
      have : MonotoneOn (fun x : ℝ => x / tanh x) (Ioi 0) := by
        refine monotoneOn_of_deriv_nonneg (convex_Ioi 0)
          (fun x hx => (hasDerivAt_div_tanh (ne_of_gt hx)).continuousAt.continuousWithinAt)
          (fun x hx => (hasDerivAt_div_tanh (ne_of_gt (interior_subset hx))).differentiableAt.differentiableWithinAt) ?_
        intro x hx
        rw [(hasDerivAt_div_tanh (ne_of_gt (interior_subset hx))).deriv]
        exact altH_nonneg (interior_subset hx)
      exact this hz hx h
    unfold asyC
    calc z * (altH x / (β + x / tanh x)) = z * altH x / (β + x / tanh x) := by ring
      _ ≤ x * altH z / (β + z / tanh z) := by
        gcongr
        linarith
      _ = _ := by ring
  key x hx h := (asyC_key hx (by linarith)).le
  slope x hx h := by
    have hd := langevin_deriv_pos hx.ne'
    have a3 := altH_sq_le hx
    have a4 := (altH'_pos hx).le
    have hw := self_lt_div_tanh hx
    unfold asyC'
    have hB : 23 / 10 * x ≤ β + x / tanh x := by linarith
    generalize β + x / tanh x = B at *
    have hB0 : 0 < B := by linarith
    have h1 : 0 ≤ altH' x / B := by positivity
    have h2 : altH x ^ 2 / B ^ 2 ≤ 200 / 529 * (1 / x ^ 2 - 1 / sinh x ^ 2) := by
      rw [div_le_iff₀ (by positivity)]
      have := pow_le_pow_left₀ (by positivity) hB 2
      nlinarith
    linarith
  concave x z hx hz := by
    exact concave_tangent (asyG_concave (by linarith)) (show x ∈ Ioi 0 from hx) (show z ∈ Ioi 0 from hz)
      (hasDerivAt_asyG (by linarith) hx)

/-- One step of a quarter of the length of Newton's step. -/
theorem morse_quarter_step {C C' : ℝ → ℝ} {a M y x : ℝ} (hC : GoodCorr C C' M) (ha : 0 < a) (hx : 0 < x) (hxM : x < M)
    (hL : langevin x ≤ y) (hy : y < langevin x + C x + morsePsi a M x) {z : ℝ}
    (hz : z = x - (langevin x + C x + morsePsi a M x - y) /
      (1 / x ^ 2 - 1 / sinh x ^ 2 + C' x + morsePsi' a M x) / 4) :
    3 / 4 * x ≤ z ∧ z < x ∧ langevin z ≤ y ∧ y < langevin z + C z + morsePsi a M z ∧
      (x ≤ 19 / 20 * M → langevin z + C z + morsePsi a M z - y ≤ 87 / 100 * (langevin x + C x + morsePsi a M x - y)) := by
  have hM : 0 < M := hx.trans hxM
  have hd := langevin_deriv_pos hx.ne'
  have hp := morsePsi'_pos ha hM hxM
  have hsl := hC.slope x hx hxM
  have hkey := hC.key x hx hxM
  have hpsi := morsePsi_le ha hM hx.le hxM
  have hS : 0 < 1 / x ^ 2 - 1 / sinh x ^ 2 + C' x + morsePsi' a M x := by linarith
  have e : (x - z) * (4 * (1 / x ^ 2 - 1 / sinh x ^ 2 + C' x + morsePsi' a M x)) =
      langevin x + C x + morsePsi a M x - y := by
    rw [hz]
    generalize 1 / x ^ 2 - 1 / sinh x ^ 2 + C' x + morsePsi' a M x = S at *
    field_simp; ring
  have hδ : 0 < x - z := pos_of_mul_pos_left (by rw [e]; linarith) (by positivity)
  have hzx : 3 / 4 * x ≤ z := by
    have : (x - z) * (4 * (1 / x ^ 2 - 1 / sinh x ^ 2 + C' x + morsePsi' a M x)) ≤
        1 / 4 * x * (4 * (1 / x ^ 2 - 1 / sinh x ^ 2 + C' x + morsePsi' a M x)) := by
      rw [e]; linarith
    have := le_of_mul_le_mul_right this (by positivity)
    linarith
  have hz0 : 0 < z := by linarith
  have hzx' : z < x := by linarith
  have hLz : langevin z ≤ langevin x := langevin_strictMonoOn.monotoneOn hz0 hx hzx'.le
  refine ⟨hzx, hzx', hLz.trans hL, ?_, fun h34 => ?_⟩
  · -- the Langevin part
    have h1 := concave_tangent langevin_concave (show z ∈ Ici 0 from hz0.le) (show x ∈ Ici 0 from hx.le)
      (hasDerivAt_langevin hz0.ne')
    have h2 := sq_langevin_deriv_mono hz0 hzx'.le
    have h3 : 1 / z ^ 2 - 1 / sinh z ^ 2 ≤ 16 / 9 * (1 / x ^ 2 - 1 / sinh x ^ 2) := by
      have h4 : (3 / 4 * x) ^ 2 ≤ z ^ 2 := pow_le_pow_left₀ (by positivity) hzx 2
      have h5 := langevin_deriv_pos hz0.ne'
      have h6 : (3 / 4 * x) ^ 2 * (1 / z ^ 2 - 1 / sinh z ^ 2) ≤ z ^ 2 * (1 / z ^ 2 - 1 / sinh z ^ 2) :=
        mul_le_mul_of_nonneg_right h4 h5.le
      have h7 : x ^ 2 * (1 / z ^ 2 - 1 / sinh z ^ 2) ≤ x ^ 2 * (16 / 9 * (1 / x ^ 2 - 1 / sinh x ^ 2)) := by
        linarith
      exact le_of_mul_le_mul_left h7 (by positivity)
    have h3' := mul_le_mul_of_nonneg_right h3 hδ.le
    -- the correction
    have h4 : C x - C z ≤ (x - z) * (1 / x ^ 2 - 1 / sinh x ^ 2 + C' x) := by
      have h5 := hC.ratio x z hz0 hzx'.le
      have h6 := mul_le_mul_of_nonneg_left hkey hδ.le
      have : x * (C x - C z) ≤ x * ((x - z) * (1 / x ^ 2 - 1 / sinh x ^ 2 + C' x)) := by linarith
      exact le_of_mul_le_mul_left this hx
    have h7 := morsePsi_sub_le ha hM hzx'.le hxM
    have h8 := mul_pos hδ (sub_pos.2 hsl)
    have h9 := mul_pos hδ hp
    linarith
  · have h1 := hC.concave x z hx hz0
    have h2 := morsePsi_gain ha hM hx h34 hzx'.le hzx
    have h3 := mul_pos hδ (sub_pos.2 hsl)
    have h4 := mul_pos hδ hd
    linarith

/-- How far the relation is from the extension at the start. -/
theorem morse_start {C C' : ℝ → ℝ} {a M y x : ℝ} (hC : GoodCorr C C' M) (ha : 7 / 10 ≤ a) (hκ : 10 ≤ 4 * a * M) (hx : 0 < x)
    (hxM : x ≤ 19 / 20 * M) (hL : langevin x ≤ y) : langevin x + C x + morsePsi a M x - y ≤ 33 / 10 * y := by
  have ha0 : 0 < a := by linarith
  have hM : 0 < M := by linarith
  obtain ⟨h1, h2⟩ := hC.le x hx (by linarith)
  obtain ⟨h3, h4⟩ := morsePsi_upper ha0 hM hx.le hxM
  have h5 : 51 / 100 / a ≤ 51 / 70 := by rw [div_le_div_iff₀ ha0 (by norm_num)]; linarith
  have h6 : 67 / 100 * x / (a * M) ≤ 67 / 250 * x := by
    rw [div_le_iff₀ (by positivity)]
    nlinarith
  rcases le_total x 1 with h | h
  · have h7 := langevin_gt_cubic hx
    have : x ^ 3 ≤ x := by nlinarith [mul_nonneg hx.le (sub_nonneg.2 h), mul_nonneg (mul_nonneg hx.le hx.le) (sub_nonneg.2 h)]
    linarith
  · have h7 := langevin_gt_cubic one_pos
    have h8 : langevin 1 ≤ langevin x := 
      langevin_strictMonoOn.monotoneOn (mem_Ioi.2 one_pos) (show x ∈ Ioi 0 from hx) h
    norm_num at h7
    linarith

end Polymers.Lemmas
