import Verif.Lemmas.MorseNewton
import Verif.Lemmas.SwfjcNewton
import Verif.Props.EfjcAsymptotic
import Verif.Props.Newton

/-!
Quarter-length Newton steps for `L x + C x + ψ x = y` where `ψ` is the stretch of a link, its slope known up to a factor, and
`C` the correction of the asymptotic approach (or zero).
-/

namespace Polymers.Lemmas

open Real Set Polymers.Props

/-- A stronger bound for the correction. -/
theorem altH_sq_le' {x : ℝ} (hx : 0 < x) : altH x ^ 2 ≤ 3 / 2 * (x ^ 2 * (1 / x ^ 2 - 1 / sinh x ^ 2)) := by
  have hs := sinh_pos_iff.2 hx
  have hL := langevin_gt_cubic hx
  have hs3 : x + x ^ 3 / 6 ≤ sinh x := by
    have := nonneg_of_deriv_nonneg_on (h := fun x => sinh x - x - x ^ 3 / 6) (h' := fun x => cosh x - 1 - x ^ 2 / 2) hx.le
      (by simp) (fun s => by
        refine (((Real.hasDerivAt_sinh s).sub (hasDerivAt_id s)).sub ((hasDerivAt_pow 3 s).div_const 6)).congr_deriv ?_
        norm_num; ring) (fun s h2 _ => by have := one_add_sq_half_le_cosh h2; linarith)
    linarith
  have hcs := cosh_sq x
  have ec : 1 / tanh x = cosh x / sinh x := by rw [tanh_eq_sinh_div_cosh, one_div_div]
  have el : langevin x = cosh x / sinh x - 1 / x := by rw [langevin, ec]
  obtain ⟨p, hp⟩ : ∃ p, p = x * (cosh x / sinh x) := ⟨_, rfl⟩
  obtain ⟨r, hr⟩ : ∃ r, r = x ^ 2 / sinh x ^ 2 := ⟨_, rfl⟩
  have hr0 : 0 < r := by rw [hr]; positivity
  have e1 : altH x = (p - r) / x := by
    rw [altH, ec, hp, hr]; field_simp
  have e2 : x ^ 2 * (1 / x ^ 2 - 1 / sinh x ^ 2) = 1 - r := by rw [hr]; field_simp
  have e3 : p ^ 2 = r + x ^ 2 := by
    rw [hp, hr]; field_simp; linarith
  have h1 : 1 + x ^ 2 / 3 - (x ^ 2) ^ 2 / 45 ≤ p := by
    have e : p = x * langevin x + 1 := by rw [el, hp]; field_simp; ring
    rw [e]; nlinarith
  have h2 : r * (1 + x ^ 2 / 3) ≤ 1 := by
    rw [hr, div_mul_eq_mul_div, div_le_one (by positivity)]
    have := pow_le_pow_left₀ (by positivity) hs3 2
    nlinarith [sq_nonneg (x ^ 3)]
  rw [e1, e2, div_pow, div_le_iff₀ (by positivity)]
  have hq : 0 < x ^ 2 := by positivity
  generalize x ^ 2 = q at *
  have e4 : (p - r) ^ 2 = r + q - 2 * p * r + r ^ 2 := by rw [sub_sq, e3]
  rw [e4]
  have h3 : r * (1 + q / 3 - q ^ 2 / 45) ≤ r * p := mul_le_mul_of_nonneg_left h1 hr0.le
  -- `1 / 2 q (1 - r (1 + q/3)) ≥ 0` and `r (1 - r (1 + q/3))`
  nlinarith [mul_nonneg hq.le (sub_nonneg.2 h2), mul_nonneg hr0.le (sub_nonneg.2 h2), mul_pos hr0 hq, mul_pos hr0 (mul_pos hq hq), mul_pos hr0 hr0, mul_nonneg (mul_nonneg hr0.le hq.le) (sub_nonneg.2 h2)]

/-- What the steps need of the correction, up to `X`. -/
structure MildCorr (C C' : ℝ → ℝ) (X : ℝ) : Prop where
  nonneg : ∀ x, 0 < x → 0 ≤ C x
  le : ∀ x, 0 < x → x < X → C x ≤ 33 / 100 ∧ C x ≤ 2 / 3 * x
  ratio : ∀ x z, 0 < z → z ≤ x → z * C x ≤ x * C z
  key : ∀ x, 0 < x → x < X → C x ≤ x * (1 / x ^ 2 - 1 / sinh x ^ 2 + C' x)
  slope : ∀ x, 0 < x → x < X → 16 / 27 * (1 / x ^ 2 - 1 / sinh x ^ 2) < 1 / x ^ 2 - 1 / sinh x ^ 2 + C' x
  concave : ∀ x z, 0 < x → 0 < z → langevin z + C z ≤ langevin x + C x + (1 / x ^ 2 - 1 / sinh x ^ 2 + C' x) * (z - x)

theorem GoodCorr.mild {C C' : ℝ → ℝ} {X : ℝ} (h : GoodCorr C C' X) : MildCorr C C' X :=
  ⟨h.nonneg, fun x hx hX => ⟨(h.le x hx hX).1.trans (by norm_num), (h.le x hx hX).2⟩, h.ratio, h.key, h.slope, h.concave⟩

theorem mildCorr_asy {β X : ℝ} (hX : 0 < X) (hβ : 27 / 25 * X ≤ β) : MildCorr (asyC β) (asyC' β) X where
  nonneg x hx := asyC_nonneg (by linarith) hx
  le x hx h := by
    have h1 := altH_le hx
    have h3 := altH_nonneg hx
    have hw := one_le_div_tanh hx.ne'
    have hw2 := self_lt_div_tanh hx
    have hB : 0 < β + x / tanh x := by linarith
    constructor
    · unfold asyC
      rw [div_le_iff₀ hB]
      linarith
    · exact (div_le_self h3 (by linarith)).trans h1
  ratio x z hz h := by
    have hx := hz.trans_le h
    have h1 := altH_ratio hz h
    have h2 := altH_nonneg hz
    have hwz := div_tanh_pos hz
    have hm : z / tanh z ≤ x / tanh x := by
      have : MonotoneOn (fun x : ℝ => x / tanh x) (Ioi 0) := by
        refine monotoneOn_of_deriv_nonneg (convex_Ioi 0)
          (fun x hx => (hasDerivAt_div_tanh (ne_of_gt hx)).continuousAt.continuousWithinAt)
          (fun x hx => (hasDerivAt_div_tanh (ne_of_gt (interior_subset hx))).differentiableAt.differentiableWithinAt) ?_
        intro x hx
        rw [(hasDerivAt_div_tanh (ne_of_gt (interior_subset hx))).deriv]
        exact altH_nonneg (interior_subset hx)
      exact this hz hx h
    unfold asyC
    calc z * (altH x / (β + x / tanh x)) = z * altH x / (β + x / tanh x) := by ring
      _ ≤ x * altH z / (β + z / tanh z) := by
        gcongr
        linarith
      _ = _ := by ring
  key x hx h := (asyC_key hx (by linarith)).le
  slope x hx h := by
    have hd := langevin_deriv_pos hx.ne'
    have a3 := altH_sq_le' hx
    have a4 := (altH'_pos hx).le
    have hw := self_lt_div_tanh hx
    unfold asyC'
    have hB : 52 / 25 * x ≤ β + x / tanh x := by linarith
    generalize β + x / tanh x = B at *
    have hB0 : 0 < B := by linarith
    have h1 : 0 ≤ altH' x / B := by positivity
    have h2 : altH x ^ 2 / B ^ 2 ≤ 9 / 25 * (1 / x ^ 2 - 1 / sinh x ^ 2) := by
      rw [div_le_iff₀ (by positivity)]
      have := pow_le_pow_left₀ (by positivity) hB 2
      nlinarith
    linarith
  concave x z hx hz := by
    exact concave_tangent (asyG_concave (by linarith)) (show x ∈ Ioi 0 from hx) (show z ∈ Ioi 0 from hz)
      (hasDerivAt_asyG (by linarith) hx)

/-- What the steps need of the stretch and of what the program takes for its slope, below the force `M`. -/
structure GoodStretch (ψ ψ' : ℝ → ℝ) (M : ℝ) : Prop where
  slope_pos : ∀ x, 0 < x → x < M → 0 < ψ' x
  le_slope : ∀ x, 0 < x → x < M → ψ x ≤ x * ψ' x
  sub_le : ∀ x z, 0 < z → z ≤ x → x < M → ψ x - ψ z ≤ 4 * (x - z) * ψ' x

/-- One step of a quarter of the length of Newton's step. -/
theorem stretch_quarter_step {C C' ψ ψ' : ℝ → ℝ} {M y x : ℝ} (hC : MildCorr C C' M) (hψ : GoodStretch ψ ψ' M) (hx : 0 < x)
    (hxM : x < M) (hL : langevin x ≤ y) (hy : y < langevin x + C x + ψ x) {z : ℝ}
    (hz : z = x - (langevin x + C x + ψ x - y) / (1 / x ^ 2 - 1 / sinh x ^ 2 + C' x + ψ' x) / 4) :
    3 / 4 * x ≤ z ∧ z < x ∧ langevin z ≤ y ∧ y < langevin z + C z + ψ z ∧
      (x - z) * (4 * (1 / x ^ 2 - 1 / sinh x ^ 2 + C' x + ψ' x)) = langevin x + C x + ψ x - y := by
  have hM : 0 < M := hx.trans hxM
  have hd := langevin_deriv_pos hx.ne'
  have hp := hψ.slope_pos x hx hxM
  have hsl := hC.slope x hx hxM
  have hkey := hC.key x hx hxM
  have hpsi := hψ.le_slope x hx hxM
  have hS : 0 < 1 / x ^ 2 - 1 / sinh x ^ 2 + C' x + ψ' x := by linarith
  have e : (x - z) * (4 * (1 / x ^ 2 - 1 / sinh x ^ 2 + C' x + ψ' x)) = langevin x + C x + ψ x - y := by
    rw [hz]
    generalize 1 / x ^ 2 - 1 / sinh x ^ 2 + C' x + ψ' x = S at *
    field_simp; ring
  have hδ : 0 < x - z := pos_of_mul_pos_left (by rw [e]; linarith) (by positivity)
  have hzx : 3 / 4 * x ≤ z := by
    have : (x - z) * (4 * (1 / x ^ 2 - 1 / sinh x ^ 2 + C' x + ψ' x)) ≤
        1 / 4 * x * (4 * (1 / x ^ 2 - 1 / sinh x ^ 2 + C' x + ψ' x)) := by
      rw [e]; linarith
    have := le_of_mul_le_mul_right this (by positivity)
    linarith
  have hz0 : 0 < z := by linarith
  have hzx' : z < x := by linarith
  have hLz : langevin z ≤ langevin x := langevin_strictMonoOn.monotoneOn hz0 hx hzx'.le
  refine ⟨hzx, hzx', hLz.trans hL, ?_, e⟩
  · -- the Langevin part
    have h1 := concave_tangent langevin_concave (show z ∈ Ici 0 from hz0.le) (show x ∈ Ici 0 from hx.le)
      (hasDerivAt_langevin hz0.ne')
    have h2 := sq_langevin_deriv_mono hz0 hzx'.le
    have h3 : 1 / z ^ 2 - 1 / sinh z ^ 2 ≤ 16 / 9 * (1 / x ^ 2 - 1 / sinh x ^ 2) := by
      have h4 : (3 / 4 * x) ^ 2 ≤ z ^ 2 := pow_le_pow_left₀ (by positivity) hzx 2
      have h5 := langevin_deriv_pos hz0.ne'
      have h6 : (3 / 4 * x) ^ 2 * (1 / z ^ 2 - 1 / sinh z ^ 2) ≤ z ^ 2 * (1 / z ^ 2 - 1 / sinh z ^ 2) :=
        mul_le_mul_of_nonneg_right h4 h5.le
      have h7 : x ^ 2 * (1 / z ^ 2 - 1 / sinh z ^ 2) ≤ x ^ 2 * (16 / 9 * (1 / x ^ 2 - 1 / sinh x ^ 2)) := by
        linarith
      exact le_of_mul_le_mul_left h7 (by positivity)
    have h3' := mul_le_mul_of_nonneg_right h3 hδ.le
    -- the correction
    have h4 : C x - C z ≤ (x - z) * (1 / x ^ 2 - 1 / sinh x ^ 2 + C' x) := by
      have h5 := hC.ratio x z hz0 hzx'.le
      have h6 := mul_le_mul_of_nonneg_left hkey hδ.le
      have : x * (C x - C z) ≤ x * ((x - z) * (1 / x ^ 2 - 1 / sinh x ^ 2 + C' x)) := by linarith
      exact le_of_mul_le_mul_left this hx
    have h7 := hψ.sub_le x z hz0 hzx'.le hxM
    have h8 := mul_pos hδ (sub_pos.2 hsl)
    linarith

/-- The forces between the solution and the largest force which the search visits. -/
def StretchOk (C ψ : ℝ → ℝ) (M γ x : ℝ) : Prop := 0 < x ∧ x < M ∧ langevin x ≤ γ ∧ γ < langevin x + C x + ψ x

/-- The extensions which the search handles: those which the Langevin function reaches below the largest force `M`, and the
others up to the extension `top` at 95% of the largest force. -/
def StretchExt (M top γ : ℝ) : Prop :=
  0 < γ ∧ (γ < langevin M ∨ (1.000002 * langevin M ≤ γ ∨ 1 ≤ γ) ∧ γ < top)

/-- Where the search starts. -/
theorem stretch_guess {C C' ψ : ℝ → ℝ} {M κ γ : ℝ} (hC : MildCorr C C' M) (hM : 0 < M) (hκ : 0 < κ) (hκ6 : κ ≤ 1000000)
    (hψ : ∀ x, 0 < x → x < M → x / κ ≤ ψ x)
    (h : StretchExt M (langevin (19 / 20 * M) + C (19 / 20 * M) + ψ (19 / 20 * M)) γ) {x : ℝ}
    (hx : x = if M < (if γ < 1 then math.inverse_langevin γ else 19 / 20 * M) then 19 / 20 * M else
      if γ < 1 then math.inverse_langevin γ else 19 / 20 * M) :
    StretchOk C ψ M γ x ∧ (γ ≤ langevin (19 / 20 * M) ∨ γ ≥ langevin M → x ≤ 19 / 20 * M) := by
  have e : (1.000002 : ℝ) = 1000002 / 1000000 := by norm_num
  rw [StretchExt, e] at h
  obtain ⟨hγ, h⟩ := h
  have hLM := langevin_pos hM
  have hm : ∀ {u v : ℝ}, 0 < u → 0 < v → langevin u < langevin v → u < v := fun hu hv h =>
    (langevin_strictMonoOn.lt_iff_lt (mem_Ioi.2 hu) (mem_Ioi.2 hv)).1 h
  have hm' : ∀ {u v : ℝ}, 0 < u → 0 < v → langevin u ≤ langevin v → u ≤ v := fun hu hv h =>
    (langevin_strictMonoOn.le_iff_le (mem_Ioi.2 hu) (mem_Ioi.2 hv)).1 h
  have h95 : 0 < 19 / 20 * M := by positivity
  rcases h with h1 | ⟨h1, h2⟩
  · have hg1 : γ < 1 := h1.trans (langevin_lt_one hM)
    obtain ⟨p1, p2⟩ := inverse_langevin_spec hγ hg1
    have p3 := inverse_langevin_below hγ hg1
    have p4 := hm p1 hM (p3.trans_lt h1)
    rw [if_pos hg1, if_neg (by linarith)] at hx
    rw [← hx] at p1 p2 p3 p4
    refine ⟨⟨p1, p4, p3, ?_⟩, fun h5 => ?_⟩
    · have h5 := hψ x p1 p4
      have h6 := hC.nonneg x p1
      have h7 := langevin_lt_third p1
      have h8 : x / 1000000 ≤ x / κ := by gcongr
      rw [abs_of_nonpos (by linarith)] at p2
      norm_num at p2
      linarith
    · rcases h5 with h5 | h5
      · exact hm' p1 h95 (p3.trans h5)
      · linarith
  · have hx' : x = 19 / 20 * M := by
      rw [hx]
      by_cases hg1 : γ < 1
      · rw [if_pos hg1, if_pos]
        have h1 := h1.resolve_right (by linarith)
        obtain ⟨p1, p2⟩ := inverse_langevin_spec hγ hg1
        refine hm hM p1 ?_
        have := (abs_le.1 p2).1
        norm_num at this h1
        nlinarith
      · rw [if_neg hg1, if_neg (by linarith)]
    clear hx
    subst hx'
    have hle : langevin (19 / 20 * M) < langevin M := langevin_strictMonoOn (mem_Ioi.2 h95) (mem_Ioi.2 hM) (by linarith)
    refine ⟨⟨h95, by linarith, ?_, h2⟩, fun _ => le_rfl⟩
    rcases h1 with h1 | h1
    · norm_num at h1
      linarith
    · linarith [langevin_lt_one hM]

end Polymers.Lemmas
