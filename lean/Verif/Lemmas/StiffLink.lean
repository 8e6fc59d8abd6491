import Mathlib.Analysis.Calculus.MeanValue
import Mathlib.Analysis.Calculus.DSlope
import Mathlib.MeasureTheory.Integral.IntervalIntegral.FundThmCalculus
import Mathlib.MeasureTheory.Integral.IntegralEqImproper
import Mathlib.Analysis.SpecialFunctions.Gaussian.GaussianIntegral
import Mathlib.Analysis.SpecialFunctions.Exp
import Mathlib.Analysis.SpecialFunctions.Log.Deriv
import Mathlib.Analysis.SpecialFunctions.ImproperIntegrals
import Mathlib.MeasureTheory.Measure.Haar.NormedSpace

/-! Laplace's method to first order: means under the weight `exp (-κ (v s - v 1))` on `(0, b]` as `κ` grows. -/

namespace Polymers.Lemmas

open Real Set Filter Topology MeasureTheory

theorem abs_le_pow_of_deriv {g g' : ℝ → ℝ} {a b x₀ K : ℝ} {n : ℕ} (hx₀ : x₀ ∈ Icc a b)
    (hg : ∀ x ∈ Icc a b, HasDerivAt g (g' x) x) (h0 : g x₀ = 0) (hK : ∀ x ∈ Icc a b, |g' x| ≤ K * |x - x₀| ^ n) :
    ∀ x ∈ Icc a b, |g x| ≤ K * |x - x₀| ^ (n + 1) := by
  intro x hx
  have hsub : uIcc x₀ x ⊆ Icc a b := uIcc_subset_Icc hx₀ hx
  have hK0 : 0 ≤ K * |x - x₀| ^ n := (abs_nonneg _).trans (hK x hx)
  have h := (convex_uIcc x₀ x).norm_image_sub_le_of_norm_hasDerivWithin_le (f := g) (f' := g') (C := K * |x - x₀| ^ n)
    (fun y hy => (hg y (hsub hy)).hasDerivWithinAt) (fun y hy => ?_) left_mem_uIcc right_mem_uIcc
  · rw [h0, sub_zero, norm_eq_abs, norm_eq_abs] at h
    rw [pow_succ, ← mul_assoc]
    exact h
  · rw [norm_eq_abs]
    refine (hK y (hsub hy)).trans ?_
    have hle : |y - x₀| ≤ |x - x₀| := abs_sub_left_of_mem_uIcc hy
    rcases eq_or_ne |x - x₀| 0 with h0' | h0'
    · have : |y - x₀| = 0 := le_antisymm (h0' ▸ hle) (abs_nonneg _)
      rw [this, h0']
    · have hp : 0 < |x - x₀| ^ n := pow_pos (lt_of_le_of_ne (abs_nonneg _) (Ne.symm h0')) n
      have hKn : 0 ≤ K := nonneg_of_mul_nonneg_left hK0 hp
      exact mul_le_mul_of_nonneg_left (pow_le_pow_left₀ (abs_nonneg _) hle n) hKn

/-- Taylor's theorem of second order around an interior point, with a crude remainder. -/
theorem taylor_second {f f1 f2 f3 : ℝ → ℝ} {a b x₀ K : ℝ} (hx₀ : x₀ ∈ Icc a b)
    (h1 : ∀ x ∈ Icc a b, HasDerivAt f (f1 x) x) (h2 : ∀ x ∈ Icc a b, HasDerivAt f1 (f2 x) x)
    (h3 : ∀ x ∈ Icc a b, HasDerivAt f2 (f3 x) x) (hK : ∀ x ∈ Icc a b, |f3 x| ≤ K) :
    ∀ x ∈ Icc a b, |f x - f x₀ - f1 x₀ * (x - x₀) - f2 x₀ / 2 * (x - x₀) ^ 2| ≤ K * |x - x₀| ^ 3 := by
  have hid : ∀ x : ℝ, HasDerivAt (fun x => x - x₀) 1 x := fun x => (hasDerivAt_id x).sub_const x₀
  have s1 := abs_le_pow_of_deriv (g := fun x => f2 x - f2 x₀) (n := 0) hx₀ (fun x hx => (h3 x hx).sub_const _) (by simp)
    (K := K) (fun x hx => by simpa using hK x hx)
  have s2 := abs_le_pow_of_deriv (g := fun x => f1 x - f1 x₀ - f2 x₀ * (x - x₀)) (n := 1) (K := K) hx₀
    (fun x hx => ((h2 x hx).sub_const _).sub ((hid x).const_mul _)) (by simp) (fun x hx => by simpa using s1 x hx)
  exact abs_le_pow_of_deriv (g := fun x => f x - f x₀ - f1 x₀ * (x - x₀) - f2 x₀ / 2 * (x - x₀) ^ 2) (n := 2) (K := K) hx₀
    (fun x hx => (((h1 x hx).sub_const _).sub ((hid x).const_mul _)).sub (((hid x).pow 2).const_mul _)) (by simp)
    (fun x hx => by
      refine le_trans (le_of_eq ?_) (s2 x hx)
      congr 1
      norm_num
      ring)

/-- A potential with its minimum at `1`, where its second derivative is `1` and its third `t`, on the stretches up to `b`. -/
structure StiffLink (v : ℝ → ℝ) (t b : ℝ) : Prop where
  one_lt : 1 < b
  cont : ContinuousOn v (Ioc 0 b)
  low : ∃ c > 0, ∀ s ∈ Ioc 0 b, c * (s - 1) ^ 2 ≤ v s - v 1
  near : ∃ (v1 : ℝ → ℝ) (M : ℝ), (∀ s ∈ Icc (1 / 2) b, HasDerivAt v (v1 s) s) ∧ ContinuousOn v1 (Icc (1 / 2) b) ∧
    ∀ s ∈ Icc (1 / 2) b, |v1 s - (s - 1) - t / 2 * (s - 1) ^ 2| ≤ M * |s - 1| ^ 3

/-- The Boltzmann weight. -/
noncomputable def stiffWeight (v : ℝ → ℝ) (κ s : ℝ) : ℝ := exp (-(κ * (v s - v 1)))

variable {v : ℝ → ℝ} {t b : ℝ}

theorem stiffWeight_pos (v : ℝ → ℝ) (κ s : ℝ) : 0 < stiffWeight v κ s := exp_pos _

theorem stiffWeight_le {c κ s : ℝ} (hκ : 0 ≤ κ) (hc : c * (s - 1) ^ 2 ≤ v s - v 1) :
    stiffWeight v κ s ≤ exp (-(κ * (c * (s - 1) ^ 2))) :=
  exp_le_exp.2 (neg_le_neg (mul_le_mul_of_nonneg_left hc hκ))

theorem stiffWeight_integrable (h : StiffLink v t b) {F : ℝ → ℝ} (hF : Continuous F) {κ : ℝ} (hκ : 0 ≤ κ) :
    IntegrableOn (fun s => F s * stiffWeight v κ s) (Ioc 0 b) := by
  obtain ⟨c, hc, hlow⟩ := h.low
  obtain ⟨B, hB⟩ := (isCompact_Icc (a := (0 : ℝ)) (b := b)).exists_bound_of_continuousOn hF.continuousOn
  refine Integrable.of_bound (C := B) ?_ ?_
  · refine ContinuousOn.aestronglyMeasurable ?_ measurableSet_Ioc
    refine hF.continuousOn.mul (continuous_exp.comp_continuousOn ?_)
    exact ((h.cont.sub continuousOn_const).const_smul κ).neg
  · refine (ae_restrict_iff' measurableSet_Ioc).2 (Eventually.of_forall fun s hs => ?_)
    have h1 : stiffWeight v κ s ≤ 1 := by
      refine exp_le_one_iff.2 (neg_nonpos.2 (mul_nonneg hκ ((mul_nonneg hc.le (sq_nonneg _)).trans (hlow s hs))))
    rw [norm_mul, norm_eq_abs (stiffWeight v κ s), abs_of_pos (stiffWeight_pos v κ s)]
    have h2 := hB s ⟨hs.1.le, hs.2⟩
    calc ‖F s‖ * stiffWeight v κ s ≤ ‖F s‖ * 1 := mul_le_mul_of_nonneg_left h1 (norm_nonneg _)
      _ ≤ B := by rw [mul_one]; exact h2

theorem stiff_upper (h : StiffLink v t b) : ∃ C, 0 ≤ C ∧ ∀ s ∈ Icc (1 / 2) b, v s - v 1 ≤ C * (s - 1) ^ 2 := by
  obtain ⟨v1, M, hd, -, hM⟩ := h.near
  have hb := h.one_lt
  have h1 : (1 : ℝ) ∈ Icc (1 / 2) b := ⟨by norm_num, hb.le⟩
  set C := 1 + |t| / 2 * b + |M| * b ^ 2 with hC
  have hC0 : 0 ≤ C := by positivity
  refine ⟨C, hC0, fun s hs => ?_⟩
  have := abs_le_pow_of_deriv (g := fun s => v s - v 1) (n := 1) (K := C) h1 (fun x hx => (hd x hx).sub_const _) (by simp) (fun x hx => ?_) s hs
  · rw [show (1 + 1 : ℕ) = 2 from rfl, sq_abs] at this
    exact (le_abs_self _).trans this
  · have hx1 : |x - 1| ≤ b := by rw [abs_le]; constructor <;> linarith [hx.1, hx.2]
    have e : v1 x = (v1 x - (x - 1) - t / 2 * (x - 1) ^ 2) + ((x - 1) + t / 2 * (x - 1) ^ 2) := by ring
    rw [e, pow_one]
    refine (abs_add_le _ _).trans ((add_le_add (hM x hx) (abs_add_le _ _)).trans ?_)
    rw [abs_mul, abs_pow, abs_div, abs_two]
    have hM1 : M * |x - 1| ^ 3 ≤ |M| * |x - 1| ^ 3 := mul_le_mul_of_nonneg_right (le_abs_self M) (by positivity)
    have h2 : |x - 1| ^ 2 ≤ b * |x - 1| := by rw [sq]; exact mul_le_mul_of_nonneg_right hx1 (abs_nonneg _)
    have h3 : |x - 1| ^ 3 ≤ b ^ 2 * |x - 1| := by
      rw [pow_succ]
      exact mul_le_mul_of_nonneg_right (pow_le_pow_left₀ (abs_nonneg _) hx1 2) (abs_nonneg _)
    have h4 := mul_le_mul_of_nonneg_left h2 (show 0 ≤ |t| / 2 by positivity)
    have h5 := mul_le_mul_of_nonneg_left h3 (abs_nonneg M)
    rw [hC]
    nlinarith

/-- The total weight is at least of order `1/√κ`. -/
theorem stiff_total (h : StiffLink v t b) : ∃ C > 0, ∃ κ₀ > 0, ∀ κ ≥ κ₀, C / √κ ≤ ∫ s in Ioc 0 b, stiffWeight v κ s := by
  obtain ⟨C, hC, hup⟩ := stiff_upper h
  have hb := h.one_lt
  refine ⟨exp (-C), exp_pos _, 1 / (b - 1) ^ 2, by have := sub_pos.2 hb; positivity, fun κ hκ => ?_⟩
  have hb1 := sub_pos.2 hb
  have hκ0 : 0 < κ := lt_of_lt_of_le (by positivity) hκ
  have hs0 : 0 < √κ := sqrt_pos.2 hκ0
  have hle : 1 + 1 / √κ ≤ b := by
    have : 1 / √κ ≤ b - 1 := by
      rw [div_le_iff₀ hs0, ← div_le_iff₀' hb1]
      refine le_sqrt_of_sq_le ?_
      rw [div_pow, one_pow]
      exact hκ
    linarith
  have hsub : Ioc 1 (1 + 1 / √κ) ⊆ Ioc 0 b := Ioc_subset_Ioc zero_le_one hle
  have hint := stiffWeight_integrable h (F := fun _ => 1) continuous_const hκ0.le
  simp only [one_mul] at hint
  calc exp (-C) / √κ = ∫ _ in Ioc 1 (1 + 1 / √κ), exp (-C) := by
        rw [setIntegral_const, measureReal_def, volume_Ioc, ENNReal.toReal_ofReal (by simp), smul_eq_mul]
        ring
    _ ≤ ∫ s in Ioc 1 (1 + 1 / √κ), stiffWeight v κ s := by
        refine setIntegral_mono_on (by simp) (hint.mono_set hsub) measurableSet_Ioc fun s hs => ?_
        refine exp_le_exp.2 (neg_le_neg ?_)
        have h1 := hup s ⟨by linarith [hs.1], hs.2.trans hle⟩
        have h2 : (s - 1) ^ 2 ≤ 1 / κ := by
          have h3 : s - 1 ≤ 1 / √κ := by linarith [hs.2]
          have h4 := pow_le_pow_left₀ (by linarith [hs.1]) h3 2
          rwa [div_pow, one_pow, sq_sqrt hκ0.le] at h4
        have h5 := mul_le_mul_of_nonneg_left (h1.trans (mul_le_mul_of_nonneg_left h2 hC)) hκ0.le
        have e : κ * (C * (1 / κ)) = C := by field_simp
        linarith
    _ ≤ ∫ s in Ioc 0 b, stiffWeight v κ s :=
        setIntegral_mono_set hint (Eventually.of_forall fun s => (stiffWeight_pos v κ s).le) (Eventually.of_forall hsub)

/-- The third absolute moment is of order `1/κ²`. -/
theorem stiff_third (h : StiffLink v t b) : ∃ K, ∀ κ > 0, ∫ s in Ioc 0 b, |s - 1| ^ 3 * stiffWeight v κ s ≤ K / κ ^ 2 := by
  obtain ⟨c, hc, hlow⟩ := h.low
  set g : ℝ → ℝ := fun y => |y| ^ 3 * exp (-c * y ^ 2) with hg
  have hgi : Integrable g := by
    have := (integrable_rpow_mul_exp_neg_mul_sq hc (s := 3) (by norm_num)).abs
    refine this.congr (Eventually.of_forall fun y => ?_)
    simp only [hg]
    rw [show (3 : ℝ) = ((3 : ℕ) : ℝ) by norm_num, rpow_natCast, abs_mul, abs_pow, abs_of_pos (exp_pos _)]
  refine ⟨∫ y, g y, fun κ hκ => ?_⟩
  have hs0 : 0 < √κ := sqrt_pos.2 hκ
  have hs2 : √κ ^ 2 = κ := sq_sqrt hκ.le
  have e : ∀ s : ℝ, g (√κ * (s - 1)) = √κ ^ 3 * (|s - 1| ^ 3 * exp (-(κ * (c * (s - 1) ^ 2)))) := by
    intro s
    simp only [hg]
    rw [abs_mul, abs_of_pos hs0, mul_pow, mul_pow, hs2]
    ring_nf
  have hi : Integrable (fun s => g (√κ * (s - 1))) := (hgi.comp_mul_left' hs0.ne').comp_sub_right 1
  have hI : ∫ s, g (√κ * (s - 1)) = 1 / √κ * ∫ y, g y := by
    rw [integral_sub_right_eq_self (fun s => g (√κ * s)) 1, Measure.integral_comp_mul_left, smul_eq_mul, abs_of_pos (by positivity)]
    ring
  have hi' := hi.const_mul (1 / √κ ^ 3)
  have hcont : Continuous fun s : ℝ => |s - 1| ^ 3 := by fun_prop
  calc ∫ s in Ioc 0 b, |s - 1| ^ 3 * stiffWeight v κ s ≤ ∫ s in Ioc 0 b, 1 / √κ ^ 3 * g (√κ * (s - 1)) := by
        refine setIntegral_mono_on (stiffWeight_integrable h hcont hκ.le) hi'.integrableOn measurableSet_Ioc fun s hs => ?_
        rw [e]
        have := mul_le_mul_of_nonneg_left (stiffWeight_le hκ.le (hlow s hs)) (show 0 ≤ |s - 1| ^ 3 by positivity)
        refine this.trans (le_of_eq ?_)
        field_simp
    _ ≤ ∫ s, 1 / √κ ^ 3 * g (√κ * (s - 1)) := by
        refine setIntegral_le_integral hi' (Eventually.of_forall fun s => ?_)
        simp only [Pi.zero_apply, hg]
        positivity
    _ = (∫ y, g y) / κ ^ 2 := by
        rw [integral_const_mul, hI, show κ ^ 2 = √κ ^ 4 by rw [show √κ ^ 4 = (√κ ^ 2) ^ 2 by ring, hs2]]
        field_simp

theorem exp_small (d A B : ℝ) (hd : 0 < d) : Tendsto (fun κ : ℝ => √κ * ((A * κ + B) * exp (-(d * κ)))) atTop (𝓝 0) := by
  have h : ∀ n : ℕ, Tendsto (fun κ : ℝ => κ ^ n * exp (-(d * κ))) atTop (𝓝 0) := by
    intro n
    have h1 := (tendsto_pow_mul_exp_neg_atTop_nhds_zero n).comp (tendsto_id.const_mul_atTop hd)
    have h2 := h1.const_mul (1 / d ^ n)
    rw [mul_zero] at h2
    refine h2.congr fun κ => ?_
    simp only [Function.comp, id, mul_pow]
    field_simp
  have hb : Tendsto (fun κ : ℝ => |A| * (κ ^ 2 * exp (-(d * κ))) + |B| * (κ ^ 1 * exp (-(d * κ)))) atTop (𝓝 0) := by
    simpa using ((h 2).const_mul |A|).add ((h 1).const_mul |B|)
  refine squeeze_zero_norm' ?_ hb
  filter_upwards [eventually_ge_atTop 1] with κ hκ
  have hκ0 : 0 ≤ κ := by linarith
  have hs : √κ ≤ κ := by
    rw [sqrt_le_left hκ0]
    nlinarith
  rw [norm_eq_abs, abs_mul, abs_mul, abs_of_nonneg (sqrt_nonneg κ), abs_of_pos (exp_pos _)]
  have h1 : |A * κ + B| ≤ |A| * κ + |B| := (abs_add_le _ _).trans (by rw [abs_mul, abs_of_nonneg hκ0])
  calc √κ * (|A * κ + B| * exp (-(d * κ))) ≤ κ * ((|A| * κ + |B|) * exp (-(d * κ))) :=
        mul_le_mul hs (mul_le_mul_of_nonneg_right h1 (exp_pos _).le) (by positivity) hκ0
    _ = _ := by ring

/-- The mean of a function with derivatives `p` and `2 q` at `1` is its value at `1` plus `(q - p t / 2) / κ`, to first order. -/
theorem laplace_mean (h : StiffLink v t b) {F : ℝ → ℝ} {p q M : ℝ} (hF : Continuous F)
    (hT : ∀ s ∈ Icc 0 b, |F s - F 1 - p * (s - 1) - q * (s - 1) ^ 2| ≤ M * |s - 1| ^ 3) :
    Tendsto (fun κ => κ * ((∫ s in Ioc 0 b, F s * stiffWeight v κ s) / (∫ s in Ioc 0 b, stiffWeight v κ s) - F 1)) atTop
      (𝓝 (q - p * t / 2)) := by
  obtain ⟨c, hc, hlow⟩ := h.low
  obtain ⟨v1, M1, hd, hv1, hM1⟩ := h.near
  obtain ⟨C, hC, κ₀, hκ₀, htot⟩ := stiff_total h
  obtain ⟨K, hK⟩ := stiff_third h
  have hb := h.one_lt
  set r := q - p * t / 2 with hr
  set d := min (c / 4) (c * (b - 1) ^ 2) with hdd
  have hd0 : 0 < d := lt_min (by positivity) (mul_pos hc (pow_pos (sub_pos.2 hb) 2))
  obtain ⟨B, hB⟩ := (isCompact_Icc (a := (0 : ℝ)) (b := b)).exists_bound_of_continuousOn
    (f := fun s => F s - F 1) (hF.sub continuous_const).continuousOn
  have hB0 : 0 ≤ B := (norm_nonneg _).trans (hB 0 ⟨le_rfl, by linarith⟩)
  set R := |M| + |p| * |M1| + |r| * (|t| / 2 + |M1| * b) with hR
  have hR0 : 0 ≤ R := by positivity
  -- the remainder against the derivative of the weight
  have hrem : ∀ s ∈ Icc (1 / 2) b, |F s - F 1 - (p + r * (s - 1)) * v1 s| ≤ R * |s - 1| ^ 3 := by
    intro s hs
    have hs0 : s ∈ Icc 0 b := ⟨by linarith [hs.1], hs.2⟩
    have a1 := hT s hs0
    have a2 := hM1 s hs
    have hsb : |s - 1| ≤ b := by rw [abs_le]; constructor <;> linarith [hs.1, hs.2]
    set ρ := v1 s - (s - 1) - t / 2 * (s - 1) ^ 2 with hρ
    have e : F s - F 1 - (p + r * (s - 1)) * v1 s = (F s - F 1 - p * (s - 1) - q * (s - 1) ^ 2) + (-p * ρ) +
        -r * (t / 2 * (s - 1) ^ 3 + (s - 1) * ρ) := by
      have : v1 s = ρ + (s - 1) + t / 2 * (s - 1) ^ 2 := by rw [hρ]; ring
      rw [this, hr]
      ring
    have a3 : |ρ| ≤ |M1| * |s - 1| ^ 3 := a2.trans (mul_le_mul_of_nonneg_right (le_abs_self _) (by positivity))
    have a4 : |F s - F 1 - p * (s - 1) - q * (s - 1) ^ 2| ≤ |M| * |s - 1| ^ 3 :=
      a1.trans (mul_le_mul_of_nonneg_right (le_abs_self _) (by positivity))
    have a5 : |(-p) * ρ| ≤ |p| * (|M1| * |s - 1| ^ 3) := by
      rw [abs_mul, abs_neg]
      exact mul_le_mul_of_nonneg_left a3 (abs_nonneg _)
    have a6 : |t / 2 * (s - 1) ^ 3 + (s - 1) * ρ| ≤ (|t| / 2 + |M1| * b) * |s - 1| ^ 3 := by
      refine (abs_add_le _ _).trans ?_
      rw [abs_mul, abs_mul, abs_div, abs_two, abs_pow]
      have : |s - 1| * |ρ| ≤ b * (|M1| * |s - 1| ^ 3) := mul_le_mul hsb a3 (abs_nonneg _) (by linarith)
      linarith
    have a7 : |-r * (t / 2 * (s - 1) ^ 3 + (s - 1) * ρ)| ≤ |r| * ((|t| / 2 + |M1| * b) * |s - 1| ^ 3) := by
      rw [abs_mul, abs_neg]
      exact mul_le_mul_of_nonneg_left a6 (abs_nonneg _)
    rw [e]
    refine (abs_add_le _ _).trans ((add_le_add ((abs_add_le _ _).trans (add_le_add a4 a5)) a7).trans (le_of_eq ?_))
    rw [hR]
    ring
  -- the weight away from the minimum
  have hfar : ∀ κ, 0 ≤ κ → (∀ s ∈ Ioc 0 (1 / 2), stiffWeight v κ s ≤ exp (-(d * κ))) ∧ stiffWeight v κ b ≤ exp (-(d * κ)) := by
    intro κ hκ
    constructor
    · intro s hs
      refine (stiffWeight_le hκ (hlow s ⟨hs.1, by linarith [hs.2]⟩)).trans (exp_le_exp.2 (neg_le_neg ?_))
      rw [mul_comm]
      refine mul_le_mul_of_nonneg_left ((min_le_left _ _).trans ?_) hκ
      have : 1 / 4 ≤ (s - 1) ^ 2 := by nlinarith [hs.2]
      have := mul_le_mul_of_nonneg_left this hc.le
      linarith
    · refine (stiffWeight_le hκ (hlow b ⟨by linarith, le_rfl⟩)).trans (exp_le_exp.2 (neg_le_neg ?_))
      rw [mul_comm]
      exact mul_le_mul_of_nonneg_left (min_le_right _ _) hκ
  have hbound : ∀ κ ≥ κ₀, |κ * ((∫ s in Ioc 0 b, F s * stiffWeight v κ s) / (∫ s in Ioc 0 b, stiffWeight v κ s) - F 1) - r| ≤
      1 / C * (√κ * ((B * κ + (|p| + |r| * b + |p| + |r| + |r|)) * exp (-(d * κ)))) + R * K / C * (1 / √κ) := by
    intro κ hκ
    have hκ0 : 0 < κ := lt_of_lt_of_le hκ₀ hκ
    have hs0 : 0 < √κ := sqrt_pos.2 hκ0
    have hZ := htot κ hκ
    set Z := ∫ s in Ioc 0 b, stiffWeight v κ s with hZd
    have hZ0 : 0 < Z := lt_of_lt_of_le (by positivity) hZ
    obtain ⟨f1, f2⟩ := hfar κ hκ0.le
    have iW : IntegrableOn (fun s => stiffWeight v κ s) (Ioc 0 b) := by
      simpa using stiffWeight_integrable h (F := fun _ => 1) continuous_const hκ0.le
    have iF := stiffWeight_integrable h hF hκ0.le
    have iG : IntegrableOn (fun s => (F s - F 1) * stiffWeight v κ s) (Ioc 0 b) :=
      stiffWeight_integrable h (hF.sub continuous_const) hκ0.le
    have i3 : IntegrableOn (fun s => |s - 1| ^ 3 * stiffWeight v κ s) (Ioc 0 b) :=
      stiffWeight_integrable h (F := fun s => |s - 1| ^ 3) (by fun_prop) hκ0.le
    have hsplit : Ioc 0 b = Ioc 0 (1 / 2) ∪ Ioc (1 / 2) b := (Ioc_union_Ioc_eq_Ioc (by norm_num) (by linarith)).symm
    have hsub1 : Ioc 0 (1 / 2) ⊆ Ioc 0 b := Ioc_subset_Ioc le_rfl (by linarith)
    have hsub2 : Ioc (1 / 2) b ⊆ Ioc 0 b := Ioc_subset_Ioc (by norm_num) le_rfl
    have hsum : ∀ G : ℝ → ℝ, IntegrableOn G (Ioc 0 b) →
        ∫ s in Ioc 0 b, G s = (∫ s in Ioc 0 (1 / 2), G s) + ∫ s in Ioc (1 / 2) b, G s := by
      intro G hG
      rw [hsplit, setIntegral_union (Ioc_disjoint_Ioc_of_le le_rfl) measurableSet_Ioc (hG.mono_set hsub1) (hG.mono_set hsub2)]
    -- integration by parts
    have hparts : ∫ s in Ioc (1 / 2) b, ((p + r * (s - 1)) * v1 s * stiffWeight v κ s - r / κ * stiffWeight v κ s) =
        -((p + r * (b - 1)) * stiffWeight v κ b - (p + r * (1 / 2 - 1)) * stiffWeight v κ (1 / 2)) / κ := by
      have hder : ∀ s ∈ uIcc (1 / 2) b, HasDerivAt (fun s => -((p + r * (s - 1)) * stiffWeight v κ s) / κ)
          ((p + r * (s - 1)) * v1 s * stiffWeight v κ s - r / κ * stiffWeight v κ s) s := by
        intro s hs
        rw [uIcc_of_le (by linarith)] at hs
        have hw : HasDerivAt (stiffWeight v κ) (stiffWeight v κ s * -(κ * v1 s)) s :=
          (((hd s hs).sub_const (v 1)).const_mul κ).neg.exp
        have hl : HasDerivAt (fun s => p + r * (s - 1)) r s := by
          simpa using (((hasDerivAt_id s).sub_const 1).const_mul r).const_add p
        refine (((hl.mul hw).neg).div_const κ).congr_deriv ?_
        field_simp
        ring
      have hvc : ContinuousOn v (uIcc (1 / 2) b) := by
        rw [uIcc_of_le (by linarith)]
        exact fun s hs => (hd s hs).continuousAt.continuousWithinAt
      have hwc : ContinuousOn (stiffWeight v κ) (uIcc (1 / 2) b) :=
        continuous_exp.comp_continuousOn ((continuousOn_const.mul (hvc.sub continuousOn_const)).neg)
      have hv1' : ContinuousOn v1 (uIcc (1 / 2) b) := by rwa [uIcc_of_le (by linarith)]
      rw [← intervalIntegral.integral_of_le (by linarith), intervalIntegral.integral_eq_sub_of_hasDerivAt hder
        (ContinuousOn.intervalIntegrable (by fun_prop))]
      ring
    -- the three pieces
    have e1 : (∫ s in Ioc 0 b, F s * stiffWeight v κ s) - F 1 * Z = ∫ s in Ioc 0 b, (F s - F 1) * stiffWeight v κ s := by
      rw [hZd, ← integral_const_mul, ← integral_sub iF (iW.const_mul _)]
      congr 1
      funext s
      ring
    set A1 := ∫ s in Ioc 0 (1 / 2), (F s - F 1) * stiffWeight v κ s with hA1
    set A2 := ∫ s in Ioc 0 (1 / 2), stiffWeight v κ s with hA2
    set A3 := ∫ s in Ioc (1 / 2) b, (F s - F 1 - (p + r * (s - 1)) * v1 s) * stiffWeight v κ s with hA3
    have iA3 : IntegrableOn (fun s => (F s - F 1 - (p + r * (s - 1)) * v1 s) * stiffWeight v κ s) (Ioc (1 / 2) b) := by
      have hvc : ContinuousOn v (Icc (1 / 2) b) := fun s hs => (hd s hs).continuousAt.continuousWithinAt
      have hwc : ContinuousOn (stiffWeight v κ) (Icc (1 / 2) b) :=
        continuous_exp.comp_continuousOn ((continuousOn_const.mul (hvc.sub continuousOn_const)).neg)
      have hFc : ContinuousOn F (Icc (1 / 2) b) := hF.continuousOn
      have : ContinuousOn (fun s => (F s - F 1 - (p + r * (s - 1)) * v1 s) * stiffWeight v κ s) (Icc (1 / 2) b) := by fun_prop
      exact (this.integrableOn_Icc).mono_set Ioc_subset_Icc_self
    have iP : IntegrableOn (fun s => (p + r * (s - 1)) * v1 s * stiffWeight v κ s - r / κ * stiffWeight v κ s) (Ioc (1 / 2) b) := by
      have := ((iG.mono_set hsub2).sub iA3).sub ((iW.mono_set hsub2).const_mul (r / κ))
      refine this.congr (Eventually.of_forall fun s => ?_)
      simp only [Pi.sub_apply]
      ring
    have e2 : ∫ s in Ioc (1 / 2) b, (F s - F 1) * stiffWeight v κ s =
        A3 + -((p + r * (b - 1)) * stiffWeight v κ b - (p + r * (1 / 2 - 1)) * stiffWeight v κ (1 / 2)) / κ + r / κ * (Z - A2) := by
      rw [← hparts, hZd, hsum _ iW, add_sub_cancel_left, ← integral_const_mul, hA3, ← integral_add iA3 iP]
      have e := integral_add (iA3.add iP) ((iW.mono_set hsub2).const_mul (r / κ))
      simp only [Pi.add_apply] at e
      rw [← e]
      congr 1
      funext s
      ring
    set X := (p + r * (b - 1)) * stiffWeight v κ b - (p + r * (1 / 2 - 1)) * stiffWeight v κ (1 / 2) with hX
    set E := exp (-(d * κ)) with hE
    have hE0 : 0 < E := exp_pos _
    have bX : |X| ≤ (|p| + |r| * b + |p| + |r|) * E := by
      have w1 := stiffWeight_pos v κ b
      have w2 := stiffWeight_pos v κ (1 / 2)
      have c1 : |p + r * (b - 1)| ≤ |p| + |r| * b := by
        refine (abs_add_le _ _).trans (add_le_add le_rfl ?_)
        rw [abs_mul, abs_of_pos (sub_pos.2 hb)]
        exact mul_le_mul_of_nonneg_left (by linarith) (abs_nonneg _)
      have c2 : |p + r * (1 / 2 - 1)| ≤ |p| + |r| := by
        refine (abs_add_le _ _).trans (add_le_add le_rfl ?_)
        rw [abs_mul]
        norm_num
        linarith [abs_nonneg r]
      rw [hX]
      refine (abs_sub _ _).trans ?_
      rw [abs_mul, abs_mul, abs_of_pos w1, abs_of_pos w2]
      have d1 := mul_le_mul c1 f2 w1.le (by positivity)
      have d2 := mul_le_mul c2 (f1 (1 / 2) ⟨by norm_num, le_rfl⟩) w2.le (by positivity)
      linarith
    have hvol : volume.real (Ioc (0 : ℝ) (1 / 2)) = 1 / 2 := by
      rw [measureReal_def, volume_Ioc, ENNReal.toReal_ofReal (by norm_num)]
      norm_num
    have bA1 : |A1| ≤ B * E := by
      have := norm_setIntegral_le_of_norm_le_const (μ := volume) (s := Ioc (0 : ℝ) (1 / 2)) (C := B * E)
        (f := fun s => (F s - F 1) * stiffWeight v κ s) (by simp) (fun s hs => ?_)
      · rw [hvol, norm_eq_abs] at this
        have : 0 ≤ B * E := by positivity
        linarith
      · rw [norm_mul, norm_eq_abs (stiffWeight v κ s), abs_of_pos (stiffWeight_pos v κ s)]
        exact mul_le_mul (hB s ⟨hs.1.le, by linarith [hs.2]⟩) (f1 s hs) (stiffWeight_pos v κ s).le hB0
    have bA2 : |A2| ≤ E := by
      have := norm_setIntegral_le_of_norm_le_const (μ := volume) (s := Ioc (0 : ℝ) (1 / 2)) (C := E)
        (f := fun s => stiffWeight v κ s) (by simp) (fun s hs => ?_)
      · rw [hvol, norm_eq_abs] at this
        linarith
      · rw [norm_eq_abs (stiffWeight v κ s), abs_of_pos (stiffWeight_pos v κ s)]
        exact f1 s hs
    have bA3 : |A3| ≤ R * (K / κ ^ 2) := by
      have s1 : |A3| ≤ ∫ s in Ioc (1 / 2) b, R * (|s - 1| ^ 3 * stiffWeight v κ s) := by
        rw [← norm_eq_abs, hA3]
        refine norm_integral_le_of_norm_le ((i3.mono_set hsub2).const_mul R) ?_
        refine (ae_restrict_iff' measurableSet_Ioc).2 (Eventually.of_forall fun s hs => ?_)
        rw [norm_mul, norm_eq_abs, norm_eq_abs (stiffWeight v κ s), abs_of_pos (stiffWeight_pos v κ s), ← mul_assoc]
        exact mul_le_mul_of_nonneg_right (hrem s ⟨hs.1.le, hs.2⟩) (stiffWeight_pos v κ s).le
      refine s1.trans ?_
      rw [integral_const_mul]
      refine mul_le_mul_of_nonneg_left ((setIntegral_mono_set i3 (Eventually.of_forall fun s => ?_) (Eventually.of_forall hsub2)).trans
        (hK κ hκ0)) hR0
      have := stiffWeight_pos v κ s
      simp only [Pi.zero_apply]
      positivity
    have e3 : κ * ((∫ s in Ioc 0 b, F s * stiffWeight v κ s) / Z - F 1) - r = (κ * A1 + κ * A3 - X - r * A2) / Z := by
      have : ∫ s in Ioc 0 b, F s * stiffWeight v κ s = F 1 * Z + (A1 + (A3 + -X / κ + r / κ * (Z - A2))) := by
        rw [← e2, hA1, ← hsum _ iG, ← e1]
        ring
      rw [this]
      field_simp
      ring
    have bN : |κ * A1 + κ * A3 - X - r * A2| ≤ (B * κ + (|p| + |r| * b + |p| + |r| + |r|)) * E + R * K / κ := by
      have m1 : |κ * A1| ≤ κ * (B * E) := by rw [abs_mul, abs_of_pos hκ0]; exact mul_le_mul_of_nonneg_left bA1 hκ0.le
      have m2 : |κ * A3| ≤ R * K / κ := by
        rw [abs_mul, abs_of_pos hκ0]
        refine (mul_le_mul_of_nonneg_left bA3 hκ0.le).trans (le_of_eq ?_)
        field_simp
      have m3 : |r * A2| ≤ |r| * E := by rw [abs_mul]; exact mul_le_mul_of_nonneg_left bA2 (abs_nonneg _)
      refine (abs_sub _ _).trans ((add_le_add ((abs_sub _ _).trans (add_le_add ((abs_add_le _ _).trans (add_le_add m1 m2)) bX)) m3).trans
        (le_of_eq ?_))
      ring
    rw [e3, abs_div, abs_of_pos hZ0]
    have hnn : 0 ≤ (B * κ + (|p| + |r| * b + |p| + |r| + |r|)) * E + R * K / κ := (abs_nonneg _).trans bN
    calc |κ * A1 + κ * A3 - X - r * A2| / Z ≤ ((B * κ + (|p| + |r| * b + |p| + |r| + |r|)) * E + R * K / κ) / (C / √κ) :=
          div_le_div₀ hnn bN (by positivity) hZ
      _ = _ := by
          have : R * K / κ / (C / √κ) = R * K / C * (1 / √κ) := by
            rw [← sqrt_div_self']
            field_simp
          rw [add_div, this]
          congr 1
          field_simp
  have hlim : Tendsto (fun κ => 1 / C * (√κ * ((B * κ + (|p| + |r| * b + |p| + |r| + |r|)) * exp (-(d * κ)))) + R * K / C * (1 / √κ))
      atTop (𝓝 0) := by
    have h1 := (exp_small d B (|p| + |r| * b + |p| + |r| + |r|) hd0).const_mul (1 / C)
    have h2 : Tendsto (fun κ : ℝ => R * K / C * (1 / √κ)) atTop (𝓝 0) := by
      have := (tendsto_inv_atTop_zero.comp tendsto_sqrt_atTop).const_mul (R * K / C)
      rw [mul_zero] at this
      refine this.congr fun κ => ?_
      simp only [Function.comp, one_div]
    simpa using h1.add h2
  rw [tendsto_iff_norm_sub_tendsto_zero]
  refine squeeze_zero' (Eventually.of_forall fun κ => norm_nonneg _) ?_ hlim
  filter_upwards [eventually_ge_atTop κ₀] with κ hκ
  rw [norm_eq_abs]
  exact hbound κ hκ

/-- Composition with a differentiable function. -/
theorem tendsto_mul_comp_sub {g : ℝ → ℝ} {g' a r : ℝ} (hg : HasDerivAt g g' a) {x : ℝ → ℝ}
    (hx : Tendsto (fun κ => κ * (x κ - a)) atTop (𝓝 r)) : Tendsto (fun κ => κ * (g (x κ) - g a)) atTop (𝓝 (g' * r)) := by
  have hxa : Tendsto x atTop (𝓝 a) := by
    have h1 : Tendsto (fun κ : ℝ => κ⁻¹ * (κ * (x κ - a)) + a) atTop (𝓝 (0 * r + a)) :=
      (tendsto_inv_atTop_zero.mul hx).add_const a
    rw [zero_mul, zero_add] at h1
    refine h1.congr' ?_
    filter_upwards [eventually_gt_atTop 0] with κ hκ
    field_simp
    ring
  have hs : Tendsto (fun κ => dslope g a (x κ)) atTop (𝓝 g') := by
    have := (continuousAt_dslope_same.2 hg.differentiableAt).tendsto.comp hxa
    rwa [dslope_same, hg.deriv] at this
  refine (hs.mul hx).congr fun κ => ?_
  have := sub_smul_dslope g a (x κ)
  rw [smul_eq_mul] at this
  rw [← this]
  ring

end Polymers.Lemmas
