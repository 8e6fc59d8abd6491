import Mathlib.Data.Rat.Cast.OfScientific
import Mathlib.Analysis.Calculus.MeanValue
import Mathlib.Analysis.Real.Pi.Bounds
import Mathlib.Analysis.SpecialFunctions.ExpDeriv
import Mathlib.MeasureTheory.Integral.IntervalIntegral.FundThmCalculus
import Mathlib.MeasureTheory.Integral.IntegralEqImproper
import Verif.Model.RealInst
import Verif.Model.Math
import Verif.Spec.ErrorFunction
import Verif.Lemmas.Lits

/-! The piecewise polynomials of `erfcx_helper` against the error function: on every piece the derivative of the computed
value differs from the true one by a polynomial whose coefficients are small, and neighbouring pieces agree at their common
end up to rounding of the table. -/

namespace Polymers.Lemmas

open Polymers.Spec Real Set

/-! Polynomials as coefficient lists -/

/-- Evaluation of a polynomial with rational coefficients, lowest degree first. -/
noncomputable def pev (t : ℝ) : List ℚ → ℝ
  | [] => 0
  | c :: cs => c + pev t cs * t

def padd : List ℚ → List ℚ → List ℚ
  | [], b => b
  | a, [] => a
  | x :: a, y :: b => (x + y) :: padd a b

def pscale (k : ℚ) (a : List ℚ) : List ℚ := a.map (k * ·)

def pmul : List ℚ → List ℚ → List ℚ
  | [], _ => []
  | x :: a, b => padd (pscale x b) (0 :: pmul a b)

/-- Derivative. -/
def pder : List ℚ → List ℚ
  | [] => []
  | _ :: cs => padd cs (0 :: pder cs)

def pnorm (a : List ℚ) : ℚ := (a.map (fun c => |c|)).sum

theorem pev_padd (t : ℝ) : ∀ a b, pev t (padd a b) = pev t a + pev t b
  | [], b => by simp [padd, pev]
  | x :: a, [] => by simp [padd, pev]
  | x :: a, y :: b => by
    simp only [padd, pev, pev_padd t a b]
    push_cast; ring

theorem pev_pscale (t : ℝ) (k : ℚ) : ∀ a, pev t (pscale k a) = k * pev t a
  | [] => by simp [pscale, pev]
  | x :: a => by
    have := pev_pscale t k a
    simp only [pscale, List.map_cons, pev] at *
    rw [this]; push_cast; ring

theorem pev_pmul (t : ℝ) : ∀ a b, pev t (pmul a b) = pev t a * pev t b
  | [], b => by simp [pmul, pev]
  | x :: a, b => by
    simp only [pmul, pev_padd, pev_pscale, pev, pev_pmul t a b]
    push_cast; ring

theorem hasDerivAt_pev (t : ℝ) : ∀ a, HasDerivAt (fun s => pev s a) (pev t (pder a)) t
  | [] => by simpa [pev, pder] using hasDerivAt_const t (0 : ℝ)
  | x :: a => by
    have := ((hasDerivAt_pev t a).mul (hasDerivAt_id t)).const_add (x : ℝ)
    simp only [pder, pev_padd, pev]
    refine this.congr_deriv ?_
    simp; ring

theorem pnorm_cons (x : ℚ) (a : List ℚ) : pnorm (x :: a) = |x| + pnorm a := by simp [pnorm]

theorem pev_abs_le {t : ℝ} (ht : |t| ≤ 1) : ∀ a, |pev t a| ≤ (pnorm a : ℝ)
  | [] => by simp [pev, pnorm]
  | x :: a => by
    have h := pev_abs_le ht a
    rw [pnorm_cons]
    push_cast
    calc |pev t (x :: a)| ≤ |(x : ℝ)| + |pev t a * t| := abs_add_le _ _
      _ ≤ |(x : ℝ)| + (pnorm a : ℝ) := by
          rw [abs_mul]
          nlinarith [abs_nonneg (pev t a), abs_nonneg t]

theorem pev_one : ∀ a : List ℚ, pev 1 a = (a.sum : ℚ)
  | [] => by simp [pev]
  | x :: a => by simp [pev, pev_one a]

def paltsum : List ℚ → ℚ
  | [] => 0
  | x :: a => x - paltsum a

theorem pev_neg_one : ∀ a : List ℚ, pev (-1) a = (paltsum a : ℚ)
  | [] => by simp [pev, paltsum]
  | x :: a => by simp [pev, paltsum, pev_neg_one a]; ring

/-! The table -/

theorem erfcx_table_cast : (math.erfcx_table : List (ℝ × List ℝ)) =
    (math.erfcx_table : List (ℚ × List ℚ)).map (fun r => (((r.1 : ℚ) : ℝ), r.2.map (fun c : ℚ => (c : ℝ)))) := by
  simp only [math.erfcx_table, List.map, Rat.cast_ofScientific]

theorem horner_pev (t : ℝ) : ∀ a : List ℚ, math.horner t (a.map (fun c : ℚ => (c : ℝ))) = pev t a
  | [] => by simp only [List.map, math.horner, pev]; norm_num
  | [c] => by simp [math.horner, pev]
  | c :: d :: cs => by
    have := horner_pev t (d :: cs)
    simp only [List.map, math.horner, pev] at *
    rw [this]

/-- The coefficients of arm `i`. -/
def arm (i : ℕ) : List ℚ := ((math.erfcx_table : List (ℚ × List ℚ))[i]?.map Prod.snd).getD []

/-- `z` times the residual of the differential equation of `erfcx`, as a polynomial in `t = 2 z - (2 i + 1)`. -/
def armResidual (i : ℕ) : List ℚ :=
  let z : List ℚ := [(2 * i + 1) / 2, 1 / 2]
  padd (padd (pmul [800] (arm i)) (pmul (pscale (-8) z) (arm i)))
    (padd (pscale (1 / 200) (pmul (pmul z (pmul z z)) (pder (arm i)))) (pscale (-2 * 0.56418958354775628) z))

theorem arm_shift : ∀ i : ℕ, i < 100 → ((math.erfcx_table : List (ℚ × List ℚ))[i]?.map Prod.fst) = some (2 * (i : ℚ) + 1) := by
  decide +kernel

theorem arm_residual : ∀ i < 100, 7 ≤ i → pnorm (armResidual i) ≤ 3.8e-13 * i := by
  decide +kernel

theorem arm_jump : ∀ i < 99, |(arm i).sum - paltsum (arm (i + 1))| ≤ 2e-16 := by
  decide +kernel

theorem arm_last : |(arm 99).sum - 1| ≤ 2e-16 := by
  decide +kernel

theorem arm_norm : ∀ i < 100, pnorm (arm i) ≤ 1 := by
  decide +kernel

theorem arm_pos : ∀ i < 100, 7 ≤ i → pnorm (arm i) < 2 * (arm i).headD 0 := by
  decide +kernel

theorem arm_lower : ∀ i < 100, 39 ≤ i → 0.08 < 2 * (arm i).headD 0 - pnorm (arm i) := by
  decide +kernel

/-- The value of arm `i` at `z`. -/
noncomputable def armAt (i : ℕ) (z : ℝ) : ℝ := pev (2 * z - (2 * i + 1)) (arm i)

theorem erfcx_helper_eq {z : ℝ} {i : ℕ} (hi : i < 100) (h : ⌊z⌋₊ = i) : math.erfcx_helper z = armAt i z := by
  have e : Elem.toNat 255 z = i := by
    show min 255 ⌊z⌋₊ = i
    omega
  unfold math.erfcx_helper armAt arm
  rw [e, erfcx_table_cast, List.getElem?_map]
  have hs := arm_shift i hi
  cases hrow : (math.erfcx_table : List (ℚ × List ℚ))[i]? with
  | none => rw [hrow] at hs; simp at hs
  | some r =>
    rw [hrow] at hs
    simp only [Option.map_some, Option.some.injEq, Option.getD_some] at *
    rw [horner_pev, hs]
    norm_num

theorem erfcx_helper_last {z : ℝ} (h : 100 ≤ z) : math.erfcx_helper z = 1 := by
  have hz : 100 ≤ ⌊z⌋₊ := Nat.le_floor (by exact_mod_cast h)
  have e : (math.erfcx_table : List (ℝ × List ℝ))[Elem.toNat 255 z]? = none := by
    rw [List.getElem?_eq_none_iff]
    show (math.erfcx_table : List (ℝ × List ℝ)).length ≤ min 255 ⌊z⌋₊
    have : (math.erfcx_table : List (ℝ × List ℝ)).length = 100 := by
      rw [erfcx_table_cast, List.length_map]; decide +kernel
    omega
  unfold math.erfcx_helper
  rw [e]
  norm_num

theorem arm_arg {z : ℝ} {i : ℕ} (h0 : (i : ℝ) ≤ z) (h1 : z ≤ i + 1) : |2 * z - (2 * i + 1)| ≤ 1 := by
  rw [abs_le]; constructor <;> linarith

theorem armAt_le_one {z : ℝ} {i : ℕ} (hi : i < 100) (h0 : (i : ℝ) ≤ z) (h1 : z ≤ i + 1) : |armAt i z| ≤ 1 := by
  refine (pev_abs_le (arm_arg h0 h1) _).trans ?_
  exact_mod_cast arm_norm i hi

theorem armAt_lower {z : ℝ} {i : ℕ} {a : ℚ} (ha : 0 ≤ a) (h : a < 2 * (arm i).headD 0 - pnorm (arm i)) (h0 : (i : ℝ) ≤ z)
    (h1 : z ≤ i + 1) : (a : ℝ) < armAt i z := by
  unfold armAt
  have ht := arm_arg h0 h1
  generalize 2 * z - (2 * (i : ℝ) + 1) = t at *
  cases hl : arm i with
  | nil => rw [hl] at h; simp [pnorm] at h; linarith
  | cons c cs =>
    rw [hl, pnorm_cons] at h
    simp only [List.headD_cons] at h
    have hb := pev_abs_le ht cs
    have hb' : |pev t cs * t| ≤ (pnorm cs : ℝ) := by
      rw [abs_mul]; nlinarith [abs_nonneg (pev t cs), abs_nonneg t]
    have hc : (a : ℝ) + (pnorm cs : ℝ) < c := by
      have hn : 0 ≤ pnorm cs := by
        unfold pnorm
        refine List.sum_nonneg fun x hx => ?_
        obtain ⟨y, _, rfl⟩ := List.mem_map.1 hx
        exact abs_nonneg _
      have : a + pnorm cs < c := by
        rcases le_total 0 c with hc | hc
        · rw [abs_of_nonneg hc] at h; linarith
        · rw [abs_of_nonpos hc] at h; linarith
      exact_mod_cast this
    have := (abs_le.1 hb').1
    simp only [pev]
    linarith

theorem armAt_pos {z : ℝ} {i : ℕ} (hi : i < 100) (h7 : 7 ≤ i) (h0 : (i : ℝ) ≤ z) (h1 : z ≤ i + 1) : 0 < armAt i z := by
  have := armAt_lower le_rfl (sub_pos.2 (arm_pos i hi h7)) h0 h1
  simpa using this

/-! The constant -/

theorem inv_sqrt_pi_bounds : (0.56418958354775628 : ℝ) < 1 / √π ∧ 1 / √π < 0.56418958354775629 := by
  have h1 := pi_gt_d20
  have h2 := pi_lt_d20
  have hs : 0 < √π := sqrt_pos.2 pi_pos
  constructor
  · rw [lt_div_iff₀ hs, ← lt_div_iff₀' (by norm_num), sqrt_lt' (by norm_num)]
    refine h2.trans ?_
    norm_num
  · rw [div_lt_iff₀ hs, ← div_lt_iff₀' (by norm_num), lt_sqrt (by norm_num)]
    refine lt_trans ?_ h1
    norm_num

/-! Derivatives -/

theorem hasDerivAt_errorFunction (x : ℝ) : HasDerivAt errorFunction (2 / √π * exp (-x ^ 2)) x := by
  have hc : Continuous fun t : ℝ => exp (-t ^ 2) := by fun_prop
  exact (intervalIntegral.integral_hasDerivAt_right (hc.intervalIntegrable _ _)
    (hc.stronglyMeasurableAtFilter _ _) hc.continuousAt).const_mul _

theorem errorFunction_zero : errorFunction 0 = 0 := by simp [errorFunction]

/-- The computed error function with arm `i`. -/
noncomputable def armErf (i : ℕ) (x : ℝ) : ℝ := 1 - exp (-x ^ 2) * armAt i (400 / (4 + x))

theorem armErf_deriv {x : ℝ} {i : ℕ} (hi : i < 100) (h7 : 7 ≤ i) (hx : 0 ≤ x) (h0 : (i : ℝ) ≤ 400 / (4 + x))
    (h1 : 400 / (4 + x) ≤ i + 1) :
    ∃ d, HasDerivAt (fun x => armErf i x - errorFunction x) d x ∧ |d| ≤ 4e-13 * exp (-x ^ 2) := by
  have hx4 : 0 < 4 + x := by linarith
  set z := 400 / (4 + x) with hz
  have hz0 : 0 < z := by positivity
  have hi0 : (7 : ℝ) ≤ i := by exact_mod_cast h7
  have hzx : z * (4 + x) = 400 := by rw [hz]; field_simp
  have dz : HasDerivAt (fun x : ℝ => 400 / (4 + x)) (-(400 / (4 + x) ^ 2)) x := by
    have := (hasDerivAt_const x (400 : ℝ)).div ((hasDerivAt_id x).const_add 4) hx4.ne'
    refine this.congr_deriv ?_
    simp [neg_div]
  set t := 2 * z - (2 * (i : ℝ) + 1) with ht
  have dt : HasDerivAt (fun x : ℝ => 2 * (400 / (4 + x)) - (2 * (i : ℝ) + 1)) (2 * -(400 / (4 + x) ^ 2)) x :=
    (dz.const_mul 2).sub_const _
  have dp : HasDerivAt (fun x : ℝ => armAt i (400 / (4 + x))) (pev t (pder (arm i)) * (2 * -(400 / (4 + x) ^ 2))) x :=
    HasDerivAt.comp (h₂ := fun s => pev s (arm i)) x (hasDerivAt_pev t (arm i)) dt
  have de : HasDerivAt (fun x : ℝ => exp (-x ^ 2)) (exp (-x ^ 2) * (-(2 * x))) x := by
    have := ((hasDerivAt_pow 2 x).neg).exp
    refine this.congr_deriv ?_
    simp
  refine ⟨_, ((de.mul dp).const_sub 1).sub (hasDerivAt_errorFunction x), ?_⟩
  have e400 : 400 / (4 + x) ^ 2 = z ^ 2 / 400 := by rw [hz]; field_simp
  rw [e400]
  have hres := pev_abs_le (arm_arg h0 h1) (armResidual i)
  have hres2 : (pnorm (armResidual i) : ℝ) ≤ 3.8e-13 * i := by
    have := arm_residual i hi h7
    have : ((pnorm (armResidual i) : ℚ) : ℝ) ≤ ((3.8e-13 * i : ℚ) : ℝ) := Rat.cast_le.2 this
    refine this.trans_eq ?_
    push_cast
    norm_num
  rw [← ht] at hres
  have hzt : z = ((2 * (i : ℝ) + 1) / 2) + t * (1 / 2) := by rw [ht]; ring
  have hev : pev t (armResidual i) = (800 - 8 * z) * armAt i z + z ^ 3 / 200 * pev t (pder (arm i)) -
      2 * 0.56418958354775628 * z := by
    have ez : pev t [(2 * (i : ℚ) + 1) / 2, 1 / 2] = z := by
      rw [hzt]; simp only [pev]; push_cast; ring
    unfold armResidual
    simp only [pev_padd, pev_pmul, pev_pscale, ez]
    have : pev t [800] = 800 := by simp [pev]
    rw [this]
    show _ = (800 - 8 * z) * pev t (arm i) + _ - _
    push_cast
    norm_num
    ring
  have hE0 : 0 < exp (-x ^ 2) := exp_pos _
  obtain ⟨c1, c2⟩ := inv_sqrt_pi_bounds
  have key : |pev t (armResidual i) / z + 2 * (0.56418958354775628 - 1 / √π)| ≤ 4e-13 := by
    have a1 : |pev t (armResidual i) / z| ≤ 3.8e-13 := by
      rw [abs_div, abs_of_pos hz0, div_le_iff₀ hz0]
      refine (hres.trans hres2).trans ?_
      exact mul_le_mul_of_nonneg_left h0 (by norm_num)
    have a2 : |2 * (0.56418958354775628 - 1 / √π)| ≤ 2e-14 := by
      rw [abs_le]; constructor <;> norm_num at c1 c2 ⊢ <;> linarith
    calc _ ≤ _ := abs_add_le _ _
      _ ≤ 3.8e-13 + 2e-14 := add_le_add a1 a2
      _ = 4e-13 := by norm_num
  have e : -(exp (-x ^ 2) * -(2 * x) * armAt i z + exp (-x ^ 2) * (pev t (pder (arm i)) * (2 * -(z ^ 2 / 400)))) -
      2 / √π * exp (-x ^ 2) = exp (-x ^ 2) * (pev t (armResidual i) / z + 2 * (0.56418958354775628 - 1 / √π)) := by
    rw [hev]
    have hx' : x = 400 / z - 4 := by rw [hz]; field_simp; ring
    have : 2 * x * z = 800 - 8 * z := by linarith
    have hs : √π ≠ 0 := (sqrt_pos.2 pi_pos).ne'
    generalize exp (-x ^ 2) = E at *
    generalize armAt i z = A at *
    generalize pev t (pder (arm i)) = B at *
    clear_value z t
    field_simp
    linear_combination (A * √π * 80000) * this
  rw [e, abs_mul, abs_of_pos hE0, mul_comm]
  exact mul_le_mul_of_nonneg_right key hE0.le


/-! The error of one arm along its interval, and of the first arms together -/

theorem arm_interval {a b : ℝ} {i : ℕ} (hi : i < 100) (h7 : 7 ≤ i) (ha : 0 ≤ a) (hab : a ≤ b) (h0 : (i : ℝ) ≤ 400 / (4 + b))
    (h1 : 400 / (4 + a) ≤ i + 1) :
    |armErf i b - errorFunction b| ≤ |armErf i a - errorFunction a| + 4e-13 * (b - a) := by
  have hd : ∀ x ∈ Icc a b, ∃ d, HasDerivAt (fun x => armErf i x - errorFunction x) d x ∧ |d| ≤ 4e-13 := fun x hx => by
    obtain ⟨d, h, hb⟩ := armErf_deriv hi h7 (ha.trans hx.1)
      (h0.trans (div_le_div_of_nonneg_left (by norm_num) (by linarith [hx.1]) (by linarith [hx.2])))
      (le_trans (div_le_div_of_nonneg_left (by norm_num) (by linarith) (by linarith [hx.1])) h1)
    have hE1 : exp (-x ^ 2) ≤ 1 := exp_le_one_iff.2 (by nlinarith [sq_nonneg x])
    exact ⟨d, h, hb.trans (mul_le_of_le_one_right (by norm_num) hE1)⟩
  have key := (convex_Icc a b).norm_image_sub_le_of_norm_deriv_le (f := fun x => armErf i x - errorFunction x) (C := 4e-13)
    (fun x hx => by obtain ⟨d, h, _⟩ := hd x hx; exact h.differentiableAt)
    (fun x hx => by obtain ⟨d, h, hb⟩ := hd x hx; rw [h.deriv]; exact hb)
    (left_mem_Icc.2 hab) (right_mem_Icc.2 hab)
  simp only [Real.norm_eq_abs, abs_of_nonneg (sub_nonneg.2 hab)] at key
  have := abs_sub_abs_le_abs_sub (armErf i b - errorFunction b) (armErf i a - errorFunction a)
  linarith

theorem armAt_top (i : ℕ) : armAt i ((i : ℝ) + 1) = ((arm i).sum : ℚ) := by
  unfold armAt
  rw [show 2 * ((i : ℝ) + 1) - (2 * i + 1) = 1 by ring, pev_one]

theorem armAt_bottom (i : ℕ) : armAt i (i : ℝ) = (paltsum (arm i) : ℚ) := by
  unfold armAt
  rw [show 2 * (i : ℝ) - (2 * i + 1) = -1 by ring, pev_neg_one]

theorem armAt_match {i : ℕ} (hi : i < 99) : |armAt i ((i : ℝ) + 1) - armAt (i + 1) ((i : ℝ) + 1)| ≤ 2e-16 := by
  have := arm_jump i hi
  have e := armAt_bottom (i + 1)
  push_cast at e
  rw [armAt_top, e]
  have h : ((|(arm i).sum - paltsum (arm (i + 1))| : ℚ) : ℝ) ≤ ((2e-16 : ℚ) : ℝ) := Rat.cast_le.2 this
  rw [Rat.cast_abs, Rat.cast_sub] at h
  refine h.trans_eq ?_
  norm_num

/-- The position at which arm `i - 1` takes over from arm `i`. -/
noncomputable def armEnd (i : ℕ) : ℝ := 400 / i - 4

theorem arm_start (k : ℕ) : ∀ i : ℕ, i + k = 99 → 7 ≤ i →
    |armErf i (armEnd (i + 1)) - errorFunction (armEnd (i + 1))| ≤ 4e-13 * armEnd (i + 1) + 2e-16 * (k + 1) := by
  induction k with
  | zero =>
    intro i hi h7
    obtain rfl : i = 99 := by omega
    have e : armEnd (99 + 1) = 0 := by unfold armEnd; norm_num
    rw [e, errorFunction_zero]
    unfold armErf
    have h := arm_last
    have h' : ((|(arm 99).sum - 1| : ℚ) : ℝ) ≤ ((2e-16 : ℚ) : ℝ) := Rat.cast_le.2 h
    rw [Rat.cast_abs, Rat.cast_sub] at h'
    have e2 : (400 : ℝ) / (4 + 0) = ((99 : ℕ) : ℝ) + 1 := by norm_num
    rw [e2, armAt_top]
    norm_num at h' ⊢
    rw [abs_sub_comm]
    exact h'
  | succ k ih =>
    intro i hi h7
    have h := ih (i + 1) (by omega) (by omega)
    have hi0 : (7 : ℝ) ≤ i := by exact_mod_cast h7
    have hi99 : i < 99 := by omega
    have hi98 : (i : ℝ) ≤ 98 := by exact_mod_cast (by omega : i ≤ 98)
    have ea : 4 + armEnd (i + 1 + 1) = 400 / ((i : ℝ) + 2) := by unfold armEnd; push_cast; ring
    have eb : 4 + armEnd (i + 1) = 400 / ((i : ℝ) + 1) := by unfold armEnd; push_cast; ring
    have hab : armEnd (i + 1 + 1) ≤ armEnd (i + 1) := by
      have : (400 : ℝ) / ((i : ℝ) + 2) ≤ 400 / ((i : ℝ) + 1) :=
        div_le_div_of_nonneg_left (by norm_num) (by linarith) (by linarith)
      linarith
    have ha : 0 ≤ armEnd (i + 1 + 1) := by
      have : 4 ≤ (400 : ℝ) / ((i : ℝ) + 2) := by rw [le_div_iff₀ (by linarith)]; linarith
      linarith
    have h2 := arm_interval (i := i + 1) (by omega) (by omega) ha hab
      (by rw [eb]; push_cast; rw [div_div_cancel₀ (by norm_num)]) (by rw [ea, div_div_cancel₀ (by norm_num)]; push_cast; linarith)
    have h3 : |armErf i (armEnd (i + 1)) - armErf (i + 1) (armEnd (i + 1))| ≤ 2e-16 := by
      unfold armErf
      rw [eb, div_div_cancel₀ (by norm_num)]
      have hm := armAt_match hi99
      generalize armAt i ((i : ℝ) + 1) = u at *
      generalize armAt (i + 1) ((i : ℝ) + 1) = v at *
      have hE0 : 0 < exp (-armEnd (i + 1) ^ 2) := exp_pos _
      have hE1 : exp (-armEnd (i + 1) ^ 2) ≤ 1 := exp_le_one_iff.2 (by nlinarith [sq_nonneg (armEnd (i + 1))])
      have e : ∀ E : ℝ, 1 - E * u - (1 - E * v) = -(E * (u - v)) := fun E => by ring
      rw [e, abs_neg, abs_mul, abs_of_pos hE0]
      nlinarith [abs_nonneg (u - v)]
    have h4 := abs_sub_le (armErf i (armEnd (i + 1))) (armErf (i + 1) (armEnd (i + 1))) (errorFunction (armEnd (i + 1)))
    push_cast
    linarith

/-- Accuracy of the tabulated part of the error function. -/
theorem table_accuracy {x : ℝ} (hx : 0 ≤ x) (h50 : x < 50) :
    |1 - exp (-x ^ 2) * math.erfcx_helper (400 / (4 + x)) - errorFunction x| ≤ 4e-13 * x + 2e-14 := by
  rcases hx.eq_or_lt with rfl | hx
  · rw [erfcx_helper_last (by norm_num), errorFunction_zero]; norm_num
  set z := 400 / (4 + x) with hz
  have hz1 : z < 100 := by rw [hz, div_lt_iff₀ (by linarith)]; linarith
  have hz7 : 7 ≤ z := by rw [hz, le_div_iff₀ (by linarith)]; linarith
  obtain ⟨i, hi⟩ : ∃ i, i = ⌊z⌋₊ := ⟨_, rfl⟩
  have h0 : (i : ℝ) ≤ z := by rw [hi]; exact Nat.floor_le (by linarith)
  have h1 : z < i + 1 := by rw [hi]; exact Nat.lt_floor_add_one z
  have hi7 : 7 ≤ i := by rw [hi]; exact Nat.le_floor (by exact_mod_cast hz7)
  have hi100 : i < 100 := by rw [hi]; exact (Nat.floor_lt (by linarith)).2 (by exact_mod_cast hz1)
  rw [erfcx_helper_eq hi100 hi.symm]
  have hstart := arm_start (99 - i) i (by omega) hi7
  have hir : (7 : ℝ) ≤ i := by exact_mod_cast hi7
  have hir' : (i : ℝ) ≤ 99 := by exact_mod_cast (by omega : i ≤ 99)
  have ea : 4 + armEnd (i + 1) = 400 / ((i : ℝ) + 1) := by unfold armEnd; push_cast; ring
  have ha : 0 ≤ armEnd (i + 1) := by
    have : 4 ≤ (400 : ℝ) / ((i : ℝ) + 1) := by rw [le_div_iff₀ (by linarith)]; linarith
    linarith
  have hab : armEnd (i + 1) ≤ x := by
    have : (400 : ℝ) / ((i : ℝ) + 1) ≤ 400 / z := div_le_div_of_nonneg_left (by norm_num) (by linarith) h1.le
    rw [hz, div_div_cancel₀ (by norm_num)] at this
    linarith
  have h2 := arm_interval hi100 hi7 ha hab h0 (by rw [ea, div_div_cancel₀ (by norm_num)])
  have hk : (((99 - i : ℕ) : ℝ)) ≤ 92 := by exact_mod_cast (by omega : 99 - i ≤ 92)
  show |armErf i x - errorFunction x| ≤ _
  have : (2e-16 : ℝ) * (((99 - i : ℕ) : ℝ) + 1) ≤ 2e-14 := by
    calc _ ≤ (2e-16 : ℝ) * (92 + 1) := by gcongr
      _ ≤ 2e-14 := by norm_num
  linarith

/-! The tail of the error function -/

theorem errorFunction_tail {x : ℝ} (hx : 0 ≤ x) : 0 ≤ 1 - errorFunction x ∧ 1 - errorFunction x ≤ exp (-x ^ 2) := by
  have hs : 0 < √π := sqrt_pos.2 pi_pos
  have hint : MeasureTheory.Integrable fun t : ℝ => exp (-t ^ 2) := by
    simpa using integrable_exp_neg_mul_sq (b := 1) one_pos
  have hhalf : ∫ t in Ioi (0 : ℝ), exp (-t ^ 2) = √π / 2 := by
    simpa using integral_gaussian_Ioi 1
  have hsplit : (∫ t in (0 : ℝ)..x, exp (-t ^ 2)) + ∫ t in Ioi x, exp (-t ^ 2) = √π / 2 := by
    rw [← hhalf]
    exact intervalIntegral.integral_interval_add_Ioi hint.integrableOn hint.integrableOn
  have e : 1 - errorFunction x = 2 / √π * ∫ t in Ioi x, exp (-t ^ 2) := by
    unfold errorFunction
    rw [eq_sub_of_add_eq hsplit]
    field_simp
    ring
  rw [e]
  refine ⟨mul_nonneg (by positivity) (MeasureTheory.integral_nonneg fun t => (exp_pos _).le), ?_⟩
  have hshift : ∫ t in Ioi x, exp (-t ^ 2) = ∫ t in Ioi (0 : ℝ), exp (-(t + x) ^ 2) := by
    have := (MeasureTheory.measurePreserving_add_right MeasureTheory.volume x).setIntegral_preimage_emb
      (measurableEmbedding_addRight x) (fun t : ℝ => exp (-t ^ 2)) (Ioi x)
    rw [← this]
    simp
  have hle : ∫ t in Ioi (0 : ℝ), exp (-(t + x) ^ 2) ≤ ∫ t in Ioi (0 : ℝ), exp (-x ^ 2) * exp (-t ^ 2) := by
    refine MeasureTheory.setIntegral_mono_on (hint.comp_add_right x).integrableOn (hint.const_mul _).integrableOn
      measurableSet_Ioi fun t ht => ?_
    rw [← exp_add, exp_le_exp]
    nlinarith [mem_Ioi.1 ht, mul_nonneg (mem_Ioi.1 ht).le hx]
  rw [MeasureTheory.integral_const_mul, hhalf] at hle
  rw [hshift]
  calc _ ≤ 2 / √π * (exp (-x ^ 2) * (√π / 2)) := by gcongr
    _ = exp (-x ^ 2) := by field_simp

theorem errorFunction_neg (x : ℝ) : errorFunction (-x) = -errorFunction x := by
  unfold errorFunction
  have := intervalIntegral.integral_comp_neg (a := 0) (b := x) (fun t : ℝ => exp (-t ^ 2))
  simp only [neg_sq, neg_zero] at this
  rw [this, intervalIntegral.integral_symm]
  ring

end Polymers.Lemmas
