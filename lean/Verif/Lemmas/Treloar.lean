import Verif.Lemmas.IrwinHall
import Verif.Lemmas.Lits
import Verif.Model.Fjc
import Verif.Model.RealInst
import Mathlib.Data.Nat.Factorial.Basic
import Mathlib.Analysis.Calculus.Deriv.ZPow
import Mathlib.Analysis.SpecialFunctions.Pow.Real

/-! The sums of Treloar as evaluated by `fjc::thermodynamics::treloar_sums`. -/

namespace Polymers.Lemmas

open Finset Polymers.fjc.thermodynamics

theorem product_u128_eq (n : ℕ) : product_u128 n = if n.factorial < 2 ^ 128 then some n.factorial else none := by
  induction n with
  | zero => simp [product_u128]
  | succ n ih =>
    rw [product_u128, ih]
    by_cases h : n.factorial < 2 ^ 128
    · rw [if_pos h, Option.bind_some, checked_mul, Nat.factorial_succ, mul_comm]
    · rw [if_neg h, Option.bind_none, if_neg]
      have : n.factorial ≤ (n + 1).factorial := Nat.factorial_le (Nat.le_succ n)
      omega

theorem factorial_lt {n : ℕ} (h : n ≤ 34) : n.factorial < 2 ^ 128 :=
  lt_of_le_of_lt (Nat.factorial_le h) (by norm_num [Nat.factorial])

theorem le_factorial {n : ℕ} (h : 35 ≤ n) : 2 ^ 128 ≤ n.factorial :=
  le_trans (by norm_num [Nat.factorial]) (Nat.factorial_le h)

theorem pow_self_lt {n : ℕ} (h : n ≤ 26) : n ^ n < 2 ^ 128 := by
  rcases Nat.eq_zero_or_pos n with rfl | h0
  · norm_num
  · exact lt_of_le_of_lt ((Nat.pow_le_pow_left h n).trans (Nat.pow_le_pow_right (by norm_num) h)) (by norm_num)

theorem le_pow_self {n : ℕ} (h : 27 ≤ n) : 2 ^ 128 ≤ n ^ n :=
  le_trans (by norm_num : 2 ^ 128 ≤ 27 ^ 27) ((Nat.pow_le_pow_left h 27).trans (Nat.pow_le_pow_right (by omega) h))

theorem treloar_coefficient_eq {n s : ℕ} (hn : n ≤ 34) (hs : s ≤ n) : treloar_coefficient n s = some (n.choose s) := by
  unfold treloar_coefficient
  rw [if_neg (by omega), product_u128_eq, product_u128_eq, product_u128_eq, if_pos (factorial_lt hn),
    if_pos (factorial_lt (hs.trans hn)), if_pos (factorial_lt (by omega : n - s ≤ 34))]
  simp only [Option.bind_some, Option.map_some]
  rw [Nat.choose_eq_factorial_div_factorial hs, Nat.div_div_eq_div_mul]

theorem treloar_sums_eq {N : ℕ} (hN : 2 ≤ N) (γ : ℝ) (orders : List ℤ) :
    treloar_sums N γ orders = orders.map fun order => treloar_sum N γ ((N : ℤ) - 2 - order) := by
  unfold treloar_sums
  simp only [if_neg (by omega : ¬ N < 2)]

/-- The argument of the sums: `N (1 - γ)/2`. -/
noncomputable def treloarX (N : ℕ) (γ : ℝ) : ℝ := N * ((1 - γ) / 2)

theorem treloar_k_eq (N : ℕ) (hN : N ≤ 34) {γ : ℝ} (h : -1 ≤ γ) : treloar_k N γ = ⌈treloarX N γ⌉₊ := by
  have e : (N : ℝ) * (-γ * 0.5 + 0.5) = treloarX N γ := by unfold treloarX; norm_num; left; ring
  have hle : treloarX N γ ≤ N := by
    unfold treloarX
    have : (0 : ℝ) ≤ N := Nat.cast_nonneg N
    nlinarith
  unfold treloar_k
  simp only [elem_toNat, elem_ceil]
  have hf : ⌊((⌈treloarX N γ⌉ : ℤ) : ℝ)⌋₊ = ⌈treloarX N γ⌉₊ := by
    rw [← Int.floor_toNat, Int.floor_intCast, Int.ceil_toNat]
  rw [e, hf]
  have : ⌈treloarX N γ⌉₊ ≤ N := Nat.ceil_le.2 hle
  exact min_eq_right (by omega)

theorem treloarX_pos {N : ℕ} (hN : 0 < N) {γ : ℝ} (h : γ < 1) : 0 < treloarX N γ := by
  unfold treloarX
  have : (0 : ℝ) < N := by exact_mod_cast hN
  exact mul_pos this (by linarith)

theorem treloarX_lt {N : ℕ} (hN : 0 < N) {γ : ℝ} (h : 0 < γ) : treloarX N γ < N / 2 := by
  unfold treloarX
  have : (0 : ℝ) < N := by exact_mod_cast hN
  nlinarith

theorem treloar_sum_eq {N : ℕ} (hN0 : 0 < N) (hN : N ≤ 34) {γ : ℝ} (h : -1 ≤ γ) (h1 : γ < 1) (e : ℤ) :
    treloar_sum N γ e =
      ∑ s ∈ range ⌈treloarX N γ⌉₊, (-1) ^ s * (N.choose s : ℝ) * ((1 - γ) / 2 - s / N) ^ e := by
  have hk : ⌈treloarX N γ⌉₊ ≤ N := by
    refine Nat.ceil_le.2 ?_
    unfold treloarX
    have : (0 : ℝ) ≤ N := Nat.cast_nonneg N
    nlinarith
  have hk0 : ⌈treloarX N γ⌉₊ ≠ 0 := (Nat.ceil_pos.2 (treloarX_pos hN0 h1)).ne'
  unfold treloar_sum
  simp only [treloar_k_eq N hN h, beq_iff_eq, hk0, if_false, fsum_eq]
  rw [← List.sum_toFinset _ List.nodup_range, List.toFinset_range]
  refine Finset.sum_congr rfl fun s hs => ?_
  have hs := Finset.mem_range.1 hs
  rw [treloar_coefficient_eq hN (by omega)]
  simp only [elem_powf, elem_powi]
  rw [show (-1.0 : ℝ) = -1 by norm_num, Real.rpow_natCast, show -γ * 0.5 + 0.5 = (1 - γ) / 2 by norm_num; ring]

theorem treloar_sum_spline {N : ℕ} (hN0 : 0 < N) (hN : N ≤ 34) {γ : ℝ} (h : -1 ≤ γ) (h1 : γ < 1) {q : ℕ} (hq : q ≠ 0) :
    treloar_sum N γ (q : ℤ) = spline N q (treloarX N γ) / N ^ q := by
  have hN' : (0 : ℝ) < N := by exact_mod_cast hN0
  have hk : ⌈treloarX N γ⌉₊ ≤ N := by
    refine Nat.ceil_le.2 ?_
    unfold treloarX
    nlinarith
  rw [treloar_sum_eq hN0 hN h h1, spline, Finset.sum_div]
  rw [← Finset.sum_subset (Finset.range_mono (by omega : ⌈treloarX N γ⌉₊ ≤ N + 1))]
  · refine Finset.sum_congr rfl fun s hs => ?_
    have hs := Nat.lt_ceil.1 (Finset.mem_range.1 hs)
    rw [tpow_of_nonneg _ (by linarith), zpow_natCast, mul_div_assoc, ← div_pow]
    congr 2
    unfold treloarX
    field_simp
  · intro s _ hs
    have hs := Nat.ceil_le.1 (not_lt.1 fun h => hs (Finset.mem_range.2 h))
    rw [tpow_of_nonpos hq (by linarith), mul_zero, zero_div]

/-- The sum of the density is positive on the whole range of extensions. -/
theorem treloar_sum_pos {N : ℕ} (hN2 : 2 ≤ N) (hN : N ≤ 34) {γ : ℝ} (h0 : 0 < γ) (h1 : γ < 1) :
    0 < treloar_sum N γ ((N : ℤ) - 2) := by
  rcases Nat.lt_or_ge N 3 with h | h
  · obtain rfl : N = 2 := by omega
    rw [treloar_sum_eq (by norm_num) (by norm_num) (by linarith) h1]
    have : ⌈treloarX 2 γ⌉₊ = 1 := by
      rw [Nat.ceil_eq_iff (by norm_num)]
      unfold treloarX
      push_cast
      constructor <;> norm_num <;> linarith
    rw [this]
    norm_num
  · obtain ⟨n, rfl⟩ : ∃ n, N = n + 3 := ⟨N - 3, by omega⟩
    have e : ((n + 3 : ℕ) : ℤ) - 2 = ((n + 1 : ℕ) : ℤ) := by push_cast; ring
    rw [e, treloar_sum_spline (by omega) hN (by linarith) h1 (by omega)]
    refine div_pos (spline_deriv_pos n (treloarX_pos (by omega) h1) (treloarX_lt (by omega) h0)) (by positivity)

theorem hasDerivAt_treloarX (N : ℕ) (γ : ℝ) : HasDerivAt (treloarX N) (-(N / 2 : ℝ)) γ := by
  have : HasDerivAt (fun γ : ℝ => (N : ℝ) * ((1 - γ) / 2)) ((N : ℝ) * (-1 / 2)) γ :=
    (((hasDerivAt_id γ).const_sub 1).div_const 2).const_mul (N : ℝ)
  exact this.congr_deriv (by ring)

/-- Away from the breakpoints every sum can be differentiated term by term. -/
theorem hasDerivAt_treloar_smooth {N : ℕ} (hN0 : 0 < N) (hN : N ≤ 34) {γ : ℝ} (h0 : 0 < γ) (h1 : γ < 1) (e : ℤ)
    (hb : treloarX N γ < ⌈treloarX N γ⌉₊) :
    HasDerivAt (fun γ => treloar_sum N γ e) (-(e / 2 : ℝ) * treloar_sum N γ (e - 1)) γ := by
  have hN' : (0 : ℝ) < N := by exact_mod_cast hN0
  have hx := treloarX_pos hN0 h1
  have hk := Nat.ceil_pos.2 hx
  have hlo : ((⌈treloarX N γ⌉₊ - 1 : ℕ) : ℝ) < treloarX N γ := by
    have := Nat.ceil_lt_add_one hx.le
    rw [Nat.cast_sub hk]
    push_cast
    linarith
  have hloc : ∀ᶠ y in nhds γ, treloar_sum N y e =
      ∑ s ∈ range ⌈treloarX N γ⌉₊, (-1) ^ s * (N.choose s : ℝ) * ((1 - y) / 2 - s / N) ^ e := by
    have hc := (hasDerivAt_treloarX N γ).continuousAt
    filter_upwards [Ioo_mem_nhds h0 h1, hc.eventually (Ioo_mem_nhds hlo hb)] with y hy hy2
    rw [treloar_sum_eq hN0 hN (by linarith [hy.1]) hy.2]
    have : ⌈treloarX N y⌉₊ = ⌈treloarX N γ⌉₊ := (Nat.ceil_eq_iff hk.ne').2 ⟨hy2.1, hy2.2.le⟩
    rw [this]
  refine HasDerivAt.congr_of_eventuallyEq ?_ hloc
  rw [treloar_sum_eq hN0 hN (by linarith) h1, Finset.mul_sum]
  refine HasDerivAt.fun_sum fun s hs => ?_
  have hs := Nat.lt_ceil.1 (Finset.mem_range.1 hs)
  have hne : (1 - γ) / 2 - s / N ≠ 0 := by
    have : ((1 - γ) / 2 - s / N) * N = treloarX N γ - s := by unfold treloarX; field_simp
    intro hc
    rw [hc, zero_mul] at this
    linarith
  have hin : HasDerivAt (fun y : ℝ => (1 - y) / 2 - (s : ℝ) / N) (-1 / 2) γ :=
    (((hasDerivAt_id γ).const_sub 1).div_const 2).sub_const _
  refine (((hasDerivAt_zpow e _ (Or.inl hne)).comp γ hin).const_mul _).congr_deriv ?_
  ring

/-- For four or more links the sum of the density is differentiable at every extension, breakpoints included. -/
theorem hasDerivAt_treloar_spline {N : ℕ} (hN4 : 4 ≤ N) (hN : N ≤ 34) {γ : ℝ} (h0 : 0 < γ) (h1 : γ < 1) :
    HasDerivAt (fun γ => treloar_sum N γ ((N : ℤ) - 2))
      (-(((N : ℝ) - 2) / 2) * treloar_sum N γ ((N : ℤ) - 2 - 1)) γ := by
  obtain ⟨n, rfl⟩ : ∃ n, N = n + 4 := ⟨N - 4, by omega⟩
  have e1 : ((n + 4 : ℕ) : ℤ) - 2 = ((n + 2 : ℕ) : ℤ) := by push_cast; ring
  have e2 : ((n + 2 : ℕ) : ℤ) - 1 = ((n + 1 : ℕ) : ℤ) := by push_cast; ring
  rw [e1, e2, treloar_sum_spline (by omega) hN (by linarith) h1 (by omega)]
  have hloc : (fun γ => treloar_sum (n + 4) γ ((n + 2 : ℕ) : ℤ)) =ᶠ[nhds γ]
      fun γ => spline (n + 4) (n + 2) (treloarX (n + 4) γ) / ((n + 4 : ℕ) : ℝ) ^ (n + 2) := by
    filter_upwards [Ioo_mem_nhds h0 h1] with y hy
    exact treloar_sum_spline (by omega) hN (by linarith [hy.1]) hy.2 (by omega)
  refine HasDerivAt.congr_of_eventuallyEq ?_ hloc
  refine (((hasDerivAt_spline (n + 4) n _).comp γ (hasDerivAt_treloarX (n + 4) γ)).div_const _).congr_deriv ?_
  have hN' : ((n + 4 : ℕ) : ℝ) ≠ 0 := by positivity
  rw [pow_succ]
  field_simp
  push_cast
  ring

theorem treloar_smooth_two {γ : ℝ} (h0 : 0 < γ) (h1 : γ < 1) : treloarX 2 γ < ⌈treloarX 2 γ⌉₊ := by
  have : ⌈treloarX 2 γ⌉₊ = 1 := by
    rw [Nat.ceil_eq_iff (by norm_num)]
    unfold treloarX
    push_cast
    constructor <;> norm_num <;> linarith
  rw [this]
  unfold treloarX
  push_cast
  linarith

theorem treloar_smooth_three {γ : ℝ} (h0 : 0 < γ) (h1 : γ < 1) (h : γ ≠ 1 / 3) : treloarX 3 γ < ⌈treloarX 3 γ⌉₊ := by
  rcases lt_or_gt_of_ne h with h | h
  · have : ⌈treloarX 3 γ⌉₊ = 2 := by
      rw [Nat.ceil_eq_iff (by norm_num)]
      unfold treloarX
      push_cast
      constructor <;> norm_num <;> linarith
    rw [this]
    unfold treloarX
    push_cast
    linarith
  · have : ⌈treloarX 3 γ⌉₊ = 1 := by
      rw [Nat.ceil_eq_iff (by norm_num)]
      unfold treloarX
      push_cast
      constructor <;> norm_num <;> linarith
    rw [this]
    unfold treloarX
    push_cast
    linarith

theorem hasDerivAt_treloar {N : ℕ} (hN2 : 2 ≤ N) (hN : N ≤ 34) {γ : ℝ} (h0 : 0 < γ) (h1 : γ < 1)
    (h3 : N = 3 → γ ≠ 1 / 3) :
    HasDerivAt (fun γ => treloar_sum N γ ((N : ℤ) - 2))
      (-(((N : ℝ) - 2) / 2) * treloar_sum N γ ((N : ℤ) - 2 - 1)) γ := by
  rcases Nat.lt_or_ge N 4 with h | h
  · have hb : treloarX N γ < ⌈treloarX N γ⌉₊ := by
      rcases (by omega : N = 2 ∨ N = 3) with rfl | rfl
      · exact treloar_smooth_two h0 h1
      · exact treloar_smooth_three h0 h1 (h3 rfl)
    have := hasDerivAt_treloar_smooth (by omega) hN h0 h1 ((N : ℤ) - 2) hb
    refine this.congr_deriv ?_
    push_cast
    ring
  · exact hasDerivAt_treloar_spline h hN h0 h1

end Polymers.Lemmas
