import Mathlib.Analysis.Calculus.MeanValue
import Mathlib.Analysis.Calculus.Deriv.Pow
import Mathlib.Analysis.Calculus.Deriv.MeanValue
import Mathlib.Analysis.Calculus.FDeriv.Pow
import Mathlib.Data.Nat.Choose.Sum
import Mathlib.Tactic

/-! Alternating sums of truncated powers (the Irwin-Hall spline), as needed for the sums of Treloar. -/

namespace Polymers.Lemmas

open Finset

/-- The truncated power `max(x, 0)^q`. -/
noncomputable def tpow (q : ℕ) (x : ℝ) : ℝ := max x 0 ^ q

theorem tpow_of_nonneg {x : ℝ} (q : ℕ) (h : 0 ≤ x) : tpow q x = x ^ q := by rw [tpow, max_eq_left h]

theorem tpow_of_nonpos {x : ℝ} {q : ℕ} (hq : q ≠ 0) (h : x ≤ 0) : tpow q x = 0 := by
  rw [tpow, max_eq_right h, zero_pow hq]

theorem hasDerivAt_tpow (q : ℕ) (x : ℝ) : HasDerivAt (tpow (q + 2)) ((q + 2 : ℝ) * tpow (q + 1) x) x := by
  rcases lt_trichotomy x 0 with h | h | h
  · rw [tpow_of_nonpos (by omega) h.le, mul_zero]
    refine (hasDerivAt_const x (0 : ℝ)).congr_of_eventuallyEq ?_
    filter_upwards [Iio_mem_nhds h] with y hy
    exact tpow_of_nonpos (by omega) (le_of_lt hy)
  · subst h
    rw [tpow_of_nonpos (by omega) le_rfl, mul_zero]
    have hO : tpow (q + 2) =O[nhds 0] fun x : ℝ => ‖x - 0‖ ^ (q + 2) := by
      refine Asymptotics.IsBigO.of_bound 1 (Filter.Eventually.of_forall fun y => ?_)
      rw [one_mul, sub_zero, norm_pow, norm_norm, tpow, norm_pow]
      refine pow_le_pow_left₀ (norm_nonneg _) ?_ _
      rw [Real.norm_eq_abs, Real.norm_eq_abs]
      rcases le_total y 0 with h | h
      · rw [max_eq_right h, abs_zero]; exact abs_nonneg y
      · rw [max_eq_left h]
    have := (hO.hasFDerivAt (by omega : 1 < q + 2)).hasDerivAt
    simpa using this
  · rw [tpow_of_nonneg _ h.le]
    have h1 := hasDerivAt_pow (q + 2) x
    refine (h1.congr_of_eventuallyEq ?_).congr_deriv (by push_cast; simp)
    filter_upwards [Ioi_mem_nhds h] with y hy
    exact tpow_of_nonneg _ (le_of_lt hy)

/-- `Σ_s (-1)^s C(n,s) max(x - s, 0)^q`. -/
noncomputable def spline (n q : ℕ) (x : ℝ) : ℝ :=
  ∑ s ∈ range (n + 1), (-1) ^ s * (n.choose s : ℝ) * tpow q (x - s)

theorem spline_succ (n q : ℕ) (x : ℝ) : spline (n + 1) q x = spline n q x - spline n q (x - 1) := by
  unfold spline
  have e1 : ∀ s : ℕ, (-1 : ℝ) ^ (s + 1) * ((n + 1).choose (s + 1) : ℝ) * tpow q (x - ((s + 1 : ℕ) : ℝ)) =
      (-1) ^ (s + 1) * (n.choose (s + 1) : ℝ) * tpow q (x - ((s + 1 : ℕ) : ℝ)) -
        (-1) ^ s * (n.choose s : ℝ) * tpow q (x - 1 - s) := by
    intro s
    rw [Nat.choose_succ_succ]
    have : x - ((s + 1 : ℕ) : ℝ) = x - 1 - s := by push_cast; ring
    rw [this]
    push_cast
    ring
  rw [Finset.sum_range_succ' _ (n + 1), Finset.sum_congr rfl fun s _ => e1 s, Finset.sum_sub_distrib,
    Finset.sum_range_succ (fun s : ℕ => (-1 : ℝ) ^ (s + 1) * (n.choose (s + 1) : ℝ) * tpow q (x - ((s + 1 : ℕ) : ℝ))) n]
  have e2 : ∑ s ∈ range (n + 1), (-1 : ℝ) ^ s * (n.choose s : ℝ) * tpow q (x - s) =
      ∑ s ∈ range n, (-1 : ℝ) ^ (s + 1) * (n.choose (s + 1) : ℝ) * tpow q (x - ((s + 1 : ℕ) : ℝ)) +
        (-1) ^ 0 * (n.choose 0 : ℝ) * tpow q (x - ((0 : ℕ) : ℝ)) := Finset.sum_range_succ' _ n
  rw [e2, Nat.choose_succ_self]
  simp
  ring

theorem hasDerivAt_spline (n q : ℕ) (x : ℝ) : HasDerivAt (spline n (q + 2)) ((q + 2) * spline n (q + 1) x) x := by
  unfold spline
  have : ∀ s ∈ range (n + 1), HasDerivAt (fun x : ℝ => (-1) ^ s * (n.choose s : ℝ) * tpow (q + 2) (x - s))
      ((-1) ^ s * (n.choose s : ℝ) * ((q + 2 : ℝ) * tpow (q + 1) (x - s))) x := by
    intro s _
    have h := (hasDerivAt_tpow q (x - s)).comp x ((hasDerivAt_id x).sub_const (s : ℝ))
    simp only [mul_one] at h
    exact h.const_mul _
  refine (HasDerivAt.fun_sum this).congr_deriv ?_
  rw [Finset.mul_sum]
  exact Finset.sum_congr rfl fun s _ => by ring

theorem spline_nonpos (n : ℕ) {q : ℕ} (hq : q ≠ 0) {x : ℝ} (h : x ≤ 0) : spline n q x = 0 := by
  unfold spline
  refine Finset.sum_eq_zero fun s _ => ?_
  rw [tpow_of_nonpos hq (by have : (0 : ℝ) ≤ s := Nat.cast_nonneg s; linarith), mul_zero]

theorem spline_two (x : ℝ) : spline 2 1 x = max x 0 - 2 * max (x - 1) 0 + max (x - 2) 0 := by
  unfold spline tpow
  simp [Finset.sum_range_succ]
  ring

/-- The spline of degree `n + 1` in `n + 2` intervals is symmetric, and increasing up to its centre. -/
theorem spline_unimodal (n : ℕ) :
    (∀ x, spline (n + 2) (n + 1) ((n + 2 : ℕ) - x) = spline (n + 2) (n + 1) x) ∧
    ∀ x y, x < y → 0 < y → y ≤ ((n + 2 : ℕ) : ℝ) / 2 → spline (n + 2) (n + 1) x < spline (n + 2) (n + 1) y := by
  induction n with
  | zero =>
    simp only [zero_add, spline_two]
    constructor
    · intro x
      push_cast
      rcases le_total x 0 with h0 | h0 <;> rcases le_total x 1 with h1 | h1 <;> rcases le_total x 2 with h2 | h2 <;>
        simp only [max_def] <;> split_ifs <;> linarith
    · intro x y hxy hy hy2
      push_cast at hy2
      rw [max_eq_left hy.le, max_eq_right (by linarith : y - 1 ≤ 0), max_eq_right (by linarith : y - 2 ≤ 0),
        max_eq_right (by linarith : x - 1 ≤ 0), max_eq_right (by linarith : x - 2 ≤ 0)]
      rcases le_total x 0 with h0 | h0
      · rw [max_eq_right h0]; linarith
      · rw [max_eq_left h0]; linarith
  | succ n ih =>
    obtain ⟨hs, hi⟩ := ih
    have hd : ∀ x, HasDerivAt (spline (n + 1 + 2) (n + 1 + 1))
        ((n + 2) * (spline (n + 2) (n + 1) x - spline (n + 2) (n + 1) (x - 1))) x := by
      intro x
      rw [← spline_succ]
      exact hasDerivAt_spline (n + 1 + 2) n x
    have hpos : ∀ x, 0 < x → x < ((n + 1 + 2 : ℕ) : ℝ) / 2 →
        spline (n + 2) (n + 1) (x - 1) < spline (n + 2) (n + 1) x := by
      intro x h0 h1
      push_cast at h1
      rcases le_total x (((n + 2 : ℕ) : ℝ) / 2) with h | h
      · exact hi _ _ (by linarith) h0 h
      · rw [← hs x]
        push_cast at h ⊢
        have hn : (0 : ℝ) ≤ n := Nat.cast_nonneg n
        refine hi _ _ (by linarith) (by linarith) (by push_cast; linarith)
    constructor
    · intro x
      have hD : ∀ x, HasDerivAt (fun x => spline (n + 1 + 2) (n + 1 + 1) ((n + 1 + 2 : ℕ) - x) -
          spline (n + 1 + 2) (n + 1 + 1) x) 0 x := by
        intro x
        have h1 := (hd ((n + 1 + 2 : ℕ) - x)).comp x ((hasDerivAt_id x).const_sub ((n + 1 + 2 : ℕ) : ℝ))
        refine (h1.sub (hd x)).congr_deriv ?_
        have e1 := hs (x - 1)
        have e2 := hs x
        have a1 : ((n + 2 : ℕ) : ℝ) - (x - 1) = ((n + 1 + 2 : ℕ) : ℝ) - x := by push_cast; ring
        have a2 : ((n + 2 : ℕ) : ℝ) - x = ((n + 1 + 2 : ℕ) : ℝ) - x - 1 := by push_cast; ring
        rw [a1] at e1
        rw [a2] at e2
        rw [e1, e2]
        ring
      have hconst := is_const_of_deriv_eq_zero (fun x => (hD x).differentiableAt) (fun x => (hD x).deriv) x
        (((n + 1 + 2 : ℕ) : ℝ) / 2)
      have : ((n + 1 + 2 : ℕ) : ℝ) - ((n + 1 + 2 : ℕ) : ℝ) / 2 = ((n + 1 + 2 : ℕ) : ℝ) / 2 := by ring
      simp only [this, sub_self] at hconst
      linarith
    · have hmono : StrictMonoOn (spline (n + 1 + 2) (n + 1 + 1)) (Set.Icc 0 (((n + 1 + 2 : ℕ) : ℝ) / 2)) := by
        refine strictMonoOn_of_deriv_pos (convex_Icc _ _) (fun x _ => (hd x).continuousAt.continuousWithinAt) ?_
        intro x hx
        rw [interior_Icc] at hx
        rw [(hd x).deriv]
        have := hpos x hx.1 hx.2
        have hn : (0 : ℝ) ≤ n := Nat.cast_nonneg n
        exact mul_pos (by linarith) (by linarith)
      intro x y hxy hy hy2
      rcases le_total x 0 with h0 | h0
      · rw [spline_nonpos _ (by omega) h0, ← spline_nonpos (n + 1 + 2) (q := n + 1 + 1) (by omega) (le_refl (0 : ℝ))]
        exact hmono ⟨le_rfl, by linarith⟩ ⟨hy.le, hy2⟩ hy
      · exact hmono ⟨h0, by linarith⟩ ⟨hy.le, hy2⟩ hxy

/-- The derivative of the spline is positive left of its centre. -/
theorem spline_deriv_pos (n : ℕ) {x : ℝ} (h0 : 0 < x) (h1 : x < ((n + 3 : ℕ) : ℝ) / 2) : 0 < spline (n + 3) (n + 1) x := by
  obtain ⟨hs, hi⟩ := spline_unimodal n
  rw [spline_succ, sub_pos]
  push_cast at h1
  rcases le_total x (((n + 2 : ℕ) : ℝ) / 2) with h | h
  · exact hi _ _ (by linarith) h0 h
  · rw [← hs x]
    push_cast at h ⊢
    have hn : (0 : ℝ) ≤ n := Nat.cast_nonneg n
    refine hi _ _ (by linarith) (by linarith) (by push_cast; linarith)

end Polymers.Lemmas
