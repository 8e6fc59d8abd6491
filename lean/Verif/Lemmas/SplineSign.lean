import Verif.Lemmas.SplineTransform

/-! Sign changes of the derivatives of the spline of Treloar's density. -/

namespace Polymers.Lemmas

open Finset Set

/-- `f` takes values of alternating signs at `s + 1` increasing points. -/
def Alternates (f : ℝ → ℝ) (s : ℕ) : Prop :=
  ∃ (x : ℕ → ℝ) (ε : ℝ), (∀ i < s, x i < x (i + 1)) ∧ ∀ i ≤ s, 0 < ε * (-1) ^ i * f (x i)

/-- Symmetry of the spline about its centre. -/
theorem spline_symm (n j : ℕ) (hj : j ≤ n) (x : ℝ) :
    spline (n + 2) (n + 1 - j) ((n + 2 : ℕ) - x) = (-1) ^ j * spline (n + 2) (n + 1 - j) x := by
  induction j generalizing x with
  | zero => simpa using (spline_unimodal n).1 x
  | succ j ih =>
    obtain ⟨q, hq⟩ : ∃ q, n + 1 - j = q + 2 := ⟨n - 1 - j, by omega⟩
    have hq' : n + 1 - (j + 1) = q + 1 := by omega
    rw [hq']
    rw [hq] at ih
    have h1 := (hasDerivAt_spline (n + 2) q ((n + 2 : ℕ) - x)).comp x ((hasDerivAt_id x).const_sub ((n + 2 : ℕ) : ℝ))
    have h2 := (hasDerivAt_spline (n + 2) q x).const_mul ((-1 : ℝ) ^ j)
    have e : (spline (n + 2) (q + 2) ∘ HSub.hSub ((n + 2 : ℕ) : ℝ)) = fun y => (-1) ^ j * spline (n + 2) (q + 2) y := by
      funext y
      exact ih (by omega) y
    rw [e] at h1
    have h := h1.unique h2
    have hn : (0 : ℝ) < q + 2 := by positivity
    have : ((q : ℝ) + 2) * (spline (n + 2) (q + 1) ((n + 2 : ℕ) - x) - (-1) ^ (j + 1) * spline (n + 2) (q + 1) x) = 0 := by
      rw [pow_succ]
      linarith
    have := (mul_eq_zero.1 this).resolve_left hn.ne'
    linarith

theorem spline_beyond {n q : ℕ} (hq : q ≠ 0) (hqn : q ≤ n + 1) {x : ℝ} (h : ((n + 2 : ℕ) : ℝ) ≤ x) : spline (n + 2) q x = 0 := by
  have h1 := spline_symm n (n + 1 - q) (by omega) x
  rw [show n + 1 - (n + 1 - q) = q by omega, spline_nonpos _ hq (by linarith)] at h1
  have : ((-1 : ℝ)) ^ (n + 1 - q) ≠ 0 := pow_ne_zero _ (by norm_num)
  exact (mul_eq_zero.1 h1.symm).resolve_left this

/-- The right derivative of the spline of degree one. -/
noncomputable def splineStep (n : ℕ) (x : ℝ) : ℝ :=
  ∑ s ∈ range (n + 1), (-1) ^ s * (n.choose s : ℝ) * (if (s : ℝ) ≤ x then 1 else 0)

theorem splineStep_eq {n : ℕ} {x : ℝ} (h0 : 0 ≤ x) :
    splineStep (n + 1) x = (-1) ^ ⌊x⌋₊ * (n.choose ⌊x⌋₊ : ℝ) := by
  have h := Int.alternating_sum_range_choose_eq_choose (n := n) (m := ⌊x⌋₊)
  have h' : ∑ s ∈ range (⌊x⌋₊ + 1), (-1 : ℝ) ^ s * ((n + 1).choose s : ℝ) = (-1) ^ ⌊x⌋₊ * (n.choose ⌊x⌋₊ : ℝ) := by
    exact_mod_cast h
  rw [← h', splineStep]
  have e : ∀ s : ℕ, (-1 : ℝ) ^ s * ((n + 1).choose s : ℝ) * (if (s : ℝ) ≤ x then 1 else 0) =
      if s ≤ ⌊x⌋₊ then (-1 : ℝ) ^ s * ((n + 1).choose s : ℝ) else 0 := by
    intro s
    by_cases hs : (s : ℝ) ≤ x
    · rw [if_pos hs, if_pos ((Nat.le_floor_iff h0).2 hs), mul_one]
    · rw [if_neg hs, if_neg (fun h => hs ((Nat.le_floor_iff h0).1 h)), mul_zero]
  simp only [e]
  have a1 : ∀ M, n + 1 + 1 ≤ M → ∑ s ∈ range (n + 1 + 1), (if s ≤ ⌊x⌋₊ then (-1 : ℝ) ^ s * ((n + 1).choose s : ℝ) else 0) =
      ∑ s ∈ range M, (if s ≤ ⌊x⌋₊ then (-1 : ℝ) ^ s * ((n + 1).choose s : ℝ) else 0) := by
    intro M hM
    refine Finset.sum_subset (Finset.range_mono hM) fun s _ hs => ?_
    have : n + 1 < s := by simpa using hs
    simp [Nat.choose_eq_zero_of_lt this]
  rw [a1 (n + 1 + 1 + ⌊x⌋₊) (by omega)]
  symm
  rw [← Finset.sum_subset (Finset.range_mono (by omega : ⌊x⌋₊ + 1 ≤ n + 1 + 1 + ⌊x⌋₊))]
  · refine Finset.sum_congr rfl fun s hs => ?_
    have : s ≤ ⌊x⌋₊ := by simpa [Nat.lt_succ_iff] using hs
    rw [if_pos this]
  · intro s _ hs
    have : ¬ s ≤ ⌊x⌋₊ := by simpa [Nat.lt_succ_iff] using hs
    rw [if_neg this]

theorem splineStep_neg {n : ℕ} {x : ℝ} (h : x < 0) : splineStep n x = 0 := by
  refine Finset.sum_eq_zero fun s _ => ?_
  rw [if_neg, mul_zero]
  have : (0 : ℝ) ≤ s := Nat.cast_nonneg s
  linarith

/-- The derivatives of the spline: the polynomial ones, and the step function at the end. -/
noncomputable def splineDeriv (n : ℕ) : ℕ → ℝ → ℝ
  | 0 => splineStep n
  | q + 1 => spline n (q + 1)

theorem hasDerivWithinAt_spline (n q : ℕ) (x : ℝ) :
    HasDerivWithinAt (spline n (q + 1)) ((q + 1) * splineDeriv n q x) (Ici x) x := by
  cases q with
  | succ q =>
    refine ((hasDerivAt_spline n q x).hasDerivWithinAt).congr_deriv ?_
    simp only [splineDeriv]
    push_cast
    ring
  | zero =>
    unfold spline
    have : ∀ s ∈ range (n + 1), HasDerivWithinAt (fun x : ℝ => (-1) ^ s * (n.choose s : ℝ) * tpow (0 + 1) (x - s))
        ((-1) ^ s * (n.choose s : ℝ) * (if (s : ℝ) ≤ x then 1 else 0)) (Ici x) x := by
      intro s _
      refine HasDerivWithinAt.const_mul _ ?_
      split_ifs with h
      · refine ((hasDerivWithinAt_id x (Ici x)).sub_const (s : ℝ)).congr (fun y hy => ?_) ?_
        · have : x ≤ y := hy
          simp only [tpow, zero_add, pow_one, id]
          rw [max_eq_left (by linarith)]
        · simp only [tpow, zero_add, pow_one, id]
          rw [max_eq_left (by linarith)]
      · refine HasDerivAt.hasDerivWithinAt ?_
        refine (hasDerivAt_const x (0 : ℝ)).congr_of_eventuallyEq ?_
        filter_upwards [Iio_mem_nhds (not_le.1 h)] with y hy
        have : y < s := hy
        exact tpow_of_nonpos (by omega) (by linarith)
    refine (HasDerivWithinAt.fun_sum this).congr_deriv ?_
    simp [splineDeriv, splineStep]

theorem continuous_spline (n q : ℕ) : Continuous (spline n q) := by
  unfold spline tpow
  fun_prop

/-- Somewhere between two points the right derivative has the sign of the difference. -/
theorem exists_slope {f f' : ℝ → ℝ} (hc : Continuous f) (hf : ∀ x, HasDerivWithinAt f (f' x) (Ici x) x) {a b : ℝ} (hab : a < b)
    (h : f a < f b) : ∃ y, a ≤ y ∧ y < b ∧ 0 < f' y := by
  by_contra hn
  push Not at hn
  have := image_le_of_deriv_right_le_deriv_boundary (f := f) (f' := f') (a := a) (b := b) hc.continuousOn (fun x _ => hf x)
    (B := fun _ => f a) (B' := fun _ => 0) le_rfl continuousOn_const (fun x _ => hasDerivWithinAt_const x _ _)
    (fun x hx => hn x hx.1 hx.2) (right_mem_Icc.2 hab.le)
  linarith

theorem exists_slope_signed {f f' : ℝ → ℝ} (hc : Continuous f) (hf : ∀ x, HasDerivWithinAt f (f' x) (Ici x) x) {a b e : ℝ}
    (hab : a < b) (h : 0 < e * (f b - f a)) : ∃ y, a ≤ y ∧ y < b ∧ 0 < e * f' y :=
  exists_slope (f := fun x => e * f x) (f' := fun x => e * f' x) (hc.const_mul e) (fun x => (hf x).const_mul e) hab
    (by linarith)

/-- Rolle: the derivative of a function which vanishes outside an interval changes its sign once more. -/
theorem alternates_deriv {f f' : ℝ → ℝ} (hc : Continuous f) (hf : ∀ x, HasDerivWithinAt f (f' x) (Ici x) x) {L : ℝ}
    (h0 : ∀ x ≤ 0, f x = 0) (hL : ∀ x, L ≤ x → f x = 0) {s : ℕ} (h : Alternates f s) : Alternates f' (s + 1) := by
  obtain ⟨x, ε, hx, hs⟩ := h
  have hin : ∀ i ≤ s, 0 < x i ∧ x i < L := by
    intro i hi
    have := hs i hi
    constructor
    · by_contra hn
      rw [h0 _ (not_lt.1 hn), mul_zero] at this
      exact lt_irrefl _ this
    · by_contra hn
      rw [hL _ (not_lt.1 hn), mul_zero] at this
      exact lt_irrefl _ this
  set z : ℕ → ℝ := fun i => if i = 0 then 0 else if i ≤ s + 1 then x (i - 1) else L with hz
  have z0 : z 0 = 0 := by simp [hz]
  have zi : ∀ i ≤ s, z (i + 1) = x i := by
    intro i hi
    simp only [hz, Nat.add_eq_zero_iff, one_ne_zero, and_false, if_false]
    rw [if_pos (by omega), Nat.add_sub_cancel]
  have zL : z (s + 2) = L := by simp [hz]
  have hzm : ∀ i ≤ s + 1, z i < z (i + 1) := by
    intro i hi
    rcases Nat.eq_zero_or_pos i with rfl | hi0
    · rw [z0, zi 0 (by omega)]
      exact (hin 0 (by omega)).1
    · obtain ⟨i, rfl⟩ : ∃ j, i = j + 1 := ⟨i - 1, by omega⟩
      rw [zi i (by omega)]
      rcases Nat.lt_or_ge i s with h | h
      · rw [zi (i + 1) (by omega)]
        exact hx i h
      · obtain rfl : i = s := by omega
        rw [zL]
        exact (hin i le_rfl).2
  have hzs : ∀ i ≤ s + 1, 0 < (ε * (-1) ^ i) * (f (z (i + 1)) - f (z i)) := by
    intro i hi
    rcases Nat.eq_zero_or_pos i with rfl | hi0
    · rw [z0, zi 0 (by omega), h0 0 le_rfl, sub_zero]
      exact hs 0 (by omega)
    · obtain ⟨i, rfl⟩ : ∃ j, i = j + 1 := ⟨i - 1, by omega⟩
      rw [zi i (by omega)]
      have hi' := hs i (by omega)
      have e : (ε * (-1) ^ (i + 1)) * (f (z (i + 1 + 1)) - f (x i)) =
          ε * (-1) ^ (i + 1) * f (z (i + 1 + 1)) + ε * (-1) ^ i * f (x i) := by rw [pow_succ]; ring
      rw [e]
      rcases Nat.lt_or_ge i s with h | h
      · rw [zi (i + 1) (by omega)]
        have := hs (i + 1) (by omega)
        linarith
      · obtain rfl : i = s := by omega
        rw [zL, hL L le_rfl]
        linarith
  have key : ∀ i, ∃ y, i ≤ s + 1 → z i ≤ y ∧ y < z (i + 1) ∧ 0 < (ε * (-1) ^ i) * f' y := by
    intro i
    by_cases hi : i ≤ s + 1
    · obtain ⟨y, a, b, c⟩ := exists_slope_signed hc hf (hzm i hi) (hzs i hi)
      exact ⟨y, fun _ => ⟨a, b, c⟩⟩
    · exact ⟨0, fun h => absurd h hi⟩
  choose y hy using key
  refine ⟨y, ε, fun i hi => ?_, fun i hi => (hy i hi).2.2⟩
  exact (hy i (by omega)).2.1.trans_le (hy (i + 1) (by omega)).1

/-- The step function changes its sign only between its steps. -/
theorem alternates_step {n s : ℕ} (h : Alternates (splineStep (n + 1)) s) : s ≤ n := by
  obtain ⟨x, ε, hx, hs⟩ := h
  have hp : ∀ i ≤ s, 0 ≤ x i := by
    intro i hi
    by_contra hn
    have := hs i hi
    rw [splineStep_neg (not_le.1 hn), mul_zero] at this
    exact lt_irrefl _ this
  have hk : ∀ i ≤ s, ⌊x i⌋₊ ≤ n ∧ 0 < ε * (-1) ^ (i + ⌊x i⌋₊) := by
    intro i hi
    have := hs i hi
    rw [splineStep_eq (hp i hi)] at this
    constructor
    · by_contra hn
      rw [Nat.choose_eq_zero_of_lt (not_le.1 hn)] at this
      simp at this
    · rw [pow_add]
      have e : ε * (-1) ^ i * ((-1) ^ ⌊x i⌋₊ * (n.choose ⌊x i⌋₊ : ℝ)) = (ε * ((-1) ^ i * (-1) ^ ⌊x i⌋₊)) * (n.choose ⌊x i⌋₊ : ℝ) := by
        ring
      rw [e] at this
      exact pos_of_mul_pos_left this (Nat.cast_nonneg _)
  have hm : ∀ i ≤ s, i ≤ ⌊x i⌋₊ := by
    intro i
    induction i with
    | zero => intro _; exact Nat.zero_le _
    | succ i ih =>
      intro hi
      have h1 := ih (by omega)
      have h2 : ⌊x i⌋₊ ≤ ⌊x (i + 1)⌋₊ := Nat.floor_le_floor (hx i (by omega)).le
      have h3 : ⌊x i⌋₊ ≠ ⌊x (i + 1)⌋₊ := by
        intro he
        have a := (hk i (by omega)).2
        have b := (hk (i + 1) hi).2
        rw [← he, show i + 1 + ⌊x i⌋₊ = i + ⌊x i⌋₊ + 1 by ring, pow_succ] at b
        linarith
      omega
  exact (hm s le_rfl).trans (hk s le_rfl).1

/-- The derivative of order `j` of the spline of degree `n + 1` changes its sign at most `j` times. -/
theorem alternates_spline {n q s : ℕ} (hq : q ≤ n + 1) (h : Alternates (splineDeriv (n + 2) q) s) : s + q ≤ n + 1 := by
  induction q generalizing s with
  | zero => exact alternates_step h
  | succ q ih =>
    have h1 := alternates_deriv (continuous_spline (n + 2) (q + 1)) (hasDerivWithinAt_spline (n + 2) q)
      (L := ((n + 2 : ℕ) : ℝ)) (fun x hx => spline_nonpos _ (by omega) hx) (fun x hx => spline_beyond (by omega) hq hx) h
    have h2 : Alternates (splineDeriv (n + 2) q) (s + 1) := by
      obtain ⟨x, ε, a, b⟩ := h1
      refine ⟨x, ε, a, fun i hi => ?_⟩
      have := b i hi
      have e : ε * (-1) ^ i * (((q : ℝ) + 1) * splineDeriv (n + 2) q (x i)) =
          (ε * (-1) ^ i * splineDeriv (n + 2) q (x i)) * ((q : ℝ) + 1) := by ring
      rw [e] at this
      exact pos_of_mul_pos_left this (by positivity)
    have := ih (by omega) h2
    omega

/-- No derivative of the spline vanishes on an interval inside its support. -/
theorem spline_not_flat {n q : ℕ} (hq : q ≤ n + 1) {a b : ℝ} (h0 : 0 ≤ a) (hab : a < b) (hb : b ≤ ((n + 2 : ℕ) : ℝ)) :
    ¬ ∀ x, a ≤ x → x < b → splineDeriv (n + 2) q x = 0 := by
  induction q with
  | zero =>
    intro h
    have h1 := h a le_rfl hab
    rw [splineDeriv, splineStep_eq h0] at h1
    have hf : ⌊a⌋₊ ≤ n + 1 := by
      have : ⌊a⌋₊ < n + 2 := (Nat.floor_lt h0).2 (by linarith)
      omega
    have : (0 : ℝ) < ((n + 1).choose ⌊a⌋₊ : ℝ) := by exact_mod_cast Nat.choose_pos hf
    rcases mul_eq_zero.1 h1 with h2 | h2
    · exact pow_ne_zero _ (by norm_num) h2
    · linarith
  | succ q ih =>
    intro h
    refine ih (by omega) fun x hx hxb => ?_
    have h1 := hasDerivWithinAt_spline (n + 2) q x
    have h2 : HasDerivWithinAt (spline (n + 2) (q + 1)) 0 (Ici x) x := by
      refine (hasDerivWithinAt_const x (Ici x) (0 : ℝ)).congr_of_eventuallyEq ?_ (h x hx hxb)
      filter_upwards [self_mem_nhdsWithin, mem_nhdsWithin_of_mem_nhds (Iio_mem_nhds hxb)] with y hy hyb
      exact h y (hx.trans hy) hyb
    have h3 := (uniqueDiffWithinAt_Ici x).eq_deriv _ h1 h2
    exact (mul_eq_zero.1 h3).resolve_left (by positivity)

/-- The combination of the first two derivatives of the spline which decides the sign of the force. -/
theorem spline_combination_pos (n : ℕ) {x : ℝ} (h0 : 0 < x) (h1 : x < ((n + 4 : ℕ) : ℝ) / 2) :
    0 < spline (n + 4) (n + 2) x + (n + 2) * (((n + 4 : ℕ) : ℝ) / 2 - x) * spline (n + 4) (n + 1) x := by
  set N : ℝ := ((n + 4 : ℕ) : ℝ) with hN
  have hN4 : (4 : ℝ) ≤ N := by rw [hN]; push_cast; have : (0 : ℝ) ≤ n := Nat.cast_nonneg n; linarith
  set H : ℝ → ℝ := fun x => spline (n + 4) (n + 2) x + (n + 2) * (N / 2 - x) * spline (n + 4) (n + 1) x with hH
  set f := splineDeriv (n + 4) n with hf
  set H' : ℝ → ℝ := fun x => (n + 2) * (n + 1) * (N / 2 - x) * f x with hH'
  have hc : Continuous H := by
    have := continuous_spline (n + 4) (n + 2)
    have := continuous_spline (n + 4) (n + 1)
    fun_prop
  have hd : ∀ x, HasDerivWithinAt H (H' x) (Ici x) x := by
    intro x
    have a := hasDerivWithinAt_spline (n + 4) (n + 1) x
    have b := hasDerivWithinAt_spline (n + 4) n x
    have l : HasDerivWithinAt (fun x : ℝ => ((n : ℝ) + 2) * (N / 2 - x)) (((n : ℝ) + 2) * (-1)) (Ici x) x :=
      ((hasDerivWithinAt_id x (Ici x)).const_sub (N / 2)).const_mul _
    refine (a.add (l.mul b)).congr_deriv ?_
    have e1 : splineDeriv (n + 4) (n + 1) x = spline (n + 4) (n + 1) x := rfl
    simp only [hH', e1, ← hf]
    push_cast
    ring
  have hs0 : ∀ y, spline (n + 4) (n + 2) (N - y) = -spline (n + 4) (n + 2) y := by
    intro y
    have := spline_symm (n + 2) 1 (by omega) y
    rw [pow_one, neg_one_mul] at this
    exact this
  have hs1 : ∀ y, spline (n + 4) (n + 1) (N - y) = spline (n + 4) (n + 1) y := by
    intro y
    have := spline_symm (n + 2) 2 (by omega) y
    rw [neg_one_sq, one_mul] at this
    exact this
  have hanti : ∀ y, H (N - y) = -H y := by
    intro y
    simp only [hH, hs0, hs1]
    ring
  have H0 : H 0 = 0 := by
    simp only [hH]
    rw [spline_nonpos _ (by omega) le_rfl, spline_nonpos _ (by omega) le_rfl]
    ring
  have HN : H N = 0 := by
    have := hanti 0
    rw [sub_zero, H0] at this
    linarith
  have Hc : H (N / 2) = 0 := by
    have := hanti (N / 2)
    rw [show N - N / 2 = N / 2 by ring] at this
    linarith
  -- the signs of the third derivative
  have left : ∀ a b e : ℝ, a < b → b ≤ N / 2 → 0 < e * (H b - H a) → ∃ y, a ≤ y ∧ y < b ∧ 0 < e * f y := by
    intro a b e hab hb h
    obtain ⟨y, ya, yb, hy⟩ := exists_slope_signed hc hd hab h
    refine ⟨y, ya, yb, ?_⟩
    have e1 : e * H' y = (e * f y) * (((n : ℝ) + 2) * (n + 1) * (N / 2 - y)) := by simp only [hH']; ring
    rw [e1] at hy
    have : 0 < N / 2 - y := by linarith
    exact pos_of_mul_pos_left hy (by positivity)
  have right : ∀ a b e : ℝ, a < b → N / 2 ≤ a → 0 < e * (H b - H a) → ∃ y, a ≤ y ∧ y < b ∧ 0 < -e * f y := by
    intro a b e hab ha h
    obtain ⟨y, ya, yb, hy⟩ := exists_slope_signed hc hd hab h
    refine ⟨y, ya, yb, ?_⟩
    have e1 : e * H' y = (-e * f y) * (((n : ℝ) + 2) * (n + 1) * (y - N / 2)) := by simp only [hH']; ring
    rw [e1] at hy
    have : 0 ≤ y - N / 2 := by linarith
    exact pos_of_mul_pos_left hy (by positivity)
  have noalt : ¬ Alternates f 4 := by
    intro h
    have := alternates_spline (n := n + 2) (by omega) h
    omega
  -- the sign near the end of the chain
  have Hsmall : ∀ e : ℝ, 0 < e → e ≤ 1 → 0 < H e := by
    intro e he he1
    have hs : ∀ q : ℕ, q ≠ 0 → spline (n + 4) q e = e ^ q := by
      intro q hq
      unfold spline
      rw [Finset.sum_eq_single 0]
      · rw [tpow_of_nonneg _ (by simpa using he.le)]
        simp
      · intro s _ hs
        have : (1 : ℝ) ≤ s := by exact_mod_cast Nat.one_le_iff_ne_zero.2 hs
        rw [tpow_of_nonpos hq (by linarith), mul_zero]
      · simp
    simp only [hH]
    rw [hs _ (by omega), hs _ (by omega)]
    have : 0 < N / 2 - e := by linarith
    positivity
  by_contra hneg
  have hxn : H x ≤ 0 := not_lt.1 hneg
  set e := min (x / 2) 1 with he
  have he0 : 0 < e := lt_min (by linarith) one_pos
  have hex : e < x := (min_le_left _ _).trans_lt (by linarith)
  have hHe := Hsmall e he0 (min_le_right _ _)
  obtain ⟨y0, a0, b0, c0⟩ := left 0 e 1 he0 (by linarith) (by rw [H0]; linarith)
  obtain ⟨y1, a1, b1, c1⟩ := left e x (-1) hex h1.le (by linarith)
  -- a point to the right with a negative value is impossible
  have noneg : ∀ x', x ≤ x' → x' < N / 2 → 0 ≤ H x' := by
    intro x' hx' hx2
    by_contra hn
    have hn := not_le.1 hn
    obtain ⟨y1, a1, b1, c1⟩ := left e x' (-1) (hex.trans_le hx') hx2.le (by linarith)
    obtain ⟨y2, a2, b2, c2⟩ := left x' (N / 2) 1 hx2 le_rfl (by rw [Hc]; linarith)
    have hm := hanti x'
    have hm' := hanti e
    obtain ⟨y3, a3, b3, c3⟩ := right (N / 2) (N - x') 1 (by linarith) le_rfl (by rw [Hc, hm]; linarith)
    obtain ⟨y4, a4, b4, c4⟩ := right (N - x') (N - e) (-1) (by linarith) (by linarith) (by rw [hm, hm']; linarith)
    refine noalt ⟨fun i => if i = 0 then y0 else if i = 1 then y1 else if i = 2 then y2 else if i = 3 then y3 else y4, 1, ?_, ?_⟩
    · intro i hi
      interval_cases i <;> simp <;> linarith
    · intro i hi
      interval_cases i <;> simp <;> linarith
  have nopos : ∀ x', x ≤ x' → x' < N / 2 → H x' ≤ 0 := by
    intro x' hx' hx2
    by_contra hn
    have hn := not_le.1 hn
    have hxx : x < x' := lt_of_le_of_ne hx' (fun h => by rw [← h] at hn; linarith)
    obtain ⟨y2, a2, b2, c2⟩ := left x x' 1 hxx hx2.le (by linarith)
    obtain ⟨y3, a3, b3, c3⟩ := left x' (N / 2) (-1) hx2 le_rfl (by rw [Hc]; linarith)
    have hm := hanti x'
    obtain ⟨y4, a4, b4, c4⟩ := right (N / 2) (N - x') (-1) (by linarith) le_rfl (by rw [Hc, hm]; linarith)
    refine noalt ⟨fun i => if i = 0 then y0 else if i = 1 then y1 else if i = 2 then y2 else if i = 3 then y3 else y4, 1, ?_, ?_⟩
    · intro i hi
      interval_cases i <;> simp <;> linarith
    · intro i hi
      interval_cases i <;> simp <;> linarith
  refine spline_not_flat (n := n + 2) (q := n) (by omega) h0.le h1 (by rw [← hN]; linarith) fun y hy hyb => ?_
  have h2 : HasDerivWithinAt H 0 (Ici y) y := by
    refine (hasDerivWithinAt_const y (Ici y) (0 : ℝ)).congr_of_eventuallyEq ?_ (le_antisymm (nopos y hy hyb) (noneg y hy hyb))
    filter_upwards [self_mem_nhdsWithin, mem_nhdsWithin_of_mem_nhds (Iio_mem_nhds hyb)] with w hw hwb
    exact le_antisymm (nopos w (hy.trans hw) hwb) (noneg w (hy.trans hw) hwb)
  have h3 := (uniqueDiffWithinAt_Ici y).eq_deriv _ (hd y) h2
  have : 0 < N / 2 - y := by linarith
  exact (mul_eq_zero.1 h3).resolve_left (by positivity)

theorem spline_small (n : ℕ) {q : ℕ} (hq : q ≠ 0) {e : ℝ} (h0 : 0 ≤ e) (h1 : e ≤ 1) : spline n q e = e ^ q := by
  unfold spline
  rw [Finset.sum_eq_single 0]
  · rw [tpow_of_nonneg _ (by simpa using h0)]
    simp
  · intro s _ hs
    have : (1 : ℝ) ≤ s := by exact_mod_cast Nat.one_le_iff_ne_zero.2 hs
    rw [tpow_of_nonpos hq (by linarith), mul_zero]
  · simp

/-- The second derivative of the spline is negative at its centre. -/
theorem spline_center_neg (n : ℕ) : spline (n + 4) (n + 1) (((n + 4 : ℕ) : ℝ) / 2) < 0 := by
  set N : ℝ := ((n + 4 : ℕ) : ℝ) with hN
  have hN4 : (4 : ℝ) ≤ N := by rw [hN]; push_cast; have : (0 : ℝ) ≤ n := Nat.cast_nonneg n; linarith
  set g := spline (n + 4) (n + 1) with hg
  have hc : Continuous g := continuous_spline _ _
  have hd : ∀ x, HasDerivWithinAt g ((n + 1) * splineDeriv (n + 4) n x) (Ici x) x := hasDerivWithinAt_spline (n + 4) n
  have hs0 : ∀ y, spline (n + 4) (n + 2) (N - y) = -spline (n + 4) (n + 2) y := by
    intro y
    have := spline_symm (n + 2) 1 (by omega) y
    rw [pow_one, neg_one_mul] at this
    exact this
  have hs1 : ∀ y, g (N - y) = g y := by
    intro y
    have := spline_symm (n + 2) 2 (by omega) y
    rw [neg_one_sq, one_mul] at this
    exact this
  by_contra hn
  have hn := not_lt.1 hn
  -- a point of negative second derivative
  have hz : spline (n + 4) (n + 2) (N / 2) = 0 := by
    have := hs0 (N / 2)
    rw [show N - N / 2 = N / 2 by ring] at this
    linarith
  have h1 : spline (n + 4) (n + 2) 1 = 1 := by rw [spline_small _ (by omega) (by norm_num) le_rfl, one_pow]
  obtain ⟨x, hx1, hx2, hx⟩ := exists_slope_signed (e := -1) (continuous_spline (n + 4) (n + 2))
    (hasDerivWithinAt_spline (n + 4) (n + 1)) (by linarith : 1 < N / 2) (by rw [hz, h1]; norm_num)
  have hgx : g x < 0 := by
    have e : -1 * (((n + 1 : ℕ) : ℝ) + 1) * splineDeriv (n + 4) (n + 1) x = (-1 * g x) * (((n + 1 : ℕ) : ℝ) + 1) := by
      rw [show splineDeriv (n + 4) (n + 1) x = g x from rfl]; ring
    rw [← mul_assoc, e] at hx
    have := pos_of_mul_pos_left hx (by positivity)
    linarith
  have g1 : g 1 = 1 := by rw [hg, spline_small _ (by omega) (by norm_num) le_rfl, one_pow]
  have g0 : g 0 = 0 := by rw [hg, spline_nonpos _ (by omega) le_rfl]
  have hx1' : 1 < x := lt_of_le_of_ne hx1 fun h => by rw [← h, g1] at hgx; linarith
  have slope : ∀ a b e : ℝ, a < b → 0 < e * (g b - g a) → ∃ y, a ≤ y ∧ y < b ∧ 0 < e * splineDeriv (n + 4) n y := by
    intro a b e hab h
    obtain ⟨y, ya, yb, hy⟩ := exists_slope_signed hc hd hab h
    refine ⟨y, ya, yb, ?_⟩
    have e1 : e * (((n : ℝ) + 1) * splineDeriv (n + 4) n y) = (e * splineDeriv (n + 4) n y) * ((n : ℝ) + 1) := by ring
    rw [e1] at hy
    exact pos_of_mul_pos_left hy (by positivity)
  obtain ⟨y0, a0, b0, c0⟩ := slope 0 1 1 one_pos (by rw [g0, g1]; norm_num)
  obtain ⟨y1, a1, b1, c1⟩ := slope 1 x (-1) hx1' (by rw [g1]; linarith)
  obtain ⟨y2, a2, b2, c2⟩ := slope x (N / 2) 1 hx2 (by linarith)
  obtain ⟨y3, a3, b3, c3⟩ := slope (N / 2) (N - x) (-1) (by linarith) (by rw [hs1]; linarith)
  obtain ⟨y4, a4, b4, c4⟩ := slope (N - x) (N - 1) 1 (by linarith) (by rw [hs1, hs1, g1]; linarith)
  have : Alternates (splineDeriv (n + 4) n) 4 := by
    refine ⟨fun i => if i = 0 then y0 else if i = 1 then y1 else if i = 2 then y2 else if i = 3 then y3 else y4, 1, ?_, ?_⟩
    · intro i hi
      interval_cases i <;> simp <;> linarith
    · intro i hi
      interval_cases i <;> simp <;> linarith
  have := alternates_spline (n := n + 2) (by omega) this
  omega

/-- Near its centre the combination which decides the sign of the force vanishes faster than the square. -/
theorem spline_combination_small (n : ℕ) {ε : ℝ} (hε : 0 < ε) : ∃ δ > 0, ∀ y, 0 < y → y < δ →
    |spline (n + 5) (n + 3) (((n + 5 : ℕ) : ℝ) / 2 - y) + (n + 3) * y * spline (n + 5) (n + 2) (((n + 5 : ℕ) : ℝ) / 2 - y)| ≤
      ε * y ^ 2 := by
  set N : ℝ := ((n + 5 : ℕ) : ℝ) with hN
  have hs0 : ∀ y, spline (n + 5) (n + 3) (N - y) = -spline (n + 5) (n + 3) y := by
    intro y
    have := spline_symm (n + 3) 1 (by omega) y
    rw [pow_one, neg_one_mul] at this
    exact this
  have hs2 : ∀ y, spline (n + 5) (n + 1) (N - y) = -spline (n + 5) (n + 1) y := by
    intro y
    have := spline_symm (n + 3) 3 (by omega) y
    rw [show ((-1 : ℝ)) ^ 3 = -1 by norm_num, neg_one_mul] at this
    exact this
  have z0 : spline (n + 5) (n + 3) (N / 2) = 0 := by
    have := hs0 (N / 2)
    rw [show N - N / 2 = N / 2 by ring] at this
    linarith
  have z2 : spline (n + 5) (n + 1) (N / 2) = 0 := by
    have := hs2 (N / 2)
    rw [show N - N / 2 = N / 2 by ring] at this
    linarith
  set C : ℝ := ((n : ℝ) + 3) * (n + 2) with hC
  have hC0 : 0 < C := by positivity
  obtain ⟨δ, hδ, hball⟩ := Metric.continuous_iff.1 (continuous_spline (n + 5) (n + 1)) (N / 2) (ε / C) (by positivity)
  refine ⟨δ, hδ, fun y hy0 hy => ?_⟩
  set H : ℝ → ℝ := fun y => spline (n + 5) (n + 3) (N / 2 - y) + (n + 3) * y * spline (n + 5) (n + 2) (N / 2 - y) with hH
  have hd : ∀ y, HasDerivAt H (-(C * y * spline (n + 5) (n + 1) (N / 2 - y))) y := by
    intro y
    have l : HasDerivAt (fun y : ℝ => N / 2 - y) (-1) y := (hasDerivAt_id y).const_sub _
    have a := (hasDerivAt_spline (n + 5) (n + 1) (N / 2 - y)).comp y l
    have b := (hasDerivAt_spline (n + 5) n (N / 2 - y)).comp y l
    have k : HasDerivAt (fun y : ℝ => ((n : ℝ) + 3) * y) (((n : ℝ) + 3) * 1) y := (hasDerivAt_id y).const_mul _
    refine (a.add (k.mul b)).congr_deriv ?_
    simp only [Function.comp, hC]
    push_cast
    ring
  have H0 : H 0 = 0 := by simp [hH, z0]
  have hm := Convex.norm_image_sub_le_of_norm_hasDerivWithin_le (f := H) (s := Icc 0 y) (C := ε * y)
    (fun w _ => (hd w).hasDerivWithinAt) (fun w hw => ?_) (convex_Icc 0 y) (left_mem_Icc.2 hy0.le) (right_mem_Icc.2 hy0.le)
  · rw [H0, sub_zero, sub_zero, Real.norm_eq_abs, Real.norm_eq_abs, abs_of_pos hy0] at hm
    calc |H y| ≤ ε * y * y := hm
      _ = ε * y ^ 2 := by ring
  · have hw' := hball (N / 2 - w) (by
      rw [Real.dist_eq, show N / 2 - w - N / 2 = -w by ring, abs_neg, abs_of_nonneg hw.1]
      exact hw.2.trans_lt hy)
    rw [z2, Real.dist_eq, sub_zero] at hw'
    rw [norm_neg, Real.norm_eq_abs, abs_mul, abs_mul, abs_of_pos hC0, abs_of_nonneg hw.1]
    have h3 : C * w * |spline (n + 5) (n + 1) (N / 2 - w)| ≤ C * y * (ε / C) :=
      mul_le_mul (mul_le_mul_of_nonneg_left hw.2 hC0.le) hw'.le (abs_nonneg _) (by positivity)
    refine h3.trans (le_of_eq ?_)
    field_simp

end Polymers.Lemmas
