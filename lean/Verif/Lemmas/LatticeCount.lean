import Verif.Lemmas.LatticeSum
import Mathlib.Tactic.LinearCombination
import Mathlib.Order.Interval.Finset.Nat

/-!
A sum over the points of a square grid inside a quarter of a disk, compared with one along an axis. Row 0 carries the weights
`3 j² - j` and every other row `-3 j`. The sums over the points within a distance of the origin change sign with that
distance, but their running sums do not, so that the sum is not negative with any convex falling function of the square of
the distance. The running sums are computed as in `Verif.Lemmas.LatticeSum`.
-/

namespace Polymers.Lemmas

open Finset

/-- The weight of a point of the grid. -/
def countWeight (i j : ℕ) : ℤ := if i = 0 then 3 * j ^ 2 - j else -(3 * j)

/-- The sum over the points with `i² + j²` at most `m`. -/
def countSum (m : ℕ) : ℤ := ∑ i ∈ range 257, ∑ j ∈ range 256,
  if i ^ 2 + (j + 1) ^ 2 ≤ m then countWeight i (j + 1) else 0

/-- The running sum of these. -/
def countRamp (m : ℕ) : ℤ := ∑ i ∈ range 257, ∑ j ∈ range 256,
  if i ^ 2 + (j + 1) ^ 2 ≤ m then countWeight i (j + 1) * ((m - (i ^ 2 + (j + 1) ^ 2) : ℕ) + 1) else 0

/-- The powers from `n` on with rising factors. -/
def rampPow (b : ℤ) (M n : ℕ) : ℤ := ∑ m ∈ range M, if n ≤ m then (((m - n : ℕ) : ℤ) + 1) * b ^ m else 0

theorem sum_tailPow (b : ℤ) (M n : ℕ) : (∑ k ∈ range M, if n ≤ k then tailPow b M k else 0) = rampPow b M n := by
  unfold tailPow rampPow
  have e : ∀ k, (if n ≤ k then ∑ m ∈ range M, (if k ≤ m then b ^ m else 0) else 0) =
      ∑ m ∈ range M, if n ≤ k ∧ k ≤ m then b ^ m else 0 := fun k => by
    split_ifs with h
    · simp [h]
    · simp [h]
  simp only [e]
  rw [sum_comm]
  refine sum_congr rfl fun m hm => ?_
  rw [← sum_filter, sum_const, nsmul_eq_mul]
  have hc : filter (fun k => n ≤ k ∧ k ≤ m) (range M) = Icc n m := by
    ext k
    have := mem_range.1 hm
    simp only [mem_filter, mem_range, mem_Icc]
    omega
  rw [hc, Nat.card_Icc]
  split_ifs with h
  · congr 1
    push_cast [Nat.cast_sub h, Nat.cast_sub (show n ≤ m + 1 by omega)]
    ring
  · rw [show m + 1 - n = 0 by omega]; simp

theorem tailPow_mul_geom (b : ℤ) (M n : ℕ) : tailPow b M n * ∑ m ∈ range M, b ^ m ≡ rampPow b M n [ZMOD b ^ M] := by
  rw [← sum_tailPow]
  conv_lhs => rw [tailPow]
  rw [sum_mul]
  refine modEq_sum fun k => ?_
  split_ifs
  · exact pow_mul_geom b M k
  · rw [zero_mul]

theorem pow_mul_geom_sq (b : ℤ) (M n : ℕ) :
    b ^ n * (∑ m ∈ range M, b ^ m) * (∑ m ∈ range M, b ^ m) ≡ rampPow b M n [ZMOD b ^ M] :=
  ((pow_mul_geom b M n).mul_right _).trans (tailPow_mul_geom b M n)

/-- The digits of a number known modulo a power of the base. -/
theorem digits_key {D : ℕ → ℤ} {M A B G : ℕ} (hq : ∀ m, |D m| < 2 ^ 62) (hG : G = ∑ m ∈ range M, (2 ^ 64) ^ m)
    (hX : ∀ b : ℕ, b = 2 ^ 64 → (A : ℤ) - B ≡ ∑ m ∈ range M, D m * (b : ℤ) ^ m [ZMOD (b : ℤ) ^ M]) :
    (A + 2 ^ 62 * G + ((2 ^ 64) ^ M - B % (2 ^ 64) ^ M)) % (2 ^ 64) ^ M = ∑ m ∈ range M, (2 ^ 62 + D m).toNat * (2 ^ 64) ^ m ∧
      ∀ m, (2 ^ 62 + D m).toNat < 2 ^ 64 := by
  obtain ⟨b, hb⟩ : ∃ b : ℕ, b = 2 ^ 64 := ⟨_, rfl⟩
  have hX := hX b hb
  obtain ⟨a, had⟩ : ∃ a : ℕ → ℕ, a = fun m => (2 ^ 62 + D m).toNat := ⟨_, rfl⟩
  have ha : ∀ m, (a m : ℤ) = 2 ^ 62 + D m := fun m => by
    have := abs_lt.1 (hq m)
    rw [had]
    exact Int.toNat_of_nonneg (by linarith)
  have ha64 : ∀ m, a m < 2 ^ 64 := fun m => by
    have := abs_lt.1 (hq m)
    have h2 := ha m
    zify
    rw [h2]
    have : (2:ℤ) ^ 64 = 4 * 2 ^ 62 := by norm_num
    linarith
  have hlt := digits_lt M a fun m _ => ha64 m
  refine ⟨?_, fun m => by have := ha64 m; rwa [had] at this⟩
  have e0 : ∑ m ∈ range M, (2 ^ 62 + D m).toNat * (2 ^ 64) ^ m = ∑ m ∈ range M, a m * (2 ^ 64) ^ m := by rw [had]
  rw [e0]
  rw [← hb] at hG hlt ⊢
  rw [← Nat.mod_eq_of_lt hlt]
  show _ ≡ _ [MOD _]
  rw [← Int.natCast_modEq_iff]
  have hle : B % b ^ M ≤ b ^ M := (Nat.mod_lt _ (by rw [hb]; positivity)).le
  rw [Nat.cast_add, Nat.cast_sub hle]
  push_cast
  have e : ∑ m ∈ range M, (a m : ℤ) * (b:ℤ) ^ m = (∑ m ∈ range M, D m * (b:ℤ) ^ m) + 2 ^ 62 * (G : ℤ) := by
    rw [hG]
    push_cast
    rw [mul_sum, ← sum_add_distrib]
    refine sum_congr rfl fun m _ => ?_
    rw [ha]; ring
  rw [e]
  have h1 := hX.add_right (2 ^ 62 * (G:ℤ))
  refine Int.ModEq.trans ?_ h1
  refine Int.modEq_iff_dvd.2 ?_
  obtain ⟨t, ht⟩ := (Int.modEq_iff_dvd.1 (Int.mod_modEq (B : ℤ) ((b : ℤ) ^ M)))
  refine ⟨-1 - t, ?_⟩
  linear_combination -ht

theorem count_product (b : ℤ) :
    3 * (∑ j ∈ range 256, ((j:ℤ) + 1) ^ 2 * b ^ ((j + 1) ^ 2)) - (∑ j ∈ range 256, ((j:ℤ) + 1) ^ 1 * b ^ ((j + 1) ^ 2)) -
      3 * ((∑ i ∈ range 256, ((i:ℤ) + 1) ^ 0 * b ^ ((i + 1) ^ 2)) * ∑ j ∈ range 256, ((j:ℤ) + 1) ^ 1 * b ^ ((j + 1) ^ 2)) =
    ∑ i ∈ range 257, ∑ j ∈ range 256, countWeight i (j + 1) * b ^ (i ^ 2 + (j + 1) ^ 2) := by
  rw [sum_range_succ' _ 256, sum_mul_sum, mul_sum, mul_sum, ← sum_sub_distrib]
  have e1 : ∑ j ∈ range 256, countWeight 0 (j + 1) * b ^ (0 ^ 2 + (j + 1) ^ 2) =
      ∑ j ∈ range 256, (3 * (((j:ℤ) + 1) ^ 2 * b ^ ((j + 1) ^ 2)) - ((j:ℤ) + 1) ^ 1 * b ^ ((j + 1) ^ 2)) :=
    sum_congr rfl fun j _ => by
      unfold countWeight
      rw [if_pos rfl]
      push_cast
      rw [zero_add]
      ring
  have e2 : ∑ i ∈ range 256, ∑ j ∈ range 256, countWeight (i + 1) (j + 1) * b ^ ((i + 1) ^ 2 + (j + 1) ^ 2) =
      -∑ i ∈ range 256, 3 * ∑ j ∈ range 256, ((i:ℤ) + 1) ^ 0 * b ^ ((i + 1) ^ 2) * (((j:ℤ) + 1) ^ 1 * b ^ ((j + 1) ^ 2)) := by
    rw [← sum_neg_distrib]
    refine sum_congr rfl fun i _ => ?_
    rw [mul_sum, ← sum_neg_distrib]
    refine sum_congr rfl fun j _ => ?_
    unfold countWeight
    rw [if_neg (by omega), pow_add]
    push_cast
    ring
  rw [e1, e2]
  ring

theorem countSum_digits (b : ℤ) (M : ℕ) :
    (∑ i ∈ range 257, ∑ j ∈ range 256, countWeight i (j + 1) * b ^ (i ^ 2 + (j + 1) ^ 2)) * ∑ m ∈ range M, b ^ m ≡
      ∑ m ∈ range M, countSum m * b ^ m [ZMOD b ^ M] := by
  have e : ∑ m ∈ range M, countSum m * b ^ m =
      ∑ i ∈ range 257, ∑ j ∈ range 256, countWeight i (j + 1) * tailPow b M (i ^ 2 + (j + 1) ^ 2) := by
    simp only [countSum, tailPow, sum_mul, mul_sum]
    rw [sum_comm]
    refine sum_congr rfl fun i _ => ?_
    rw [sum_comm]
    refine sum_congr rfl fun j _ => sum_congr rfl fun m _ => ?_
    split_ifs <;> ring
  rw [e, sum_mul]
  refine modEq_sum fun i => ?_
  rw [sum_mul]
  refine modEq_sum fun j => ?_
  rw [mul_assoc]
  exact (pow_mul_geom b M _).mul_left _

theorem countRamp_digits (b : ℤ) (M : ℕ) :
    (∑ i ∈ range 257, ∑ j ∈ range 256, countWeight i (j + 1) * b ^ (i ^ 2 + (j + 1) ^ 2)) * (∑ m ∈ range M, b ^ m) *
        (∑ m ∈ range M, b ^ m) ≡
      ∑ m ∈ range M, countRamp m * b ^ m [ZMOD b ^ M] := by
  have e : ∑ m ∈ range M, countRamp m * b ^ m =
      ∑ i ∈ range 257, ∑ j ∈ range 256, countWeight i (j + 1) * rampPow b M (i ^ 2 + (j + 1) ^ 2) := by
    simp only [countRamp, rampPow, sum_mul, mul_sum]
    rw [sum_comm]
    refine sum_congr rfl fun i _ => ?_
    rw [sum_comm]
    refine sum_congr rfl fun j _ => sum_congr rfl fun m _ => ?_
    split_ifs <;> ring
  rw [e, sum_mul, sum_mul]
  refine modEq_sum fun i => ?_
  rw [sum_mul, sum_mul]
  refine modEq_sum fun j => ?_
  rw [mul_assoc, mul_assoc, ← mul_assoc (b ^ _)]
  exact (pow_mul_geom_sq b M _).mul_left _

theorem countWeight_le {i j : ℕ} (hj : j < 256) : |countWeight i (j + 1)| ≤ 2 ^ 18 := by
  have hj' : (j:ℤ) + 1 ≤ 256 := by omega
  have hj0 : (0:ℤ) ≤ (j:ℤ) + 1 := by positivity
  unfold countWeight
  push_cast
  rw [abs_le]
  split_ifs
  · constructor <;> nlinarith
  · constructor <;> linarith

theorem countSum_lt (m : ℕ) : |countSum m| < 2 ^ 62 := by
  have h1 : |countSum m| ≤ ∑ i ∈ range 257, ∑ j ∈ range 256, (2 ^ 18 : ℤ) := by
    refine (abs_sum_le_sum_abs _ _).trans (sum_le_sum fun i hi => (abs_sum_le_sum_abs _ _).trans (sum_le_sum fun j hj => ?_))
    split_ifs
    · exact countWeight_le (mem_range.1 hj)
    · rw [abs_zero]; positivity
  refine h1.trans_lt ?_
  simp only [sum_const, card_range, nsmul_eq_mul]
  norm_num

/-- Only the sums up to the radius of the disk are needed. -/
def countRamp' (m : ℕ) : ℤ := if m ≤ 65536 then countRamp m else 0

theorem countRamp_lt (m : ℕ) : |countRamp' m| < 2 ^ 62 := by
  unfold countRamp'
  split_ifs with hm
  swap
  · rw [abs_zero]; positivity
  have h1 : |countRamp m| ≤ ∑ i ∈ range 257, ∑ j ∈ range 256, (2 ^ 18 * 65537 : ℤ) := by
    refine (abs_sum_le_sum_abs _ _).trans (sum_le_sum fun i hi => (abs_sum_le_sum_abs _ _).trans (sum_le_sum fun j hj => ?_))
    split_ifs
    · rw [abs_mul]
      refine mul_le_mul (countWeight_le (mem_range.1 hj)) ?_ (abs_nonneg _) (by positivity)
      rw [abs_of_nonneg (by positivity)]
      omega
    · rw [abs_zero]; positivity
  refine h1.trans_lt ?_
  simp only [sum_const, card_range, nsmul_eq_mul]
  norm_num

theorem geom_65537 : ((2 ^ 64) ^ 65537 - 1) / (2 ^ 64 - 1) = ∑ m ∈ range 65537, (2 ^ 64) ^ m :=
  (Nat.geomSum_eq (by norm_num) _).symm

theorem countSum_nonneg_of {M G k : ℕ} (hG : G = ∑ m ∈ range M, (2 ^ 64) ^ m)
    (hbit : ((3 * squarePow (2 ^ 64) 2 256 * G + 2 ^ 62 * G + ((2 ^ 64) ^ M -
      (squarePow (2 ^ 64) 1 256 + 3 * (squarePow (2 ^ 64) 0 256 * squarePow (2 ^ 64) 1 256)) * G % (2 ^ 64) ^ M)) %
        (2 ^ 64) ^ M).testBit (64 * k + 62) = true) (hk : k < M) : 0 ≤ countSum k := by
  obtain ⟨key, ha⟩ := digits_key (A := 3 * squarePow (2 ^ 64) 2 256 * G)
      (B := (squarePow (2 ^ 64) 1 256 + 3 * (squarePow (2 ^ 64) 0 256 * squarePow (2 ^ 64) 1 256)) * G) countSum_lt hG fun b hb => by
    have h1 := countSum_digits b M
    rw [← count_product] at h1
    refine Int.ModEq.trans (Int.modEq_of_dvd ⟨0, ?_⟩) h1
    rw [← hb] at hG
    simp only [squarePow_eq, hG, ← hb]
    push_cast
    ring
  rw [key, digits_testBit M _ _ (fun m _ => ha m) hk] at hbit
  have := Nat.ge_two_pow_of_testBit hbit
  have h2 := abs_lt.1 (countSum_lt k)
  clear hbit key
  omega

theorem countRamp_nonneg_of {M G : ℕ} (hM : M ≤ 65537) (hG : G = ∑ m ∈ range M, (2 ^ 64) ^ m)
    (hbit : ((3 * squarePow (2 ^ 64) 2 256 * G * G + 2 ^ 62 * G + ((2 ^ 64) ^ M -
      (squarePow (2 ^ 64) 1 256 + 3 * (squarePow (2 ^ 64) 0 256 * squarePow (2 ^ 64) 1 256)) * G * G % (2 ^ 64) ^ M)) %
        (2 ^ 64) ^ M) &&& (2 ^ 62 * G) = 2 ^ 62 * G) {m : ℕ} (hm : m < M) : 0 ≤ countRamp m := by
  obtain ⟨key, ha⟩ := digits_key (A := 3 * squarePow (2 ^ 64) 2 256 * G * G)
      (B := (squarePow (2 ^ 64) 1 256 + 3 * (squarePow (2 ^ 64) 0 256 * squarePow (2 ^ 64) 1 256)) * G * G) countRamp_lt hG fun b hb => by
    have h1 := countRamp_digits b M
    rw [← count_product] at h1
    have e : ∑ m ∈ range M, countRamp' m * (b : ℤ) ^ m = ∑ m ∈ range M, countRamp m * (b : ℤ) ^ m :=
      sum_congr rfl fun m hm => by
        have := mem_range.1 hm
        rw [countRamp', if_pos (by omega)]
    rw [e]
    refine Int.ModEq.trans (Int.modEq_of_dvd ⟨0, ?_⟩) h1
    rw [← hb] at hG
    simp only [squarePow_eq, hG, ← hb]
    push_cast
    ring
  have hmask : 2 ^ 62 * G = ∑ m ∈ range M, 2 ^ 62 * (2 ^ 64) ^ m := by rw [hG, mul_sum]
  rw [key, hmask] at hbit
  have := digits_ge (fun m _ => ha m) hbit hm
  have h2 := abs_lt.1 (countRamp_lt m)
  have h3 : countRamp' m = countRamp m := by rw [countRamp', if_pos (by omega)]
  rw [h3] at this h2
  clear hbit key hmask
  omega

set_option exponentiation.threshold 100 in
theorem countSum_nonneg : 0 ≤ countSum 65536 :=
  countSum_nonneg_of geom_65537 (by decide +kernel) (by norm_num)

set_option exponentiation.threshold 100 in
theorem countRamp_nonneg {m : ℕ} (hm : m ≤ 65536) : 0 ≤ countRamp m :=
  countRamp_nonneg_of le_rfl geom_65537 (by decide +kernel) (by omega)

/-- Summation by parts, twice. -/
theorem ramp_representation {w d : ℕ → ℝ} {M : ℕ} (hd : d = fun m => if m + 1 = M then w m - w M else w m - 2 * w (m + 1) + w (m + 2)) :
    ∀ k n : ℕ, n + k = M → ∑ m ∈ range M, (if n ≤ m then (((m - n : ℕ) : ℝ) + 1) * d m else 0) = w n - w M := by
  have tail : ∀ k n : ℕ, n + k = M → 0 < k → ∑ m ∈ range M, (if n ≤ m then d m else 0) = w n - w (n + 1) := by
    intro k
    induction k with
    | zero => intro n _ h; omega
    | succ k ih =>
      intro n hn _
      have e : ∀ m, (if n ≤ m then d m else 0) = (if n + 1 ≤ m then d m else 0) + if m = n then d n else 0 := by
        intro m
        rcases lt_trichotomy m n with h | h | h
        · rw [if_neg (by omega), if_neg (by omega), if_neg (by omega), add_zero]
        · subst h; simp
        · rw [if_pos (by omega), if_pos (by omega), if_neg (by omega), add_zero]
      simp only [e, sum_add_distrib]
      rw [sum_ite_eq' (range M) n, if_pos (mem_range.2 (by omega))]
      rcases Nat.eq_zero_or_pos k with rfl | hk
      · rw [sum_eq_zero fun m hm => if_neg (by have := mem_range.1 hm; omega), hd, zero_add]
        simp only [hn, if_true]
      · rw [ih (n + 1) (by omega) hk, hd]
        simp only
        rw [if_neg (by omega)]
        ring
  intro k
  induction k with
  | zero =>
    intro n hn
    rw [sum_eq_zero fun m hm => if_neg (by have := mem_range.1 hm; omega), show n = M by omega, sub_self]
  | succ k ih =>
    intro n hn
    have e : ∀ m, (if n ≤ m then (((m - n : ℕ) : ℝ) + 1) * d m else 0) =
        (if n + 1 ≤ m then (((m - (n + 1) : ℕ) : ℝ) + 1) * d m else 0) + if n ≤ m then d m else 0 := by
      intro m
      rcases lt_trichotomy m n with h | h | h
      · rw [if_neg (by omega), if_neg (by omega), if_neg (by omega), add_zero]
      · subst h; simp
      · rw [if_pos (by omega), if_pos (by omega), if_pos (by omega)]
        rw [Nat.cast_sub (by omega), Nat.cast_sub (by omega)]
        push_cast
        ring
    simp only [e, sum_add_distrib]
    rw [ih (n + 1) (by omega), tail (k + 1) n hn (by omega)]
    ring

/-- A sum over the axis and the quarter of the disk with weights falling, ever more slowly, with the square of the distance. -/
theorem count_weighted {w : ℕ → ℝ} (h0 : 0 ≤ w 65536) (h1 : w 65536 ≤ w 65535)
    (h2 : ∀ m, m + 2 ≤ 65536 → 2 * w (m + 1) ≤ w m + w (m + 2)) :
    0 ≤ ∑ i ∈ range 257, ∑ j ∈ range 256,
      if i ^ 2 + (j + 1) ^ 2 ≤ 65536 then (countWeight i (j + 1) : ℝ) * w (i ^ 2 + (j + 1) ^ 2) else 0 := by
  have hS := countSum_nonneg
  have hR := @countRamp_nonneg
  obtain ⟨M, hM⟩ : ∃ M : ℕ, M = 65536 := ⟨_, rfl⟩
  rw [show 65535 = M - 1 by omega] at h1
  have hM0 : 0 < M := by omega
  rw [← hM] at h0 h1 h2 hS hR
  simp only [← hM]
  clear hM
  obtain ⟨d, hd⟩ : ∃ d : ℕ → ℝ, d = fun m => if m + 1 = M then w m - w M else w m - 2 * w (m + 1) + w (m + 2) := ⟨_, rfl⟩
  have rep := ramp_representation hd
  have e : ∑ i ∈ range 257, ∑ j ∈ range 256,
      (if i ^ 2 + (j + 1) ^ 2 ≤ M then (countWeight i (j + 1) : ℝ) * w (i ^ 2 + (j + 1) ^ 2) else 0) =
      ∑ m ∈ range M, (countRamp m : ℝ) * d m + (countSum M : ℝ) * w M := by
    simp only [countRamp, countSum]
    push_cast
    simp only [sum_mul]
    rw [sum_comm (s := range M), ← sum_add_distrib]
    refine sum_congr rfl fun i _ => ?_
    rw [sum_comm (s := range M), ← sum_add_distrib]
    refine sum_congr rfl fun j _ => ?_
    split_ifs with h
    · have h3 := rep (M - (i ^ 2 + (j + 1) ^ 2)) (i ^ 2 + (j + 1) ^ 2) (by omega)
      have h4 : ∑ m ∈ range M, (if i ^ 2 + (j + 1) ^ 2 ≤ m then
          (countWeight i (j + 1) : ℝ) * (((m - (i ^ 2 + (j + 1) ^ 2) : ℕ) : ℝ) + 1) else 0) * d m =
          (countWeight i (j + 1) : ℝ) * (w (i ^ 2 + (j + 1) ^ 2) - w M) := by
        rw [← h3, mul_sum]
        refine sum_congr rfl fun m _ => ?_
        split_ifs <;> ring
      rw [h4]
      ring
    · rw [zero_mul, add_zero]
      symm
      refine sum_eq_zero fun m hm => ?_
      rw [if_neg (by have := mem_range.1 hm; omega), zero_mul]
  rw [e]
  refine add_nonneg (sum_nonneg fun m hm => ?_) (mul_nonneg (by exact_mod_cast hS) h0)
  have hm' : m < M := mem_range.1 hm
  refine mul_nonneg (by exact_mod_cast hR hm'.le) ?_
  rw [hd]
  simp only
  split_ifs with h
  · have := h1
    rw [show M - 1 = m by omega] at this
    linarith
  · have := h2 m (by omega)
    linarith

/-- The sum with a geometric weight. -/
theorem count_geometric {q : ℝ} (hq : 0 ≤ q) (hq' : q ≤ 1) :
    (∑ i ∈ range 256, ∑ j ∈ range 256, if (i + 1) ^ 2 + (j + 1) ^ 2 ≤ 65536 then
        ((j:ℝ) + 1) * q ^ ((i + 1) ^ 2 + (j + 1) ^ 2) else 0) ≤
      ∑ j ∈ range 256, ((j:ℝ) + 1) ^ 2 * q ^ ((j + 1) ^ 2) - (∑ j ∈ range 256, ((j:ℝ) + 1) * q ^ ((j + 1) ^ 2)) / 3 := by
  have h := count_weighted (w := fun n => q ^ n) (by positivity) (pow_le_pow_of_le_one hq hq' (by norm_num)) (fun m _ => by
    have h1 := mul_nonneg (pow_nonneg hq m) (sq_nonneg (1 - q))
    have e : q ^ m + q ^ (m + 2) - 2 * q ^ (m + 1) = q ^ m * (1 - q) ^ 2 := by ring
    linarith)
  obtain ⟨M, hM⟩ : ∃ M : ℕ, M = 65536 := ⟨_, rfl⟩
  simp only [← hM] at h ⊢
  rw [sum_range_succ' _ 256] at h
  have e1 : ∑ j ∈ range 256, (if 0 ^ 2 + (j + 1) ^ 2 ≤ M then (countWeight 0 (j + 1) : ℝ) * q ^ (0 ^ 2 + (j + 1) ^ 2) else 0) =
      3 * ∑ j ∈ range 256, ((j:ℝ) + 1) ^ 2 * q ^ ((j + 1) ^ 2) - ∑ j ∈ range 256, ((j:ℝ) + 1) * q ^ ((j + 1) ^ 2) := by
    rw [mul_sum, ← sum_sub_distrib]
    refine sum_congr rfl fun j hj => ?_
    have := Nat.pow_le_pow_left (show j + 1 ≤ 256 by have := mem_range.1 hj; omega) 2
    rw [if_pos (by omega), countWeight, if_pos rfl, zero_pow (by norm_num), zero_add]
    push_cast
    ring
  have e2 : ∑ i ∈ range 256, ∑ j ∈ range 256, (if (i + 1) ^ 2 + (j + 1) ^ 2 ≤ M then
      (countWeight (i + 1) (j + 1) : ℝ) * q ^ ((i + 1) ^ 2 + (j + 1) ^ 2) else 0) =
      -(3 * ∑ i ∈ range 256, ∑ j ∈ range 256, if (i + 1) ^ 2 + (j + 1) ^ 2 ≤ M then
        ((j:ℝ) + 1) * q ^ ((i + 1) ^ 2 + (j + 1) ^ 2) else 0) := by
    rw [mul_sum, ← sum_neg_distrib]
    refine sum_congr rfl fun i _ => ?_
    rw [mul_sum, ← sum_neg_distrib]
    refine sum_congr rfl fun j _ => ?_
    split_ifs
    · rw [countWeight, if_neg (by omega)]
      push_cast
      ring
    · ring
  rw [e1, e2] at h
  linarith

end Polymers.Lemmas
