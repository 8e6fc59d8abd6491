import Mathlib.Algebra.BigOperators.Intervals
import Mathlib.Algebra.Order.BigOperators.Group.Finset
import Mathlib.Algebra.Order.Ring.GeomSum
import Mathlib.Data.Int.ModEq
import Mathlib.Data.Nat.Bitwise
import Mathlib.Data.Real.Basic
import Mathlib.Tactic.Linarith
import Mathlib.Tactic.Positivity
import Mathlib.Tactic.Ring
import Mathlib.Tactic.NormNum

/-!
A sum over the points of a square grid inside a quarter of a disk. The weights `1598 i² j - 801 j³` are positive near the
axis and negative away from it; summed over the points within any distance of the origin they are not negative. All 65536
of these sums are computed at once as the digits of one large number, whose signs the kernel reads off with one bitwise
operation.
-/

namespace Polymers.Lemmas

open Finset

/-- The weight of a point of the grid. -/
def gridWeight (i j : ℕ) : ℤ := 1598 * (i ^ 2 * j) - 801 * j ^ 3

/-- The sum over the points `(i, j)`, each coordinate from 1 to `n`, with `i² + j²` at most `m`. -/
def discSum (n m : ℕ) : ℤ := ∑ i ∈ range n, ∑ j ∈ range n,
  if (i + 1) ^ 2 + (j + 1) ^ 2 ≤ m then gridWeight (i + 1) (j + 1) else 0

/-! Digits. -/

theorem digits_lt {b : ℕ} (M : ℕ) : ∀ a : ℕ → ℕ, (∀ m < M, a m < b) → ∑ m ∈ range M, a m * b ^ m < b ^ M := by
  induction M with
  | zero => intro a _; simp
  | succ M ih =>
    intro a ha
    rw [sum_range_succ, pow_succ']
    have h1 := ih a fun m hm => ha m (by omega)
    have h2 := Nat.mul_le_mul_right (b ^ M) (Nat.succ_le_of_lt (ha M (by omega)))
    rw [Nat.succ_mul] at h2
    omega

theorem digits_testBit (M : ℕ) : ∀ (a : ℕ → ℕ) (k : ℕ), (∀ m < M, a m < 2 ^ 64) → k < M →
    (∑ m ∈ range M, a m * (2 ^ 64) ^ m).testBit (64 * k + 62) = (a k).testBit 62 := by
  induction M with
  | zero => intro a k _ h; omega
  | succ M ih =>
    intro a k ha hk
    rw [sum_range_succ']
    have e : ∑ m ∈ range M, a (m + 1) * (2 ^ 64) ^ (m + 1) = 2 ^ 64 * ∑ m ∈ range M, a (m + 1) * (2 ^ 64) ^ m := by
      rw [mul_sum]
      exact sum_congr rfl fun m _ => by rw [pow_succ]; ring
    rw [e, pow_zero, mul_one, Nat.testBit_two_pow_mul_add _ (ha 0 (by omega))]
    rcases k with _ | k
    · simp
    · rw [if_neg (by omega), ← ih (fun m => a (m + 1)) k (fun m hm => ha (m + 1) (by omega)) (by omega)]
      congr 1

/-- When the bit 62 of every digit survives, every digit is at least `2⁶²`. -/
theorem digits_ge {M : ℕ} {a : ℕ → ℕ} (ha : ∀ m < M, a m < 2 ^ 64)
    (h : (∑ m ∈ range M, a m * (2 ^ 64) ^ m) &&& (∑ m ∈ range M, 2 ^ 62 * (2 ^ 64) ^ m) = ∑ m ∈ range M, 2 ^ 62 * (2 ^ 64) ^ m)
    {k : ℕ} (hk : k < M) : 2 ^ 62 ≤ a k := by
  have h1 := congrArg (fun x => x.testBit (64 * k + 62)) h
  simp only [Nat.testBit_and] at h1
  rw [digits_testBit M a k ha hk, digits_testBit M (fun _ => 2 ^ 62) k (fun _ _ => by norm_num) hk,
    Nat.testBit_two_pow_self, Bool.and_true] at h1
  exact Nat.ge_two_pow_of_testBit h1

/-! Running sums as a product. -/

/-- The powers from `n` on. -/
def tailPow (b : ℤ) (M n : ℕ) : ℤ := ∑ m ∈ range M, if n ≤ m then b ^ m else 0

theorem tailPow_shift (b : ℤ) (M n : ℕ) : b * tailPow b M n ≡ tailPow b M (n + 1) [ZMOD b ^ M] := by
  have h1 : b * tailPow b M n = ∑ m ∈ range (M + 1), if n + 1 ≤ m then b ^ m else 0 := by
    rw [sum_range_succ', tailPow, mul_sum, if_neg (by omega), add_zero]
    refine sum_congr rfl fun m _ => ?_
    split_ifs with h h' h'
    · rw [pow_succ']
    · omega
    · omega
    · simp
  rw [h1, sum_range_succ, tailPow]
  split_ifs
  · exact Int.modEq_iff_dvd.2 ⟨-1, by ring⟩
  · rw [add_zero]

theorem pow_mul_geom (b : ℤ) (M n : ℕ) : b ^ n * ∑ m ∈ range M, b ^ m ≡ tailPow b M n [ZMOD b ^ M] := by
  induction n with
  | zero => simp [tailPow, Int.ModEq.refl]
  | succ n ih =>
    rw [pow_succ', mul_assoc]
    exact (ih.mul_left b).trans (tailPow_shift b M n)

theorem modEq_sum {n : ℕ} {f g : ℕ → ℤ} {c : ℤ} (h : ∀ i, f i ≡ g i [ZMOD c]) :
    ∑ i ∈ range n, f i ≡ ∑ i ∈ range n, g i [ZMOD c] := by
  refine Int.modEq_iff_dvd.2 ?_
  rw [← sum_sub_distrib]
  exact dvd_sum fun i _ => Int.modEq_iff_dvd.1 (h i)

/-- The powers at the squares with a power of the index. -/
def squarePow (b p : ℕ) : ℕ → ℕ
  | 0 => 0
  | n + 1 => squarePow b p n + (n + 1) ^ p * b ^ ((n + 1) ^ 2)

theorem squarePow_eq (b p n : ℕ) : squarePow b p n = ∑ i ∈ range n, (i + 1) ^ p * b ^ ((i + 1) ^ 2) := by
  induction n with
  | zero => rfl
  | succ n ih => rw [squarePow, ih, sum_range_succ]

theorem weight_product (b : ℤ) (n : ℕ) :
    1598 * ((∑ i ∈ range n, ((i:ℤ) + 1) ^ 2 * b ^ ((i + 1) ^ 2)) * ∑ j ∈ range n, ((j:ℤ) + 1) ^ 1 * b ^ ((j + 1) ^ 2)) -
      801 * ((∑ i ∈ range n, ((i:ℤ) + 1) ^ 0 * b ^ ((i + 1) ^ 2)) * ∑ j ∈ range n, ((j:ℤ) + 1) ^ 3 * b ^ ((j + 1) ^ 2)) =
    ∑ i ∈ range n, ∑ j ∈ range n, gridWeight (i + 1) (j + 1) * b ^ ((i + 1) ^ 2 + (j + 1) ^ 2) := by
  rw [sum_mul_sum, sum_mul_sum, mul_sum, mul_sum, ← sum_sub_distrib]
  refine sum_congr rfl fun i _ => ?_
  rw [mul_sum, mul_sum, ← sum_sub_distrib]
  refine sum_congr rfl fun j _ => ?_
  unfold gridWeight
  push_cast
  rw [pow_add]
  ring

theorem discSum_digits (b : ℤ) (n M : ℕ) :
    (∑ i ∈ range n, ∑ j ∈ range n, gridWeight (i + 1) (j + 1) * b ^ ((i + 1) ^ 2 + (j + 1) ^ 2)) * ∑ m ∈ range M, b ^ m ≡
      ∑ m ∈ range M, discSum n m * b ^ m [ZMOD b ^ M] := by
  have e : ∑ m ∈ range M, discSum n m * b ^ m =
      ∑ i ∈ range n, ∑ j ∈ range n, gridWeight (i + 1) (j + 1) * tailPow b M ((i + 1) ^ 2 + (j + 1) ^ 2) := by
    simp only [discSum, tailPow, sum_mul, mul_sum]
    rw [sum_comm]
    refine sum_congr rfl fun i _ => ?_
    rw [sum_comm]
    refine sum_congr rfl fun j _ => sum_congr rfl fun m _ => ?_
    split_ifs <;> ring
  rw [e, sum_mul]
  refine modEq_sum fun i => ?_
  rw [sum_mul]
  refine modEq_sum fun j => ?_
  rw [mul_assoc]
  exact (pow_mul_geom b M _).mul_left _

theorem discSum_lt {n : ℕ} (hn : n ≤ 256) (m : ℕ) : |discSum n m| < 2 ^ 62 := by
  have h1 : |discSum n m| ≤ ∑ i ∈ range n, ∑ j ∈ range n, (2 ^ 38 : ℤ) := by
    refine (abs_sum_le_sum_abs _ _).trans (sum_le_sum fun i hi => (abs_sum_le_sum_abs _ _).trans (sum_le_sum fun j hj => ?_))
    have hi' : (i:ℤ) + 1 ≤ 256 := by have := mem_range.1 hi; omega
    have hj' : (j:ℤ) + 1 ≤ 256 := by have := mem_range.1 hj; omega
    have hi0 : (0:ℤ) ≤ (i:ℤ) + 1 := by positivity
    have hj0 : (0:ℤ) ≤ (j:ℤ) + 1 := by positivity
    split_ifs
    · unfold gridWeight
      push_cast
      have a1 : ((i:ℤ) + 1) ^ 2 * (j + 1) ≤ 256 ^ 2 * 256 := by gcongr
      have a2 : ((j:ℤ) + 1) ^ 3 ≤ 256 ^ 3 := by gcongr
      have a3 : 0 ≤ ((i:ℤ) + 1) ^ 2 * (j + 1) := by positivity
      have a4 : 0 ≤ ((j:ℤ) + 1) ^ 3 := by positivity
      rw [abs_le]
      constructor <;> linarith
    · rw [abs_zero]; positivity
  refine h1.trans_lt ?_
  simp only [sum_const, card_range, nsmul_eq_mul]
  have : (n:ℤ) ≤ 256 := by exact_mod_cast hn
  have h0 : (0:ℤ) ≤ n := by positivity
  nlinarith

/-- All the sums at once. -/
theorem discSum_nonneg_of {n M : ℕ} (hn : n ≤ 256) {G : ℕ} (hG : G = ∑ m ∈ range M, (2 ^ 64) ^ m)
    (hle : 801 * (squarePow (2 ^ 64) 0 n * squarePow (2 ^ 64) 3 n) * G ≤
      1598 * (squarePow (2 ^ 64) 2 n * squarePow (2 ^ 64) 1 n) * G + 2 ^ 62 * G)
    (hbit : ((1598 * (squarePow (2 ^ 64) 2 n * squarePow (2 ^ 64) 1 n) * G + 2 ^ 62 * G -
      801 * (squarePow (2 ^ 64) 0 n * squarePow (2 ^ 64) 3 n) * G) % (2 ^ 64) ^ M) &&& (2 ^ 62 * G) = 2 ^ 62 * G)
    {m : ℕ} (hm : m < M) : 0 ≤ discSum n m := by
  obtain ⟨b, hb⟩ : ∃ b : ℕ, b = 2 ^ 64 := ⟨_, rfl⟩
  have hq := discSum_lt hn
  -- the digits
  set a : ℕ → ℕ := fun m => (2 ^ 62 + discSum n m).toNat with had
  have ha : ∀ m, (a m : ℤ) = 2 ^ 62 + discSum n m := fun m => by
    have := abs_lt.1 (hq m)
    exact Int.toNat_of_nonneg (by linarith)
  have ha64 : ∀ m, a m < 2 ^ 64 := fun m => by
    have := abs_lt.1 (hq m)
    have h2 := ha m
    zify
    rw [h2]
    have : (2:ℤ) ^ 64 = 4 * 2 ^ 62 := by norm_num
    linarith
  have hmask : 2 ^ 62 * G = ∑ m ∈ range M, 2 ^ 62 * (2 ^ 64) ^ m := by rw [hG, mul_sum]
  have key : (1598 * (squarePow (2 ^ 64) 2 n * squarePow (2 ^ 64) 1 n) * G + 2 ^ 62 * G -
      801 * (squarePow (2 ^ 64) 0 n * squarePow (2 ^ 64) 3 n) * G) % (2 ^ 64) ^ M = ∑ m ∈ range M, a m * (2 ^ 64) ^ m := by
    have hlt := digits_lt M a fun m _ => ha64 m
    rw [← hb] at hle hG hlt ⊢
    rw [← Nat.mod_eq_of_lt hlt]
    show _ ≡ _ [MOD _]
    rw [← Int.natCast_modEq_iff]
    rw [Nat.cast_sub hle]
    push_cast
    have e : ∑ m ∈ range M, (a m : ℤ) * (b:ℤ) ^ m = (∑ m ∈ range M, discSum n m * (b:ℤ) ^ m) + 2 ^ 62 * (G : ℤ) := by
      rw [hG]
      push_cast
      rw [mul_sum, ← sum_add_distrib]
      refine sum_congr rfl fun m _ => ?_
      rw [ha]; ring
    rw [e]
    have h1 := (discSum_digits b n M).add_right (2 ^ 62 * (G:ℤ))
    rw [← weight_product] at h1
    have hGz : (G : ℤ) = ∑ m ∈ range M, (b:ℤ) ^ m := by rw [hG]; push_cast; rfl
    rw [← hGz] at h1
    convert h1 using 1
    simp only [squarePow_eq]
    push_cast
    ring
  rw [key, hmask] at hbit
  have := digits_ge (fun m _ => ha64 m) hbit hm
  have h2 := ha m
  zify at this
  linarith

set_option exponentiation.threshold 100 in
theorem discSum_nonneg {m : ℕ} (hm : m ≤ 65536) : 0 ≤ discSum 256 m := by
  have hG : ((2 ^ 64) ^ 65537 - 1) / (2 ^ 64 - 1) = ∑ m ∈ range 65537, (2 ^ 64) ^ m := (Nat.geomSum_eq (by norm_num) _).symm
  exact discSum_nonneg_of le_rfl hG (by decide +kernel) (by decide +kernel) (by omega)

/-- Summation by parts: a sum over the quarter of the disk with weights falling with the distance is not negative. -/
theorem disc_weighted {w : ℕ → ℝ} (h0 : 0 ≤ w 65536) (hw : ∀ m, 2 ≤ m → m < 65536 → w (m + 1) ≤ w m) :
    0 ≤ ∑ i ∈ range 256, ∑ j ∈ range 256,
      if (i + 1) ^ 2 + (j + 1) ^ 2 ≤ 65536 then (gridWeight (i + 1) (j + 1) : ℝ) * w ((i + 1) ^ 2 + (j + 1) ^ 2) else 0 := by
  obtain ⟨M, hM⟩ : ∃ M : ℕ, M = 65536 := ⟨_, rfl⟩
  rw [← hM] at h0
  simp only [← hM]
  set d : ℕ → ℝ := fun m => if m = M then w M else w m - w (m + 1) with hd
  have tele : ∀ k n : ℕ, n + k = M → ∑ m ∈ range (M + 1), (if n ≤ m then d m else 0) = w n := by
    intro k
    induction k with
    | zero =>
      intro n hn
      obtain rfl : n = M := by omega
      rw [sum_range_succ, if_pos le_rfl, sum_eq_zero]
      · simp [hd]
      · intro m hm
        rw [if_neg (by have := mem_range.1 hm; omega)]
    | succ k ih =>
      intro n hn
      have h1 := ih (n + 1) (by omega)
      have e : ∀ m, (if n ≤ m then d m else 0) = (if n + 1 ≤ m then d m else 0) + if m = n then d n else 0 := by
        intro m
        rcases lt_trichotomy m n with h | h | h
        · rw [if_neg (by omega), if_neg (by omega), if_neg (by omega), add_zero]
        · subst h; simp
        · rw [if_pos (by omega), if_pos (by omega), if_neg (by omega), add_zero]
      simp only [e, sum_add_distrib]
      rw [h1, sum_ite_eq' (range (M + 1)) n, if_pos (mem_range.2 (by omega))]
      simp only [hd]
      rw [if_neg (by omega)]
      ring
  have e : ∑ i ∈ range 256, ∑ j ∈ range 256,
      (if (i + 1) ^ 2 + (j + 1) ^ 2 ≤ M then (gridWeight (i + 1) (j + 1) : ℝ) * w ((i + 1) ^ 2 + (j + 1) ^ 2) else 0) =
      ∑ m ∈ range (M + 1), (discSum 256 m : ℝ) * d m := by
    simp only [discSum]
    push_cast
    simp only [sum_mul]
    rw [sum_comm (s := range (M + 1))]
    refine sum_congr rfl fun i _ => ?_
    rw [sum_comm (s := range (M + 1))]
    refine sum_congr rfl fun j _ => ?_
    split_ifs with h
    · rw [← tele (M - ((i + 1) ^ 2 + (j + 1) ^ 2)) _ (by omega), mul_sum]
      refine sum_congr rfl fun m _ => ?_
      split_ifs <;> simp
    · symm
      refine sum_eq_zero fun m hm => ?_
      rw [if_neg (by have := mem_range.1 hm; omega)]
      simp
  rw [e]
  refine sum_nonneg fun m hm => ?_
  have hm' : m ≤ M := by have := mem_range.1 hm; omega
  rcases lt_or_ge m 2 with h2 | h2
  · have : discSum 256 m = 0 := by
      unfold discSum
      refine sum_eq_zero fun i _ => sum_eq_zero fun j _ => ?_
      have a1 := Nat.pow_le_pow_left (show 1 ≤ i + 1 by omega) 2
      have a2 := Nat.pow_le_pow_left (show 1 ≤ j + 1 by omega) 2
      rw [if_neg (by omega)]
    rw [this]; simp
  refine mul_nonneg (by exact_mod_cast discSum_nonneg (by omega)) ?_
  simp only [hd]
  split_ifs with h
  · exact h0
  · have := hw m h2 (by omega)
    linarith

end Polymers.Lemmas
